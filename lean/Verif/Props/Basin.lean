/-
Property C120: a window of the DEM that covers a drainage basin.
-/
import Verif.Spec.Basin
import Verif.Proofs.Fuel
import Verif.Props.Tiles
import Verif.Props.Ignored
import Verif.Props.Numbering

set_option linter.unusedSectionVars false

namespace Malstroem
open Spec

namespace Basin

/-! ### Surfaces -/

section Surface
variable {β : Type*} [LinearOrder β] [OrderTop β] {win dem r r' : Raster β} {o : Cell} {step : Cell → Cell → β → β}

theorem shift_orth {a b : Cell} : Orth (shift o a) (shift o b) ↔ Orth a b := by
  unfold Orth
  rw [shift_adj]
  simp [shift]

theorem surface_le (hw : IsWindow win dem o) (hgood : Fill.GoodStep step) (hshift : ∀ a b, step (shift o a) (shift o b) = step a b)
    (hI : Fill.Inv step dem r) (hF : Fill.IsFix step dem r) (hI' : Fill.Inv step win r') (hF' : Fill.IsFix step win r')
    {c : Cell} (hc : win.Has c) : r'.get c ≤ r.get (shift o c) := by
  obtain ⟨⟨q, hq, hqe⟩, -⟩ := Fill.fix_isLeast hgood hI hF (window_has hw hc)
  rw [← hqe]
  refine IsEscape.rec' (motive := fun x q => ∀ c, win.Has c → x = shift o c → r'.get c ≤ Fill.climbS step dem.get q) ?_ ?_ hq
    c hc rfl
  · rintro e he c hc rfl
    rw [hI'.edge c (window_edge hw hc he), hw.get c hc]
    exact le_rfl
  · rintro a b q ha hab hq ih c hc rfl
    have hm : dem.get (shift o c) ≤ Fill.climbS step dem.get (shift o c :: b :: q) := le_max_left _ _
    rcases edge_or_interior hc with he | hi
    · rw [hI'.edge c he, hw.get c hc]; exact hm
    · have hb : b = shift o (b.1 - o.1, b.2 - o.2) := (shift_back b).symm
      generalize (b.1 - o.1, b.2 - o.2) = b' at hb
      subst hb
      rw [shift_adj] at hab
      have := ih b' (interior_adj_inGrid hi hab) rfl
      refine (hF' c hi b' hab).trans (max_le ?_ ?_)
      · rw [hw.get c hc]; exact hm
      · refine (hgood.mono _ _ this).trans ?_
        rw [← hshift]
        exact le_max_right _ _

/-- A cell of the window's edge has neighbours outside it, unless it is a cell of the DEM's edge. -/
theorem window_edge_of_covered (hw : IsWindow win dem o) {c : Cell} (hc : OnEdge win.rows win.cols c)
    (hcov : ∀ x, dem.Has x → x = shift o c ∨ Adj (shift o c) x → ∃ y, win.Has y ∧ x = shift o y) :
    OnEdge dem.rows dem.cols (shift o c) := by
  rcases edge_or_interior (window_has hw hc.1) with he | hi
  · exact he
  · exfalso
    have key : ∀ k < 8, win.Has (Flow.move c k) := by
      intro k hk
      have e : shift o (Flow.move c k) = Flow.move (shift o c) k := by
        unfold shift Flow.move; ext <;> simp <;> ring
      obtain ⟨y, hy, he⟩ := hcov _ (Flow.interior_move_inGrid hi hk) (.inr (Flow.move_adj _ hk))
      rw [← e] at he
      rw [shift_inj he]; exact hy
    have h0 := key 0 (by omega)
    have h2 := key 2 (by omega)
    have h4 := key 4 (by omega)
    have h6 := key 6 (by omega)
    obtain ⟨a, b⟩ := c
    simp [Flow.move, Flow.off, offset, Raster.Has, InGrid] at h0 h2 h4 h6
    have := hc.2
    simp at this
    omega

theorem surface_ge (hw : IsWindow win dem o) (hgood : Fill.GoodStep step) (hshift : ∀ a b, step (shift o a) (shift o b) = step a b)
    (hI : Fill.Inv step dem r) (hF : Fill.IsFix step dem r) (hI' : Fill.Inv step win r') (hF' : Fill.IsFix step win r')
    {S : Cell → Prop} (hcov : ∀ c, S c → ∀ x, dem.Has x → x = c ∨ Adj c x → ∃ y, win.Has y ∧ x = shift o y)
    (hridge : ∀ c, S c → ∀ x, dem.Has x → Adj c x → ¬ S x → r.get x = dem.get x)
    {c : Cell} (hc : win.Has c) (hS : S (shift o c) ∨ r.get (shift o c) = dem.get (shift o c)) :
    r.get (shift o c) ≤ r'.get c := by
  obtain ⟨⟨q, hq, hqe⟩, -⟩ := Fill.fix_isLeast hgood hI' hF' hc
  rw [← hqe]
  refine IsEscape.rec' (motive := fun c q => S (shift o c) ∨ r.get (shift o c) = dem.get (shift o c) →
    r.get (shift o c) ≤ Fill.climbS step win.get q) ?_ ?_ hq hS
  · intro e he hS
    rcases hS with hS | hS
    · rw [hI.edge _ (window_edge_of_covered hw he (hcov _ hS)), ← hw.get e he.1]; exact le_rfl
    · rw [hS, ← hw.get e he.1]; exact le_rfl
  · intro a b q ha hab hq ih hS
    have hm : win.get a ≤ Fill.climbS step win.get (a :: b :: q) := le_max_left _ _
    have hb := hq.inside b (by simp)
    by_cases he : r.get (shift o a) = dem.get (shift o a)
    · rw [he, ← hw.get a ha]; exact hm
    · have hS := hS.resolve_right he
      have hi : Interior dem.rows dem.cols (shift o a) :=
        (edge_or_interior (window_has hw ha)).resolve_left fun h => he (hI.edge _ h)
      have hab' : Adj (shift o a) (shift o b) := shift_adj.2 hab
      have hSb : S (shift o b) ∨ r.get (shift o b) = dem.get (shift o b) := by
        by_cases h : S (shift o b)
        · exact .inl h
        · exact .inr (hridge _ hS _ (window_has hw hb) hab' h)
      refine (hF _ hi _ hab').trans (max_le ?_ ?_)
      · rw [← hw.get a ha]; exact hm
      · rw [hshift]
        exact (hgood.mono _ _ (ih hSb)).trans (le_max_right _ _)

end Surface

/-! ### Flow directions -/

section Flow
variable {β : Type*} [LinearOrder β] [OrderTop β] {win dem r r' : Raster β} {o : Cell}
variable {γ : Type*} [LinearOrder γ] [Zero γ] {drop : β → β → γ} {scale : γ → γ}

theorem code_unique {s s' : Nat → γ} (h : ∀ k < 8, s k = s' k) {d d' : Nat}
    (hd : (d = 8 ∧ ∀ k < 8, s k ≤ 0) ∨ (d < 8 ∧ 0 < s d ∧ (∀ k < 8, s k ≤ s d) ∧ ∀ k < d, s k < s d))
    (hd' : (d' = 8 ∧ ∀ k < 8, s' k ≤ 0) ∨ (d' < 8 ∧ 0 < s' d' ∧ (∀ k < 8, s' k ≤ s' d') ∧ ∀ k < d', s' k < s' d')) :
    d' = d := by
  rcases hd with ⟨rfl, h1⟩ | ⟨h1, h2, h3, h4⟩ <;> rcases hd' with ⟨rfl, k1⟩ | ⟨k1, k2, k3, k4⟩
  · rfl
  · have := h1 d' k1
    rw [h d' k1] at this
    exact absurd k2 (not_lt.2 this)
  · have := k1 d h1
    rw [← h d h1] at this
    exact absurd h2 (not_lt.2 this)
  · rcases lt_trichotomy d' d with hlt | he | hlt
    · have a := h4 d' hlt
      have b := k3 d h1
      rw [h d' k1, h d h1] at a
      exact absurd a (not_lt.2 b)
    · exact he
    · have a := k4 d hlt
      have b := h3 d' k1
      rw [h d' k1, h d h1] at b
      exact absurd a (not_lt.2 b)

theorem shift_move (c : Cell) (k : Nat) : Flow.move (shift o c) k = shift o (Flow.move c k) := by
  unfold shift Flow.move; ext <;> simp <;> ring

theorem shift_interior (hw : IsWindow win dem o) {c : Cell} (hc : Interior win.rows win.cols c) :
    Interior dem.rows dem.cols (shift o c) :=
  (edge_or_interior (window_has hw hc.1)).resolve_left fun h => hc.2 (window_edge hw hc.1 h)

variable (hw : IsWindow win dem o) (hsh : r.rows = dem.rows ∧ r.cols = dem.cols) (hsh' : r'.rows = win.rows ∧ r'.cols = win.cols)
include hw hsh hsh'

/-- The same flow direction where the surface is the same in the cell and around it. -/
theorem flow_same {c : Cell} (hc : win.Has c)
    (hcov : ∀ x, dem.Has x → x = shift o c ∨ Adj (shift o c) x → ∃ y, win.Has y ∧ x = shift o y)
    (he : ∀ y, win.Has y → y = c ∨ Adj c y → r'.get y = r.get (shift o y)) :
    (Flow.terrainFlowdirection drop scale r' true).get c = (Flow.terrainFlowdirection drop scale r true).get (shift o c) := by
  rcases edge_or_interior hc with hedge | hi
  · have hedge2 := window_edge_of_covered hw hedge hcov
    have key : ∀ k < 8, dem.Has (Flow.move (shift o c) k) → win.Has (Flow.move c k) := by
      intro k hk h
      obtain ⟨y, hy, e⟩ := hcov _ h (.inr (Flow.move_adj _ hk))
      rw [shift_move] at e
      rw [shift_inj e]; exact hy
    have h0 := key 0 (by omega)
    have h2 := key 2 (by omega)
    have h4 := key 4 (by omega)
    have h6 := key 6 (by omega)
    have hc2 := window_has hw hc
    obtain ⟨i1, i2, i3, i4⟩ := hw.inside
    obtain ⟨a, b⟩ := c
    obtain ⟨o1, o2⟩ := o
    simp only [shift, Flow.move, Flow.off, offset, Option.getD_some, Raster.Has, InGrid] at h0 h2 h4 h6 hc hc2 i1 i2 i3 i4
    show (Flow.setEdgesFlowOutward (Flow.terrainFlow drop scale r')).get _ = (Flow.setEdgesFlowOutward (Flow.terrainFlow drop scale r)).get _
    have s1 : (Flow.terrainFlow drop scale r').rows = win.rows ∧ (Flow.terrainFlow drop scale r').cols = win.cols := hsh'
    have s2 : (Flow.terrainFlow drop scale r).rows = dem.rows ∧ (Flow.terrainFlow drop scale r).cols = dem.cols := hsh
    rw [Flow.setEdges_get _ _ (by unfold Raster.Has; rw [s1.1, s1.2]; exact hc),
      Flow.setEdges_get _ _ (by unfold Raster.Has; rw [s2.1, s2.2]; exact hc2), s1.1, s1.2, s2.1, s2.2, if_pos hedge, if_pos hedge2]
    have e1 : (shift (o1, o2) (a, b)).1 = 0 ↔ a = 0 := by simp only [shift]; omega
    have e2 : (shift (o1, o2) (a, b)).2 = 0 ↔ b = 0 := by simp only [shift]; omega
    have e3 : (shift (o1, o2) (a, b)).1 = (dem.rows : Int) - 1 ↔ a = (win.rows : Int) - 1 := by simp only [shift]; omega
    have e4 : (shift (o1, o2) (a, b)).2 = (dem.cols : Int) - 1 ↔ b = (win.cols : Int) - 1 := by simp only [shift]; omega
    simp only [e1, e2, e3, e4]
  · have hi2 := shift_interior hw hi
    rw [Flow.flowdirection_interior _ _ _ _ (by rw [hsh'.1, hsh'.2]; exact hi),
      Flow.flowdirection_interior _ _ _ _ (by rw [hsh.1, hsh.2]; exact hi2)]
    refine code_unique (s := slope drop scale r.get (shift o c)) (s' := slope drop scale r'.get c) (fun k hk => ?_)
      (Flow.cellFlow_spec _ _ _ _) (Flow.cellFlow_spec _ _ _ _)
    unfold slope
    rw [Flow.neighbour_eq, Flow.neighbour_eq, shift_move, he c hc (.inl rfl),
      he _ (Flow.interior_move_inGrid hi hk) (.inr (Flow.move_adj _ hk))]

/-- A cell that flows out of `S`'s reach in the DEM does not flow into `S` in the window, where the surface outside `S` can only
be lower. -/
theorem flow_apart (hdrop : ∀ a b c, b ≤ c → c < ⊤ → drop a c ≤ drop a b) (hscale : Monotone scale)
    (hfin : ∀ c, dem.Has c → r.get c < ⊤)
    {S : Cell → Prop} (hle : ∀ y, win.Has y → r'.get y ≤ r.get (shift o y))
    (heq : ∀ y, win.Has y → S (shift o y) → r'.get y = r.get (shift o y)) {t s : Cell}
    (hte : Adj s t → S (shift o s) → r'.get t = r.get (shift o t))
    (hwhole : ∀ b, Step dem.rows dem.cols (Flow.terrainFlowdirection drop scale r true).get (shift o t) b → ¬ S b)
    (hlow : ∀ c, Interior dem.rows dem.cols c → (Flow.terrainFlowdirection drop scale r true).get c < 8)
    (hst : Step win.rows win.cols (Flow.terrainFlowdirection drop scale r' true).get t s) : ¬ S (shift o s) := by
  intro hS
  have hadj := Flow.flowsTo_adj hst.2.2
  have hi : Interior win.rows win.cols t := by
    refine (edge_or_interior hst.1).resolve_left fun he => ?_
    obtain ⟨-, b, hb, hout⟩ := (Flow.flowdirection_edge drop scale r' (by rw [hsh'.1, hsh'.2]; exact he)).1
    have : b = s := (Flow.flowsTo_iff.1 hb).2.trans (Flow.flowsTo_iff.1 hst.2.2).2.symm
    rw [this, hsh'.1, hsh'.2] at hout
    exact hout hst.2.1
  have hi2 := shift_interior hw hi
  have e := hte (adj_symm hadj) hS
  obtain ⟨c8, rfl⟩ := Flow.flowsTo_iff.1 hst.2.2
  have l8 := hlow _ hi2
  rw [Flow.flowdirection_interior _ _ _ _ (by rw [hsh.1, hsh.2]; exact hi2)] at l8
  have hw2 := hwhole (Flow.move (shift o t) ((Flow.terrainFlowdirection drop scale r true).get (shift o t)))
    ⟨hi2.1, Flow.interior_move_inGrid hi2 (by
      rw [Flow.flowdirection_interior _ _ _ _ (by rw [hsh.1, hsh.2]; exact hi2)]; exact l8), Flow.flowsTo_iff.2 ⟨by
      rw [Flow.flowdirection_interior _ _ _ _ (by rw [hsh.1, hsh.2]; exact hi2)]; exact l8, rfl⟩⟩
  rw [Flow.flowdirection_interior _ _ _ _ (by rw [hsh.1, hsh.2]; exact hi2)] at hw2
  rw [Flow.flowdirection_interior _ _ _ _ (by rw [hsh'.1, hsh'.2]; exact hi)] at c8 hS
  have s1 := Flow.cellFlow_spec drop scale r (shift o t)
  have s2 := Flow.cellFlow_spec drop scale r' t
  simp only at s1 s2
  generalize Flow.cellFlow drop scale r (shift o t).1 (shift o t).2 = j at *
  generalize Flow.cellFlow drop scale r' t.1 t.2 = i at *
  obtain ⟨-, -, a3, a4⟩ := s1.resolve_left fun h => by omega
  obtain ⟨-, -, b3, b4⟩ := s2.resolve_left fun h => by omega
  -- slopes in the window are at least those in the DEM, and the same into `S`
  have hge : ∀ k < 8, slope drop scale r.get (shift o t) k ≤ slope drop scale r'.get t k := by
    intro k hk
    unfold slope
    rw [Flow.neighbour_eq, Flow.neighbour_eq, shift_move, e]
    have h1 := Flow.interior_move_inGrid hi hk
    have := hdrop (r.get (shift o t)) _ _ (hle _ h1) (hfin _ (window_has hw h1))
    split
    · exact this
    · exact hscale this
  have hsame : slope drop scale r.get (shift o t) i = slope drop scale r'.get t i := by
    unfold slope
    rw [Flow.neighbour_eq, Flow.neighbour_eq, shift_move, e, heq _ (Flow.interior_move_inGrid hi c8) hS]
  have hne : i ≠ j := by
    rintro rfl
    rw [shift_move] at hw2
    exact hw2 hS
  rcases lt_or_gt_of_ne hne with hlt | hlt
  · -- `i` comes first, and is steeper in the window than `j`
    have h1 := a4 i hlt
    have h2 := b3 j l8
    exact absurd (h1.trans_le (hge j l8)) (not_lt.2 (hsame ▸ h2))
  · have h1 := b4 j hlt
    have h2 := a3 i c8
    exact absurd (h1.trans_eq hsame.symm) (not_lt.2 (h2.trans (hge j l8)))

end Flow

/-! ### Flow paths -/

/-- The flow `fd'` in the window and the flow `fd` in the DEM match on `S`. -/
structure Match (rows cols rows' cols' : Nat) (o : Cell) (S : Cell → Prop) (fd fd' : Cell → Nat) : Prop where
  grid : ∀ y, InGrid rows' cols' y → InGrid rows cols (shift o y)
  inside : ∀ c, S c → ∃ y, InGrid rows' cols' y ∧ c = shift o y
  near : ∀ c, S c → ∀ x, InGrid rows cols x → Adj c x → ∃ y, InGrid rows' cols' y ∧ x = shift o y
  whole : ∀ a b, Step rows cols fd a b → (S a ↔ S b)
  code : ∀ y, InGrid rows' cols' y → S (shift o y) → fd' y = fd (shift o y)
  whole' : ∀ a b, Step rows' cols' fd' a b → (S (shift o a) ↔ S (shift o b))

namespace Match
variable {rows cols rows' cols' : Nat} {o : Cell} {S : Cell → Prop} {fd fd' : Cell → Nat}

theorem flows (M : Match rows cols rows' cols' o S fd fd') {a : Cell} (ha : InGrid rows' cols' a) (hS : S (shift o a)) (b : Cell) :
    FlowsTo fd' a b ↔ FlowsTo fd (shift o a) (shift o b) := by
  rw [Flow.flowsTo_iff, Flow.flowsTo_iff, M.code a ha hS, shift_move]
  exact and_congr_right fun _ => ⟨fun h => by rw [h], fun h => shift_inj h⟩

theorem grid_iff (M : Match rows cols rows' cols' o S fd fd') {a : Cell} (ha : InGrid rows' cols' a) (hS : S (shift o a)) {b : Cell}
    (hb : FlowsTo fd' a b) : InGrid rows' cols' b ↔ InGrid rows cols (shift o b) := by
  refine ⟨M.grid b, fun h => ?_⟩
  obtain ⟨y, hy, e⟩ := M.near _ hS _ h (shift_adj.2 (Flow.flowsTo_adj hb))
  rw [shift_inj e]; exact hy

theorem step (M : Match rows cols rows' cols' o S fd fd') {a : Cell} (ha : InGrid rows' cols' a) (hS : S (shift o a)) (b : Cell) :
    Step rows' cols' fd' a b ↔ Step rows cols fd (shift o a) (shift o b) := by
  constructor
  · rintro ⟨-, h2, h3⟩
    exact ⟨M.grid a ha, M.grid b h2, (M.flows ha hS b).1 h3⟩
  · rintro ⟨-, h2, h3⟩
    have h3 := (M.flows ha hS b).2 h3
    exact ⟨ha, (M.grid_iff ha hS h3).2 h2, h3⟩

theorem down (M : Match rows cols rows' cols' o S fd fd') {a b : Cell} (h : Downstream rows cols fd a b) : S a ↔ S b := by
  induction h with
  | refl => rfl
  | tail _ h ih => exact ih.trans (M.whole _ _ h)

theorem down' (M : Match rows cols rows' cols' o S fd fd') {a b : Cell} (h : Downstream rows' cols' fd' a b) :
    S (shift o a) ↔ S (shift o b) := by
  induction h with
  | refl => rfl
  | tail _ h ih => exact ih.trans (M.whole' _ _ h)

theorem downstream (M : Match rows cols rows' cols' o S fd fd') {a b : Cell} (hS : S (shift o b)) :
    Downstream rows' cols' fd' a b ↔ Downstream rows cols fd (shift o a) (shift o b) := by
  constructor
  · intro h
    have key : ∀ c, Downstream rows' cols' fd' a c → S (shift o c) → Downstream rows cols fd (shift o a) (shift o c) := by
      intro c hc
      induction hc with
      | refl => intro _; exact .refl
      | tail _ h ih =>
        intro hS
        have hS2 := (M.whole' _ _ h).2 hS
        exact (ih hS2).tail ((M.step h.1 hS2 _).1 h)
    exact key b h hS
  · intro h
    have key : ∀ x c, Downstream rows cols fd x c → S c → ∀ a, x = shift o a → ∀ b, c = shift o b → Downstream rows' cols' fd' a b := by
      intro x c hc
      induction hc with
      | refl =>
        rintro _ a rfl b e
        rw [shift_inj e]; exact .refl
      | @tail y z hxy h ih =>
        rintro hS a rfl b rfl
        have hS2 := (M.whole _ _ h).2 hS
        obtain ⟨y', hy', rfl⟩ := M.inside y hS2
        exact (ih hS2 a rfl y' rfl).tail ((M.step hy' hS2 _).2 h)
    exact key _ _ h hS a rfl b rfl

/-- The same number of cells upstream. -/
theorem count (M : Match rows cols rows' cols' o S fd fd') {c : Cell} (hS : S (shift o c)) :
    upstreamCount rows' cols' fd' c = upstreamCount rows cols fd (shift o c) := by
  unfold upstreamCount
  rw [← Set.ncard_image_of_injective _ (f := shift o) (fun a b => shift_inj)]
  congr 1
  ext x
  constructor
  · rintro ⟨a, ⟨ha, hd⟩, rfl⟩
    exact ⟨M.grid a ha, (M.downstream hS).1 hd⟩
  · rintro ⟨hx, hd⟩
    obtain ⟨a, ha, rfl⟩ := M.inside x ((M.down hd).2 hS)
    exact ⟨a, ⟨ha, (M.downstream hS).2 hd⟩, rfl⟩

theorem trace_in (M : Match rows cols rows' cols' o S fd fd') : ∀ {l : List Cell} {c : Cell}, S c → l.head? = some c →
    l.IsChain (FlowsTo fd) → (∀ x ∈ l, InGrid rows cols x) → ∀ x ∈ l, S x := by
  intro l
  induction l with
  | nil => intro c _ h; cases h
  | cons a l ih =>
    intro c hS h1 h2 h3 x hx
    obtain rfl : a = c := by simpa using h1
    rcases List.mem_cons.1 hx with rfl | hx
    · exact hS
    · cases l with
      | nil => cases hx
      | cons b l =>
        obtain ⟨h4, h5⟩ := List.isChain_cons_cons.1 h2
        exact ih ((M.whole a b ⟨h3 a (by simp), h3 b (by simp), h4⟩).1 hS) rfl h5 (fun y hy => h3 y (List.mem_cons_of_mem _ hy)) x hx

theorem pull (M : Match rows cols rows' cols' o S fd fd') : ∀ {l : List Cell}, (∀ x ∈ l, S x) →
    ∃ l' : List Cell, l = l'.map (shift o) ∧ ∀ y ∈ l', InGrid rows' cols' y ∧ S (shift o y) := by
  intro l
  induction l with
  | nil => intro _; exact ⟨[], rfl, fun y hy => absurd hy List.not_mem_nil⟩
  | cons a l ih =>
    intro h
    obtain ⟨l', rfl, h2⟩ := ih fun x hx => h x (List.mem_cons_of_mem _ hx)
    obtain ⟨a', ha', rfl⟩ := M.inside a (h a (by simp))
    refine ⟨a' :: l', rfl, fun y hy => ?_⟩
    rcases List.mem_cons.1 hy with rfl | hy
    · exact ⟨ha', h _ (by simp)⟩
    · exact h2 y hy

/-- The trace of a cell of the basin is the same in the window. -/
theorem trace (M : Match rows cols rows' cols' o S fd fd') {c : Cell} (hS : S (shift o c)) {l : List Cell}
    (h : IsTrace rows cols fd (shift o c) l) :
    ∃ l' : List Cell, l = l'.map (shift o) ∧ IsTrace rows' cols' fd' c l' ∧ ∀ y ∈ l', InGrid rows' cols' y ∧ S (shift o y) := by
  obtain ⟨l', rfl, hl⟩ := M.pull (M.trace_in hS h.head h.chain h.inside)
  refine ⟨l', rfl, ⟨?_, ?_, fun y hy => (hl y hy).1, ?_⟩, hl⟩
  · have := h.head
    rw [List.head?_map, Option.map_eq_some_iff] at this
    obtain ⟨a, ha, e⟩ := this
    rw [ha, shift_inj e]
  · have := (List.isChain_map (shift o)).1 h.chain
    refine List.IsChain.imp_of_mem_imp (fun a b ha hb hab => ?_) this
    exact (M.flows (hl a ha).1 (hl a ha).2 b).2 hab
  · obtain ⟨e, he, hstop⟩ := h.stop
    rw [List.getLast?_map, Option.map_eq_some_iff] at he
    obtain ⟨e', he', rfl⟩ := he
    have hm := hl e' (List.mem_of_getLast? he')
    exact ⟨e', he', fun d hd hin => hstop _ ((M.flows hm.1 hm.2 d).1 hd) (M.grid d hin)⟩

end Match

/-! ### DemTool -/

section Dem
variable {K : Type} [Field K] [LinearOrder K] [IsStrictOrderedRing K] {β : Type} [LinearOrder β] [OrderTop β]
  {drop sub : β → β → K} {scale : K → K} {safe : Raster β → (β → β) × (β → β)} {win dem : Raster β} {o : Cell}

theorem dem_match (hw : IsWindow win dem o) (h : SoundTerrain drop sub scale safe dem)
    (hsafe : safe win = safe dem) (hdrop : ∀ a b c, b ≤ c → c < ⊤ → drop a c ≤ drop a b) (hscale : Monotone scale)
    {want want' : Bool} {d d' : Dem.Out β K} (run : Returns (Dem.process (Dem.python drop scale) sub safe true want dem) (.ok d))
    (run' : Returns (Dem.process (Dem.python drop scale) sub safe true want' win) (.ok d')) {S : Cell → Prop}
    (C : CoversBasin win dem d.noFlats d.flowdir.get o S) :
    Match dem.rows dem.cols win.rows win.cols o S d.flowdir.get d'.flowdir.get ∧
    ∀ y, win.Has y → S (shift o y) → d'.filled.get y = d.filled.get (shift o y) ∧ d'.noFlats.get y = d.noFlats.get (shift o y) ∧
      d'.depths.get y = d.depths.get (shift o y) := by
  obtain ⟨-, hfill, hdep, hnf, hfd, -, -⟩ := Dem.process_inv run
  obtain ⟨-, hfill', hdep', hnf', hfd', -, -⟩ := Dem.process_inv run'
  have hfill : Returns (Fill.fillTerrain dem) (.ok d.filled) := hfill
  have hfill' : Returns (Fill.fillTerrain win) (.ok d'.filled) := hfill'
  have hnf : Returns (Fill.fillTerrainNoFlats (safe dem).1 (safe dem).2 dem) (.ok d.noFlats) := hnf
  have hnf' : Returns (Fill.fillTerrainNoFlats (safe win).1 (safe win).2 win) (.ok d'.noFlats) := hnf'
  have hfd : d.flowdir = Flow.terrainFlowdirection drop scale d.noFlats true := hfd
  have hfd' : d'.flowdir = Flow.terrainFlowdirection drop scale d'.noFlats true := hfd'
  rw [hsafe] at hnf'
  obtain ⟨I1, F1⟩ := Fill.inv_of_returns hfill
  obtain ⟨I1', F1'⟩ := Fill.inv_of_returns hfill'
  obtain ⟨I2, F2⟩ := Fill.inv_of_returns_nf h.mono.1 h.mono.2 (fun x => (h.ge x).1) (fun x => (h.ge x).2) hnf
  obtain ⟨I2', F2'⟩ := Fill.inv_of_returns_nf h.mono.1 h.mono.2 (fun x => (h.ge x).1) (fun x => (h.ge x).2) hnf'
  have hgood := Fill.sd_good h.mono.1 h.mono.2 (fun x => (h.ge x).1) (fun x => (h.ge x).2)
  have hshift : ∀ a b, Fill.stepSD (safe dem).1 (safe dem).2 (shift o a) (shift o b) = Fill.stepSD (safe dem).1 (safe dem).2 a b := by
    intro a b; unfold Fill.stepSD; simp only [shift_orth]
  obtain ⟨hsh, hfin, -⟩ := noFlats_finite h hnf
  have hsh' : d'.noFlats.rows = win.rows ∧ d'.noFlats.cols = win.cols := ⟨I2'.rows, I2'.cols⟩
  obtain ⟨r, hr, -, -, -, -, hbr⟩ := C06_noflats_returns_bracketed _ _ h.mono.1 h.mono.2 (fun x => (h.ge x).1)
    (fun x => (h.ge x).2) dem h.rows h.cols
  obtain rfl : r = d.noFlats := Except.ok.inj (Returns.unique hr hnf)
  have ridge1 : ∀ c, S c → ∀ x, dem.Has x → Adj c x → ¬ S x → d.filled.get x = dem.get x := fun c hc x hx hcx hno =>
    le_antisymm ((hbr _ hfill x hx).trans_eq (C.ridge c hc x hx hcx hno)) (I1.ge x hx)
  have le2 : ∀ y, win.Has y → d'.noFlats.get y ≤ d.noFlats.get (shift o y) := fun y hy =>
    surface_le hw hgood hshift I2 F2 I2' F2' hy
  have eq2 : ∀ y, win.Has y → S (shift o y) ∨ d.noFlats.get (shift o y) = dem.get (shift o y) →
      d'.noFlats.get y = d.noFlats.get (shift o y) := fun y hy hS =>
    le_antisymm (le2 y hy) (surface_ge hw hgood hshift I2 F2 I2' F2' C.covered C.ridge hy hS)
  have eq1 : ∀ y, win.Has y → S (shift o y) → d'.filled.get y = d.filled.get (shift o y) := fun y hy hS =>
    le_antisymm (surface_le hw Fill.id_good (fun _ _ => rfl) I1 F1 I1' F1' hy)
      (surface_ge hw Fill.id_good (fun _ _ => rfl) I1 F1 I1' F1' C.covered ridge1 hy (.inl hS))
  have near : ∀ c, S (shift o c) → ∀ y, win.Has y → y = c ∨ Adj c y → d'.noFlats.get y = d.noFlats.get (shift o y) := by
    intro c hc y hy hyc
    by_cases hS : S (shift o y)
    · exact eq2 y hy (.inl hS)
    · rcases hyc with rfl | hyc
      · exact absurd hc hS
      · exact eq2 y hy (.inr (C.ridge _ hc _ (window_has hw hy) (shift_adj.2 hyc) hS))
  have hcode : ∀ y, win.Has y → S (shift o y) → d'.flowdir.get y = d.flowdir.get (shift o y) := by
    intro y hy hS
    rw [hfd, hfd']
    exact flow_same hw hsh hsh' hy (C.covered _ hS) (near y hS)
  obtain ⟨d2, hd2, -, -, -, -, -, ⟨z, -, hdown⟩, -⟩ := C62_dem_outputs h want
  obtain rfl : d2 = d := Except.ok.inj (Returns.unique hd2 run)
  have hwhole := C.whole
  rw [hfd] at hwhole
  refine ⟨⟨fun y hy => window_has hw hy, fun c hc => ?_, fun c hc x hx hcx => C.covered c hc x hx (.inr hcx), C.whole, hcode,
    fun a b hab => ⟨fun hS => ?_, fun hS => ?_⟩⟩, fun y hy hS => ⟨eq1 y hy hS, eq2 y hy (.inl hS), ?_⟩⟩
  · obtain ⟨y, hy, e⟩ := C.covered c hc c (C.inside c hc) (.inl rfl)
    exact ⟨y, hy, e⟩
  · refine (C.whole (shift o a) (shift o b) ⟨window_has hw hab.1, window_has hw hab.2.1, ?_⟩).1 hS
    have hb := Flow.flowsTo_iff.1 hab.2.2
    rw [hcode a hab.1 hS] at hb
    exact Flow.flowsTo_iff.2 ⟨hb.1, by rw [shift_move, ← hb.2]⟩
  · by_contra hno
    rw [hfd'] at hab
    refine flow_apart hw hsh hsh' hdrop hscale hfin le2 (fun y hy hS => eq2 y hy (.inl hS)) (fun hba hSb => ?_)
      (fun b hb hSb => hno ((hwhole _ _ hb).2 hSb)) (fun c hc => hfd ▸ (hdown c hc.1).1) hab hS
    exact eq2 a hab.1 (.inr (C.ridge _ hSb _ (window_has hw hab.1) (shift_adj.2 hba) hno))
  · rw [hdep, hdep']
    show sub _ _ = sub _ _
    rw [eq1 y hy hS, hw.get y hy]

/-- C120, terrain: over a basin that the window covers, filled levels, depths, the terrain without flats, flow directions and
accumulated flow in the window are those of the whole DEM, and no water from elsewhere in the window flows to the basin.
`hsafe`: both runs use the same smallest drops. -/
theorem C120_terrain (hw : IsWindow win dem o) (h : SoundTerrain drop sub scale safe dem) (h' : SoundTerrain drop sub scale safe win)
    (hsafe : safe win = safe dem) (hdrop : ∀ a b c, b ≤ c → c < ⊤ → drop a c ≤ drop a b) (hscale : Monotone scale) (want : Bool) :
    ∃ d d' : Dem.Out β K,
      Returns (Dem.process (Dem.python drop scale) sub safe true want dem) (.ok d) ∧
      Returns (Dem.process (Dem.python drop scale) sub safe true want win) (.ok d') ∧
      ∀ S, CoversBasin win dem d.noFlats d.flowdir.get o S →
        (∀ y, win.Has y → S (shift o y) → d'.filled.get y = d.filled.get (shift o y) ∧
          d'.depths.get y = d.depths.get (shift o y) ∧ d'.noFlats.get y = d.noFlats.get (shift o y) ∧
          d'.flowdir.get y = d.flowdir.get (shift o y) ∧
          (want = true → ∃ a a', d.accum = some a ∧ d'.accum = some a' ∧ a'.get y = a.get (shift o y))) ∧
        ∀ a b, Step win.rows win.cols d'.flowdir.get a b → (S (shift o a) ↔ S (shift o b)) := by
  obtain ⟨d, hd, -, -, hfsh, -, -, ⟨z, -, hdown⟩, hacc, -⟩ := C62_dem_outputs h want
  obtain ⟨d', hd', -, -, hfsh', -, -, ⟨z', -, hdown'⟩, hacc', -⟩ := C62_dem_outputs h' want
  refine ⟨d, d', hd, hd', fun S C => ?_⟩
  obtain ⟨M, e⟩ := dem_match hw h hsafe hdrop hscale hd hd' C
  refine ⟨fun y hy hS => ⟨(e y hy hS).1, (e y hy hS).2.2, (e y hy hS).2.1, M.code y hy hS, fun hwant => ?_⟩, M.whole'⟩
  obtain ⟨a, ha, hra⟩ := hacc hwant
  obtain ⟨a', ha', hra'⟩ := hacc' hwant
  refine ⟨a, a', ha, ha', ?_⟩
  obtain ⟨A, hA, -, -, hcount⟩ := C18_accum_counts d.flowdir (fun c hc => by
    rw [hfsh.1, hfsh.2]; exact (hdown c (by rw [← hfsh.1, ← hfsh.2]; exact hc)).2.1)
  obtain ⟨A', hA', -, -, hcount'⟩ := C18_accum_counts d'.flowdir (fun c hc => by
    rw [hfsh'.1, hfsh'.2]; exact (hdown' c (by rw [← hfsh'.1, ← hfsh'.2]; exact hc)).2.1)
  obtain rfl : A = a := Except.ok.inj (Returns.unique hA hra)
  obtain rfl : A' = a' := Except.ok.inj (Returns.unique hA' hra')
  rw [hcount _ (by unfold Raster.Has; rw [hfsh.1, hfsh.2]; exact window_has hw hy), hcount' _ (by
    unfold Raster.Has; rw [hfsh'.1, hfsh'.2]; exact hy), hfsh.1, hfsh.2, hfsh'.1, hfsh'.2, M.count hS]

end Dem

/-! ### Labels -/

/-- The labels `lab'` in the window and `lab` in the DEM match on `S`. -/
structure Labels (rows cols rows' cols' : Nat) (o : Cell) (S : Cell → Prop) (lab lab' : Cell → Int) (σ : Nat → Nat) : Prop where
  zero : σ 0 = 0
  number : ∀ y, InGrid rows' cols' y → S (shift o y) → lab' y = σ (lab (shift o y)).toNat
  own : ∀ c, S c → lab c ≠ 0 → ∀ x, InGrid rows cols x → lab x = lab c → S x
  same : ∀ y, InGrid rows' cols' y → S (shift o y) → lab (shift o y) ≠ 0 → lab' y ≠ 0 ∧
    ∀ x, InGrid rows' cols' x → (lab' x = lab' y ↔ lab (shift o x) = lab (shift o y))

namespace Labels
variable {rows cols rows' cols' : Nat} {o : Cell} {S : Cell → Prop} {fd fd' : Cell → Nat} {lab lab' : Cell → Int} {σ : Nat → Nat}

theorem zero_iff (L : Labels rows cols rows' cols' o S lab lab' σ) {y : Cell} (hy : InGrid rows' cols' y) (hS : S (shift o y)) :
    lab' y = 0 ↔ lab (shift o y) = 0 := by
  constructor
  · intro e
    by_contra h
    exact (L.same y hy hS h).1 e
  · intro e
    rw [L.number y hy hS, e]
    simp [L.zero]

theorem eq_iff (L : Labels rows cols rows' cols' o S lab lab' σ) {x y : Cell} (hx : InGrid rows' cols' x) (hSx : S (shift o x))
    (hy : InGrid rows' cols' y) (hS : S (shift o y)) : lab' x = lab' y ↔ lab (shift o x) = lab (shift o y) := by
  by_cases h : lab (shift o y) = 0
  · rw [h, (L.zero_iff hy hS).2 h, L.zero_iff hx hSx]
  · exact (L.same y hy hS h).2 x hx

theorem first (L : Labels rows cols rows' cols' o S lab lab' σ) (M : Match rows cols rows' cols' o S fd fd') {c : Cell} {v : Int}
    (h : FirstLabel rows cols fd lab 0 c v) : S c → ∀ y, InGrid rows' cols' y → c = shift o y →
      FirstLabel rows' cols' fd' lab' 0 y (σ v.toNat) := by
  induction h with
  | here h =>
    rintro hS y hy rfl
    rw [← L.number y hy hS]
    exact .here fun e => h ((L.zero_iff hy hS).1 e)
  | next h hs _ ih =>
    rintro hS y hy rfl
    have hSd := (M.whole _ _ hs).1 hS
    obtain ⟨d', hd', rfl⟩ := M.inside _ hSd
    exact .next ((L.zero_iff hy hS).2 h) ((M.step hy hS d').2 hs) (ih hSd d' hd' rfl)
  | out h hs =>
    rintro hS y hy rfl
    rw [show ((σ (0 : Int).toNat : Nat) : Int) = 0 by simp [L.zero]]
    exact .out ((L.zero_iff hy hS).2 h) fun d hd => hs _ ((M.step hy hS d).1 hd)

theorem watersheds (L : Labels rows cols rows' cols' o S lab lab' σ) (M : Match rows cols rows' cols' o S fd fd')
    {ws ws' : Cell → Int} (hW : IsWatershed rows cols fd 0 lab ws) (hW' : IsWatershed rows' cols' fd' 0 lab' ws') :
    Labels rows cols rows' cols' o S ws ws' σ := by
  have key : ∀ y, InGrid rows' cols' y → S (shift o y) → ws' y = σ (ws (shift o y)).toNat := fun y hy hS =>
    (firstLabel_unique (L.first M (hW _ (M.grid y hy)).1 hS y hy rfl) (hW' y hy).1).symm
  have down : ∀ c, InGrid rows cols c → ws c ≠ 0 → ∃ d, InGrid rows cols d ∧ Downstream rows cols fd c d ∧ lab d = ws c := by
    intro c hc h
    obtain ⟨d, h1, h2⟩ := (hW c hc).2.2.2 h
    exact ⟨d, Flow.downstream_inGrid h1 hc, h1, h2⟩
  have own : ∀ c, InGrid rows cols c → ws c ≠ 0 → S c → ∀ x, InGrid rows cols x → ws x = ws c → S x := by
    intro c hc h hS x hx e
    obtain ⟨d, d1, d2, d3⟩ := down c hc h
    obtain ⟨z, z1, z2, z3⟩ := down x hx (e ▸ h)
    exact (M.down z2).2 (L.own d ((M.down d2).1 hS) (d3 ▸ h) z z1 (by rw [z3, d3, e]))
  refine ⟨L.zero, key, fun c hS h => ?_, fun y hy hS h => ?_⟩
  · obtain ⟨y, hy, rfl⟩ := M.inside c hS
    exact own _ (M.grid y hy) h hS
  · obtain ⟨d, d1, d2, d3⟩ := down _ (M.grid y hy) h
    have hSd := (M.down d2).1 hS
    obtain ⟨d', hd', rfl⟩ := M.inside d hSd
    obtain ⟨n0, hs⟩ := L.same d' hd' hSd (d3 ▸ h)
    have e' : ws' y = lab' d' := by rw [key y hy hS, L.number d' hd' hSd, d3]
    refine ⟨e' ▸ n0, fun x hx => ?_⟩
    by_cases hSx : S (shift o x)
    · constructor
      · intro e
        have hx0 : ws (shift o x) ≠ 0 := by
          intro h0
          rw [key x hx hSx, h0, e'] at e
          exact n0 (by rw [← e]; simp [L.zero])
        obtain ⟨z, z1, z2, z3⟩ := down _ (M.grid x hx) hx0
        have hSz := (M.down z2).1 hSx
        obtain ⟨z', hz', rfl⟩ := M.inside z hSz
        have : lab' z' = lab' d' := by rw [← e', ← e, key x hx hSx, L.number z' hz' hSz, z3]
        rw [← z3, ← d3]
        exact (hs z' hz').1 this
      · intro e
        rw [key x hx hSx, key y hy hS, e]
    · refine ⟨fun e => absurd ?_ hSx, fun e => absurd (own _ (M.grid y hy) h hS _ (M.grid x hx) e) hSx⟩
      obtain ⟨z, z1, z2⟩ := (hW' x hx).2.2.2 (by rw [e, e']; exact n0)
      have hz := Flow.downstream_inGrid z1 hx
      exact (M.down' z1).2 (L.own _ hSd (d3 ▸ h) _ (M.grid z hz) ((hs z hz).1 (by rw [z2, e, e'])))

/-- The cells of a bluespot or watershed of the basin. -/
theorem cells (L : Labels rows cols rows' cols' o S lab lab' σ) (M : Match rows cols rows' cols' o S fd fd') {y : Cell}
    (hy : InGrid rows' cols' y) (hS : S (shift o y)) (h0 : lab (shift o y) ≠ 0) {cs : List Cell}
    (h : CellsOf rows' cols' lab' (lab' y) cs) : CellsOf rows cols lab (lab (shift o y)) (cs.map (shift o)) := by
  refine ⟨List.pairwise_map.2 (h.1.imp fun hab => shift_before.2 hab), fun x => ?_⟩
  rw [List.mem_map]
  constructor
  · rintro ⟨x, hx, rfl⟩
    obtain ⟨h1, h2⟩ := (h.2 x).1 hx
    exact ⟨M.grid x h1, ((L.same y hy hS h0).2 x h1).1 h2⟩
  · rintro ⟨h1, h2⟩
    obtain ⟨x', hx', rfl⟩ := M.inside x (L.own _ hS h0 x h1 h2)
    exact ⟨x', (h.2 x').2 ⟨hx', ((L.same y hy hS h0).2 x' hx').2 h2⟩, rfl⟩

theorem next (L : Labels rows cols rows' cols' o S lab lab' σ) (M : Match rows cols rows' cols' o S fd fd') {y : Cell}
    (hy : InGrid rows' cols' y) (hS : S (shift o y)) {d : Option Int} {g : List Cell}
    (h : NextLabel rows cols fd lab (some 0) (shift o y) d g) :
    ∃ g' : List Cell, NextLabel rows' cols' fd' lab' (some 0) y (d.map fun x => (σ x.toNat : Int)) g' := by
  obtain ⟨l, ht, h⟩ := h
  obtain ⟨l', rfl, ht', hl⟩ := M.trace hS ht
  have hf : ∀ z ∈ l', Foreign lab' (some 0) (lab' y) z ↔ Foreign lab (some 0) (lab (shift o y)) (shift o z) := by
    intro z hz
    unfold Foreign
    simp only [Ne, Option.some.injEq, L.eq_iff (hl z hz).1 (hl z hz).2 hy hS, L.zero_iff (hl z hz).1 (hl z hz).2]
  rcases h with ⟨pre, x, post, e, h1, h2, rfl, -⟩ | ⟨h1, rfl, -⟩
  · obtain ⟨pre', t, rfl, rfl, e2⟩ := List.map_eq_append_iff.1 e
    obtain ⟨x', post', rfl, rfl, rfl⟩ := List.map_eq_cons_iff.1 e2
    have hx := hl x' (by simp)
    refine ⟨_, _, ht', .inl ⟨pre', x', post', rfl, fun z hz => ?_, (hf x' (by simp)).2 h2, ?_, rfl⟩⟩
    · exact (hf z (by simp [hz])).not.2 (h1 _ (List.mem_map_of_mem hz))
    · rw [L.number x' hx.1 hx.2]; rfl
  · exact ⟨_, _, ht', .inr ⟨fun z hz => (hf z hz).not.2 (h1 _ (List.mem_map_of_mem hz)), rfl, rfl⟩⟩

end Labels

/-- The label met is that of a cell downstream. -/
theorem next_cell {rows cols : Nat} {fd : Cell → Nat} {lab : Cell → Int} {c : Cell} {e : Int} {g : List Cell}
    (h : NextLabel rows cols fd lab (some 0) c (some e) g) :
    ∃ x, InGrid rows cols x ∧ Downstream rows cols fd c x ∧ lab x = e ∧ e ≠ 0 := by
  obtain ⟨l, ht, ⟨pre, x, post, rfl, h1, h2, h3, -⟩ | ⟨-, h3, -⟩⟩ := h
  · cases h3
    refine ⟨x, ht.inside x (by simp), (Flow.trace_downstream _ _ ht x).1 (by simp), rfl, fun e => h2.2 (by rw [e])⟩
  · cases h3

/-! ### The water -/

section Water
variable {K : Type} [Field K] [LinearOrder K] [IsStrictOrderedRing K]

theorem state_same {n n' : Nat} {next next' : Nat → Option Int} {water water' cap cap' v v' spill spill' : Nat → K}
    {γ : Type} [LinearOrder γ] {rank : Nat → γ} {B : Nat → Prop} {σ : Nat → Nat} (hB : ∀ l, B l → l ≤ n)
    (hr : ∀ l, B l → σ l ≤ n') (hinj : ∀ a, B a → ∀ b, B b → σ a = σ b → a = b)
    (hrank : ∀ k l : Nat, B k → next k = some (l : Int) → rank l < rank k)
    (hnext : ∀ l, B l → next' (σ l) = (next l).map fun x => (σ x.toNat : Int))
    (hto : ∀ l, B l → ∀ e, next l = some e → 0 ≤ e ∧ B e.toNat)
    (hup : ∀ l, B l → ∀ k ≤ n, next k = some (l : Int) → B k)
    (hup' : ∀ l, B l → ∀ k' ≤ n', next' k' = some (σ l : Int) → ∃ k, B k ∧ σ k = k')
    (hw : ∀ l, B l → water' (σ l) = water l ∧ cap' (σ l) = cap l)
    (h : FinalState n next water cap v spill) (h' : FinalState n' next' water' cap' v' spill') :
    ∀ l, B l → v' (σ l) = v l ∧ spill' (σ l) = spill l := by
  classical
  by_contra hbad
  push Not at hbad
  obtain ⟨l0, hl0, hb0⟩ := hbad
  let bad := (Finset.range (n + 1)).filter fun l => B l ∧ ¬ (v' (σ l) = v l ∧ spill' (σ l) = spill l)
  obtain ⟨l, hl, hmax⟩ := bad.exists_max_image rank ⟨l0, by
    simp only [bad, Finset.mem_filter, Finset.mem_range]
    exact ⟨by have := hB l0 hl0; omega, hl0, fun e => hb0 e.1 e.2⟩⟩
  simp only [bad, Finset.mem_filter, Finset.mem_range] at hl hmax
  apply hl.2.2
  have hBl := hl.2.1
  have hperm : ((List.range (n' + 1)).filter fun k => next' k = some (σ l : Int)).Perm
      (((List.range (n + 1)).filter fun k => next k = some (l : Int)).map σ) := by
    have mem : ∀ k, k ∈ (List.range (n + 1)).filter (fun k => next k = some (l : Int)) ↔ k ≤ n ∧ next k = some (l : Int) := by
      intro k; simp [List.mem_filter, Nat.lt_succ_iff]
    refine (List.perm_ext_iff_of_nodup (List.nodup_range.filter _) ?_).2 fun k' => ?_
    · refine List.Nodup.map_on (fun a ha b hb e => ?_) (List.nodup_range.filter _)
      obtain ⟨a1, a2⟩ := (mem a).1 ha
      obtain ⟨b1, b2⟩ := (mem b).1 hb
      exact hinj a (hup l hBl a a1 a2) b (hup l hBl b b1 b2) e
    · rw [List.mem_filter, List.mem_range, List.mem_map]
      constructor
      · rintro ⟨h1, h2⟩
        have h2 : next' k' = some (σ l : Int) := by simpa using h2
        obtain ⟨k, hk, rfl⟩ := hup' l hBl k' (by omega) h2
        refine ⟨k, (mem k).2 ⟨hB k hk, ?_⟩, rfl⟩
        rw [hnext k hk, Option.map_eq_some_iff] at h2
        obtain ⟨e, he, hee⟩ := h2
        obtain ⟨e0, eB⟩ := hto k hk e he
        have := hinj _ eB l hBl (by exact_mod_cast hee)
        rw [he, ← this, Int.toNat_of_nonneg e0]
      · rintro ⟨k, hk, rfl⟩
        obtain ⟨h1, h2⟩ := (mem k).1 hk
        have hBk := hup l hBl k h1 h2
        refine ⟨by have := hr k hBk; omega, ?_⟩
        rw [hnext k hBk, h2]
        simp
  have hc : comesTo n' next' water' spill' (σ l) = comesTo n next water spill l := by
    unfold comesTo
    rw [(hw l hBl).1, (hperm.map spill').sum_eq, List.map_map]
    congr 2
    refine List.map_congr_left fun k hk => ?_
    obtain ⟨h1, h2⟩ := List.mem_filter.1 hk
    rw [List.mem_range] at h1
    have h2 : next k = some (l : Int) := by simpa using h2
    have hBk := hup l hBl k (by omega) h2
    by_contra hne
    have := hmax k ⟨h1, hBk, fun e => hne e.2⟩
    exact absurd (hrank k l hBk h2) (not_lt.2 this)
  obtain ⟨a1, a2⟩ := h l (hB l hBl)
  obtain ⟨b1, b2⟩ := h' (σ l) (hr l hBl)
  rw [b1, b2, hc, a1, a2, (hw l hBl).2]
  exact ⟨rfl, rfl⟩

end Water

/-! ### Bluespots -/

section Spots
variable {K : Type} [Field K] [LinearOrder K] [IsStrictOrderedRing K] {β : Type} [LinearOrder β] [OrderTop β]

theorem component {gt : GeoTransform K} {depths : Raster K} {f : Bluespots.StatUnits K → Bool} {flowdir : Raster Nat}
    {choose : List Cell → Cell → Prop} {b : Bluespots.Out K} (hb : Bluespots.IsResult gt depths f flowdir choose b)
    {c : Cell} (hc : depths.Has c) (h0 : b.labeled.get c ≠ 0) {x : Cell} (hx : depths.Has x) :
    b.labeled.get x = b.labeled.get c ↔ ConnectedIn (fun y => depths.Has y ∧ depths.get y ≠ 0) c x := by
  constructor
  · intro e
    exact (hb.same c x hc hx h0 (by rw [e]; exact h0)).1 e.symm
  · intro hcon
    have hcw := not_not.1 (fun h => h0 ((hb.labelling.background c hc).2 h))
    obtain ⟨cs, u, h1, h2, h3⟩ := hcw.2
    have hxw : depths.get x ≠ 0 ∧ Passes depths.rows depths.cols depths.get (cellArea gt) f x := by
      refine ⟨hcon.right.2, cs, u, ⟨h1.1, fun y => ?_⟩, h2, h3⟩
      rw [h1.2 y]
      exact and_congr_right fun _ => ⟨fun h => hcon.symm.trans h, fun h => hcon.trans h⟩
    have hx0 : b.labeled.get x ≠ 0 := fun e => (hb.labelling.background x hx).1 e hxw
    exact ((hb.same c x hc hx h0 hx0).2 hcon).symm

theorem stats_map {d d' : Cell → K} {area : K} {cs cs' : List Cell} {u : Bluespots.StatUnits K} (h : cs'.map d' = cs.map d) :
    IsStats d' area cs' u ↔ IsStats d area cs u := by
  have hset : ∀ {A : Type} (g : K → A) (L : List Cell) (v : Cell → K), {x | ∃ c ∈ L, x = g (v c)} = {x | ∃ z ∈ L.map v, x = g z} := by
    intro A g L v; ext x; simp
  have hlen : cs'.length = cs.length := by simpa using congrArg List.length h
  constructor
  · rintro ⟨h1, h2, h3, h4, h5, h6⟩
    rw [hset, h, ← hset] at h1 h2
    rw [h] at h3 h5
    rw [hlen] at h4 h6
    exact ⟨h1, h2, h3, h4, h5, h6⟩
  · rintro ⟨h1, h2, h3, h4, h5, h6⟩
    rw [hset, ← h, ← hset] at h1 h2
    rw [← h] at h3 h5
    rw [← hlen] at h4 h6
    exact ⟨h1, h2, h3, h4, h5, h6⟩

variable {win dem fl fl' : Raster β} {o : Cell} {S : Cell → Prop}

/-- Bluespots do not cross the basin's boundary. -/
theorem spot_inside (hw : IsWindow win dem o) (h : Returns (Fill.fillTerrain dem) (.ok fl))
    (hcov : ∀ c, S c → ∀ x, dem.Has x → x = c ∨ Adj c x → ∃ y, win.Has y ∧ x = shift o y)
    (hridge : ∀ c, S c → ∀ x, dem.Has x → Adj c x → ¬ S x → fl.get x = dem.get x) {c : Cell} (hS : S c) {x : Cell}
    (hx : ConnectedIn (Under dem fl) c x) : S x ∧ ∃ y, Interior win.rows win.cols y ∧ x = shift o y := by
  have hSx : S x := by
    obtain ⟨h1, h2⟩ := connectedIn_iff.1 hx
    clear hx
    induction h2 with
    | refl => exact hS
    | tail _ h ih =>
      by_contra hno
      exact h.2.2.2.ne (hridge _ ih _ h.2.2.1 h.1 hno).symm
  obtain ⟨y, hy, rfl⟩ := hcov x hSx x hx.right.1 (.inl rfl)
  refine ⟨hSx, y, ?_, rfl⟩
  rcases edge_or_interior hy with he | hi
  · have := (Fill.inv_of_returns h).1.edge _ (window_edge_of_covered hw he (hcov _ hSx))
    exact absurd hx.right.2 (by rw [this]; exact lt_irrefl _)
  · exact hi

theorem labels_match {gt gt' : GeoTransform K} {f : Bluespots.StatUnits K → Bool} {depths depths' : Raster K} {fd fd' : Raster Nat}
    {R R' : List Cell → Cell → Prop} {b b' : Bluespots.Out K} (hw : IsWindow win dem o) (h : Returns (Fill.fillTerrain dem) (.ok fl))
    (h' : Returns (Fill.fillTerrain win) (.ok fl')) (harea : cellArea gt' = cellArea gt)
    (hsh : depths.rows = dem.rows ∧ depths.cols = dem.cols) (hsh' : depths'.rows = win.rows ∧ depths'.cols = win.cols)
    (hwet : ∀ c, dem.Has c → (depths.get c ≠ 0 ↔ dem.get c < fl.get c))
    (hwet' : ∀ c, win.Has c → (depths'.get c ≠ 0 ↔ win.get c < fl'.get c))
    (hcov : ∀ c, S c → ∀ x, dem.Has x → x = c ∨ Adj c x → ∃ y, win.Has y ∧ x = shift o y)
    (hridge : ∀ c, S c → ∀ x, dem.Has x → Adj c x → ¬ S x → fl.get x = dem.get x) (hin : ∀ c, S c → dem.Has c)
    (hdep : ∀ y, win.Has y → S (shift o y) → depths'.get y = depths.get (shift o y))
    (hb : Bluespots.IsResult gt depths f fd R b) (hb' : Bluespots.IsResult gt' depths' f fd' R' b') :
    ∃ σ, Labels dem.rows dem.cols win.rows win.cols o S b.labeled.get b'.labeled.get σ := by
  classical
  have hhas : ∀ c, depths.Has c ↔ dem.Has c := fun c => by unfold Raster.Has; rw [hsh.1, hsh.2]
  have hhas' : ∀ c, depths'.Has c ↔ win.Has c := fun c => by unfold Raster.Has; rw [hsh'.1, hsh'.2]
  have hU : (fun y => depths.Has y ∧ depths.get y ≠ 0) = Under dem fl := funext fun y => propext <| by
    rw [hhas]; exact and_congr_right fun hy => hwet y hy
  have hU' : (fun y => depths'.Has y ∧ depths'.get y ≠ 0) = Under win fl' := funext fun y => propext <| by
    rw [hhas']; exact and_congr_right fun hy => hwet' y hy
  have hcells := fun y (hS : S (shift o y)) => C97_same_cells hw h h' (c := y) fun x hx => (spot_inside hw h hcov hridge hS hx).2
  have hconn : ∀ y, S (shift o y) → ∀ x, ConnectedIn (Under win fl') y x ↔
      ConnectedIn (Under dem fl) (shift o y) (shift o x) := fun y hS x => by
    rw [hcells y hS]
    exact ⟨fun h => ⟨x, rfl, h⟩, fun ⟨x', e, h⟩ => by rw [shift_inj e]; exact h⟩
  -- the filter
  have hpass : ∀ y, S (shift o y) → (Passes depths'.rows depths'.cols depths'.get (cellArea gt') f y ↔
      Passes depths.rows depths.cols depths.get (cellArea gt) f (shift o y)) := by
    intro y hS
    obtain ⟨cs, hL'⟩ : ∃ cs, Lists depths'.rows depths'.cols (fun x => ConnectedIn (Under win fl') y x) cs := ⟨_, lists_filter _ _ _⟩
    have hL : Lists depths.rows depths.cols (fun x => ConnectedIn (Under dem fl) (shift o y) x) (cs.map (shift o)) := by
      refine ⟨List.pairwise_map.2 (hL'.1.imp fun hab => shift_before.2 hab), fun x => ?_⟩
      rw [List.mem_map]
      constructor
      · rintro ⟨x, hx, rfl⟩
        have hx := ((hL'.2 x).1 hx).2
        exact ⟨(hhas _).2 (window_has hw hx.right.1), (hconn y hS x).1 hx⟩
      · rintro ⟨_, hx⟩
        obtain ⟨x', rfl, hx'⟩ := (hcells y hS x).1 hx
        exact ⟨x', (hL'.2 x').2 ⟨(hhas' _).2 hx'.right.1, hx'⟩, rfl⟩
    have hmap : cs.map depths'.get = (cs.map (shift o)).map depths.get := by
      rw [List.map_map]
      refine List.map_congr_left fun x hx => ?_
      have hx := ((hL'.2 x).1 hx).2
      exact hdep x hx.right.1 (spot_inside hw h hcov hridge hS ((hconn y hS x).1 hx)).1
    rw [← hU] at hL
    rw [← hU'] at hL'
    constructor
    · rintro ⟨cs2, u, h1, h2, h3⟩
      cases lists_unique h1 hL'
      rw [harea, stats_map hmap] at h2
      exact ⟨_, u, hL, h2, h3⟩
    · rintro ⟨cs2, u, h1, h2, h3⟩
      cases lists_unique h1 hL
      rw [← harea, ← stats_map hmap] at h2
      exact ⟨_, u, hL', h2, h3⟩
  have hzero : ∀ y, win.Has y → S (shift o y) → (b'.labeled.get y = 0 ↔ b.labeled.get (shift o y) = 0) := by
    intro y hy hS
    have h1 := hb'.labelling.background y ((hhas' y).2 hy)
    have h2 := hb.labelling.background (shift o y) ((hhas _).2 (window_has hw hy))
    rw [h1, h2, hdep y hy hS, hpass y hS]
  have hsame : ∀ y, win.Has y → S (shift o y) → b.labeled.get (shift o y) ≠ 0 → b'.labeled.get y ≠ 0 ∧
      ∀ x, win.Has x → (b'.labeled.get x = b'.labeled.get y ↔ b.labeled.get (shift o x) = b.labeled.get (shift o y)) := by
    intro y hy hS h0
    have h0' := (hzero y hy hS).not.2 h0
    refine ⟨h0', fun x hx => ?_⟩
    rw [component hb' ((hhas' y).2 hy) h0' ((hhas' x).2 hx), component hb ((hhas _).2 (window_has hw hy)) h0
      ((hhas _).2 (window_has hw hx)), hU, hU', hconn y hS]
  let σ : Nat → Nat := fun l => if h : ∃ y, win.Has y ∧ S (shift o y) ∧ b.labeled.get (shift o y) = l then
    (b'.labeled.get h.choose).toNat else 0
  refine ⟨σ, ?_, fun y hy hS => ?_, fun c hS h0 x hx e => ?_, hsame⟩
  · simp only [σ]
    split
    · next hex =>
      obtain ⟨h1, h2, h3⟩ := hex.choose_spec
      rw [(hzero _ h1 h2).2 h3]; rfl
    · rfl
  · have hr := hb.labelling.range (shift o y) ((hhas _).2 (window_has hw hy))
    have hr' := hb'.labelling.range y ((hhas' y).2 hy)
    have hex : ∃ z, win.Has z ∧ S (shift o z) ∧ b.labeled.get (shift o z) = ((b.labeled.get (shift o y)).toNat : Int) :=
      ⟨y, hy, hS, by omega⟩
    simp only [σ]
    rw [dif_pos hex]
    obtain ⟨h1, h2, h3⟩ := hex.choose_spec
    replace h3 := h3.trans (Int.toNat_of_nonneg hr.1)
    have hz := hb'.labelling.range _ ((hhas' _).2 h1)
    rw [Int.toNat_of_nonneg hz.1]
    by_cases h0 : b.labeled.get (shift o y) = 0
    · rw [(hzero y hy hS).2 h0, (hzero _ h1 h2).2 (h3.trans h0)]
    · exact (((hsame y hy hS h0).2 _ h1).2 h3).symm
  · have := (component hb ((hhas c).2 (hin c hS)) h0 ((hhas x).2 hx)).1 e
    rw [hU] at this
    exact (spot_inside hw h hcov hridge hS this).1

end Spots

/-! ### The chain -/

theorem firstMax_shift {α : Type*} [LE α] {a a' : Cell → α} {o : Cell} {cs : List Cell} (h : ∀ y ∈ cs, a' y = a (shift o y)) {x : Cell}
    (hx : IsFirstMax a' cs x) : IsFirstMax a (cs.map (shift o)) (shift o x) := by
  refine ⟨List.mem_map_of_mem hx.1, fun c hc => ?_, fun c hc e => ?_⟩
  · obtain ⟨y, hy, rfl⟩ := List.mem_map.1 hc
    rw [← h y hy, ← h x hx.1]; exact hx.2.1 y hy
  · obtain ⟨y, hy, rfl⟩ := List.mem_map.1 hc
    rw [← h y hy, ← h x hx.1] at e
    rcases hx.2.2 y hy e with rfl | hb
    · exact .inl rfl
    · exact .inr (shift_before.2 hb)

theorem firstMin_shift {α : Type*} [LE α] {a a' : Cell → α} {o : Cell} {cs : List Cell} (h : ∀ y ∈ cs, a' y = a (shift o y)) {x : Cell}
    (hx : IsFirstMin a' cs x) : IsFirstMin a (cs.map (shift o)) (shift o x) := by
  refine ⟨List.mem_map_of_mem hx.1, fun c hc => ?_, fun c hc e => ?_⟩
  · obtain ⟨y, hy, rfl⟩ := List.mem_map.1 hc
    rw [← h y hy, ← h x hx.1]; exact hx.2.1 y hy
  · obtain ⟨y, hy, rfl⟩ := List.mem_map.1 hc
    rw [← h y hy, ← h x hx.1] at e
    rcases hx.2.2 y hy e with rfl | hb
    · exact .inl rfl
    · exact .inr (shift_before.2 hb)

theorem chooses_mem {β : Type} [LinearOrder β] (rule : PourPointRule β) {cs : List Cell} {x : Cell} (h : rule.Chooses cs x) : x ∈ cs := by
  cases rule with
  | maxAccum a => exact h.1
  | minFilled _ nf => exact h.1

section Chain
variable {K : Type} [Field K] [LinearOrder K] [IsStrictOrderedRing K] {β : Type} [LinearOrder β] [OrderTop β]
  {drop sub : β → β → K} {scale : K → K} {safe : Raster β → (β → β) × (β → β)} {win dem : Raster β} {o : Cell}
  {gt gt' : GeoTransform K} {cc : Raster Bool → Raster Int × Nat}

theorem same_cells_size (h : ∀ c, transformCellToWorld c gt' = transformCellToWorld (shift o c) gt) :
    gt'.t1 = gt.t1 ∧ gt'.t5 = gt.t5 := by
  have h0 := h (0, 0)
  have h1 := h (0, 1)
  have h2 := h (1, 0)
  simp only [transformCellToWorld, applyGeoTransform, shift, Prod.mk.injEq] at h0 h1 h2
  push_cast at h0 h1 h2
  exact ⟨by linear_combination h1.1 - h0.1, by linear_combination h2.2 - h0.2⟩

theorem ridge_filled (h : SoundTerrain drop sub scale safe dem) {want : Bool} {d : Dem.Out β K}
    (run : Returns (Dem.process (Dem.python drop scale) sub safe true want dem) (.ok d)) {S : Cell → Prop}
    (C : CoversBasin win dem d.noFlats d.flowdir.get o S) :
    ∀ c, S c → ∀ x, dem.Has x → Adj c x → ¬ S x → d.filled.get x = dem.get x := by
  obtain ⟨-, hfill, -, hnf, -, -, -⟩ := Dem.process_inv run
  have hfill : Returns (Fill.fillTerrain dem) (.ok d.filled) := hfill
  have hnf : Returns (Fill.fillTerrainNoFlats (safe dem).1 (safe dem).2 dem) (.ok d.noFlats) := hnf
  obtain ⟨r, hr, -, -, -, -, hbr⟩ := C06_noflats_returns_bracketed _ _ h.mono.1 h.mono.2 (fun x => (h.ge x).1)
    (fun x => (h.ge x).2) dem h.rows h.cols
  obtain rfl : r = d.noFlats := Except.ok.inj (Returns.unique hr hnf)
  exact fun c hc x hx hcx hno =>
    le_antisymm ((hbr _ hfill x hx).trans_eq (C.ridge c hc x hx hcx hno)) ((Fill.inv_of_returns hfill).1.ge x hx)

theorem rule_shift (hw : IsWindow win dem o) (h : SoundTerrain drop sub scale safe dem) (h' : SoundTerrain drop sub scale safe win)
    (hsafe : safe win = safe dem) (hdrop : ∀ a b c, b ≤ c → c < ⊤ → drop a c ≤ drop a b) (hscale : Monotone scale)
    {want : Bool} {d d' : Dem.Out β K} (run : Returns (Dem.process (Dem.python drop scale) sub safe true want dem) (.ok d))
    (run' : Returns (Dem.process (Dem.python drop scale) sub safe true want win) (.ok d'))
    (hno : want = false → d.accum = none) (hno' : want = false → d'.accum = none) {S : Cell → Prop}
    (C : CoversBasin win dem d.noFlats d.flowdir.get o S) {cs : List Cell} (hcs : ∀ y ∈ cs, win.Has y ∧ S (shift o y)) {x : Cell}
    (hx : (pourPointRule win d').Chooses cs x) : (pourPointRule dem d).Chooses (cs.map (shift o)) (shift o x) := by
  obtain ⟨e, e', he, he', hall⟩ := C120_terrain hw h h' hsafe hdrop hscale want
  obtain rfl : e = d := Except.ok.inj (Returns.unique he run)
  obtain rfl : e' = d' := Except.ok.inj (Returns.unique he' run')
  have hall := (hall S C).1
  cases want with
  | true =>
    have hxc := chooses_mem _ hx
    obtain ⟨a, a', ha, ha', -⟩ := (hall x (hcs x hxc).1 (hcs x hxc).2).2.2.2.2 rfl
    unfold pourPointRule at hx ⊢
    rw [ha'] at hx
    rw [ha]
    refine firstMax_shift (fun y hy => ?_) hx
    obtain ⟨b, b', hb, hb', e⟩ := (hall y (hcs y hy).1 (hcs y hy).2).2.2.2.2 rfl
    rw [ha] at hb; cases hb
    rw [ha'] at hb'; cases hb'
    exact e
  | false =>
    unfold pourPointRule at hx ⊢
    rw [hno' rfl] at hx
    rw [hno rfl]
    exact firstMin_shift (fun y hy => (hall y (hcs y hy).1 (hcs y hy).2).2.2.1) hx

/-- C120. The chain on a DEM and on a window of it placed where it lies, with the same filter and rain. Over a basin that the
window covers, both find the same water surface, flow, bluespots, watersheds and pour points, the water that leaves a
bluespot goes the same way, and after the rain each bluespot holds and spills the same. -/
theorem C120_basin (hcc : LabelContract cc) (hsq : SquareCells gt)
    (hgt : ∀ c, transformCellToWorld c gt' = transformCellToWorld (shift o c) gt) (hw : IsWindow win dem o)
    (h : SoundTerrain drop sub scale safe dem) (h' : SoundTerrain drop sub scale safe win)
    (hsafe : safe win = safe dem) (hdrop : ∀ a b c, b ≤ c → c < ⊤ → drop a c ≤ drop a b) (hscale : Monotone scale) (want : Bool)
    (f : Bluespots.StatUnits K → Bool) (mm : K) :
    ∃ out out' point point' next next' v v' spill spill',
      (Complete.processAll cc (Dem.python drop scale) Bluespots.python sub safe gt dem want (some f) mm).Yields (.ok out) ∧
      (Complete.processAll cc (Dem.python drop scale) Bluespots.python sub safe gt' win want (some f) mm).Yields (.ok out') ∧
      ReportsState dem.rows dem.cols gt mm out point next v spill ∧
      ReportsState win.rows win.cols gt' mm out' point' next' v' spill' ∧
      ∀ S, CoversBasin win dem out.dem.noFlats out.dem.flowdir.get o S →
        ∃ σ, SameBasin dem.rows dem.cols win.rows win.cols o S σ out out' ∧
          ∀ l, SpotIn out.bluespots.labeled.get out.bluespots.nlabels S l → point l = shift o (point' (σ l)) ∧
            next' (σ l) = (next l).map (fun x => (σ x.toNat : Int)) ∧
            (∀ e, next l = some e → 0 ≤ e ∧ SpotIn out.bluespots.labeled.get out.bluespots.nlabels S e.toNat) ∧
            v' (σ l) = v l ∧ spill' (σ l) = spill l := by
  obtain ⟨ht1, ht5⟩ := same_cells_size hgt
  have harea : cellArea gt' = cellArea gt := by unfold cellArea; rw [ht1, ht5]
  have hsq' : SquareCells gt' := by unfold SquareCells; rw [ht1, ht5]; exact hsq
  obtain ⟨d, s, g⟩ := good_dem h (.inl ⟨rfl, rfl⟩) want
  obtain ⟨d', s', g'⟩ := good_dem h' (.inl ⟨rfl, rfl⟩) want
  obtain ⟨out, point, next, v, spill, a1, a2, a3, a4, γ, _, rank, a5⟩ := g.chain (gt := gt) hcc hsq f mm
  obtain ⟨out', point', next', v', spill', b1, b2, b3, b4, γ', _, rank', b5⟩ := g'.chain (gt := gt') hcc hsq' f mm
  obtain ⟨a6, -⟩ := g.apart a2 a3 a4 a5
  obtain ⟨b6, -⟩ := g'.apart b2 b3 b4 b5
  refine ⟨out, out', point, point', next, next', v, v', spill, spill', a1, b1, a3, b3, fun S C => ?_⟩
  subst a2 b2
  obtain ⟨M, E⟩ := dem_match hw h hsafe hdrop hscale g.run g'.run C
  have hridge := ridge_filled h g.run C
  obtain ⟨-, hfill, -, -, -, -, -⟩ := Dem.process_inv g.run
  obtain ⟨-, hfill', -, -, -, -, -⟩ := Dem.process_inv g'.run
  have hfill : Returns (Fill.fillTerrain dem) (.ok out.dem.filled) := hfill
  have hfill' : Returns (Fill.fillTerrain win) (.ok out'.dem.filled) := hfill'
  have hwet : ∀ {t : Raster β} {d : Dem.Out β K}, SoundTerrain drop sub scale safe t →
      Returns (Dem.process (Dem.python drop scale) sub safe true want t) (.ok d) →
      ∀ c, t.Has c → (d.depths.get c ≠ 0 ↔ t.get c < d.filled.get c) := by
    intro t d ht hd c hc
    obtain ⟨e, he, -, -, -, hcells, -⟩ := C62_dem_outputs ht want
    obtain rfl : e = d := Except.ok.inj (Returns.unique he hd)
    obtain ⟨_, _, h2, h3⟩ := hcells c hc
    exact ⟨fun h => h3.1 (lt_of_le_of_ne h2 (Ne.symm h)), fun h => (h3.2 h).ne'⟩
  obtain ⟨σ, L⟩ := labels_match hw hfill hfill' harea g.depths g'.depths (hwet h g.run) (hwet h' g'.run) C.covered hridge
    C.inside (fun y hy hS => (E y hy hS).2.2) a4 b4
  have hW := a4.watershed
  have hW' := b4.watershed
  have hr := a4.labelling.range
  have hr' := b4.labelling.range
  have hused := a4.labelling.used
  rw [g.depths.1, g.depths.2] at hW hr hused
  rw [g'.depths.1, g'.depths.2] at hW' hr'
  have LW := L.watersheds M hW hW'
  set lab := out.bluespots.labeled.get with hlab
  set lab' := out'.bluespots.labeled.get with hlab'
  set n := out.bluespots.nlabels with hn
  set n' := out'.bluespots.nlabels with hn'
  -- a cell of each bluespot
  have cell : ∀ l, SpotIn lab n S l → ∃ y, win.Has y ∧ S (shift o y) ∧ lab (shift o y) = l ∧ lab' y = σ l := by
    rintro l ⟨h1, h2, c, hSc, hcl⟩
    obtain ⟨y, hy, rfl⟩ := M.inside c hSc
    refine ⟨y, hy, hSc, hcl, ?_⟩
    rw [L.number y hy hSc, hcl]; rfl
  have spots : ∀ l : Nat, SpotIn lab n S l → 1 ≤ σ l ∧ σ l ≤ n' ∧
      (∀ c, InGrid dem.rows dem.cols c → lab c = l ∨ out.bluespots.watersheds.get c = l → S c) ∧
      ∀ y, InGrid win.rows win.cols y → (lab' y = σ l ↔ lab (shift o y) = l) ∧
        (out'.bluespots.watersheds.get y = σ l ↔ out.bluespots.watersheds.get (shift o y) = l) := by
    intro l hl
    obtain ⟨y, hy, hS, e, e'⟩ := cell l hl
    have h0 : lab (shift o y) ≠ 0 := by rw [e]; have := hl.1; omega
    obtain ⟨h0', hs⟩ := L.same y hy hS h0
    have w : out.bluespots.watersheds.get (shift o y) = l := ((hW _ (M.grid y hy)).2.1 h0).trans e
    have w' : out'.bluespots.watersheds.get y = σ l := ((hW' y hy).2.1 h0').trans e'
    have hrange := hr' y hy
    refine ⟨by omega, by omega, fun c hc hor => ?_, fun x hx => ⟨?_, ?_⟩⟩
    · rcases hor with hor | hor
      · exact L.own _ hS h0 c hc (hor.trans e.symm)
      · exact LW.own _ hS (by rw [w, ← e]; exact h0) c hc (hor.trans w.symm)
    · rw [← e, ← e']; exact hs x hx
    · rw [← w, ← w']; exact (LW.same y hy hS (by rw [w, ← e]; exact h0)).2 x hx
  have named : ∀ c, InGrid dem.rows dem.cols c → S c → (lab c ≠ 0 → SpotIn lab n S (lab c).toNat) ∧
      (out.bluespots.watersheds.get c ≠ 0 → SpotIn lab n S (out.bluespots.watersheds.get c).toNat) := by
    intro c hc hSc
    have hrc := hr c hc
    refine ⟨fun h0 => ⟨by omega, by omega, c, hSc, by omega⟩, fun h0 => ?_⟩
    obtain ⟨x, h1, h2⟩ := (hW c hc).2.2.2 h0
    have hrx := hr x (Flow.downstream_inGrid h1 hc)
    exact ⟨by omega, by omega, x, (M.down h1).1 hSc, by omega⟩
  have lists : ∀ l : Nat, SpotIn lab n S l → ∃ cs ws : List Cell, cs ≠ [] ∧ (∀ y ∈ cs, win.Has y ∧ S (shift o y)) ∧
      CellsOf win.rows win.cols lab' (σ l) cs ∧ CellsOf dem.rows dem.cols lab l (cs.map (shift o)) ∧
      CellsOf win.rows win.cols out'.bluespots.watersheds.get (σ l) ws ∧
      CellsOf dem.rows dem.cols out.bluespots.watersheds.get l (ws.map (shift o)) := by
    intro l hl
    obtain ⟨y, hy, hS, e, e'⟩ := cell l hl
    have h0 : lab (shift o y) ≠ 0 := by rw [e]; have := hl.1; omega
    obtain ⟨h0', hs⟩ := L.same y hy hS h0
    have w : out.bluespots.watersheds.get (shift o y) = l := ((hW _ (M.grid y hy)).2.1 h0).trans e
    have w' : out'.bluespots.watersheds.get y = σ l := ((hW' y hy).2.1 h0').trans e'
    obtain ⟨cs, hcs⟩ : ∃ cs, CellsOf win.rows win.cols lab' (σ l) cs := ⟨_, lists_filter _ _ _⟩
    obtain ⟨ws, hws⟩ : ∃ ws, CellsOf win.rows win.cols out'.bluespots.watersheds.get (σ l) ws := ⟨_, lists_filter _ _ _⟩
    have c2 := L.cells M hy hS h0 (cs := cs) (by rw [e']; exact hcs)
    have w2 := LW.cells M hy hS (by rw [w, ← e]; exact h0) (cs := ws) (by rw [w']; exact hws)
    rw [e] at c2
    rw [w] at w2
    refine ⟨cs, ws, List.ne_nil_of_mem ((hcs.2 y).2 ⟨hy, e'⟩), fun z hz => ?_, hcs, c2, hws, w2⟩
    obtain ⟨z1, z2⟩ := (hcs.2 z).1 hz
    exact ⟨z1, (spots l hl).2.2.1 _ (M.grid z z1) (.inl (((spots l hl).2.2.2 z z1).1.1 z2))⟩
  have points : ∀ l : Nat, SpotIn lab n S l → ∃ p q,
      out.bluespots.pourpoints[l]? = some p ∧ out'.bluespots.pourpoints[σ l]? = some q ∧
      (p.cell_row, p.cell_col) = shift o (q.cell_row, q.cell_col) ∧ q.coordinates = p.coordinates ∧ q.bspot_dmax = p.bspot_dmax ∧
      q.bspot_area = p.bspot_area ∧ q.bspot_vol = p.bspot_vol ∧ q.wshed_area = p.wshed_area ∧ q.bspot_fumm = p.bspot_fumm ∧
      win.Has (q.cell_row, q.cell_col) ∧ S (shift o (q.cell_row, q.cell_col)) := by
    intro l hl
    obtain ⟨cs, ws, hne, hin, c1, c2, w1, w2⟩ := lists l hl
    have hmap : cs.map out'.dem.depths.get = (cs.map (shift o)).map out.dem.depths.get := by
      rw [List.map_map]
      exact List.map_congr_left fun x hx => (E x (hin x hx).1 (hin x hx).2).2.2
    rw [← g.depths.1, ← g.depths.2] at c2 w2
    rw [← g'.depths.1, ← g'.depths.2] at c1 w1
    obtain ⟨p, p1, p2, p3, -⟩ := a4.points l _ _ hl.2.1 c2 w2
    obtain ⟨q, q1, q2, q3, -⟩ := b4.points (σ l) _ _ (spots l hl).2.1 c1 w1
    have hq := hin _ (chooses_mem _ (q3 hne))
    have hcell : (p.cell_row, p.cell_col) = shift o (q.cell_row, q.cell_col) :=
      rule_unique _ (rule_shift hw h h' hsafe hdrop hscale g.run g'.run g.noacc g'.noacc C hin (q3 hne)) (p3 (by simpa using hne))
    have hvol : q.bspot_vol = p.bspot_vol := by rw [q2.vol, p2.vol, hmap, harea]
    have hwa : q.wshed_area = p.wshed_area := by rw [q2.wshed_area, p2.wshed_area, harea, List.length_map]
    refine ⟨p, q, p1, q1, hcell, ?_, ?_, ?_, hvol, hwa, ?_, hq.1, hq.2⟩
    · rw [q2.coordinates, p2.coordinates, hgt, hcell]
    · have m := p2.dmax (by simpa using hne)
      have hset : {x | ∃ c ∈ cs.map (shift o), x = (out.dem.depths.get c : WithBot K)} =
          {x | ∃ c ∈ cs, x = (out'.dem.depths.get c : WithBot K)} := by
        ext x
        constructor
        · rintro ⟨c, hc, rfl⟩
          obtain ⟨y, hy, rfl⟩ := List.mem_map.1 hc
          exact ⟨y, hy, by rw [(E y (hin y hy).1 (hin y hy).2).2.2]⟩
        · rintro ⟨y, hy, rfl⟩
          exact ⟨_, List.mem_map_of_mem hy, by rw [(E y (hin y hy).1 (hin y hy).2).2.2]⟩
      rw [hset] at m
      exact (q2.dmax hne).unique m
    · rw [q2.area, p2.area, harea, List.length_map]
    · rw [q2.fumm, p2.fumm, hvol, hwa]
  have hpoint : ∀ l, SpotIn lab n S l → point l = shift o (point' (σ l)) ∧ win.Has (point' (σ l)) ∧ S (shift o (point' (σ l))) := by
    intro l hl
    obtain ⟨p, q, hp, hq, hpq, -, -, -, -, -, -, hin, hS⟩ := points l hl
    obtain ⟨p', hp', e⟩ := a3.outlet l hl.2.1
    obtain ⟨q', hq', e'⟩ := b3.outlet (σ l) (spots l hl).2.1
    rw [hp] at hp'; cases hp'
    rw [hq] at hq'; cases hq'
    rw [e, e', hpq]
    exact ⟨rfl, hin, hS⟩
  have own : ∀ k, 1 ≤ k → k ≤ n → InGrid dem.rows dem.cols (point k) ∧ lab (point k) = k := by
    intro k h1 h2
    obtain ⟨p, hp, e⟩ := a3.outlet k h2
    rcases a5.lowest k (point k) (by rw [List.getElem?_map, hp, e]; rfl) with ⟨e0, -⟩ | ⟨h3, h4, -⟩
    · omega
    · exact ⟨h3, h4⟩
  have own' : ∀ k, 1 ≤ k → k ≤ n' → InGrid win.rows win.cols (point' k) ∧ lab' (point' k) = k := by
    intro k h1 h2
    obtain ⟨p, hp, e⟩ := b3.outlet k h2
    rcases b5.lowest k (point' k) (by rw [List.getElem?_map, hp, e]; rfl) with ⟨e0, -⟩ | ⟨h3, h4, -⟩
    · omega
    · exact ⟨h3, h4⟩
  have hgo := a3.goes
  have hgo' := b3.goes
  have hnext : ∀ l, SpotIn lab n S l → next' (σ l) = (next l).map fun x => (σ x.toNat : Int) := by
    intro l hl
    obtain ⟨e, hin, hS⟩ := hpoint l hl
    rcases hgo l hl.2.1 with ⟨-, path, hp⟩ | ⟨hout, -⟩
    · rcases hgo' (σ l) (spots l hl).2.1 with ⟨-, path', hp'⟩ | ⟨hout, -⟩
      · rw [e] at hp
        obtain ⟨g2, hg2⟩ := L.next M hin hS hp
        exact (C29_unique _ _ _ _ _ _ _ _ _ _ hg2 hp').1.symm
      · exact absurd hin hout
    · exact absurd (own l hl.1 hl.2.1).1 hout
  have hto : ∀ l, SpotIn lab n S l → ∀ e, next l = some e → 0 ≤ e ∧ SpotIn lab n S e.toNat := by
    intro l hl e he
    obtain ⟨e1, hin, hS⟩ := hpoint l hl
    rcases hgo l hl.2.1 with ⟨-, path, hp⟩ | ⟨-, hnone⟩
    · rw [he] at hp
      obtain ⟨x, x1, x2, x3, x4⟩ := next_cell hp
      have := hr x x1
      replace x3 : lab x = e := x3
      rw [e1] at x2
      exact ⟨by omega, by omega, by omega, x, (M.down x2).1 hS, by rw [x3]; omega⟩
    · rw [he] at hnone; cases hnone
  have hst := a3.state
  have hst' := b3.state
  obtain ⟨water, cap, hst, hwc⟩ := hst
  obtain ⟨water', cap', hst', hwc'⟩ := hst'
  have hsame := state_same (B := SpotIn lab n S) (σ := σ) (rank := fun l => rank (point l))
    (fun l hl => hl.2.1) (fun l hl => (spots l hl).2.1)
    (fun a ha b hb e => ?_) (fun k l hk e => ?_) hnext hto (fun l hl k hk e => ?_) (fun l hl k' hk' e => ?_) (fun l hl => ?_) hst hst'
  · refine ⟨σ, ⟨fun y hy hS => ⟨(E y hy hS).1, (E y hy hS).2.2, M.code y hy hS⟩, L.zero, named, fun y hy hS => ⟨L.number y hy hS, LW.number y hy hS⟩,
      spots, fun l hl => ?_⟩, fun l hl => ⟨(hpoint l hl).1, hnext l hl, hto l hl, hsame l hl⟩⟩
    obtain ⟨p, q, h1, h2, h3, h4, h5, h6, h7, h8, h9, -⟩ := points l hl
    exact ⟨p, q, h1, h2, h3, h4, h5, h6, h7, h8, h9⟩
  · obtain ⟨ya, ha1, ha2, ha3, ha4⟩ := cell a ha
    obtain ⟨yb, hb1, hb2, hb3, hb4⟩ := cell b hb
    have := (L.eq_iff ha1 ha2 hb1 hb2).1 (by rw [ha4, hb4, e])
    omega
  · rcases hgo k hk.2.1 with ⟨-, path, hp⟩ | ⟨-, hnone⟩
    · rw [e] at hp
      obtain ⟨x, hx, hxe, hlt⟩ := next_facts a5 hp
      have hrx := hr x hx
      refine hlt _ ?_
      obtain ⟨p, hp, hpe⟩ := a3.outlet l (by omega)
      rw [Int.toNat_natCast, List.getElem?_map, hp, hpe]; rfl
    · rw [e] at hnone; cases hnone
  · obtain ⟨y, hy, hS, ey, ey'⟩ := cell l hl
    have h1 : 1 ≤ k := by
      rcases Nat.eq_zero_or_pos k with rfl | h
      · rw [a6] at e; cases e
      · exact h
    obtain ⟨hin, hk2⟩ := own k h1 hk
    refine ⟨h1, hk, point k, ?_, hk2⟩
    rcases hgo k hk with ⟨-, path, hp⟩ | ⟨hout, -⟩
    · rw [e] at hp
      obtain ⟨x, x1, x2, x3, x4⟩ := next_cell hp
      exact (M.down x2).2 ((spots l hl).2.2.1 x x1 (.inl x3))
    · exact absurd hin hout
  · have h1 : 1 ≤ k' := by
      rcases Nat.eq_zero_or_pos k' with rfl | h
      · rw [b6] at e; cases e
      · exact h
    obtain ⟨hin, hk2⟩ := own' k' h1 hk'
    rcases hgo' k' hk' with ⟨-, path, hp⟩ | ⟨hout, -⟩
    · rw [e] at hp
      obtain ⟨x, x1, x2, x3, x4⟩ := next_cell hp
      have hSx := (spots l hl).2.2.1 _ (M.grid x x1) (.inl (((spots l hl).2.2.2 x x1).1.1 x3))
      have hSk := (M.down' x2).2 hSx
      have hne : lab (shift o (point' k')) ≠ 0 := (L.zero_iff hin hSk).not.1 (by rw [hk2]; omega)
      have hrk := hr _ (M.grid _ hin)
      refine ⟨(lab (shift o (point' k'))).toNat, ⟨by omega, by omega, _, hSk, by omega⟩, ?_⟩
      have := L.number _ hin hSk
      omega
    · exact absurd hin hout
  · obtain ⟨cs, ws, hne, hin, c1, c2, w1, w2⟩ := lists l hl
    obtain ⟨x1, x2⟩ := hwc l hl.2.1 _ _ c2 w2
    obtain ⟨y1, y2⟩ := hwc' (σ l) (spots l hl).2.1 _ _ c1 w1
    rw [x1, x2, y1, y2, harea, List.length_map, List.map_map]
    refine ⟨rfl, ?_⟩
    congr 2
    exact List.map_congr_left fun x hx => (E x (hin x hx).1 (hin x hx).2).2.2

end Chain

section Exact
variable {K : Type} [Field K] [LinearOrder K] [IsStrictOrderedRing K]

theorem exact_drop (a b c : WithTop K) (h : b ≤ c) (hc : c < ⊤) : exactSub a c ≤ exactSub a b := by
  lift c to K using hc.ne
  lift b to K using (h.trans_lt (WithTop.coe_lt_top c)).ne
  exact sub_le_sub_left (WithTop.coe_le_coe.1 h) _

/-- C120 with exact arithmetic, for every DEM, window and basin. -/
theorem C120_exact {cc : Raster Bool → Raster Int × Nat} (hcc : LabelContract cc) {gt gt' : GeoTransform K} (hsq : SquareCells gt)
    {o : Cell} (hgt : ∀ c, transformCellToWorld c gt' = transformCellToWorld (shift o c) gt) {win dem : Raster K}
    (hw : IsWindow win dem o) (hr : 2 ≤ dem.rows) (hc : 2 ≤ dem.cols) (hr' : 2 ≤ win.rows) (hc' : 2 ≤ win.cols) {short diag k : K}
    (hs : 0 < short) (hd : 0 < diag) (hk : 0 < k) (want : Bool) (f : Bluespots.StatUnits K → Bool) (mm : K) :
    ∃ out out' point point' next next' v v' spill spill',
      (Complete.processAll cc (Dem.python exactSub (· * k)) Bluespots.python exactSub (exactSafe short diag) gt (finiteDem dem) want
        (some f) mm).Yields (.ok out) ∧
      (Complete.processAll cc (Dem.python exactSub (· * k)) Bluespots.python exactSub (exactSafe short diag) gt' (finiteDem win) want
        (some f) mm).Yields (.ok out') ∧
      ReportsState dem.rows dem.cols gt mm out point next v spill ∧
      ReportsState win.rows win.cols gt' mm out' point' next' v' spill' ∧
      ∀ S, CoversBasin (finiteDem win) (finiteDem dem) out.dem.noFlats out.dem.flowdir.get o S →
        ∃ σ, SameBasin dem.rows dem.cols win.rows win.cols o S σ out out' ∧
          ∀ l, SpotIn out.bluespots.labeled.get out.bluespots.nlabels S l → point l = shift o (point' (σ l)) ∧
            next' (σ l) = (next l).map (fun x => (σ x.toNat : Int)) ∧
            (∀ e, next l = some e → 0 ≤ e ∧ SpotIn out.bluespots.labeled.get out.bluespots.nlabels S e.toNat) ∧
            v' (σ l) = v l ∧ spill' (σ l) = spill l :=
  C120_basin hcc hsq hgt (win := finiteDem win) (dem := finiteDem dem)
    ⟨hw.inside, fun c hc => congrArg _ (hw.get c hc)⟩ (exact_sound dem hr hc hs hd hk) (exact_sound win hr' hc' hs hd hk) rfl
    exact_drop (fun _ _ h => mul_le_mul_of_nonneg_right h hk.le) want f mm

end Exact

/-! ### Examples -/

/-- The three first conditions of `CoversBasin`, by looking at all cells. -/
theorem covers_check {β : Type*} {win dem : Raster β} {fd : Cell → Nat} {o : Cell} {S : Cell → Prop}
    (h0 : ∀ c, S c → dem.Has c)
    (h1 : ∀ a ∈ Raster.cellList dem.rows dem.cols, fd a < 8 → InGrid dem.rows dem.cols (Flow.move a (fd a)) →
      (S a ↔ S (Flow.move a (fd a))))
    (h2 : ∀ c ∈ Raster.cellList dem.rows dem.cols, S c → ∀ x ∈ Raster.cellList dem.rows dem.cols, x = c ∨ Adj c x →
      InGrid win.rows win.cols (x.1 - o.1, x.2 - o.2)) :
    (∀ a b, Step dem.rows dem.cols fd a b → (S a ↔ S b)) ∧
    ∀ c, S c → ∀ x, dem.Has x → x = c ∨ Adj c x → ∃ y, win.Has y ∧ x = shift o y := by
  refine ⟨fun a b hab => ?_, fun c hc x hx hcx => ⟨_, h2 c (Flow.mem_cellList.2 (h0 c hc)) hc x (Flow.mem_cellList.2 hx) hcx,
    (shift_back x).symm⟩⟩
  obtain ⟨h3, h4⟩ := Flow.flowsTo_iff.1 hab.2.2
  have := h1 a (Flow.mem_cellList.2 hab.1) h3 (h4 ▸ hab.2.1)
  rw [h4]; exact this

/-- Two basins with a ridge between them; in the eastern one there are two bluespots in a row. -/
def demoTwoBasins : Raster Rat := Raster.ofRows
  [[8,8,8,9,8,8,8,8,8,8],
   [5,2,4,9,6,2,5,1,4,3],
   [5,2,4,9,6,2,5,1,4,3],
   [5,2,4,9,6,2,5,1,4,3],
   [8,8,8,9,8,8,8,8,8,8]]

/-- The part from the ridge to the east. -/
def demoEast : Raster Rat := ⟨5, 7, fun c => demoTwoBasins.get (shift (0, 3) c)⟩

/-- The eastern basin. -/
def East (c : Cell) : Prop := InGrid 5 10 c ∧ 4 ≤ c.2

instance : DecidablePred East := fun c => inferInstanceAs (Decidable (InGrid 5 10 c ∧ 4 ≤ c.2))

/-- The hypotheses of `C120_exact`, but for the basin. -/
example : ∃ cc, LabelContract cc ∧ SquareCells (⟨0, 2, 0, 0, 0, -2⟩ : GeoTransform Rat) ∧
    (∀ c, transformCellToWorld c (⟨6, 2, 0, 0, 0, -2⟩ : GeoTransform Rat) = transformCellToWorld (shift (0, 3) c) ⟨0, 2, 0, 0, 0, -2⟩) ∧
    IsWindow demoEast demoTwoBasins (0, 3) ∧ 2 ≤ demoEast.rows ∧ 2 ≤ demoEast.cols := by
  obtain ⟨cc, h⟩ := exists_labelContract
  refine ⟨cc, h, by unfold SquareCells; norm_num, fun c => ?_, ⟨by decide, fun _ _ => rfl⟩, by decide, by decide⟩
  simp only [transformCellToWorld, applyGeoTransform, shift]
  push_cast
  ext <;> ring

set_option maxRecDepth 100000 in
/-- The window covers the eastern basin. -/
example : ∃ d, Returns (Dem.process (Dem.python exactSub (· * (5/7))) exactSub (exactSafe (1/1000) (7/5000)) true false
      (finiteDem demoTwoBasins)) (.ok d) ∧
    CoversBasin (finiteDem demoEast) (finiteDem demoTwoBasins) d.noFlats d.flowdir.get (0, 3) East := by
  have key : ((Dem.process (Dem.python exactSub (· * (5/7))) exactSub (exactSafe (1/1000) (7/5000)) true false
      (finiteDem demoTwoBasins) 400).bind Except.toOption).map (fun d =>
        (decide ((∀ a ∈ Raster.cellList 5 10, d.flowdir.get a < 8 → InGrid 5 10 (Flow.move a (d.flowdir.get a)) →
          (East a ↔ East (Flow.move a (d.flowdir.get a)))) ∧
        ∀ c ∈ Raster.cellList 5 10, East c → ∀ x ∈ Raster.cellList 5 10, Adj c x → ¬ East x →
          d.noFlats.get x = (finiteDem demoTwoBasins).get x))) = some true := by decide +kernel
  rcases e : Dem.process (Dem.python exactSub (· * (5/7))) exactSub (exactSafe (1/1000) (7/5000)) true false
      (finiteDem demoTwoBasins) 400 with _ | ⟨_ | d⟩
  · rw [e] at key; cases key
  · rw [e] at key; cases key
  · rw [e] at key
    obtain ⟨h1, h2⟩ : _ ∧ _ := of_decide_eq_true (Option.some.inj key)
    refine ⟨d, (Fuel.demProcess (Fuel.python _ _ id) _ _ _ _ _).returns e, ?_⟩
    obtain ⟨h3, h4⟩ := covers_check (win := finiteDem demoEast) (dem := finiteDem demoTwoBasins) (o := (0, 3)) (fun c hc => hc.1) h1
      (by decide +kernel)
    exact ⟨fun c hc => hc.1, h3, h4, fun c hc x hx hcx hno =>
      h2 c (Flow.mem_cellList.2 hc.1) hc x (Flow.mem_cellList.2 hx) hcx hno⟩

set_option maxRecDepth 100000 in
/-- Without the last condition of `CoversBasin` the claim fails: if a bluespot has outlets in two basins, a window that covers
one of them cuts through the bluespot, and its level in the window is not that in the DEM. -/
theorem C120_split : ∃ (win dem : Raster Rat) (S : Cell → Prop) (c : Cell) (d d' : Dem.Out (WithTop Rat) Rat),
    IsWindow win dem (0, 0) ∧
    Returns (Dem.process (Dem.python exactSub (· * (5/7))) exactSub (exactSafe (1/1000) (7/5000)) true false (finiteDem dem)) (.ok d) ∧
    Returns (Dem.process (Dem.python exactSub (· * (5/7))) exactSub (exactSafe (1/1000) (7/5000)) true false (finiteDem win)) (.ok d') ∧
    (∀ a b, Step dem.rows dem.cols d.flowdir.get a b → (S a ↔ S b)) ∧
    (∀ c, S c → ∀ x, dem.Has x → x = c ∨ Adj c x → ∃ y, win.Has y ∧ x = shift (0, 0) y) ∧
    S c ∧ win.Has c ∧ d.filled.get c = (5 : Rat) ∧ d'.filled.get c = (1 : Rat) := by
  let dem : Raster Rat := Raster.ofRows [[9,9,9,9,9,9,9], [9,9,9,1,9,9,9], [5,1,1,1,1,1,5], [9,9,9,9,9,9,9]]
  let win : Raster Rat := ⟨4, 4, dem.get⟩
  let S : Cell → Prop := fun c => c ∈ ([(1,1), (1,2), (2,0), (2,1), (2,2)] : List Cell)
  have key : ((Dem.process (Dem.python exactSub (· * (5/7))) exactSub (exactSafe (1/1000) (7/5000)) true false
      (finiteDem dem) 400).bind Except.toOption).map (fun d =>
        (decide ((∀ a ∈ Raster.cellList 4 7, d.flowdir.get a < 8 → InGrid 4 7 (Flow.move a (d.flowdir.get a)) →
          (a ∈ ([(1,1), (1,2), (2,0), (2,1), (2,2)] : List Cell) ↔
            Flow.move a (d.flowdir.get a) ∈ ([(1,1), (1,2), (2,0), (2,1), (2,2)] : List Cell))) ∧
          d.filled.get (2,2) = ((5 : Rat) : WithTop Rat)))) = some true := by decide +kernel
  have key' : ((Dem.process (Dem.python exactSub (· * (5/7))) exactSub (exactSafe (1/1000) (7/5000)) true false
      (finiteDem win) 400).bind Except.toOption).map (fun d => decide (d.filled.get (2,2) = ((1 : Rat) : WithTop Rat))) =
        some true := by decide +kernel
  rcases e : Dem.process (Dem.python exactSub (· * (5/7))) exactSub (exactSafe (1/1000) (7/5000)) true false
      (finiteDem dem) 400 with _ | ⟨_ | d⟩
  · rw [e] at key; cases key
  · rw [e] at key; cases key
  rcases e' : Dem.process (Dem.python exactSub (· * (5/7))) exactSub (exactSafe (1/1000) (7/5000)) true false
      (finiteDem win) 400 with _ | ⟨_ | d'⟩
  · rw [e'] at key'; cases key'
  · rw [e'] at key'; cases key'
  rw [e] at key
  rw [e'] at key'
  obtain ⟨h1, h2⟩ : _ ∧ _ := of_decide_eq_true (Option.some.inj key)
  have h2' := of_decide_eq_true (Option.some.inj key')
  obtain ⟨h3, h4⟩ := covers_check (win := win) (dem := dem) (o := (0, 0)) (S := S) (fd := d.flowdir.get)
    (fun c hc => (show ∀ c ∈ ([(1,1), (1,2), (2,0), (2,1), (2,2)] : List Cell), InGrid 4 7 c by decide) c hc) h1 (by decide +kernel)
  exact ⟨win, dem, S, (2,2), d, d', ⟨by decide, fun c _ => by simp [win, shift]⟩,
    (Fuel.demProcess (Fuel.python _ _ id) _ _ _ _ _).returns e,
    (Fuel.demProcess (Fuel.python _ _ id) _ _ _ _ _).returns e',
    h3, h4, by decide, by decide, h2, h2'⟩
end Basin
end Malstroem
