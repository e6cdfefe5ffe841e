/-
How often the loops of the fill run.
-/
import Verif.Proofs.FillMain

set_option linter.unusedSectionVars false

namespace Malstroem
open Spec
namespace Fill

variable {β : Type*} [LinearOrder β] [OrderTop β] {step : Cell → Cell → β → β} {dtm f : Raster β}
  {cell : Raster β → Cell → Raster β × Bool}

/-- After its visit a cell is not above any neighbour. -/
def IsTight (step : Cell → Cell → β → β) (dtm : Raster β) (cell : Raster β → Cell → Raster β × Bool) : Prop :=
  ∀ f c b, Adj c b → (cell f c).1.get c ≤ max (dtm.get c) (step c b (f.get b))

theorem fillCell_tight (dtm : Raster β) : IsTight (fun _ _ => id) dtm (fillCell dtm) := by
  intro f c b hb
  cases h : (fillCell dtm f c).2 with
  | false =>
    rw [(fillCell_relax dtm).unchanged f c h]
    exact (fillCell_relax dtm).fix f c h b hb
  | true =>
    revert h
    unfold fillCell
    dsimp only
    split_ifs with h1 h2
    · simp
    · simp
    · intro _
      simp only [Raster.set, Prod.mk.eta, Function.update_self]
      rw [max_comm]
      refine max_le_max le_rfl ?_
      rw [adj_iff] at hb
      rcases hb with rfl | rfl | rfl | rfl | rfl | rfl | rfl | rfl <;> simp

theorem fillCellNoFlats_tight (short diag : β → β) (hs : Monotone short) (hd : Monotone diag) (dtm : Raster β) :
    IsTight (stepSD short diag) dtm (fillCellNoFlats short diag dtm) := by
  intro f c b hb
  have hrel := fillCellNoFlats_relax short diag hs hd dtm
  cases h : (fillCellNoFlats short diag dtm f c).2 with
  | false =>
    rw [hrel.unchanged f c h]
    exact hrel.fix f c h b hb
  | true =>
    revert h
    unfold fillCellNoFlats
    dsimp only
    split_ifs with h1 h2
    · simp
    · simp
    · intro _
      simp only [Raster.set, Prod.mk.eta, Function.update_self]
      rw [max_comm]
      refine max_le_max le_rfl ((min_le_left _ _).trans ?_)
      unfold stepSD
      rw [adj_iff] at hb
      rcases hb with rfl | rfl | rfl | rfl | rfl | rfl | rfl | rfl
      all_goals simp only [orth_iff]
      all_goals simp
      all_goals first
        | (left; apply hd; simp)
        | (right; apply hs; simp)

theorem cell_le (hcell : IsRelax step dtm cell) (f : Raster β) (c x : Cell) : (cell f c).1.get x ≤ f.get x := by
  cases h : (cell f c).2 with
  | false => rw [hcell.unchanged f c h]
  | true =>
    obtain ⟨_, b, _, heq, hlt⟩ := hcell.changed f c h
    rw [heq]
    by_cases hx : x = c
    · subst hx; simpa [Raster.set] using hlt.le
    · simp [Raster.set, Function.update_of_ne hx]

/-- One sweep brings every visited cell down to its neighbours as they were. -/
theorem sweep_tight (hstep : GoodStep step) (hcell : IsRelax step dtm cell) (htight : IsTight step dtm cell) (cs : List Cell)
    (f : Raster β) : ∀ c ∈ cs, ∀ b, Adj c b → (sweepWith cell cs f).1.get c ≤ max (dtm.get c) (step c b (f.get b)) := by
  have key : ∀ (cs : List Cell) (g : Raster β) (ch : Bool), (∀ x, g.get x ≤ f.get x) →
      let res := cs.foldl (fun st c =>
        let (filled', ch) := cell st.1 c
        (filled', if ch then true else st.2)) (g, ch)
      (∀ x, res.1.get x ≤ g.get x) ∧ ∀ c ∈ cs, ∀ b, Adj c b → res.1.get c ≤ max (dtm.get c) (step c b (f.get b)) := by
    intro cs
    induction cs with
    | nil => intro g ch _; exact ⟨fun _ => le_rfl, by simp⟩
    | cons a cs ih =>
      intro g ch hg
      have hle := cell_le hcell g a
      have := ih (cell g a).1 (if (cell g a).2 then true else ch) (fun x => (hle x).trans (hg x))
      refine ⟨fun x => (this.1 x).trans (hle x), fun c hc b hb => ?_⟩
      rcases List.mem_cons.1 hc with rfl | hc
      · exact (this.1 c).trans ((htight g c b hb).trans (max_le_max le_rfl (hstep.mono c b (hg b))))
      · exact this.2 c hc b hb
  exact (key cs f false fun _ => le_rfl).2

/-- The surface is below the climb of every way out with at most `j + 1` cells. -/
def Done (step : Cell → Cell → β → β) (dtm : Raster β) (j : Nat) (f : Raster β) : Prop :=
  ∀ c p, IsEscape dtm.rows dtm.cols c p → p.length ≤ j + 1 → f.get c ≤ climbS step dtm.get p

theorem done_init (hI : Inv step dtm f) : Done step dtm 0 f := by
  intro c p hp hlen
  obtain ⟨q, rfl⟩ := hp.exists_cons
  cases q with
  | nil =>
    obtain ⟨e, he, hedge⟩ := hp.exit
    have : c = e := by simpa using he
    subst this
    exact (hI.edge c hedge).le
  | cons b q => simp at hlen

theorem done_sweep (hstep : GoodStep step) (hcell : IsRelax step dtm cell) (htight : IsTight step dtm cell) {cs : List Cell}
    (hcs : ∀ c ∈ cs, dtm.Has c) (hall : ∀ c, Interior dtm.rows dtm.cols c → c ∈ cs) (hI : Inv step dtm f) {j : Nat}
    (hj : Done step dtm j f) : Done step dtm (j + 1) (sweepWith cell cs f).1 := by
  have hI' := (sweep_spec hstep hcell cs hcs hI).inv
  intro c p hp hlen
  obtain ⟨q, rfl⟩ := hp.exists_cons
  have hc : dtm.Has c := hp.inside c (by simp)
  rcases edge_or_interior hc with he | hi
  · rw [hI'.edge c he]
    cases q with
    | nil => exact le_rfl
    | cons b q => exact le_max_left _ _
  · cases q with
    | nil =>
      obtain ⟨e, he, hedge⟩ := hp.exit
      have : c = e := by simpa using he
      subst this
      exact absurd hedge hi.2
    | cons b q =>
      have hab := (List.isChain_cons_cons.1 hp.chain).1
      rw [climbS_cons c rfl]
      refine (sweep_tight hstep hcell htight cs f c (hall c hi) b hab).trans (max_le_max le_rfl (hstep.mono c b ?_))
      exact hj b _ hp.tail (by simp at hlen ⊢; omega)

/-- The cells that are not on the edge. -/
def interiorCells (rows cols : Nat) : List Cell :=
  (pyRange 1 ((rows : Int) - 1) 1).flatMap fun r => (pyRange 1 ((cols : Int) - 1) 1).map fun c => (r, c)

theorem mem_interiorCells {rows cols : Nat} {c : Cell} : c ∈ interiorCells rows cols ↔ Interior rows cols c := by
  unfold interiorCells
  simp only [List.mem_flatMap, List.mem_map, mem_pyRange_pos, interior_iff]
  constructor
  · rintro ⟨a, ha, b, hb, rfl⟩; dsimp only; omega
  · intro h; exact ⟨c.1, by omega, c.2, by omega, rfl⟩

theorem length_pyRange (n : Nat) : (pyRange 1 ((n : Int) - 1) 1).length = n - 2 := by
  unfold pyRange
  simp
  omega

theorem length_interiorCells (rows cols : Nat) : (interiorCells rows cols).length = (rows - 2) * (cols - 2) := by
  unfold interiorCells
  rw [List.length_flatMap]
  simp only [List.length_map, length_pyRange]
  rw [List.map_const', List.sum_replicate, length_pyRange, nsmul_eq_mul, Nat.cast_id]

/-- A way out can be cut off at the first cell on the edge. -/
theorem escape_cut (hstep : GoodStep step) {c : Cell} {p : List Cell} (hp : IsEscape dtm.rows dtm.cols c p) :
    ∃ q e, (q ++ [e]) <+: p ∧ IsEscape dtm.rows dtm.cols c (q ++ [e]) ∧ (∀ x ∈ q, Interior dtm.rows dtm.cols x) ∧
      climbS step dtm.get (q ++ [e]) ≤ climbS step dtm.get p := by
  refine IsEscape.rec' (motive := fun c p => ∃ q e, (q ++ [e]) <+: p ∧ IsEscape dtm.rows dtm.cols c (q ++ [e]) ∧
    (∀ x ∈ q, Interior dtm.rows dtm.cols x) ∧ climbS step dtm.get (q ++ [e]) ≤ climbS step dtm.get p) ?_ ?_ hp
  · intro e he
    exact ⟨[], e, by simp, ⟨rfl, by simp, by simpa using he.1, e, rfl, he⟩, by simp, le_rfl⟩
  · rintro a b p ha hab hbp ⟨q, e, h1, h2, h3, h4⟩
    rcases edge_or_interior ha with he | hi
    · exact ⟨[], a, by simp, ⟨rfl, by simp, by simpa using ha, a, rfl, he⟩, by simp, le_max_left _ _⟩
    · refine ⟨a :: q, e, ?_, h2.cons ha hab, ?_, ?_⟩
      · simpa using h1
      · intro x hx
        rcases List.mem_cons.1 hx with rfl | hx
        · exact hi
        · exact h3 x hx
      · obtain ⟨t, ht⟩ := h2.exists_cons
        rw [List.cons_append, climbS_cons a ht, climbS_cons a rfl]
        exact max_le_max le_rfl (hstep.mono a b h4)

/-- With as many sweeps as there are cells off the edge the surface is final. -/
theorem done_le (hstep : GoodStep step) (hf : Done step dtm ((dtm.rows - 2) * (dtm.cols - 2)) f) {r : Raster β}
    (hr : Inv step dtm r) {c : Cell} (hc : dtm.Has c) : f.get c ≤ r.get c := by
  rcases hr.wit c hc with h | ⟨p, hp, hnd, hcl, _⟩
  · rw [h]; exact le_top
  · obtain ⟨q, e, h1, h2, h3, h4⟩ := escape_cut (step := step) hstep hp
    rw [← hcl]
    refine (hf c _ h2 ?_).trans h4
    have hnq : q.Nodup := (List.nodup_append.1 (h1.sublist.nodup hnd)).1
    have : q.length ≤ (interiorCells dtm.rows dtm.cols).length :=
      (List.subperm_of_subset hnq fun x hx => mem_interiorCells.2 (h3 x hx)).length_le
    rw [length_interiorCells] at this
    simp; omega

/-- Then a sweep changes nothing. -/
theorem done_stops (hstep : GoodStep step) (hcell : IsRelax step dtm cell) {cs : List Cell}
    (hcs : ∀ c ∈ cs, dtm.Has c) (hI : Inv step dtm f) (hf : Done step dtm ((dtm.rows - 2) * (dtm.cols - 2)) f) :
    (sweepWith cell cs f).2 = false := by
  by_contra h
  have hs := sweep_spec hstep hcell cs hcs hI
  have hlt := hs.changed (by simpa using h)
  have heq : ∀ c, dtm.Has c → (sweepWith cell cs f).1.get c = f.get c := fun c hc =>
    le_antisymm (hs.le c) (done_le hstep hf hs.inv hc)
  refine absurd hlt (not_lt.2 (le_of_eq ?_))
  unfold measure
  refine Finset.sum_congr rfl fun x hx => ?_
  rw [heq x (by simpa using hx)]

/-- One iteration of the loop, with its four sweeps. -/
theorem iteration_bound (hstep : GoodStep step) (hcell : IsRelax step dtm cell) (htight : IsTight step dtm cell)
    (cs : Int → Int → Int → Int → List Cell) (sweep : Raster β → Int → Int → Int → Int → Raster β × Bool)
    (hsweep : ∀ f a b c d, sweep f a b c d = sweepWith cell (cs a b c d) f)
    (hcs : ∀ a b c d, ((a = 1 ∧ b = (dtm.rows : Int) - 2) ∨ (a = (dtm.rows : Int) - 2 ∧ b = 1)) →
      ((c = 1 ∧ d = (dtm.cols : Int) - 2) ∨ (c = (dtm.cols : Int) - 2 ∧ d = 1)) →
      (∀ x ∈ cs a b c d, dtm.Has x) ∧ ∀ x, Interior dtm.rows dtm.cols x → x ∈ cs a b c d)
    {j : Nat} (hI : Inv step dtm f) (hj : Done step dtm j f) :
    Inv step dtm (iteration sweep dtm f).1 ∧ ((iteration sweep dtm f).2 = true →
      Done step dtm (j + 4) (iteration sweep dtm f).1 ∧ j + 3 < (dtm.rows - 2) * (dtm.cols - 2)) := by
  set maxrow : Int := (dtm.rows : Int) - 2 with hmr
  set maxcol : Int := (dtm.cols : Int) - 2 with hmc
  have hit : iteration sweep dtm f =
    let s1 := sweep f 1 maxrow 1 maxcol
    let s2 := if s1.2 then sweep s1.1 maxrow 1 maxcol 1 else (s1.1, false)
    let s3 := if s2.2 then sweep s2.1 1 maxrow maxcol 1 else (s2.1, false)
    if s3.2 then sweep s3.1 maxrow 1 1 maxcol else (s3.1, false) := rfl
  have mono : ∀ {i k : Nat} {g : Raster β}, i ≤ k → Done step dtm k g → Done step dtm i g :=
    fun hik h c p hp hl => h c p hp (by omega)
  have one : ∀ (a b c d : Int), ((a = 1 ∧ b = maxrow) ∨ (a = maxrow ∧ b = 1)) →
      ((c = 1 ∧ d = maxcol) ∨ (c = maxcol ∧ d = 1)) → ∀ (g : Raster β) (k : Nat), Inv step dtm g → Done step dtm k g →
      Inv step dtm (sweep g a b c d).1 ∧ ((sweep g a b c d).2 = true →
        Done step dtm (k + 1) (sweep g a b c d).1 ∧ k < (dtm.rows - 2) * (dtm.cols - 2)) := by
    intro a b c d hab hcd g k hg hk
    obtain ⟨h1, h2⟩ := hcs a b c d hab hcd
    rw [hsweep]
    refine ⟨(sweep_spec hstep hcell _ h1 hg).inv, fun h => ⟨done_sweep hstep hcell htight h1 h2 hg hk, ?_⟩⟩
    by_contra hlt
    rw [done_stops hstep hcell h1 hg (mono (not_lt.1 hlt) hk)] at h
    cases h
  have next : ∀ (s : Raster β × Bool) (k : Nat) (a b c d : Int), ((a = 1 ∧ b = maxrow) ∨ (a = maxrow ∧ b = 1)) →
      ((c = 1 ∧ d = maxcol) ∨ (c = maxcol ∧ d = 1)) →
      (Inv step dtm s.1 ∧ (s.2 = true → Done step dtm (k + 1) s.1 ∧ k < (dtm.rows - 2) * (dtm.cols - 2))) →
      ∀ s', s' = (if s.2 then sweep s.1 a b c d else (s.1, false)) →
      Inv step dtm s'.1 ∧ (s'.2 = true → Done step dtm (k + 2) s'.1 ∧ k + 1 < (dtm.rows - 2) * (dtm.cols - 2)) := by
    rintro s k a b c d hab hcd ⟨hs, hd⟩ s' rfl
    cases hs2 : s.2 with
    | false => simp only [Bool.false_eq_true, if_false, false_imp_iff, and_true]; exact hs
    | true =>
      simp only [if_true]
      exact one a b c d hab hcd s.1 (k + 1) hs (hd hs2).1
  rw [hit]
  exact next _ (j + 2) maxrow 1 1 maxcol (.inr ⟨rfl, rfl⟩) (.inl ⟨rfl, rfl⟩)
    (next _ (j + 1) 1 maxrow maxcol 1 (.inl ⟨rfl, rfl⟩) (.inr ⟨rfl, rfl⟩)
      (next _ j maxrow 1 maxcol 1 (.inr ⟨rfl, rfl⟩) (.inr ⟨rfl, rfl⟩)
        (one 1 maxrow 1 maxcol (.inl ⟨rfl, rfl⟩) (.inl ⟨rfl, rfl⟩) f j hI hj) _ rfl) _ rfl) _ rfl

/-- The loop is left after at most a quarter of the number of cells off the edge, plus one. -/
theorem loop_bound (hstep : GoodStep step) (hcell : IsRelax step dtm cell) (htight : IsTight step dtm cell)
    (cs : Int → Int → Int → Int → List Cell) (sweep : Raster β → Int → Int → Int → Int → Raster β × Bool)
    (hsweep : ∀ f a b c d, sweep f a b c d = sweepWith cell (cs a b c d) f)
    (hcs : ∀ a b c d, ((a = 1 ∧ b = (dtm.rows : Int) - 2) ∨ (a = (dtm.rows : Int) - 2 ∧ b = 1)) →
      ((c = 1 ∧ d = (dtm.cols : Int) - 2) ∨ (c = (dtm.cols : Int) - 2 ∧ d = 1)) →
      (∀ x ∈ cs a b c d, dtm.Has x) ∧ ∀ x, Interior dtm.rows dtm.cols x → x ∈ cs a b c d)
    {n : Nat} (hn : (dtm.rows - 2) * (dtm.cols - 2) / 4 + 1 ≤ n) :
    ∃ r, doWhile (iteration sweep dtm) n (initializeFilled dtm) = some r := by
  have key : ∀ (n j : Nat) (f : Raster β), Inv step dtm f → Done step dtm j f →
      j ≤ (dtm.rows - 2) * (dtm.cols - 2) → (dtm.rows - 2) * (dtm.cols - 2) < j + 4 * n → ∃ r, doWhile (iteration sweep dtm) n f = some r := by
    intro n
    induction n with
    | zero =>
      intro j f _ _ h1 h2
      omega
    | succ n ih =>
      intro j f hI hj _ h
      obtain ⟨h1, h2⟩ := iteration_bound hstep hcell htight cs sweep hsweep hcs hI hj
      simp only [doWhile]
      cases hk : (iteration sweep dtm f).2 with
      | false => exact ⟨_, rfl⟩
      | true =>
        simp only [if_true]
        exact ih (j + 4) _ h1 (h2 hk).1 (by have := (h2 hk).2; omega) (by omega)
  exact key n 0 _ (inv_init step dtm) (done_init (inv_init step dtm)) (Nat.zero_le _) (by omega)

/-- Four sweeps that together visit every cell off the edge do at least the work of one full sweep. -/
theorem done_four (hstep : GoodStep step) (hcell : IsRelax step dtm cell) (htight : IsTight step dtm cell)
    {c1 c2 c3 c4 : List Cell} (h1 : ∀ c ∈ c1, dtm.Has c) (h2 : ∀ c ∈ c2, dtm.Has c) (h3 : ∀ c ∈ c3, dtm.Has c)
    (h4 : ∀ c ∈ c4, dtm.Has c)
    (hall : ∀ c, Interior dtm.rows dtm.cols c → c ∈ c1 ∨ c ∈ c2 ∨ c ∈ c3 ∨ c ∈ c4) (hI : Inv step dtm f) {j : Nat}
    (hj : Done step dtm j f) : Done step dtm (j + 1)
      (sweepWith cell c4 (sweepWith cell c3 (sweepWith cell c2 (sweepWith cell c1 f).1).1).1).1 := by
  have s1 := sweep_spec hstep hcell c1 h1 hI
  have s2 := sweep_spec hstep hcell c2 h2 s1.inv
  have s3 := sweep_spec hstep hcell c3 h3 s2.inv
  have s4 := sweep_spec hstep hcell c4 h4 s3.inv
  intro c p hp hlen
  obtain ⟨q, rfl⟩ := hp.exists_cons
  have hc : dtm.Has c := hp.inside c (by simp)
  rcases edge_or_interior hc with he | hi
  · rw [s4.inv.edge c he]
    cases q with
    | nil => exact le_rfl
    | cons b q => exact le_max_left _ _
  · cases q with
    | nil =>
      obtain ⟨e, he, hedge⟩ := hp.exit
      have : c = e := by simpa using he
      subst this
      exact absurd hedge hi.2
    | cons b q =>
      have hab := (List.isChain_cons_cons.1 hp.chain).1
      rw [climbS_cons c rfl]
      refine le_trans ?_ (max_le_max le_rfl (hstep.mono c b (hj b _ hp.tail (by simp at hlen ⊢; omega))))
      have l1 := s1.le b
      have l2 := (s2.le b).trans l1
      have l3 := (s3.le b).trans l2
      rcases hall c hi with h | h | h | h
      · exact (s4.le c).trans ((s3.le c).trans ((s2.le c).trans (sweep_tight hstep hcell htight c1 f c h b hab)))
      · exact (s4.le c).trans ((s3.le c).trans ((sweep_tight hstep hcell htight c2 _ c h b hab).trans
          (max_le_max le_rfl (hstep.mono c b l1))))
      · exact (s4.le c).trans ((sweep_tight hstep hcell htight c3 _ c h b hab).trans
          (max_le_max le_rfl (hstep.mono c b l2)))
      · exact (sweep_tight hstep hcell htight c4 _ c h b hab).trans (max_le_max le_rfl (hstep.mono c b l3))

/-- The loop whose four sweeps only together visit every cell is left after at most the number of cells off the edge,
plus one. -/
theorem loop_bound_four (hstep : GoodStep step) (hcell : IsRelax step dtm cell) (htight : IsTight step dtm cell)
    (cs : Int → Int → Int → Int → List Cell) (sweep : Raster β → Int → Int → Int → Int → Raster β × Bool)
    (hsweep : ∀ f a b c d, sweep f a b c d = sweepWith cell (cs a b c d) f)
    (hcs : ∀ a b c d, ((a = 1 ∧ b = (dtm.rows : Int) - 2) ∨ (a = (dtm.rows : Int) - 2 ∧ b = 1)) →
      ((c = 1 ∧ d = (dtm.cols : Int) - 2) ∨ (c = (dtm.cols : Int) - 2 ∧ d = 1)) → ∀ x ∈ cs a b c d, dtm.Has x)
    (hall : ∀ x, Interior dtm.rows dtm.cols x → x ∈ cs 1 ((dtm.rows : Int) - 2) 1 ((dtm.cols : Int) - 2) ∨
      x ∈ cs ((dtm.rows : Int) - 2) 1 ((dtm.cols : Int) - 2) 1 ∨
      x ∈ cs 1 ((dtm.rows : Int) - 2) ((dtm.cols : Int) - 2) 1 ∨
      x ∈ cs ((dtm.rows : Int) - 2) 1 1 ((dtm.cols : Int) - 2))
    {n : Nat} (hn : (dtm.rows - 2) * (dtm.cols - 2) + 1 ≤ n) :
    ∃ r, doWhile (iteration sweep dtm) n (initializeFilled dtm) = some r := by
  have h1 := hcs 1 _ 1 _ (.inl ⟨rfl, rfl⟩) (.inl ⟨rfl, rfl⟩)
  have h2 := hcs _ 1 _ 1 (.inr ⟨rfl, rfl⟩) (.inr ⟨rfl, rfl⟩)
  have h3 := hcs 1 _ _ 1 (.inl ⟨rfl, rfl⟩) (.inr ⟨rfl, rfl⟩)
  have h4 := hcs _ 1 1 _ (.inr ⟨rfl, rfl⟩) (.inl ⟨rfl, rfl⟩)
  have hit : ∀ f, iteration sweep dtm f =
    let s1 := sweep f 1 ((dtm.rows : Int) - 2) 1 ((dtm.cols : Int) - 2)
    let s2 := if s1.2 then sweep s1.1 ((dtm.rows : Int) - 2) 1 ((dtm.cols : Int) - 2) 1 else (s1.1, false)
    let s3 := if s2.2 then sweep s2.1 1 ((dtm.rows : Int) - 2) ((dtm.cols : Int) - 2) 1 else (s2.1, false)
    if s3.2 then sweep s3.1 ((dtm.rows : Int) - 2) 1 1 ((dtm.cols : Int) - 2) else (s3.1, false) := fun _ => rfl
  have key : ∀ (n j : Nat) (f : Raster β), Inv step dtm f → Done step dtm j f →
      j ≤ (dtm.rows - 2) * (dtm.cols - 2) → (dtm.rows - 2) * (dtm.cols - 2) < j + n →
      ∃ r, doWhile (iteration sweep dtm) n f = some r := by
    intro n
    induction n with
    | zero => intro j f _ _ h1 h2; omega
    | succ n ih =>
      intro j f hI hj hjI h
      simp only [doWhile]
      have s1 := sweep_spec hstep hcell _ h1 hI
      have s2 := sweep_spec hstep hcell _ h2 s1.inv
      have s3 := sweep_spec hstep hcell _ h3 s2.inv
      have s4 := sweep_spec hstep hcell _ h4 s3.inv
      have h4' := done_four hstep hcell htight h1 h2 h3 h4 hall hI hj
      have hstop : j = (dtm.rows - 2) * (dtm.cols - 2) →
          (sweepWith cell (cs 1 ((dtm.rows : Int) - 2) 1 ((dtm.cols : Int) - 2)) f).2 = false := by
        rintro rfl
        exact done_stops hstep hcell h1 hI hj
      rw [hit]
      simp only [hsweep]
      by_cases k1 : (sweepWith cell (cs 1 ((dtm.rows : Int) - 2) 1 ((dtm.cols : Int) - 2)) f).2 = true
      · simp only [k1, if_true]
        by_cases k2 : (sweepWith cell (cs ((dtm.rows : Int) - 2) 1 ((dtm.cols : Int) - 2) 1)
            (sweepWith cell (cs 1 ((dtm.rows : Int) - 2) 1 ((dtm.cols : Int) - 2)) f).1).2 = true
        · simp only [k2, if_true]
          by_cases k3 : (sweepWith cell (cs 1 ((dtm.rows : Int) - 2) ((dtm.cols : Int) - 2) 1)
              (sweepWith cell (cs ((dtm.rows : Int) - 2) 1 ((dtm.cols : Int) - 2) 1)
                (sweepWith cell (cs 1 ((dtm.rows : Int) - 2) 1 ((dtm.cols : Int) - 2)) f).1).1).2 = true
          · simp only [k3, if_true]
            split_ifs
            · refine ih (j + 1) _ s4.inv h4' ?_ (by omega)
              rcases Nat.lt_or_ge j ((dtm.rows - 2) * (dtm.cols - 2)) with hlt | hge
              · exact hlt
              · rw [hstop (le_antisymm hjI hge)] at k1; cases k1
            · exact ⟨_, rfl⟩
          · simp [k3]
        · simp [k2]
      · simp [k1]
  exact key n 0 _ (inv_init step dtm) (done_init (inv_init step dtm)) (Nat.zero_le _) (by omega)

end Fill
end Malstroem
