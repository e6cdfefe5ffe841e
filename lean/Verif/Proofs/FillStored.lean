/-
`fill_terrain` with a DEM of another number type than the filled raster, compared with filling the converted DEM.
-/
import Verif.Model.FillStored
import Verif.Proofs.FillMain
import Verif.Proofs.Datum

set_option linter.unusedSectionVars false

namespace Malstroem
namespace Fill
open Spec

variable {β : Type*} [LinearOrder β] [OrderTop β] {store : β → β} {dtm f : Raster β}

/-- `_fill_cell` writes into `c` again and again: its elevation is rounded up, it is dry and a neighbour is lower. -/
def Stuck (store : β → β) (dtm f : Raster β) (c : Cell) : Prop :=
  dtm.get c < f.get c ∧ f.get c ≤ store (dtm.get c) ∧ ∃ b, Adj c b ∧ f.get b < f.get c

/-- The values in `f` are values that the filled raster can hold. -/
def Holds32 (store : β → β) (f : Raster β) : Prop := ∀ c, store (f.get c) = f.get c

/-- The lowest of a cell and its neighbours. -/
def low (f : Raster β) (c : Cell) : β :=
  min (f.get (c.1 + 1, c.2 + 1)) (min (f.get (c.1 + 1, c.2)) (min (f.get (c.1 + 1, c.2 - 1)) (min (f.get (c.1, c.2 + 1))
    (min (f.get (c.1, c.2 - 1)) (min (f.get (c.1 - 1, c.2 + 1)) (min (f.get (c.1 - 1, c.2))
      (min (f.get (c.1 - 1, c.2 - 1)) (f.get c))))))))

omit [OrderTop β] in
theorem low_le (f : Raster β) (c : Cell) : low f c ≤ f.get c := by
  unfold low
  simp

omit [OrderTop β] in
theorem low_lt (f : Raster β) (c : Cell) : low f c < f.get c ↔ ∃ b, Adj c b ∧ f.get b < f.get c := by
  unfold low
  simp only [min_lt_iff, lt_irrefl, or_false, adj_iff]
  constructor
  · rintro (h | h | h | h | h | h | h | h) <;> exact ⟨_, by simp, h⟩
  · rintro ⟨b, rfl | rfl | rfl | rfl | rfl | rfl | rfl | rfl, h⟩ <;> simp [h]

omit [OrderTop β] in
theorem low_holds (hm : Monotone store) (hf : Holds32 store f) (c : Cell) : store (low f c) = low f c := by
  unfold low
  simp only [hm.map_min, hf _]

omit [OrderTop β] in
theorem fillCell_low (dtm f : Raster β) (c : Cell) : fillCell dtm f c =
    if f.get c ≤ dtm.get c then (f, false)
    else if ¬ max (low f c) (dtm.get c) = f.get c then (f.set c (max (low f c) (dtm.get c)), true) else (f, false) := rfl

omit [OrderTop β] in
theorem fillCellStored_low (dtm f : Raster β) (c : Cell) : fillCellStored store dtm f c =
    if f.get c ≤ dtm.get c then (f, false)
    else if ¬ max (low f c) (dtm.get c) = f.get c then (f.set c (store (max (low f c) (dtm.get c))), true) else (f, false) :=
  rfl

omit [OrderTop β] in
theorem set_self (f : Raster β) (c : Cell) : f.set c (f.get c) = f := by
  unfold Raster.set
  simp

/-- One cell: the raster is the one that filling the converted DEM gives; more is reported as changed. -/
theorem cell_stored (hm : Monotone store) (hf : Holds32 store f) {c : Cell} (hge : store (dtm.get c) ≤ f.get c) :
    (fillCellStored store dtm f c).1 = (fillCell (dtm.map store) f c).1 ∧
    ((fillCellStored store dtm f c).2 = true ↔ (fillCell (dtm.map store) f c).2 = true ∨ Stuck store dtm f c) := by
  rw [fillCell_low, fillCellStored_low, Stuck, ← low_lt]
  change (_ = (if f.get c ≤ store (dtm.get c) then (f, false) else if ¬ max (low f c) (store (dtm.get c)) = f.get c then
    (f.set c (max (low f c) (store (dtm.get c))), true) else (f, false)).1) ∧ (_ ↔
    (if f.get c ≤ store (dtm.get c) then (f, false) else if ¬ max (low f c) (store (dtm.get c)) = f.get c then
    (f.set c (max (low f c) (store (dtm.get c))), true) else (f, false)).2 = true ∨ _)
  have hlow := low_le f c
  have hlh := low_holds hm hf c
  rcases hge.lt_or_eq with h | h
  · -- above the converted terrain
    have h1 : ¬ f.get c ≤ dtm.get c := fun h' => absurd ((hf c).symm.trans_le (hm h')) (not_le.2 h)
    have h2 : ¬ f.get c ≤ store (dtm.get c) := not_le.2 h
    rw [if_neg h1, if_neg h2]
    push Not at h1
    rcases hlow.lt_or_eq with hl | hl
    · rw [if_pos (max_lt hl h1).ne, if_pos (max_lt hl h).ne]
      refine ⟨?_, by simp⟩
      rw [hm.map_max, hlh]
    · rw [hl, max_eq_left h1.le, max_eq_left h.le]
      simp [h2]
  · rw [if_pos h.ge]
    by_cases h1 : f.get c ≤ dtm.get c
    · rw [if_pos h1]
      simp [not_lt.2 h1]
    · rw [if_neg h1]
      push Not at h1
      rcases hlow.lt_or_eq with hl | hl
      · rw [if_pos (max_lt hl h1).ne]
        refine ⟨?_, by simp [h1, h.ge, hl]⟩
        rw [hm.map_max, hlh, h, max_eq_right hl.le]
        exact set_self f c
      · rw [hl, max_eq_left h1.le]
        simp

theorem holds_cell (hm : Monotone store) (hi : ∀ x, store (store x) = store x) (hf : Holds32 store f) (c : Cell) :
    Holds32 store (fillCellStored store dtm f c).1 := by
  rw [fillCellStored_low]
  split_ifs
  · exact hf
  · exact hf
  · intro x
    by_cases hx : x = c
    · subst hx; simp [Raster.set, hi]
    · simp [Raster.set, Function.update_of_ne hx, hf x]

abbrev idStep : Cell → Cell → β → β := fun _ _ => id

/-- What a sweep over interior cells does. -/
structure StoredSpec (store : β → β) (dtm : Raster β) (cs : List Cell) (f : Raster β) (res : Raster β × Bool) : Prop where
  inv : Inv idStep (dtm.map store) res.1
  holds : Holds32 store res.1
  eq : res.1 = (sweepWith (fillCell (dtm.map store)) cs f).1
  changed : res.2 = true → measure idStep (dtm.map store) res.1 < measure idStep (dtm.map store) f ∨
    (res.1 = f ∧ (∀ c ∈ cs, ∀ b, Adj c b → f.get c ≤ max (store (dtm.get c)) (f.get b)) ∧ ∃ c ∈ cs, Stuck store dtm f c)
  unchanged : res.2 = false → res.1 = f ∧ (∀ c ∈ cs, ∀ b, Adj c b → f.get c ≤ max (store (dtm.get c)) (f.get b)) ∧
    ∀ c ∈ cs, ¬ Stuck store dtm f c

theorem sweep_stored (hm : Monotone store) (hi : ∀ x, store (store x) = store x) (cs : List Cell)
    (hcs : ∀ c ∈ cs, dtm.Has c) (hI : Inv idStep (dtm.map store) f) (hf : Holds32 store f) :
    StoredSpec store dtm cs f (sweepWith (fillCellStored store dtm) cs f) := by
  -- the two sweeps side by side
  have key : ∀ (cs : List Cell) (g : Raster β) (ch ch' : Bool), (∀ c ∈ cs, dtm.Has c) → Inv idStep (dtm.map store) g →
      Holds32 store g → (ch' = true → ch = true) →
      let res := cs.foldl (fun st c =>
        let (filled', ch) := fillCellStored store dtm st.1 c
        (filled', if ch then true else st.2)) (g, ch)
      let res' := cs.foldl (fun st c =>
        let (filled', ch) := fillCell (dtm.map store) st.1 c
        (filled', if ch then true else st.2)) (g, ch')
      Holds32 store res.1 ∧ res.1 = res'.1 ∧ (res'.2 = true → res.2 = true) ∧
        (res'.2 = false → ch' = false ∧ res'.1 = g ∧ (res.2 = true ↔ ch = true ∨ ∃ c ∈ cs, Stuck store dtm g c)) := by
    intro cs
    induction cs with
    | nil => intro g ch ch' _ _ hg hch; simp [hg]; exact hch
    | cons c cs ih =>
      intro g ch ch' hcs hI hg hch
      have hc := hcs c (by simp)
      obtain ⟨e1, e2⟩ := cell_stored (dtm := dtm) hm hg (hI.ge c hc)
      have s1 := sweep_spec id_good (fillCell_relax (dtm.map store)) [c] (by simpa [Raster.Has] using hc) hI
      have hone : sweepWith (fillCell (dtm.map store)) [c] g =
          ((fillCell (dtm.map store) g c).1, if (fillCell (dtm.map store) g c).2 then true else false) := rfl
      rw [hone] at s1
      have hu := (fillCell_relax (dtm.map store)).unchanged g c
      simp only [List.foldl_cons]
      obtain ⟨r1, r2, r3, r4⟩ := ih (fillCellStored store dtm g c).1 (if (fillCellStored store dtm g c).2 then true else ch)
        (if (fillCell (dtm.map store) g c).2 then true else ch') (fun x hx => hcs x (by simp [hx]))
        (by rw [e1]; exact s1.inv) (holds_cell hm hi hg c) (by
          intro h
          by_cases h' : (fillCell (dtm.map store) g c).2 = true
          · simp [e2.2 (.inl h')]
          · simp only [h', if_false, Bool.false_eq_true] at h
            simp [hch h])
      rw [e1] at r1 r2 r3 r4 ⊢
      refine ⟨r1, r2, r3, fun h => ?_⟩
      obtain ⟨a1, a2, a3⟩ := r4 h
      by_cases h' : (fillCell (dtm.map store) g c).2 = true
      · simp [h'] at a1
      · simp only [h', if_false, Bool.false_eq_true] at a1
        have hug := hu (by simpa using h')
        rw [hug] at a2 a3
        refine ⟨a1, by rw [hug]; exact a2, ?_⟩
        rw [hug, a3]
        simp only [List.mem_cons, exists_eq_or_imp]
        by_cases h2 : (fillCellStored store dtm g c).2 = true
        · have : Stuck store dtm g c := (e2.1 h2).resolve_left h'
          simp [h2, this]
        · have : ¬ Stuck store dtm g c := fun hs => h2 (e2.2 (.inr hs))
          simp [h2, this]
  obtain ⟨k1, k2, k3, k4⟩ := key cs f false false hcs hI hf (by simp)
  have s := sweep_spec id_good (fillCell_relax (dtm.map store)) cs (by simpa [Raster.Has] using hcs) hI
  have h1 : (sweepWith (fillCellStored store dtm) cs f).1 = (sweepWith (fillCell (dtm.map store)) cs f).1 := k2
  refine ⟨by rw [h1]; exact s.inv, k1, h1, fun h => ?_, fun h => ?_⟩
  · cases hE : (sweepWith (fillCell (dtm.map store)) cs f).2 with
    | true => rw [h1]; exact .inl (s.changed hE)
    | false =>
      obtain ⟨_, b2, b3⟩ := k4 hE
      exact .inr ⟨h1.trans b2, (s.unchanged hE).2, by simpa using b3.1 h⟩
  · have hE : (sweepWith (fillCell (dtm.map store)) cs f).2 = false := by
      by_contra hE
      have hE : (sweepWith (fillCell (dtm.map store)) cs f).2 = true := by simpa using hE
      have := k3 hE
      unfold sweepWith at h
      rw [h] at this
      exact absurd this (by simp)
    obtain ⟨_, b2, b3⟩ := k4 hE
    refine ⟨h1.trans b2, (s.unchanged hE).2, fun c hc hs => ?_⟩
    have := b3.2 (.inr ⟨c, hc, hs⟩)
    unfold sweepWith at h
    rw [h] at this
    exact absurd this (by simp)

/-- State after some of the sweeps of an iteration that started with `f`. -/
structure Phase (store : β → β) (dtm f : Raster β) (s : Raster β × Bool) : Prop where
  inv : Inv idStep (dtm.map store) s.1
  holds : Holds32 store s.1
  le : measure idStep (dtm.map store) s.1 ≤ measure idStep (dtm.map store) f
  changed : s.2 = true → measure idStep (dtm.map store) s.1 < measure idStep (dtm.map store) f ∨
    (IsFix idStep (dtm.map store) s.1 ∧ ∃ c, Interior dtm.rows dtm.cols c ∧ Stuck store dtm s.1 c)
  unchanged : s.2 = false → IsFix idStep (dtm.map store) s.1 ∧ ∀ c, Interior dtm.rows dtm.cols c → ¬ Stuck store dtm s.1 c

theorem sweepCells_interior (hr : 3 ≤ dtm.rows) (hc : 3 ≤ dtm.cols) (a b c d : Int)
    (hab : (a = 1 ∧ b = (dtm.rows : Int) - 2) ∨ (a = (dtm.rows : Int) - 2 ∧ b = 1))
    (hcd : (c = 1 ∧ d = (dtm.cols : Int) - 2) ∨ (c = (dtm.cols : Int) - 2 ∧ d = 1)) (x : Cell) :
    x ∈ sweepCells a b c d ↔ Interior dtm.rows dtm.cols x := by
  rw [mem_sweepCells, interior_iff]
  omega

theorem phase_sweep (hm : Monotone store) (hi : ∀ x, store (store x) = store x) (hr : 3 ≤ dtm.rows) (hc : 3 ≤ dtm.cols)
    (a b c d : Int)
    (hab : (a = 1 ∧ b = (dtm.rows : Int) - 2) ∨ (a = (dtm.rows : Int) - 2 ∧ b = 1))
    (hcd : (c = 1 ∧ d = (dtm.cols : Int) - 2) ∨ (c = (dtm.cols : Int) - 2 ∧ d = 1)) {g : Raster β}
    (hI : Inv idStep (dtm.map store) g) (hg : Holds32 store g)
    (hle : measure idStep (dtm.map store) g ≤ measure idStep (dtm.map store) f) :
    Phase store dtm f (fillTerrainSweepStored store dtm g a b c d) := by
  have hcells := sweepCells_interior hr hc a b c d hab hcd
  have s := sweep_stored (dtm := dtm) hm hi (sweepCells a b c d) (fun x hx => ((hcells x).1 hx).1) hI hg
  have sle : (fillTerrainSweepStored store dtm g a b c d).1 = g ∨
      measure idStep (dtm.map store) (fillTerrainSweepStored store dtm g a b c d).1 < measure idStep (dtm.map store) g := by
    cases h : (fillTerrainSweepStored store dtm g a b c d).2 with
    | true =>
      rcases s.changed h with h | h
      · exact .inr h
      · exact .inl h.1
    | false => exact .inl (s.unchanged h).1
  refine ⟨s.inv, s.holds, ?_, fun h => ?_, fun h => ?_⟩
  · rcases sle with h | h
    · rw [h]; exact hle
    · exact h.le.trans hle
  · rcases s.changed h with h | ⟨e, hfix, x, hx, hs⟩
    · exact .inl (h.trans_le hle)
    · refine .inr ?_
      have e : (fillTerrainSweepStored store dtm g a b c d).1 = g := e
      rw [e]
      exact ⟨fun x hx b hb => hfix x ((hcells x).2 hx) b hb, x, (hcells x).1 hx, hs⟩
  · obtain ⟨e, hfix, hs⟩ := s.unchanged h
    have e : (fillTerrainSweepStored store dtm g a b c d).1 = g := e
    rw [e]
    exact ⟨fun x hx b hb => hfix x ((hcells x).2 hx) b hb, fun x hx => hs x ((hcells x).2 hx)⟩

theorem phase_and (hm : Monotone store) (hi : ∀ x, store (store x) = store x) (hr : 3 ≤ dtm.rows) (hc : 3 ≤ dtm.cols)
    (a b c d : Int)
    (hab : (a = 1 ∧ b = (dtm.rows : Int) - 2) ∨ (a = (dtm.rows : Int) - 2 ∧ b = 1))
    (hcd : (c = 1 ∧ d = (dtm.cols : Int) - 2) ∨ (c = (dtm.cols : Int) - 2 ∧ d = 1)) {s : Raster β × Bool}
    (hs : Phase store dtm f s) : Phase store dtm f (andSweep (fillTerrainSweepStored store dtm) s a b c d) := by
  unfold andSweep
  cases h : s.2 with
  | true => rw [if_pos rfl]; exact phase_sweep hm hi hr hc a b c d hab hcd hs.inv hs.holds hs.le
  | false => exact ⟨hs.inv, hs.holds, hs.le, by simp, fun _ => hs.unchanged h⟩

theorem phase_iteration (hm : Monotone store) (hi : ∀ x, store (store x) = store x) (hr : 3 ≤ dtm.rows) (hc : 3 ≤ dtm.cols)
    (hI : Inv idStep (dtm.map store) f) (hf : Holds32 store f) :
    Phase store dtm f (iteration (fillTerrainSweepStored store dtm) dtm f) := by
  rw [iteration_eq]
  exact phase_and hm hi hr hc _ _ _ _ (.inr ⟨rfl, rfl⟩) (.inl ⟨rfl, rfl⟩)
    (phase_and hm hi hr hc _ _ _ _ (.inl ⟨rfl, rfl⟩) (.inr ⟨rfl, rfl⟩)
    (phase_and hm hi hr hc _ _ _ _ (.inr ⟨rfl, rfl⟩) (.inr ⟨rfl, rfl⟩)
    (phase_sweep hm hi hr hc _ _ _ _ (.inl ⟨rfl, rfl⟩) (.inl ⟨rfl, rfl⟩) hI hf le_rfl)))

theorem initializeStored_eq (store : β → β) (dtm : Raster β) :
    initializeStored store dtm = initializeFilled (dtm.map store) := rfl

theorem holds_init (hi : ∀ x, store (store x) = store x) (ht : store ⊤ = ⊤) (dtm : Raster β) :
    Holds32 store (initializeStored store dtm) := by
  intro c
  unfold initializeStored
  dsimp only
  split_ifs
  · exact hi _
  · exact ht

/-- A fixpoint holds the filled elevations of the converted DEM. -/
theorem fix_eq (hI : Inv idStep dtm f) (hF : IsFix idStep dtm f) {F : Raster β} (h : Returns (fillTerrain dtm) (.ok F))
    {c : Cell} (hc : dtm.Has c) : f.get c = F.get c := by
  obtain ⟨hI', hF'⟩ := inv_of_returns h
  exact (fix_isLeast id_good hI hF hc).unique (fix_isLeast id_good hI' hF' hc)

theorem stuck_congr {F : Raster β} (h : ∀ c, dtm.Has c → f.get c = F.get c) {c : Cell}
    (hc : Interior dtm.rows dtm.cols c) : Stuck store dtm f c ↔ Stuck store dtm F c := by
  unfold Stuck
  rw [h c hc.1]
  have hb : ∀ b, Adj c b → f.get b = F.get b := by
    intro b hb
    apply h
    rw [interior_iff] at hc
    rw [adj_iff] at hb
    unfold Raster.Has InGrid
    rcases hb with rfl | rfl | rfl | rfl | rfl | rfl | rfl | rfl <;> simp only <;> omega
  constructor
  · rintro ⟨h1, h2, b, h3, h4⟩; exact ⟨h1, h2, b, h3, by rwa [← hb b h3]⟩
  · rintro ⟨h1, h2, b, h3, h4⟩; exact ⟨h1, h2, b, h3, by rwa [hb b h3]⟩

/-- If no cell is stuck the loop ends with the filled converted DEM. -/
theorem stored_returns (hm : Monotone store) (hi : ∀ x, store (store x) = store x) (ht : store ⊤ = ⊤)
    (hr : 3 ≤ dtm.rows) (hc : 3 ≤ dtm.cols) {F : Raster β} (hF : Returns (fillTerrain (dtm.map store)) (.ok F))
    (hs : ∀ c, Interior dtm.rows dtm.cols c → ¬ Stuck store dtm F c) :
    ∃ r, Returns (fillTerrainStored store dtm) r ∧ r.Same F := by
  have hI' := (inv_of_returns hF).1
  refine doWhile_returns _ (fun f => Inv idStep (dtm.map store) f ∧ Holds32 store f) (measure idStep (dtm.map store))
    (fun r => r.Same F) ?_ ?_ _ ⟨inv_init _ (dtm.map store), holds_init hi ht dtm⟩
  · rintro f ⟨hI, hf⟩ h
    have p := phase_iteration hm hi hr hc hI hf
    refine ⟨⟨p.inv, p.holds⟩, (p.changed h).resolve_right ?_⟩
    rintro ⟨hfix, c, hc, hst⟩
    exact hs c hc ((stuck_congr (dtm := dtm) (fun c hc => fix_eq p.inv hfix hF hc) hc).1 hst)
  · rintro f ⟨hI, hf⟩ h
    have p := phase_iteration hm hi hr hc hI hf
    refine ⟨by rw [p.inv.rows, hI'.rows], by rw [p.inv.cols, hI'.cols], fun c hc => ?_⟩
    refine fix_eq p.inv (p.unchanged h).1 hF ?_
    unfold Raster.Has at *
    rwa [p.inv.rows, p.inv.cols] at hc

theorem doWhile_ends {σ : Type*} (body : σ → σ × Bool) (I : σ → Prop) (Q : σ → Prop)
    (h1 : ∀ s, I s → (body s).2 = true → I (body s).1) (h2 : ∀ s, I s → (body s).2 = false → Q (body s).1)
    (n : Nat) (s r : σ) (hs : I s) (h : doWhile body n s = some r) : Q r := by
  induction n generalizing s with
  | zero => simp [doWhile] at h
  | succ n ih =>
    simp only [doWhile] at h
    cases hb : (body s).2 with
    | true => rw [hb] at h; exact ih _ (h1 s hs hb) h
    | false =>
      rw [hb] at h
      simp at h
      rw [← h]
      exact h2 s hs hb

/-- If the loop ends no cell is stuck. -/
theorem stored_ends (hm : Monotone store) (hi : ∀ x, store (store x) = store x) (ht : store ⊤ = ⊤)
    (hr : 3 ≤ dtm.rows) (hc : 3 ≤ dtm.cols) {F : Raster β} (hF : Returns (fillTerrain (dtm.map store)) (.ok F))
    {n : Nat} {r : Raster β} (h : fillTerrainStored store dtm n = some r) (c : Cell) (hin : Interior dtm.rows dtm.cols c) :
    ¬ Stuck store dtm F c := by
  refine doWhile_ends _ (fun f => Inv idStep (dtm.map store) f ∧ Holds32 store f)
    (fun _ => ¬ Stuck store dtm F c) ?_ ?_ n _ r ⟨inv_init _ (dtm.map store), holds_init hi ht dtm⟩ h
  · rintro f ⟨hI, hf⟩ h
    have p := phase_iteration hm hi hr hc hI hf
    exact ⟨p.inv, p.holds⟩
  · rintro f ⟨hI, hf⟩ h
    have p := phase_iteration hm hi hr hc hI hf
    obtain ⟨q1, q2⟩ := p.unchanged h
    exact fun hst => q2 c hin ((stuck_congr (dtm := dtm) (fun c hc => fix_eq p.inv q1 hF hc) hin).2 hst)

end Fill
end Malstroem
