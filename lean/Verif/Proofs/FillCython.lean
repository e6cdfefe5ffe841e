import Verif.Proofs.FillMain

set_option linter.unusedSectionVars false

namespace Malstroem
open Spec
namespace FillCython

variable {β : Type*} [LinearOrder β] [OrderTop β]

theorem fillCell_eq (dtm : Raster β) : fillCell dtm = Fill.fillCell dtm := by
  funext f c
  unfold fillCell Fill.fillCell
  dsimp only
  by_cases h : f.get (c.1, c.2) > dtm.get (c.1, c.2)
  · rw [if_pos h, if_neg (not_le.2 h)]
  · rw [if_neg h, if_pos (not_lt.1 h)]

theorem fillCellNoFlats_eq (short diag : β → β) (dtm : Raster β) :
    fillCellNoFlats short diag dtm = Fill.fillCellNoFlats short diag dtm := by
  funext f c
  unfold fillCellNoFlats Fill.fillCellNoFlats
  dsimp only
  by_cases h : f.get (c.1, c.2) > dtm.get (c.1, c.2)
  · rw [if_pos h, if_neg (not_le.2 h)]
  · rw [if_neg h, if_pos (not_lt.1 h)]

theorem mem_untilNe {n : Nat} {x stop step y : Int} (hs : step = 1 ∧ x ≤ stop ∨ step = -1 ∧ stop ≤ x)
    (hn : n = (stop - x).natAbs) :
    y ∈ untilNe n x stop step ↔ (step = 1 ∧ x ≤ y ∧ y < stop ∨ step = -1 ∧ stop < y ∧ y ≤ x) := by
  induction n generalizing x with
  | zero => simp only [untilNe, List.not_mem_nil, false_iff]; omega
  | succ n ih =>
    unfold untilNe
    rw [if_pos (by omega), List.mem_cons, ih (by omega) (by omega)]
    omega

theorem mem_sweepCells {r1 r2 c1 c2 : Int} {c : Cell} : c ∈ sweepCells r1 r2 c1 c2 ↔
    (r1 ≤ c.1 ∧ c.1 < r2 ∨ r2 < c.1 ∧ c.1 ≤ r1) ∧ (c1 ≤ c.2 ∧ c.2 < c2 ∨ c2 < c.2 ∧ c.2 ≤ c1) := by
  unfold sweepCells
  simp only [List.mem_flatMap, List.mem_map]
  have hr : ∀ (a b y : Int), y ∈ untilNe (b - a).natAbs a b (if b > a then 1 else -1) ↔
      (a ≤ y ∧ y < b ∨ b < y ∧ y ≤ a) := by
    intro a b y
    rw [mem_untilNe (by split_ifs <;> omega) rfl]
    split_ifs <;> omega
  simp only [hr]
  constructor
  · rintro ⟨a, ha, b, hb, rfl⟩; exact ⟨ha, hb⟩
  · rintro ⟨h1, h2⟩; exact ⟨c.1, h1, c.2, h2, rfl⟩

/-- Each cell of the list has a neighbour in `S` or earlier in the list. -/
def Grounded : Set Cell → List Cell → Prop
  | _, [] => True
  | S, c :: cs => (∃ b, Adj c b ∧ b ∈ S) ∧ Grounded (insert c S) cs

theorem Grounded.mono {S T : Set Cell} {l : List Cell} (h : Grounded S l) (hST : S ⊆ T) : Grounded T l := by
  induction l generalizing S T with
  | nil => trivial
  | cons c cs ih =>
    obtain ⟨⟨b, hb, hbS⟩, h2⟩ := h
    exact ⟨⟨b, hb, hST hbS⟩, ih h2 (Set.insert_subset_insert hST)⟩

theorem Grounded.append {S : Set Cell} {l l' : List Cell} (h : Grounded S l) (h' : Grounded S l') :
    Grounded S (l ++ l') := by
  induction l generalizing S with
  | nil => exact h'
  | cons c cs ih => exact ⟨h.1, ih h.2 (h'.mono (Set.subset_insert _ _))⟩

theorem grounded_row {S : Set Cell} {r x stop step : Int} {n : Nat} (hs : step = 1 ∨ step = -1)
    (h : (r, x - step) ∈ S) : Grounded S ((untilNe n x stop step).map fun c => (r, c)) := by
  induction n generalizing x S with
  | zero => simp [untilNe, Grounded]
  | succ n ih =>
    unfold untilNe
    split_ifs with hx
    · refine ⟨⟨(r, x - step), ?_, h⟩, ih ?_⟩
      · rw [adj_iff]; rcases hs with rfl | rfl <;> simp
      · simp
    · simp [Grounded]

theorem grounded_sweep {S : Set Cell} {r1 r2 c1 c2 : Int}
    (h : ∀ r, (r1 ≤ r ∧ r < r2 ∨ r2 < r ∧ r ≤ r1) → (r, c1 - (if c2 > c1 then 1 else -1)) ∈ S) :
    Grounded S (sweepCells r1 r2 c1 c2) := by
  unfold sweepCells
  have hr : ∀ (a b y : Int), y ∈ untilNe (b - a).natAbs a b (if b > a then 1 else -1) ↔
      (a ≤ y ∧ y < b ∨ b < y ∧ y ≤ a) := by
    intro a b y
    rw [mem_untilNe (by split_ifs <;> omega) rfl]
    split_ifs <;> omega
  have key : ∀ (l : List Int), (∀ r ∈ l, (r1 ≤ r ∧ r < r2 ∨ r2 < r ∧ r ≤ r1)) →
    Grounded S (l.flatMap fun r =>
      (untilNe (c2 - c1).natAbs c1 c2 (if c2 > c1 then 1 else -1)).map fun c => (r, c)) := by
    intro l
    induction l with
    | nil => intro _; simp [Grounded]
    | cons r l ih =>
      intro hl
      rw [List.flatMap_cons]
      refine Grounded.append (grounded_row (by split_ifs <;> simp) (h r (hl r (by simp)))) (ih ?_)
      intro r' hr'; exact hl r' (List.mem_cons_of_mem _ hr')
  exact key _ fun r hr' => (hr _ _ _).1 hr'

section
variable {step : Cell → Cell → β → β} {dtm : Raster β}

theorem sweep_grounded {cell : Raster β → Cell → Raster β × Bool} (hcell : Fill.IsRelax step dtm cell)
    (hfin : ∀ c, dtm.Has c → dtm.get c < ⊤) (hstepfin : ∀ a b x, x < ⊤ → step a b x < ⊤)
    (cs : List Cell) (hcs : ∀ c ∈ cs, dtm.Has c) (f : Raster β) (S : Set Cell)
    (hS : ∀ c ∈ S, f.get c < ⊤) (hg : Grounded S cs) :
    (∀ c, (c ∈ S ∨ c ∈ cs) → (Fill.sweepWith cell cs f).1.get c < ⊤) ∧
      (∀ c, c ∉ cs → (Fill.sweepWith cell cs f).1.get c = f.get c) := by
  have key : ∀ (cs : List Cell) (g : Raster β) (ch : Bool) (S : Set Cell), (∀ c ∈ cs, dtm.Has c) →
      (∀ c ∈ S, g.get c < ⊤) → Grounded S cs →
      let res := cs.foldl (fun st c =>
        let (filled', ch) := cell st.1 c
        (filled', if ch then true else st.2)) (g, ch)
      (∀ c, (c ∈ S ∨ c ∈ cs) → res.1.get c < ⊤) ∧ (∀ c, c ∉ cs → res.1.get c = g.get c) := by
    intro cs
    induction cs with
    | nil => intro g ch S _ hS _; exact ⟨fun c hc => hS c (by simpa using hc), fun _ _ => rfl⟩
    | cons c cs ih =>
      intro g ch S hcs hS hg
      obtain ⟨⟨b, hb, hbS⟩, hg2⟩ := hg
      simp only [List.foldl_cons]
      have hfinc : ∀ x ∈ insert c S, (cell g c).1.get x < ⊤ := by
        intro x hx
        cases hr : (cell g c).2 with
        | false =>
          rw [hcell.unchanged g c hr]
          rcases Set.mem_insert_iff.1 hx with rfl | hx
          · exact (hcell.fix g x hr b hb).trans_lt
              (max_lt (hfin x (hcs x (by simp))) (hstepfin _ _ _ (hS b hbS)))
          · exact hS x hx
        | true =>
          obtain ⟨_, b', _, heq, hlt⟩ := hcell.changed g c hr
          rw [heq]
          by_cases hxc : x = c
          · subst hxc
            simp only [Raster.set, Function.update_self]
            exact hlt.trans_le le_top
          · simp only [Raster.set, Function.update_of_ne hxc]
            exact hS x ((Set.mem_insert_iff.1 hx).resolve_left hxc)
      have hout : ∀ x, x ≠ c → (cell g c).1.get x = g.get x := by
        intro x hx
        cases hr : (cell g c).2 with
        | false => rw [hcell.unchanged g c hr]
        | true =>
          obtain ⟨_, b', _, heq, _⟩ := hcell.changed g c hr
          rw [heq]; simp [Raster.set, Function.update_of_ne hx]
      have := ih (cell g c).1 (if (cell g c).2 then true else ch) (insert c S)
        (fun c hc => hcs c (List.mem_cons_of_mem _ hc)) hfinc hg2
      refine ⟨fun x hx => this.1 x ?_, fun x hx => ?_⟩
      · rcases hx with hx | hx
        · exact .inl (Set.mem_insert_of_mem _ hx)
        · rcases List.mem_cons.1 hx with rfl | hx
          · exact .inl (Set.mem_insert _ _)
          · exact .inr hx
      · simp only [List.mem_cons, not_or] at hx
        rw [this.2 x hx.2, hout x hx.1]
  exact key cs f false S hcs hS hg

/-- All cells finite. -/
def AllFin (dtm f : Raster β) : Prop := ∀ c, dtm.Has c → f.get c < ⊤

theorem init_interior {c : Cell} (hc : Interior dtm.rows dtm.cols c) : (Fill.initializeFilled dtm).get c = ⊤ := by
  unfold Fill.initializeFilled
  rw [interior_iff] at hc
  simp only
  rw [if_neg]; omega

/-- After the first iteration every cell is finite (at least 4 x 4). -/
theorem first_iteration_fin (hr : 4 ≤ dtm.rows) (hc : 4 ≤ dtm.cols)
    {cell : Raster β → Cell → Raster β × Bool} (hcell : Fill.IsRelax step dtm cell)
    (hfin : ∀ c, dtm.Has c → dtm.get c < ⊤) (hstepfin : ∀ a b x, x < ⊤ → step a b x < ⊤)
    (hstep : Fill.GoodStep step) :
    AllFin dtm (Fill.iteration (fun f a b c d => Fill.sweepWith cell (sweepCells a b c d) f) dtm
      (Fill.initializeFilled dtm)).1 := by
  set sw := fun (f : Raster β) (a b c d : Int) => Fill.sweepWith cell (sweepCells a b c d) f with hsw
  set f0 := Fill.initializeFilled dtm with hf0
  set maxrow : Int := (dtm.rows : Int) - 2 with hmr
  set maxcol : Int := (dtm.cols : Int) - 2 with hmc
  have hit : Fill.iteration sw dtm f0 =
    let s1 := sw f0 1 maxrow 1 maxcol
    let s2 := if s1.2 then sw s1.1 maxrow 1 maxcol 1 else (s1.1, false)
    let s3 := if s2.2 then sw s2.1 1 maxrow maxcol 1 else (s2.1, false)
    if s3.2 then sw s3.1 maxrow 1 1 maxcol else (s3.1, false) := rfl
  -- one sweep
  have one : ∀ (f : Raster β) (a b c d : Int) (T : Set Cell), Fill.Inv step dtm f →
      ((a = 1 ∧ b = maxrow) ∨ (a = maxrow ∧ b = 1)) → ((c = 1 ∧ d = maxcol) ∨ (c = maxcol ∧ d = 1)) →
      (∀ x ∈ T, f.get x < ⊤) →
      Fill.Inv step dtm (sw f a b c d).1 ∧
      (∀ x, x ∈ T ∨ x ∈ sweepCells a b c d → (sw f a b c d).1.get x < ⊤) ∧
      (∀ x, x ∉ sweepCells a b c d → (sw f a b c d).1.get x = f.get x) ∧
      (f.get (a, c) = ⊤ → (sw f a b c d).2 = true) := by
    intro f a b c d T hI hab hcd hT
    have hcs : ∀ x ∈ sweepCells a b c d, dtm.Has x := by
      intro x hx
      rw [mem_sweepCells] at hx
      unfold Raster.Has InGrid
      omega
    have hedgefin : ∀ x, OnEdge dtm.rows dtm.cols x → f.get x < ⊤ := fun x hx => by
      rw [hI.edge x hx]; exact hfin x hx.1
    have hg : Grounded (T ∪ {x | OnEdge dtm.rows dtm.cols x}) (sweepCells a b c d) := by
      apply grounded_sweep
      intro r hr'
      right
      show OnEdge dtm.rows dtm.cols _
      unfold OnEdge InGrid
      simp only
      split_ifs <;> omega
    have hsp := Fill.sweep_spec hstep hcell _ hcs hI
    have hgr := sweep_grounded hcell hfin hstepfin _ hcs f _
      (fun x hx => by rcases hx with hx | hx; exacts [hT x hx, hedgefin x hx]) hg
    refine ⟨hsp.inv, fun x hx => hgr.1 x (hx.imp_left .inl), hgr.2, fun htop => ?_⟩
    by_contra hne
    have hfalse : (sw f a b c d).2 = false := by simpa using hne
    have heq := (hsp.unchanged hfalse).1
    have hmem : (a, c) ∈ sweepCells a b c d := by rw [mem_sweepCells]; omega
    have := hgr.1 (a, c) (.inr hmem)
    rw [heq, htop] at this
    exact lt_irrefl _ this
  have hI0 := Fill.inv_init step dtm
  have top0 : ∀ x, Interior dtm.rows dtm.cols x → f0.get x = ⊤ := fun x hx => init_interior hx
  obtain ⟨i1, t1, u1, c1⟩ := one f0 1 maxrow 1 maxcol ∅ hI0 (.inl ⟨rfl, rfl⟩) (.inl ⟨rfl, rfl⟩) (by simp)
  have k1 := c1 (top0 (1, 1) (by rw [interior_iff]; simp only; omega))
  set f1 := (sw f0 1 maxrow 1 maxcol).1 with hf1
  obtain ⟨i2, t2, u2, c2⟩ := one f1 maxrow 1 maxcol 1 _ i1 (.inr ⟨rfl, rfl⟩) (.inr ⟨rfl, rfl⟩)
    (fun x (hx : x ∈ {x | x ∈ sweepCells 1 maxrow 1 maxcol}) => t1 x (.inr hx))
  have k2 := c2 (by
    rw [u1 (maxrow, maxcol) (by rw [mem_sweepCells]; simp only; omega)]
    exact top0 _ (by rw [interior_iff]; simp only; omega))
  set f2 := (sw f1 maxrow 1 maxcol 1).1 with hf2
  obtain ⟨i3, t3, u3, c3⟩ := one f2 1 maxrow maxcol 1 _ i2 (.inl ⟨rfl, rfl⟩) (.inr ⟨rfl, rfl⟩)
    (fun x (hx : x ∈ {x | x ∈ sweepCells 1 maxrow 1 maxcol ∨ x ∈ sweepCells maxrow 1 maxcol 1}) => t2 x hx)
  have k3 := c3 (by
    rw [u2 (1, maxcol) (by rw [mem_sweepCells]; simp only; omega),
      u1 (1, maxcol) (by rw [mem_sweepCells]; simp only; omega)]
    exact top0 _ (by rw [interior_iff]; simp only; omega))
  set f3 := (sw f2 1 maxrow maxcol 1).1 with hf3
  obtain ⟨i4, t4, u4, c4⟩ := one f3 maxrow 1 1 maxcol _ i3 (.inr ⟨rfl, rfl⟩) (.inl ⟨rfl, rfl⟩)
    (fun x (hx : x ∈ {x | (x ∈ sweepCells 1 maxrow 1 maxcol ∨ x ∈ sweepCells maxrow 1 maxcol 1) ∨
      x ∈ sweepCells 1 maxrow maxcol 1}) => t3 x hx)
  have hfinal : Fill.iteration sw dtm f0 = sw f3 maxrow 1 1 maxcol := by
    rw [hit]
    simp only [k1, if_true, ← hf1, k2, ← hf2, k3, ← hf3]
  rw [hfinal]
  intro x hx
  rcases edge_or_interior hx with he | hi
  · rw [i4.edge x he]; exact hfin x hx
  · apply t4
    rw [interior_iff] at hi
    by_cases h : x ∈ sweepCells maxrow 1 1 maxcol
    · exact .inr h
    · left
      show (_ ∨ _) ∨ _
      rw [mem_sweepCells] at h
      simp only [mem_sweepCells]
      omega

/-- The compiled loop returns. -/
theorem loop_returns (hr : 2 ≤ dtm.rows) (hc : 2 ≤ dtm.cols) (hr3 : dtm.rows ≠ 3) (hc3 : dtm.cols ≠ 3)
    {cell : Raster β → Cell → Raster β × Bool} (hcell : Fill.IsRelax step dtm cell) (hstep : Fill.GoodStep step) :
    ∃ r, Returns (fun n => doWhile (Fill.iteration
        (fun f a b c d => Fill.sweepWith cell (sweepCells a b c d) f) dtm) n (Fill.initializeFilled dtm)) r ∧
      Fill.Inv step dtm r ∧
      ((∀ c, dtm.Has c → dtm.get c < ⊤) → (∀ a b x, x < ⊤ → step a b x < ⊤) → AllFin dtm r) := by
  set sw := fun (f : Raster β) (a b c d : Int) => Fill.sweepWith cell (sweepCells a b c d) f with hsw
  have hit := fun (f : Raster β) (hI : Fill.Inv step dtm f) =>
    Fill.iteration_spec hstep hcell sweepCells sw
      (fun _ _ _ _ _ => rfl) (fun _ => True)
      (fun a b c d hab hcd => ⟨fun x hx => by
        rw [mem_sweepCells] at hx
        unfold Raster.Has InGrid
        omega, trivial⟩) hI
  let FinP := fun (f : Raster β) =>
    (∀ c, dtm.Has c → dtm.get c < ⊤) → (∀ a b x, x < ⊤ → step a b x < ⊤) → AllFin dtm f
  have hfin : ∀ f, Fill.Inv step dtm f → (f = Fill.initializeFilled dtm ∨ FinP f) → FinP (Fill.iteration sw dtm f).1 := by
    intro f hI h h1 h2
    rcases h with rfl | h
    · by_cases h4 : 4 ≤ dtm.rows ∧ 4 ≤ dtm.cols
      · exact first_iteration_fin h4.1 h4.2 hcell h1 h2 hstep
      · intro x hx
        have hedge : OnEdge dtm.rows dtm.cols x := by
          rcases edge_or_interior hx with h | h
          · exact h
          · rw [interior_iff] at h; omega
        rw [(hit _ hI).1.edge x hedge]; exact h1 x hx
    · intro x hx
      exact ((hit f hI).2.1 x).trans_lt (h h1 h2 x hx)
  refine doWhile_returns _ (fun f => Fill.Inv step dtm f ∧ (f = Fill.initializeFilled dtm ∨ FinP f))
    (Fill.measure step dtm) (fun r => Fill.Inv step dtm r ∧ FinP r) ?_ ?_ _ ⟨Fill.inv_init step dtm, .inl rfl⟩
  · intro s hs h
    exact ⟨⟨(hit s hs.1).1, .inr (hfin s hs.1 hs.2)⟩, (hit s hs.1).2.2.1 h⟩
  · intro s hs h
    exact ⟨(hit s hs.1).1, hfin s hs.1 hs.2⟩

theorem shapeError_none {rows cols : Nat} : shapeError rows cols = none ↔
    2 ≤ rows ∧ 2 ≤ cols ∧ rows ≠ 3 ∧ cols ≠ 3 := by
  unfold shapeError
  split_ifs <;> simp <;> omega

theorem fillTerrain_returns (dtm : Raster β) (h : shapeError dtm.rows dtm.cols = none) :
    ∃ r, Returns (fillTerrain dtm) (.ok r) ∧ Fill.Inv (fun _ _ => id) dtm r ∧
      ((∀ c, dtm.Has c → dtm.get c < ⊤) → AllFin dtm r) := by
  obtain ⟨h1, h2, h3, h4⟩ := shapeError_none.1 h
  obtain ⟨r, hR, hI, hf⟩ := loop_returns h1 h2 h3 h4 (Fill.fillCell_relax dtm) Fill.id_good
  refine ⟨r, ?_, hI, fun hh => hf hh (fun _ _ _ hx => hx)⟩
  obtain ⟨n, hn⟩ := hR.map (Except.ok (ε := PyErr))
  refine ⟨n, fun m hm => ?_⟩
  unfold fillTerrain
  rw [h]
  have heq : fillTerrainSweep dtm = fun f a b c d => Fill.sweepWith (Fill.fillCell dtm) (sweepCells a b c d) f := by
    funext f a b c d; rw [fillTerrainSweep, fillCell_eq]
  rw [heq]
  exact hn m hm

theorem fillTerrainNoFlats_returns (short diag : β → β) (hs : Monotone short) (hd : Monotone diag)
    (hs' : ∀ x, x ≤ short x) (hd' : ∀ x, x ≤ diag x)
    (dtm : Raster β) (h : shapeError dtm.rows dtm.cols = none) :
    ∃ r, Returns (fillTerrainNoFlats short diag dtm) (.ok r) ∧ Fill.Inv (Fill.stepSD short diag) dtm r ∧
      ((∀ c, dtm.Has c → dtm.get c < ⊤) → (∀ x, x < ⊤ → short x < ⊤) → (∀ x, x < ⊤ → diag x < ⊤) →
        AllFin dtm r) := by
  obtain ⟨h1, h2, h3, h4⟩ := shapeError_none.1 h
  obtain ⟨r, hR, hI, hf⟩ := loop_returns h1 h2 h3 h4 (Fill.fillCellNoFlats_relax short diag hs hd dtm)
    (Fill.sd_good hs hd hs' hd')
  refine ⟨r, ?_, hI, fun hh h5 h6 => hf hh (fun a b x hx => by
    unfold Fill.stepSD; split_ifs; exacts [h5 x hx, h6 x hx])⟩
  obtain ⟨n, hn⟩ := hR.map (Except.ok (ε := PyErr))
  refine ⟨n, fun m hm => ?_⟩
  unfold fillTerrainNoFlats
  rw [h]
  have heq : fillTerrainNoFlatsSweep short diag dtm = fun f a b c d =>
      Fill.sweepWith (Fill.fillCellNoFlats short diag dtm) (sweepCells a b c d) f := by
    funext f a b c d; rw [fillTerrainNoFlatsSweep, fillCellNoFlats_eq]
  rw [heq]
  exact hn m hm

/-- The same for a given result. -/
theorem noFlats_of_returns {short diag : β → β} (hs : Monotone short) (hd : Monotone diag)
    (hs' : ∀ x, x ≤ short x) (hd' : ∀ x, x ≤ diag x) {dtm r : Raster β}
    (h : Returns (fillTerrainNoFlats short diag dtm) (.ok r)) : Fill.Inv (Fill.stepSD short diag) dtm r ∧
      ((∀ c, dtm.Has c → dtm.get c < ⊤) → (∀ x, x < ⊤ → short x < ⊤) → (∀ x, x < ⊤ → diag x < ⊤) →
        AllFin dtm r) := by
  have hse : shapeError dtm.rows dtm.cols = none := by
    obtain ⟨n, hn⟩ := h
    have := hn n le_rfl
    unfold fillTerrainNoFlats at this
    split at this
    · simp at this
    · assumption
  obtain ⟨q, hq, hI, hfin⟩ := fillTerrainNoFlats_returns short diag hs hd hs' hd' dtm hse
  have := h.unique hq
  simp only [Except.ok.injEq] at this
  subst this
  exact ⟨hI, hfin⟩

end
end FillCython
end Malstroem
