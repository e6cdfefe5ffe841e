/-
Properties C24-C28, C53, C54, C58: label functions, bluespot filtering, pour points.
-/
import Verif.Proofs.BluespotsRun
import Verif.Proofs.LabelContract
import Mathlib.Tactic.Ring
import Mathlib.Tactic.Linarith
import Mathlib.Tactic.FieldSimp
import Mathlib.Tactic.LinearCombination

set_option linter.unusedSectionVars false

namespace Malstroem
open Spec

/-- Summing per label and then over the labels is summing over all cells. -/
theorem sum_over_labels {M : Type*} [AddCommMonoid M] (lab : Cell → Int) (g : Cell → M) (n : Nat) :
    ∀ cells : List Cell, (∀ c ∈ cells, 0 ≤ lab c ∧ lab c ≤ n) →
      ((List.range (n + 1)).map fun (l : Nat) => ((cells.filter fun c => lab c = (l : Int)).map g).sum).sum =
        (cells.map g).sum := by
  intro cells
  induction cells with
  | nil => intro _; simp
  | cons c cells ih =>
    intro h
    have ih := ih fun d hd => h d (by simp [hd])
    have hc := h c (by simp)
    have : ∀ l ∈ List.range (n + 1), (((c :: cells).filter fun d => lab d = (l : Int)).map g).sum =
        (if l = (lab c).toNat then g c else 0) + ((cells.filter fun d => lab d = (l : Int)).map g).sum := by
      intro l _
      by_cases hl : lab c = (l : Int)
      · rw [List.filter_cons_of_pos (by simpa using hl), if_pos (by omega)]; simp
      · rw [List.filter_cons_of_neg (by simpa using hl), if_neg (by omega)]; simp
    rw [List.map_congr_left this, List.sum_map_add, ih, List.map_cons, List.sum_cons]
    congr 1
    have hk : ∀ (k : Nat) (x : M) (m : Nat),
        ((List.range m).map fun (a : Nat) => if a = k then x else 0).sum = if k < m then x else 0 := by
      intro k x m
      induction m with
      | zero => simp
      | succ m ihm =>
        rw [List.range_succ, List.map_append, List.sum_append, ihm]
        by_cases h1 : k < m
        · rw [if_pos h1, if_pos (by omega)]
          simp [show m ≠ k by omega]
        · by_cases h2 : m = k
          · simp [h2]
          · rw [if_neg h1, if_neg (by omega)]; simp [h2]
    rw [hk, if_pos (by omega)]

/-! ### C24 -/

section C24
variable {α : Type} [LinearOrder α] [Zero α] [Add α]

/-- C24: `label_stats` returns one record per label 0..n: minimum, maximum, sum (added up in row-major order, in whatever
arithmetic the data has) and number of the data values of the label's cells. -/
theorem C24_label_stats (data : Raster α) (lab : Raster Int) (nlabels : Option Int) (n : Nat)
    (hshape : data.rows = lab.rows ∧ data.cols = lab.cols) (hn : TopLabel lab.rows lab.cols lab.get nlabels n)
    (hr : LabelsIn lab.rows lab.cols lab.get n) :
    ∃ stats, Label.labelStats data lab nlabels = .ok stats ∧ stats.length = n + 1 ∧
      (∀ (l : Nat) (cs : List Cell), l ≤ n → CellsOf lab.rows lab.cols lab.get l cs →
        ∃ s, stats[l]? = some s ∧ s.count = cs.length ∧ s.sum = (cs.map data.get).foldl (· + ·) 0 ∧
          (cs = [] → s.min = ⊤ ∧ s.max = ⊥) ∧
          (cs ≠ [] → IsLeast {x | ∃ c ∈ cs, x = (data.get c : WithTop α)} s.min ∧
            IsGreatest {x | ∃ c ∈ cs, x = (data.get c : WithBot α)} s.max)) ∧
      (stats.map (·.count)).sum = lab.rows * lab.cols := by
  obtain ⟨st, h1, h2, h3⟩ := Label.labelStats_ok id data hshape hn hr
  refine ⟨st, h1, h2, fun l cs hl hcs => ?_, ?_⟩
  · obtain ⟨f1, f2, f3, f4⟩ := Label.fold_stat data cs
    refine ⟨_, h3 l cs hl hcs, f1, f2, fun he => ?_, fun hne => ?_⟩
    · subst he; exact ⟨rfl, rfl⟩
    · rcases f4 with ⟨f4, _⟩ | ⟨⟨c, hc, f4⟩, d, hd, f5⟩
      · exact absurd f4 hne
      · exact ⟨⟨⟨c, hc, f4⟩, by rintro x ⟨e, he, rfl⟩; exact (f3 e he).1⟩,
          ⟨⟨d, hd, f5⟩, by rintro x ⟨e, he, rfl⟩; exact (f3 e he).2⟩⟩
  · have hmap : st.map (·.count) = (List.range (n + 1)).map fun (l : Nat) =>
        (((Raster.cellList lab.rows lab.cols).filter fun c => lab.get c = (l : Int)).map fun _ => (1 : Int)).sum := by
      apply List.ext_getElem?
      intro l
      by_cases hl : l ≤ n
      · rw [List.getElem?_map, List.getElem?_map, List.getElem?_range (by omega), h3 l _ hl (lists_filter _ _ _)]
        simp only [Option.map_some, (Label.fold_stat data _).1]
        simp
      · rw [List.getElem?_eq_none (by simp; omega), List.getElem?_eq_none (by simp; omega)]
    rw [hmap, sum_over_labels lab.get (fun _ => (1 : Int)) n _ (fun c hc => hr c (Flow.mem_cellList.1 hc))]
    simp [Flow.length_cellList]

/-- C24 for the compiled function: the same table. -/
theorem C24_compiled_label_stats (data : Raster α) (lab : Raster Int) (nlabels : Option Int) (n : Nat)
    (hshape : data.rows = lab.rows ∧ data.cols = lab.cols) (hn : TopLabel lab.rows lab.cols lab.get nlabels n)
    (hr : LabelsIn lab.rows lab.cols lab.get n) :
    LabelCython.labelStats data lab nlabels = Label.labelStats data lab nlabels :=
  Label.cython_labelStats id data hshape hn hr

end C24

/-- A labelled raster with background 0, two labels and an unused label 2. -/
def demoLab : Raster Int := Raster.ofRows [[0, 1, 1], [3, 0, 1]]
def demoData : Raster Int := Raster.ofRows [[7, 4, -2], [5, 9, 4]]

/-- Non-vacuity for C24. -/
example : TopLabel demoLab.rows demoLab.cols demoLab.get none 3 := by
  refine .inr ⟨.inl rfl, ⟨(1, 0), by decide, by decide⟩, ?_⟩
  rintro l ⟨c, hc, rfl⟩
  have := Flow.mem_cellList.2 hc
  revert this
  have h : ∀ c ∈ Raster.cellList demoLab.rows demoLab.cols, demoLab.get c ≤ 3 := by decide +kernel
  exact h c
example : ∀ c ∈ Raster.cellList demoLab.rows demoLab.cols, 0 ≤ demoLab.get c ∧ demoLab.get c ≤ 3 := by decide +kernel
example : (Label.labelStats demoData demoLab none).toOption =
    some [⟨7, 9, 16, 2⟩, ⟨-2, 4, 6, 3⟩, ⟨⊤, ⊥, 0, 0⟩, ⟨5, 5, 5, 1⟩] := by decide +kernel
example : CellsOf demoLab.rows demoLab.cols demoLab.get 1 [(0, 1), (0, 2), (1, 2)] := by
  rw [cellsOf_iff]; decide +kernel

/-! ### C25 -/

/-- C25: `label_min_index` returns for each label that is present the first cell (row-major) with the minimal value, and
row = col = -1 for the others. -/
theorem C25_label_min_index {β : Type} [LinearOrder β] [OrderTop β] (data : Raster β) (lab : Raster Int)
    (nlabels : Option Int) (n : Nat)
    (hshape : data.rows = lab.rows ∧ data.cols = lab.cols) (hn : TopLabel lab.rows lab.cols lab.get nlabels n)
    (hr : LabelsIn lab.rows lab.cols lab.get n) (hfin : ∀ c, data.Has c → data.get c < ⊤) :
    ∃ table, Label.labelMinIndex data lab nlabels = .ok table ∧ table.length = n + 1 ∧
      ∀ (l : Nat) (cs : List Cell), l ≤ n → CellsOf lab.rows lab.cols lab.get l cs →
        ∃ s, table[l]? = some s ∧ (cs = [] → s.value = ⊤ ∧ s.row = -1 ∧ s.col = -1) ∧
          (cs ≠ [] → IsFirstMin data.get cs (s.row, s.col) ∧ s.value = data.get (s.row, s.col)) := by
  obtain ⟨st, h1, h2, h3⟩ := Label.labelMinIndex_ok data hshape hn hr
  refine ⟨st, h1, h2, fun l cs hl hcs => ⟨_, h3 l cs hl hcs, fun he => ?_, fun hne => ?_⟩⟩
  · subst he; exact ⟨rfl, rfl, rfl⟩
  · refine Label.fold_min_first data cs hcs.1 hne fun c hc => hfin c ?_
    have := ((hcs.2 c).1 hc).1
    show InGrid data.rows data.cols c
    rw [hshape.1, hshape.2]; exact this

/-- C25 for `label_max_index`. -/
theorem C25_label_max_index {β : Type} [LinearOrder β] [OrderBot β] (data : Raster β) (lab : Raster Int)
    (nlabels : Option Int) (n : Nat)
    (hshape : data.rows = lab.rows ∧ data.cols = lab.cols) (hn : TopLabel lab.rows lab.cols lab.get nlabels n)
    (hr : LabelsIn lab.rows lab.cols lab.get n) (hfin : ∀ c, data.Has c → ⊥ < data.get c) :
    ∃ table, Label.labelMaxIndex data lab nlabels = .ok table ∧ table.length = n + 1 ∧
      ∀ (l : Nat) (cs : List Cell), l ≤ n → CellsOf lab.rows lab.cols lab.get l cs →
        ∃ s, table[l]? = some s ∧ (cs = [] → s.value = ⊥ ∧ s.row = -1 ∧ s.col = -1) ∧
          (cs ≠ [] → IsFirstMax data.get cs (s.row, s.col) ∧ s.value = data.get (s.row, s.col)) := by
  obtain ⟨st, h1, h2, h3⟩ := Label.labelMaxIndex_ok data hshape hn hr
  refine ⟨st, h1, h2, fun l cs hl hcs => ⟨_, h3 l cs hl hcs, fun he => ?_, fun hne => ?_⟩⟩
  · subst he; exact ⟨rfl, rfl, rfl⟩
  · refine Label.fold_max_first data cs hcs.1 hne fun c hc => hfin c ?_
    have := ((hcs.2 c).1 hc).1
    show InGrid data.rows data.cols c
    rw [hshape.1, hshape.2]; exact this

/-- C25 for the compiled `label_min_index`: the same table. -/
theorem C25_compiled_label_min_index {β : Type} [LinearOrder β] [OrderTop β] (data : Raster β) (lab : Raster Int)
    (nlabels : Option Int) (n : Nat)
    (hshape : data.rows = lab.rows ∧ data.cols = lab.cols) (hn : TopLabel lab.rows lab.cols lab.get nlabels n)
    (hr : LabelsIn lab.rows lab.cols lab.get n) :
    LabelCython.labelMinIndex data lab nlabels = Label.labelMinIndex data lab nlabels :=
  Label.cython_labelMinIndex data hshape hn hr

/-- Non-vacuity for C25: a tie (value 4 twice in label 1) goes to the first cell; label 2 is absent. -/
example : (Label.labelMaxIndex (⟨2, 3, fun c => (demoData.get c : WithBot Int)⟩) demoLab none).toOption =
    some [⟨9, 1, 1⟩, ⟨4, 0, 1⟩, ⟨⊥, -1, -1⟩, ⟨5, 1, 0⟩] := by decide +kernel
example : (Label.labelMinIndex (⟨2, 3, fun c => (demoData.get c : WithTop Int)⟩) demoLab none).toOption =
    some [⟨7, 0, 0⟩, ⟨-2, 0, 2⟩, ⟨⊤, -1, -1⟩, ⟨5, 1, 0⟩] := by decide +kernel

/-! ### C26 -/

/-- C26: `label_count` returns the number of cells of each label 0..max; the counts add up to the number of cells. -/
theorem C26_label_count (lab : Raster Int) (n : Nat) (hn : TopLabel lab.rows lab.cols lab.get none n)
    (hr : LabelsIn lab.rows lab.cols lab.get n) :
    ∃ counts, Label.labelCount lab = .ok counts ∧ counts.length = n + 1 ∧
      (∀ l : Nat, l ≤ n → counts[l]? = some ({c | InGrid lab.rows lab.cols c ∧ lab.get c = (l : Int)}.ncard : Int)) ∧
      counts.sum = lab.rows * lab.cols := by
  obtain ⟨ct, h1, h2, h3⟩ := Label.labelCount_ok hn hr
  refine ⟨ct, h1, h2, fun l hl => ?_, ?_⟩
  · have hcs : CellsOf lab.rows lab.cols lab.get l _ := lists_filter lab.rows lab.cols fun c => lab.get c = (l : Int)
    rw [h3 l _ hl hcs, cellsOf_ncard hcs]
  · have hmap : ct = (List.range (n + 1)).map fun (l : Nat) =>
        (((Raster.cellList lab.rows lab.cols).filter fun c => lab.get c = (l : Int)).map fun _ => (1 : Int)).sum := by
      apply List.ext_getElem?
      intro l
      by_cases hl : l ≤ n
      · rw [List.getElem?_map, List.getElem?_range (by omega), h3 l _ hl (lists_filter _ _ _)]
        simp
      · rw [List.getElem?_eq_none (by omega), List.getElem?_eq_none (by simp; omega)]
    rw [hmap, sum_over_labels lab.get (fun _ => (1 : Int)) n _ (fun c hc => hr c (Flow.mem_cellList.1 hc))]
    simp [Flow.length_cellList]

/-- C26: `label_data` returns for each label 0..n other than the background the data values of its cells in row-major
order, and an empty list for the background. -/
theorem C26_label_data {α : Type} (data : Raster α) (lab : Raster Int) (nlabels : Option Int) (background : Int)
    (n : Nat) (hn : TopLabel lab.rows lab.cols lab.get nlabels n) (hr : LabelsIn lab.rows lab.cols lab.get n) :
    ∃ lists, Label.labelData data lab nlabels background = .ok lists ∧ lists.length = n + 1 ∧
      ∀ (l : Nat) (cs : List Cell), l ≤ n → CellsOf lab.rows lab.cols lab.get l cs →
        lists[l]? = some (if (l : Int) = background then [] else cs.map data.get) := by
  obtain ⟨st, h1, h2, h3⟩ := Label.dataLoop_ok data lab background lab.cells (Label.emptyLists n) (fun c hc _ => by
    have := hr c (Flow.mem_cellList.1 hc)
    simp only [Label.emptyLists, List.length_replicate]; omega)
  refine ⟨st, ?_, by rw [h2]; simp [Label.emptyLists], fun l cs hl hcs => ?_⟩
  · unfold Label.labelData
    rw [Label.resolve_ok hn]
    exact h1
  · rw [h3 l]
    have : (Label.emptyLists (n : Int) : List (List α))[l]? = some [] := by
      unfold Label.emptyLists
      rw [List.getElem?_replicate, if_pos (by omega)]
    rw [this, cellsOf_iff.1 hcs]
    rfl

/-- Non-vacuity for C26. -/
example : (Label.labelCount demoLab).toOption = some [2, 3, 0, 1] := by decide +kernel
example : (Label.labelData demoData demoLab none 0).toOption = some [[], [4, -2, 4], [], [5]] := by decide +kernel
example : (Label.labelData demoData demoLab none 1).toOption = some [[7, 9], [], [], [5]] := by decide +kernel

/-! ### C27 -/

/-- C27 is false: the compiled `label_data` ignores its `background` argument. -/
theorem C27_compiled_label_data_false :
    ∃ (data lab : Raster Int) (nlabels : Option Int) (background : Int) (a b : List (List Int)),
      Label.labelData data lab nlabels background = .ok a ∧ LabelCython.labelData data lab nlabels background = .ok b ∧
      a ≠ b :=
  ⟨demoData, demoLab, none, 1, [[7, 9], [], [], [5]], [[], [4, -2, 4], [], [5]], by rfl, by rfl, by decide⟩

/-- C27 fails also through `nlabels = 0`, which only the Python version replaces by the highest label. -/
theorem C27_compiled_label_data_false_nlabels :
    ∃ (data lab : Raster Int) (a : List (List Int)),
      Label.labelData data lab (some 0) 0 = .ok a ∧ LabelCython.labelData data lab (some 0) 0 = .error .indexError :=
  ⟨demoData, demoLab, [[], [4, -2, 4], [], [5]], by rfl, by rfl⟩

/-- C27, what holds: with background 0 and `nlabels` absent or non-zero both versions agree, on every raster (also on
those where they raise). Missing: other backgrounds (see the witness above) and `nlabels = 0`. -/
theorem C27_compiled_label_data_partial {α : Type} (data : Raster α) (lab : Raster Int) (nlabels : Option Int)
    (hshape : data.rows = lab.rows ∧ data.cols = lab.cols) (hnl : nlabels ≠ some 0) :
    LabelCython.labelData data lab nlabels 0 = Label.labelData data lab nlabels 0 := by
  have hcells : data.cells = lab.cells := by unfold Raster.cells; rw [hshape.1, hshape.2]
  unfold LabelCython.labelData Label.labelData Label.resolve
  cases nlabels with
  | none => simp only [hcells, Label.cython_dataLoop_eq]
  | some m =>
    cases m with
    | ofNat k => cases k with
      | zero => exact absurd rfl hnl
      | succ k => simp only [hcells, Label.cython_dataLoop_eq]
    | negSucc k => simp only [hcells, Label.cython_dataLoop_eq]

/-! ### C28 -/

section Bluespots
variable {K : Type} [Field K] [LinearOrder K] [IsStrictOrderedRing K] {β : Type} [LinearOrder β] [OrderTop β]

/-- The raster the pour points are chosen from, and the rule: the maximum of the accumulated flow, or the minimum of the
filled surface computed from the DEM by the engine. -/
inductive PourPointRule (β : Type)
  | maxAccum (accum : Raster Int)
  | minFilled (dem nf : Raster β)

namespace PourPointRule
/-- The arguments `input_accum`, `input_dem` of the tool. -/
def accumArg : PourPointRule β → Option (Raster Int)
  | maxAccum a => some a
  | minFilled _ _ => none
def demArg : PourPointRule β → Option (Raster β)
  | maxAccum _ => none
  | minFilled d _ => some d
/-- The rasters have the shape of the depths raster; the filled surface is what the fill returns, and finite. -/
def Valid (eng : Bluespots.Engine β K) (safe : Raster β → (β → β) × (β → β)) (rows cols : Nat) : PourPointRule β → Prop
  | maxAccum a => a.rows = rows ∧ a.cols = cols
  | minFilled d nf => Returns (eng.fillTerrainNoFlats (safe d).1 (safe d).2 d) (.ok nf) ∧
      (nf.rows = rows ∧ nf.cols = cols) ∧ ∀ c, nf.Has c → nf.get c < ⊤
/-- The chosen cell among the cells of a label. -/
def Chooses : PourPointRule β → List Cell → Cell → Prop
  | maxAccum a => IsFirstMax a.get
  | minFilled _ nf => IsFirstMin nf.get
end PourPointRule

/-- What BluespotTool needs: square cells, a non-empty raster, draining flow directions of the same shape, rasters for
the pour point rule, a labelling function meeting its contract, and the Python or
the compiled functions. -/
structure BluespotInput (cc : Raster Bool → Raster Int × Nat) (eng : Bluespots.Engine β K)
    (safe : Raster β → (β → β) × (β → β)) (gt : GeoTransform K) (depths : Raster K) (flowdir : Raster Nat)
    (rule : PourPointRule β) : Prop where
  contract : LabelContract cc
  engine : Bluespots.IsEngine eng
  square : SquareCells gt
  nonempty : 0 < depths.rows ∧ 0 < depths.cols
  shape : flowdir.rows = depths.rows ∧ flowdir.cols = depths.cols
  drains : ∀ c, flowdir.Has c → Drains flowdir.rows flowdir.cols flowdir.get c
  valid : rule.Valid eng safe depths.rows depths.cols

variable {cc : Raster Bool → Raster Int × Nat} {eng : Bluespots.Engine β K} {safe : Raster β → (β → β) × (β → β)}
  {gt : GeoTransform K} {depths : Raster K} {flowdir : Raster Nat} {rule : PourPointRule β}

theorem bluespot_result (h : BluespotInput cc eng safe gt depths flowdir rule) (f : Bluespots.StatUnits K → Bool) :
    ∃ out, (Bluespots.process cc eng safe gt depths (some f) flowdir rule.accumArg rule.demArg).Yields (.ok out) ∧
      Bluespots.IsResult gt depths f flowdir rule.Chooses out := by
  cases rule with
  | maxAccum a =>
    exact Bluespots.process_accum h.contract h.engine safe gt h.square depths h.nonempty.1 h.nonempty.2 f flowdir h.shape
      h.drains a h.valid none
  | minFilled d nf =>
    exact Bluespots.process_dem h.contract h.engine safe gt h.square depths h.nonempty.1 h.nonempty.2 f flowdir h.shape
      h.drains d nf h.valid.1 h.valid.2.1 h.valid.2.2

/-- C28: the run succeeds, and in the label raster written by BluespotTool a cell is labelled iff it is wet and the connected set of wet cells it lies in
passes the filter; two labelled cells have the same label iff they lie in the same connected set of wet cells. The
labels are 1..nlabels, all used; everything else is 0. -/
theorem C28_filter_exact (h : BluespotInput cc eng safe gt depths flowdir rule) (f : Bluespots.StatUnits K → Bool) :
    ∃ out, (Bluespots.process cc eng safe gt depths (some f) flowdir rule.accumArg rule.demArg).Yields (.ok out) ∧
    out.labeled.rows = depths.rows ∧ out.labeled.cols = depths.cols ∧
    (∀ c, depths.Has c → (out.labeled.get c ≠ 0 ↔
      depths.get c ≠ 0 ∧ Passes depths.rows depths.cols depths.get (cellArea gt) f c)) ∧
    (∀ a b, depths.Has a → depths.Has b → out.labeled.get a ≠ 0 → out.labeled.get b ≠ 0 →
      (out.labeled.get a = out.labeled.get b ↔
        ConnectedIn (fun x => InGrid depths.rows depths.cols x ∧ depths.get x ≠ 0) a b)) ∧
    (∀ c, depths.Has c → 0 ≤ out.labeled.get c ∧ out.labeled.get c ≤ out.nlabels) ∧
    (∀ l : Nat, 1 ≤ l → l ≤ out.nlabels → ∃ c, depths.Has c ∧ out.labeled.get c = l) := by
  obtain ⟨out, h1, h2⟩ := bluespot_result h f
  refine ⟨out, h1, h2.shape.1, h2.shape.2.1, fun c hc => ?_, h2.same, h2.labelling.range, h2.labelling.used⟩
  rw [ne_eq, h2.labelling.background c hc, not_not]

/-! ### C53 -/

theorem wshed_sum {f : Bluespots.StatUnits K → Bool} {choose : List Cell → Cell → Prop} {out : Bluespots.Out K}
    (h2 : Bluespots.IsResult gt depths f flowdir choose out) :
    (out.pourpoints.map (·.wshed_area)).sum = (depths.rows * depths.cols : Nat) * cellArea gt := by
  have hmap : out.pourpoints.map (·.wshed_area) = (List.range (out.nlabels + 1)).map fun (l : Nat) =>
      (((Raster.cellList depths.rows depths.cols).filter fun c => out.watersheds.get c = (l : Int)).map
        fun _ => cellArea gt).sum := by
    apply List.ext_getElem?
    intro l
    by_cases hl : l ≤ out.nlabels
    · obtain ⟨p, p1, p2, _⟩ := h2.points l _ _ hl (lists_filter _ _ _) (lists_filter _ _ _)
      rw [List.getElem?_map, List.getElem?_map, List.getElem?_range (by omega), p1]
      simp only [Option.map_some, p2.wshed_area]
      simp
    · rw [List.getElem?_eq_none (by simp [h2.length]; omega), List.getElem?_eq_none (by simp; omega)]
  rw [hmap, sum_over_labels out.watersheds.get (fun _ => cellArea gt) out.nlabels _
    (fun c hc => h2.wlabels.2 c (Flow.mem_cellList.1 hc))]
  simp [Flow.length_cellList]

/-- C53: pour point `l` describes label `l`: its id, cell count and depth sum times the cell area, watershed cell count
times the cell area, its position chosen by the rule within the label; the watershed areas add up to the raster area;
each watershed contains its bluespot, so for a bluespot `bspot_fumm` is a number, not a division by zero. -/
theorem C53_pourpoint_attributes (h : BluespotInput cc eng safe gt depths flowdir rule)
    (f : Bluespots.StatUnits K → Bool) :
    ∃ out, (Bluespots.process cc eng safe gt depths (some f) flowdir rule.accumArg rule.demArg).Yields (.ok out) ∧
    out.pourpoints.length = out.nlabels + 1 ∧
    (∀ (l : Nat) (cs ws : List Cell), l ≤ out.nlabels →
      CellsOf depths.rows depths.cols out.labeled.get l cs → CellsOf depths.rows depths.cols out.watersheds.get l ws →
      ∃ p, out.pourpoints[l]? = some p ∧ IsPourPoint gt depths.get l cs ws p ∧
        (cs ≠ [] → rule.Chooses cs (p.cell_row, p.cell_col)) ∧
        (1 ≤ l → cs ≠ [] ∧ (∀ c ∈ cs, c ∈ ws) ∧ 0 < p.bspot_area ∧ p.bspot_area ≤ p.wshed_area ∧
          p.bspot_fumm = some (1000 * p.bspot_vol / p.wshed_area))) ∧
    (out.pourpoints.map (·.wshed_area)).sum = (depths.rows * depths.cols : Nat) * cellArea gt := by
  obtain ⟨out, h1, h2⟩ := bluespot_result h f
  have harea : 0 < cellArea gt := by
    have hsq := h.square
    unfold SquareCells at hsq
    have h1 : 0 < |gt.t1| := by
      by_contra h0
      have h0 : |gt.t1| = 0 := le_antisymm (not_lt.1 h0) (abs_nonneg _)
      rw [h0] at hsq
      have := abs_nonneg (0 - |gt.t5|)
      linarith
    have h5 : 0 < |gt.t5| := by
      have := (abs_lt.1 hsq).2
      linarith
    exact mul_pos h1 h5
  refine ⟨out, h1, h2.length, fun l cs ws hl hcs hws => ?_, ?_⟩
  · obtain ⟨p, p1, p2, p3, _⟩ := h2.points l cs ws hl hcs hws
    refine ⟨p, p1, p2, p3, fun hl1 => ?_⟩
    obtain ⟨c, hc, hlc⟩ := h2.labelling.used l hl1 hl
    have hcm : c ∈ cs := (hcs.2 c).2 ⟨hc, hlc⟩
    have hne : cs ≠ [] := List.ne_nil_of_mem hcm
    have hsub : ∀ c ∈ cs, c ∈ ws := by
      intro x hx
      obtain ⟨hx1, hx2⟩ := (hcs.2 x).1 hx
      exact (hws.2 x).2 ⟨hx1, by
        show out.watersheds.get x = l
        have hx2 : out.labeled.get x = l := hx2
        rw [(h2.watershed x hx1).2.1 (by omega), hx2]⟩
    have hlen : cs.length ≤ ws.length := (List.subperm_of_subset (Spec.Lists.nodup hcs) hsub).length_le
    have hpos : 0 < cs.length := List.length_pos_of_mem hcm
    have hb : 0 < p.bspot_area := by
      rw [p2.area]; exact mul_pos (by exact_mod_cast hpos) harea
    have hle : p.bspot_area ≤ p.wshed_area := by
      rw [p2.area, p2.wshed_area]
      exact mul_le_mul_of_nonneg_right (by exact_mod_cast hlen) harea.le
    exact ⟨hne, hsub, hb, hle, by rw [p2.fumm, if_neg (hb.trans_le hle).ne']⟩
  · exact wshed_sum h2

/-! ### C58 -/

/-- C58 is false: without a filter function the run ends in UnboundLocalError, on every input on which it succeeds with a
filter. -/
theorem C58_no_filter_fails (h : BluespotInput cc eng safe gt depths flowdir rule) :
    (Bluespots.process cc eng safe gt depths none flowdir rule.accumArg rule.demArg).Yields (.error .nameError) := by
  refine Bluespots.process_nofilter h.contract h.engine safe gt h.square depths h.nonempty.1 h.nonempty.2 flowdir _ _ ?_
  cases rule with
  | maxAccum a => exact .inl rfl
  | minFilled d nf => exact .inr rfl

/-- C58, what holds: with a filter that accepts everything exactly the connected sets of wet cells become bluespots.
Missing: the same for "no filter", which fails (see above). -/
theorem C58_accept_all_partial (h : BluespotInput cc eng safe gt depths flowdir rule) :
    ∃ out, (Bluespots.process cc eng safe gt depths (some fun _ => true) flowdir rule.accumArg rule.demArg).Yields (.ok out) ∧
      IsLabelling depths.rows depths.cols (fun c => depths.get c ≠ 0) out.labeled.get out.nlabels := by
  obtain ⟨out, h1, h2⟩ := bluespot_result h (fun _ => true)
  have hpass : ∀ c, depths.Has c → depths.get c ≠ 0 →
      Passes depths.rows depths.cols depths.get (cellArea gt) (fun _ => true) c := by
    intro c hc hw
    classical
    have hl := lists_filter depths.rows depths.cols
      (fun x => ConnectedIn (fun y => InGrid depths.rows depths.cols y ∧ depths.get y ≠ 0) c x)
    have hm := (hl.2 c).2 ⟨hc, .refl ⟨hc, hw⟩⟩
    exact ⟨_, _, hl, Bluespots.isStatsFl_id.1 (Bluespots.stat_isStats id depths (cellArea gt) (List.ne_nil_of_mem hm)), rfl⟩
  refine ⟨out, h1, ⟨fun c hc => ?_, h2.labelling.range, h2.labelling.used, fun a b ha hb hwa hwb => ?_⟩⟩
  · rw [h2.labelling.background c hc]
    exact ⟨fun hn hw => hn ⟨hw, hpass c hc hw⟩, fun hn hw => hn hw.1⟩
  · refine h2.same a b ha hb ?_ ?_
    · intro h0; exact (h2.labelling.background a ha).1 h0 ⟨hwa, hpass a ha hwa⟩
    · intro h0; exact (h2.labelling.background b hb).1 h0 ⟨hwb, hpass b hb hwb⟩

end Bluespots

/-! Non-vacuity for C28, C53, C58: a 3x4 raster with two separate wet areas. -/

def demoDepths : Raster Rat := Raster.ofRows [[0, 1/2, 0, 2], [0, 1, 0, 3], [0, 0, 0, 0]]
def demoAccum : Raster Int := Raster.ofRows [[1,1,1,1],[1,1,1,1],[1,1,3,5]]

example : ∃ cc, BluespotInput (β := WithTop Int) cc Bluespots.python (fun _ => (id, id)) ⟨10, 2, 0, 20, 0, -2⟩
    demoDepths demoFlow (.maxAccum demoAccum) := by
  obtain ⟨cc, h⟩ := exists_labelContract
  refine ⟨cc, h, .inl rfl, ?_, by decide, by decide, demoFlow_drains, by decide, by decide⟩
  unfold SquareCells; norm_num

/-- What the labelling function returns on the two rasters this run passes to it. -/
def demoCC (r : Raster Bool) : Raster Int × Nat :=
  if r.get (0, 1) then (Raster.ofRows [[0, 1, 0, 2], [0, 1, 0, 2], [0, 0, 0, 0]], 2)
  else (Raster.ofRows [[0, 0, 0, 1], [0, 0, 0, 1], [0, 0, 0, 0]], 1)

/-- A filter on the maximal depth drops the left bluespot and renumbers the right one. -/
def demoRun : Option (Option (List (List Int) × List (List Int) × List (List Int) × List (List Rat))) :=
  ((Bluespots.process demoCC Bluespots.python (fun _ => (id, id)) ⟨10, 2, 0, 20, 0, -2⟩ demoDepths
      (some fun u => decide ((2 : WithBot Rat) < u.max)) demoFlow (some demoAccum)
      (none : Option (Raster (WithTop Int)))).run 20).run.map fun r => r.toOption.map fun o =>
    (o.labeled.toRows, o.watersheds.toRows,
      o.pourpoints.map (fun p => [(p.id : Int), p.cell_row, p.cell_col]),
      o.pourpoints.map fun p => [p.bspot_vol, p.wshed_area])

set_option synthInstance.maxSize 1000 in
example : demoRun = some (some ([[0, 0, 0, 1], [0, 0, 0, 1], [0, 0, 0, 0]],
    [[0, 0, 0, 1], [0, 0, 0, 1], [0, 0, 0, 0]], [[0, 2, 3], [1, 0, 3]], [[6, 40], [20, 8]])) := by decide +kernel

/-! ### C54 -/

/-- C54: cell centres: distinct cells have distinct centres, and the steps between neighbouring columns and rows are
constant vectors. -/
theorem C54_cell_to_world {K : Type} [Field K] [CharZero K] (gt : GeoTransform K) :
    (∀ r c : Int, transformCellToWorld (r, c) gt =
      (gt.t0 + ((c : K) + 1 / 2) * gt.t1 + ((r : K) + 1 / 2) * gt.t2,
       gt.t3 + ((c : K) + 1 / 2) * gt.t4 + ((r : K) + 1 / 2) * gt.t5)) ∧
    (∀ r c : Int, (transformCellToWorld (r, c + 1) gt).1 - (transformCellToWorld (r, c) gt).1 = gt.t1 ∧
      (transformCellToWorld (r, c + 1) gt).2 - (transformCellToWorld (r, c) gt).2 = gt.t4 ∧
      (transformCellToWorld (r + 1, c) gt).1 - (transformCellToWorld (r, c) gt).1 = gt.t2 ∧
      (transformCellToWorld (r + 1, c) gt).2 - (transformCellToWorld (r, c) gt).2 = gt.t5) ∧
    (gt.t1 * gt.t5 - gt.t2 * gt.t4 ≠ 0 → ∀ a b : Cell,
      transformCellToWorld a gt = transformCellToWorld b gt → a = b) := by
  refine ⟨fun r c => rfl, fun r c => ?_, fun hdet a b hab => ?_⟩
  · simp only [transformCellToWorld, applyGeoTransform]
    push_cast
    refine ⟨by ring, by ring, by ring, by ring⟩
  · simp only [transformCellToWorld, applyGeoTransform, Prod.mk.injEq] at hab
    obtain ⟨h1, h2⟩ := hab
    have e1 : ((a.2 : K) - b.2) * gt.t1 + ((a.1 : K) - b.1) * gt.t2 = 0 := by linear_combination h1
    have e2 : ((a.2 : K) - b.2) * gt.t4 + ((a.1 : K) - b.1) * gt.t5 = 0 := by linear_combination h2
    have f1 : ((a.2 : K) - b.2) * (gt.t1 * gt.t5 - gt.t2 * gt.t4) = 0 := by
      linear_combination gt.t5 * e1 - gt.t2 * e2
    have f2 : ((a.1 : K) - b.1) * (gt.t1 * gt.t5 - gt.t2 * gt.t4) = 0 := by
      linear_combination gt.t1 * e2 - gt.t4 * e1
    have g1 := (mul_eq_zero.1 f1).resolve_right hdet
    have g2 := (mul_eq_zero.1 f2).resolve_right hdet
    refine Prod.ext ?_ ?_
    · exact_mod_cast sub_eq_zero.1 g2
    · exact_mod_cast sub_eq_zero.1 g1

end Malstroem
