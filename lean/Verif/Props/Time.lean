/-
Property C101: how long the algorithms run.
-/
import Verif.Proofs.FillBound
import Verif.Proofs.FillCython
import Verif.Props.Complete

set_option linter.unusedSectionVars false

namespace Malstroem
open Spec

namespace Spec

/-- Every loop of the computation `f` that can go on for long is left after at most `b` runs, and the result is `r`: the
number given to `f` is the number of times each such loop may run. -/
def EndsWithin {ρ : Type*} (f : Nat → Option ρ) (b : Nat) (r : ρ) : Prop := ∀ n, b ≤ n → f n = some r

/-- The number of cells that are not on the edge. -/
def innerCells (rows cols : Nat) : Nat := (rows - 2) * (cols - 2)

end Spec

theorem EndsWithin.returns {ρ : Type*} {f : Nat → Option ρ} {b : Nat} {r : ρ} (h : EndsWithin f b r) : Returns f r :=
  ⟨b, h⟩

theorem EndsWithin.le {ρ : Type*} {f : Nat → Option ρ} {b b' : Nat} {r : ρ} (h : EndsWithin f b r) (hb : b ≤ b') :
    EndsWithin f b' r := fun n hn => h n (hb.trans hn)

theorem EndsWithin.of_some {ρ : Type*} {f : Nat → Option ρ} {b : Nat} {r : ρ} (hm : ∀ n r, f n = some r → f (n + 1) = some r)
    (h : f b = some r) : EndsWithin f b r := by
  intro n hn
  induction n, hn using Nat.le_induction with
  | base => exact h
  | succ m _ ih => exact hm m r ih

theorem EndsWithin.eq {ρ : Type*} {f : Nat → Option ρ} {b : Nat} {r r' : ρ} (h : EndsWithin f b r) (h' : Returns f r') :
    r = r' := Returns.unique (EndsWithin.returns h) h'

/-! ### Filling -/

section
variable {β : Type*} [LinearOrder β] [OrderTop β]

theorem fillTerrain_mono (dem : Raster β) (n : Nat) (r) (h : Fill.fillTerrain dem n = some r) :
    Fill.fillTerrain dem (n + 1) = some r := by
  unfold Fill.fillTerrain Fill.fillTerrainLoop at h ⊢
  split_ifs at h ⊢ with hs
  · exact h
  · obtain ⟨q, hq, he⟩ := Option.map_eq_some_iff.1 h
    exact Option.map_eq_some_iff.2 ⟨q, doWhile_mono hq (Nat.le_succ _), he⟩

theorem fillTerrainNoFlats_mono (short diag : β → β) (dem : Raster β) (n : Nat) (r)
    (h : Fill.fillTerrainNoFlats short diag dem n = some r) : Fill.fillTerrainNoFlats short diag dem (n + 1) = some r := by
  unfold Fill.fillTerrainNoFlats Fill.fillTerrainNoFlatsLoop at h ⊢
  split_ifs at h ⊢ with hs
  · exact h
  · obtain ⟨q, hq, he⟩ := Option.map_eq_some_iff.1 h
    exact Option.map_eq_some_iff.2 ⟨q, doWhile_mono hq (Nat.le_succ _), he⟩

theorem fillTerrainC_mono (dem : Raster β) (n : Nat) (r) (h : FillCython.fillTerrain dem n = some r) :
    FillCython.fillTerrain dem (n + 1) = some r := by
  unfold FillCython.fillTerrain at h ⊢
  split at h
  · exact h
  · obtain ⟨q, hq, he⟩ := Option.map_eq_some_iff.1 h
    exact Option.map_eq_some_iff.2 ⟨q, doWhile_mono hq (Nat.le_succ _), he⟩

theorem fillTerrainNoFlatsC_mono (short diag : β → β) (dem : Raster β) (n : Nat) (r)
    (h : FillCython.fillTerrainNoFlats short diag dem n = some r) :
    FillCython.fillTerrainNoFlats short diag dem (n + 1) = some r := by
  unfold FillCython.fillTerrainNoFlats at h ⊢
  split at h
  · exact h
  · obtain ⟨q, hq, he⟩ := Option.map_eq_some_iff.1 h
    exact Option.map_eq_some_iff.2 ⟨q, doWhile_mono hq (Nat.le_succ _), he⟩

/-- C101: the loop of `fill_terrain` runs at most once more than a quarter of the number of cells off the edge, whatever
the elevations. -/
theorem C101_fill (dem : Raster β) (hr : 2 ≤ dem.rows) (hc : 2 ≤ dem.cols) :
    ∃ r, EndsWithin (Fill.fillTerrain dem) (innerCells dem.rows dem.cols / 4 + 1) (.ok r) := by
  obtain ⟨r, h⟩ := Fill.loop_bound Fill.id_good (Fill.fillCell_relax dem) (Fill.fillCell_tight dem) Fill.sweepCells
    (Fill.fillTerrainSweep dem) (fun _ _ _ _ _ => rfl) (Fill.pySweep_cells hr hc) le_rfl
  refine ⟨r, EndsWithin.of_some (fillTerrain_mono dem) ?_⟩
  unfold Fill.fillTerrain Fill.fillTerrainLoop
  rw [if_neg (by omega)]
  exact Option.map_eq_some_iff.2 ⟨r, h, rfl⟩

/-- C101: and so does the loop of `fill_terrain_no_flats`. -/
theorem C101_noflats (short diag : β → β) (hs : Monotone short) (hd : Monotone diag) (hs' : ∀ x, x ≤ short x)
    (hd' : ∀ x, x ≤ diag x) (dem : Raster β) (hr : 2 ≤ dem.rows) (hc : 2 ≤ dem.cols) :
    ∃ r, EndsWithin (Fill.fillTerrainNoFlats short diag dem) (innerCells dem.rows dem.cols / 4 + 1) (.ok r) := by
  obtain ⟨r, h⟩ := Fill.loop_bound (Fill.sd_good hs hd hs' hd') (Fill.fillCellNoFlats_relax short diag hs hd dem)
    (Fill.fillCellNoFlats_tight short diag hs hd dem) Fill.sweepCells (Fill.fillTerrainNoFlatsSweep short diag dem)
    (fun _ _ _ _ _ => rfl) (Fill.pySweep_cells hr hc) le_rfl
  refine ⟨r, EndsWithin.of_some (fillTerrainNoFlats_mono short diag dem) ?_⟩
  unfold Fill.fillTerrainNoFlats Fill.fillTerrainNoFlatsLoop
  rw [if_neg (by omega)]
  exact Option.map_eq_some_iff.2 ⟨r, h, rfl⟩

/-- The cells visited by the compiled sweeps. -/
theorem cySweep_cells {rows cols : Nat} (hr : 2 ≤ rows) (hc : 2 ≤ cols) (a b c d : Int)
    (hab : (a = 1 ∧ b = (rows : Int) - 2) ∨ (a = (rows : Int) - 2 ∧ b = 1))
    (hcd : (c = 1 ∧ d = (cols : Int) - 2) ∨ (c = (cols : Int) - 2 ∧ d = 1)) :
    ∀ x ∈ FillCython.sweepCells a b c d, InGrid rows cols x := by
  intro x hx
  rw [FillCython.mem_sweepCells] at hx
  unfold InGrid
  omega

theorem cySweep_all {rows cols : Nat} (hr : rows ≠ 3) (hc : cols ≠ 3) (x : Cell) (hx : Interior rows cols x) :
    x ∈ FillCython.sweepCells 1 ((rows : Int) - 2) 1 ((cols : Int) - 2) ∨
      x ∈ FillCython.sweepCells ((rows : Int) - 2) 1 ((cols : Int) - 2) 1 ∨
      x ∈ FillCython.sweepCells 1 ((rows : Int) - 2) ((cols : Int) - 2) 1 ∨
      x ∈ FillCython.sweepCells ((rows : Int) - 2) 1 1 ((cols : Int) - 2) := by
  rw [interior_iff] at hx
  simp only [FillCython.mem_sweepCells]
  omega

/-- C101: with the compiled functions, whose sweeps leave out a row and a column, the loop of `fill_terrain` runs at most
once more than there are cells off the edge. -/
theorem C101_fill_compiled (dem : Raster β) (hr : 2 ≤ dem.rows ∧ dem.rows ≠ 3) (hc : 2 ≤ dem.cols ∧ dem.cols ≠ 3) :
    ∃ r, EndsWithin (FillCython.fillTerrain dem) (innerCells dem.rows dem.cols + 1) (.ok r) := by
  obtain ⟨r, h⟩ := Fill.loop_bound_four Fill.id_good (Fill.fillCell_relax dem) (Fill.fillCell_tight dem)
    FillCython.sweepCells (FillCython.fillTerrainSweep dem)
    (fun f a b c d => by unfold FillCython.fillTerrainSweep; rw [FillCython.fillCell_eq])
    (cySweep_cells hr.1 hc.1) (cySweep_all hr.2 hc.2) le_rfl
  refine ⟨r, EndsWithin.of_some (fillTerrainC_mono dem) ?_⟩
  unfold FillCython.fillTerrain
  rw [FillCython.shapeError_none.2 ⟨hr.1, hc.1, hr.2, hc.2⟩]
  exact Option.map_eq_some_iff.2 ⟨r, h, rfl⟩

/-- C101: and so does the loop of `fill_terrain_no_flats`. -/
theorem C101_noflats_compiled (short diag : β → β) (hs : Monotone short) (hd : Monotone diag) (hs' : ∀ x, x ≤ short x)
    (hd' : ∀ x, x ≤ diag x) (dem : Raster β) (hr : 2 ≤ dem.rows ∧ dem.rows ≠ 3) (hc : 2 ≤ dem.cols ∧ dem.cols ≠ 3) :
    ∃ r, EndsWithin (FillCython.fillTerrainNoFlats short diag dem) (innerCells dem.rows dem.cols + 1) (.ok r) := by
  obtain ⟨r, h⟩ := Fill.loop_bound_four (Fill.sd_good hs hd hs' hd') (Fill.fillCellNoFlats_relax short diag hs hd dem)
    (Fill.fillCellNoFlats_tight short diag hs hd dem) FillCython.sweepCells
    (FillCython.fillTerrainNoFlatsSweep short diag dem)
    (fun f a b c d => by unfold FillCython.fillTerrainNoFlatsSweep; rw [FillCython.fillCellNoFlats_eq])
    (cySweep_cells hr.1 hc.1) (cySweep_all hr.2 hc.2) le_rfl
  refine ⟨r, EndsWithin.of_some (fillTerrainNoFlatsC_mono short diag dem) ?_⟩
  unfold FillCython.fillTerrainNoFlats
  rw [FillCython.shapeError_none.2 ⟨hr.1, hc.1, hr.2, hc.2⟩]
  exact Option.map_eq_some_iff.2 ⟨r, h, rfl⟩

end

theorem innerCells_le (rows cols : Nat) : innerCells rows cols ≤ rows * cols :=
  Nat.mul_le_mul (Nat.sub_le _ _) (Nat.sub_le _ _)

/-! ### Flow -/

/-- C101: following the flow from a cell takes no more steps than the raster has cells - or never ends, if it runs into a
cycle. -/
theorem C101_trace (fd : Raster Nat) (hcodes : ∀ c, fd.Has c → fd.get c ≤ 8) (c : Cell) :
    (∃ r, EndsWithin (fun n => Flow.traceDownstream fd n c) (fd.rows * fd.cols + 1) r) ∨
      (∃ b, Downstream fd.rows fd.cols fd.get c b ∧ OnCycle fd.rows fd.cols fd.get b) ∧
        ∀ n, Flow.traceDownstream fd n c = none := by
  by_cases h : ∃ b, Downstream fd.rows fd.cols fd.get c b ∧ OnCycle fd.rows fd.cols fd.get b
  · obtain ⟨b, h1, h2⟩ := h
    exact .inr ⟨⟨b, h1, h2⟩, fun n => Flow.traceDownstream_cycle n c b h1 h2⟩
  · left
    push Not at h
    obtain ⟨r, hr⟩ := Flow.traceDownstream_total hcodes (fd.rows * fd.cols) c (by
      refine le_trans (Set.ncard_le_ncard (t := {b | InGrid fd.rows fd.cols b}) (fun b hb => hb.1) ?_) ?_
      · exact inGrid_finite _ _
      · exact (Flow.ncard_grid _ _).le) (fun _ b hb => h b hb)
    exact ⟨r, EndsWithin.of_some (fun n r h => Flow.traceDownstream_mono n c r h) hr⟩

/-- C101: `accumulated_flow` follows the flow for no more steps than the raster has cells, from every cell it starts at,
even around cycles. -/
theorem C101_accum (fd : Raster Nat) (hcodes : ∀ c, fd.Has c → fd.get c < 8) (junk : Int × Int) :
    (∃ A, EndsWithin (Flow.accumulatedFlow fd) (fd.rows * fd.cols + 1) (.ok A)) ∧
      ∃ A, EndsWithin (FlowCython.accumulatedFlow junk fd) (fd.rows * fd.cols + 1) A := by
  constructor
  · obtain ⟨A, hA, _⟩ := Flow.traceAll_accum hcodes (fun c => (Flow.up fd c).isEmpty) (fun c h => by simp [h])
      (n := fd.rows * fd.cols + 1) (by omega)
    refine ⟨A, fun m hm => ?_⟩
    rw [Flow.accumulatedFlow, Flow.accumLoop_eq hcodes, Flow.traceAll_mono _ _ _ _ _ hA m hm]
    rfl
  · obtain ⟨A, hA, _⟩ := Flow.traceAll_accum hcodes (fun _ => true) (fun c _ => rfl) (n := fd.rows * fd.cols + 1) (by omega)
    refine ⟨A, fun m hm => ?_⟩
    rw [FlowCython.accumulatedFlow, FlowCython.accumLoop_eq junk hcodes, Flow.traceAll_mono _ _ _ _ _ hA m hm]

/-- C101: if the cells on the edge drain off the raster, `watersheds_from_labels` handles no more cells, from each cell on
the edge, than the raster has. -/
theorem C101_watersheds {L : Type*} [DecidableEq L] (fd : Raster Nat) (hr : 0 < fd.rows) (hc : 0 < fd.cols)
    (hedge : ∀ c, OnEdge fd.rows fd.cols c → FlowsOut fd.rows fd.cols fd.get c) (lab : Raster L) (un : L) :
    ∃ lab', EndsWithin (Flow.watershedsFromLabels fd lab un) (fd.rows * fd.cols) (.ok lab') := by
  obtain ⟨lab', h1, _⟩ := Flow.watershedsLoop_spec (flowdir := fd) (un := un) le_rfl
    (Flow.edgeCellIndexes fd.rows fd.cols) lab (fun c h => by
      have he := (Flow.mem_edgeCellIndexes hr hc).1 h
      exact ⟨he.1, c, .refl, hedge c he⟩)
  exact ⟨lab', EndsWithin.of_some (fun n r h => Flow.watershedsLoop_mono _ n lab r h) h1⟩

/-! ### The tools -/

section
variable {β γ : Type} [LinearOrder β] [OrderTop β] [Field γ] [LinearOrder γ] [IsStrictOrderedRing γ] {drop sub : β → β → γ}
  {scale : γ → γ}
  {safe : Raster β → (β → β) × (β → β)} {dem : Raster β}

theorem process_ends {eng : Dem.Engine β γ} {want : Bool} {out : Dem.Out β γ} {b : Nat}
    (hout : Returns (Dem.process eng sub safe true want dem) (.ok out))
    (h1 : ∃ r, EndsWithin (eng.fillTerrain dem) b r)
    (h2 : ∃ r, EndsWithin (eng.fillTerrainNoFlats (safe dem).1 (safe dem).2 dem) b r)
    (h3 : want = true → ∃ r, EndsWithin (eng.accumulatedFlow out.flowdir) b r) :
    EndsWithin (Dem.process eng sub safe true want dem) b (.ok out) := by
  obtain ⟨_, hfill, _, hnf, hfd, hacc, _⟩ := Dem.process_inv hout
  obtain ⟨r1, h1⟩ := h1
  obtain ⟨r2, h2⟩ := h2
  have e1 := EndsWithin.eq h1 hfill
  have e2 := EndsWithin.eq h2 hnf
  subst e1 e2
  obtain ⟨n, hn⟩ := hout
  intro m hm
  rw [← hn (max n m) (le_max_left _ _)]
  unfold Dem.process
  simp only [not_true_eq_false, if_false]
  rw [h1 m hm, h1 (max n m) (hm.trans (le_max_right _ _)), h2 m hm, h2 (max n m) (hm.trans (le_max_right _ _))]
  cases want with
  | false => rfl
  | true =>
    obtain ⟨r3, h3⟩ := h3 rfl
    simp only [if_true, ← hfd]
    rw [h3 m hm, h3 (max n m) (hm.trans (le_max_right _ _))]

/-- C101: none of the loops of DemTool runs more than once more than the raster has cells. -/
theorem C101_dem (h : SoundTerrain drop sub scale safe dem) (want : Bool) :
    ∃ out, EndsWithin (Dem.process (Dem.python drop scale) sub safe true want dem) (dem.rows * dem.cols + 1) (.ok out) := by
  obtain ⟨out, hout, _, _, ⟨hfr, hfc⟩, _, _, ⟨s, _, hs⟩, _⟩ := C62_dem_outputs h want
  refine ⟨out, process_ends hout ?_ ?_ fun _ => ?_⟩
  · obtain ⟨r, hr⟩ := C101_fill dem h.rows h.cols
    exact ⟨_, EndsWithin.le hr (by have := innerCells_le dem.rows dem.cols; omega)⟩
  · obtain ⟨r, hr⟩ := C101_noflats (safe dem).1 (safe dem).2 h.mono.1 h.mono.2 (fun x => (h.ge x).1) (fun x => (h.ge x).2) dem
      h.rows h.cols
    exact ⟨_, EndsWithin.le hr (by have := innerCells_le dem.rows dem.cols; omega)⟩
  · obtain ⟨⟨A, hA⟩, _⟩ := C101_accum out.flowdir (fun c hc => (hs c (by rw [← hfr, ← hfc]; exact hc)).1) (0, 0)
    rw [hfr, hfc] at hA
    exact ⟨_, hA⟩

/-- C101: nor with the compiled functions. -/
theorem C101_dem_compiled (junk : Int × Int) (h : SoundTerrain drop sub scale safe dem) (hr3 : dem.rows ≠ 3)
    (hc3 : dem.cols ≠ 3) (want : Bool) :
    ∃ out, EndsWithin (Dem.process (Dem.compiled junk drop scale) sub safe true want dem) (dem.rows * dem.cols + 1)
      (.ok out) := by
  obtain ⟨out, hout, _, _, ⟨hfr, hfc⟩, _, _, _, ⟨s, _, hs⟩, _⟩ := C62_dem_outputs_compiled junk h hr3 hc3 want
  refine ⟨out, process_ends hout ?_ ?_ fun _ => ?_⟩
  · obtain ⟨r, hr⟩ := C101_fill_compiled dem ⟨h.rows, hr3⟩ ⟨h.cols, hc3⟩
    exact ⟨_, EndsWithin.le hr (by have := innerCells_le dem.rows dem.cols; omega)⟩
  · obtain ⟨r, hr⟩ := C101_noflats_compiled (safe dem).1 (safe dem).2 h.mono.1 h.mono.2 (fun x => (h.ge x).1)
      (fun x => (h.ge x).2) dem ⟨h.rows, hr3⟩ ⟨h.cols, hc3⟩
    exact ⟨_, EndsWithin.le hr (by have := innerCells_le dem.rows dem.cols; omega)⟩
  · obtain ⟨_, A, hA⟩ := C101_accum out.flowdir (fun c hc => (hs c (by rw [← hfr, ← hfc]; exact hc)).1) junk
    rw [hfr, hfc] at hA
    exact ⟨.ok A, fun n hn => by show (FlowCython.accumulatedFlow junk out.flowdir n).map _ = _; rw [hA n hn]; rfl⟩

end

section
variable {K : Type} [Field K] [LinearOrder K] [IsStrictOrderedRing K] {β : Type} [LinearOrder β] [OrderTop β]

/-- Two amounts of fuel give the same run. -/
def Agree {α : Type} (n m : Nat) (x : Run α) : Prop := x n = x m

theorem Agree.bind {α α' : Type} {n m : Nat} {x : Run α} {f : α → Run α'} (hx : Agree n m x) (hf : ∀ a, Agree n m (f a)) :
    Agree n m (x >>= f) := by
  show (x n >>= fun a => f a n) = (x m >>= fun a => f a m)
  have hx : x n = x m := hx
  rw [hx]
  congr 1
  funext a
  exact hf a

theorem agree_except {α : Type} (n m : Nat) (x : Except PyErr α) : Agree n m (Run.ofExcept x) := rfl

theorem agree_fail {α : Type} (n m : Nat) (e : PyErr) : Agree n m (Run.fail (α := α) e) := rfl

theorem agree_fuel {α : Type} {f : Nat → Option (Except PyErr α)} {b : Nat} {r} (h : EndsWithin f b r) {n m : Nat} (hn : b ≤ n)
    (hm : b ≤ m) : Agree n m (Run.ofFuel f) := by
  show f n = f m
  rw [h n hn, h m hm]

/-- Rasters of a shape that is refused end at once. -/
theorem noFlats_ends (short diag : β → β) (hs : Monotone short) (hd : Monotone diag) (hge : ∀ x, x ≤ short x ∧ x ≤ diag x)
    (dem : Raster β) : (∃ r, EndsWithin (Fill.fillTerrainNoFlats short diag dem) (dem.rows * dem.cols + 1) r) ∧
      ∃ r, EndsWithin (FillCython.fillTerrainNoFlats short diag dem) (dem.rows * dem.cols + 1) r := by
  have hle := innerCells_le dem.rows dem.cols
  constructor
  · by_cases h : dem.rows < 2 ∨ dem.cols < 2
    · exact ⟨.error .indexError, fun n _ => by unfold Fill.fillTerrainNoFlats; rw [if_pos h]⟩
    · obtain ⟨r, hr⟩ := C101_noflats short diag hs hd (fun x => (hge x).1) (fun x => (hge x).2) dem (by omega) (by omega)
      exact ⟨_, EndsWithin.le hr (by omega)⟩
  · cases h : FillCython.shapeError dem.rows dem.cols with
    | some e => exact ⟨.error e, fun n _ => by unfold FillCython.fillTerrainNoFlats; rw [h]⟩
    | none =>
      obtain ⟨h1, h2, h3, h4⟩ := FillCython.shapeError_none.1 h
      obtain ⟨r, hr⟩ := C101_noflats_compiled short diag hs hd (fun x => (hge x).1) (fun x => (hge x).2) dem ⟨h1, h3⟩ ⟨h2, h4⟩
      exact ⟨_, EndsWithin.le hr (by omega)⟩

/-- C101: none of the loops of BluespotTool runs more than once more than the flow directions have cells, provided the cells
on the edge flow off the raster and the DEM, if it is given, is no larger. -/
theorem C101_bluespots (fl : K → K) (cc : Raster Bool → Raster Int × Nat) (junk : Int × Int)
    (eng : Bluespots.Engine β K) (heng : eng = Bluespots.pythonFl fl ∨ eng = Bluespots.compiledFl fl junk)
    (safe : Raster β → (β → β) × (β → β)) (transform : GeoTransform K) (depths : Raster K)
    (filter : Option (Bluespots.StatUnits K → Bool)) (flowdir : Raster Nat) (accum : Option (Raster Int))
    (dem : Option (Raster β)) (hr : 0 < flowdir.rows) (hc : 0 < flowdir.cols)
    (hedge : ∀ c, OnEdge flowdir.rows flowdir.cols c → FlowsOut flowdir.rows flowdir.cols flowdir.get c)
    (hdem : accum = none → ∀ d, dem = some d → d.rows * d.cols ≤ flowdir.rows * flowdir.cols ∧ Monotone (safe d).1 ∧ Monotone (safe d).2 ∧
      ∀ x, x ≤ (safe d).1 x ∧ x ≤ (safe d).2 x) (r : Except PyErr (Bluespots.Out K))
    (h : (Bluespots.processFl fl cc eng safe transform depths filter flowdir accum dem).Yields r) :
    EndsWithin (fun n => Bluespots.processFl fl cc eng safe transform depths filter flowdir accum dem n)
      (flowdir.rows * flowdir.cols + 1) r := by
  obtain ⟨n0, hn0⟩ := h
  have key : ∀ n m, flowdir.rows * flowdir.cols + 1 ≤ n → flowdir.rows * flowdir.cols + 1 ≤ m →
      Agree n m (Bluespots.processFl fl cc eng safe transform depths filter flowdir accum dem) := by
    intro n m hn hm
    have hws : eng.watershedsFromLabels = Flow.watershedsFromLabels :=
      Bluespots.IsEngineFl.watersheds (fl := fl) (heng.imp id fun h => ⟨junk, h⟩)
    unfold Bluespots.processFl
    by_cases h0 : accum.isNone ∧ dem.isNone
    · rw [if_pos h0]; exact agree_fail _ _ _
    rw [if_neg h0]
    dsimp only
    by_cases h1 : ¬ |fl (|transform.t1| - |transform.t5|)| < fl (fl (1 / 100) * |(|transform.t1|)|)
    · rw [if_pos h1]; exact agree_fail _ _ _
    rw [if_neg h1]
    refine (agree_except _ _ _).bind fun raw => ?_
    cases filter with
    | none => exact agree_fail _ _ _
    | some f =>
      dsimp only
      refine (agree_except _ _ _).bind fun comps => (agree_except _ _ _).bind fun stats => Agree.bind ?_ fun ws =>
        (agree_except _ _ _).bind fun wstats => ?_
      · rw [hws]
        obtain ⟨lab', hl⟩ := C101_watersheds flowdir hr hc hedge (cc comps).1 (0 : Int)
        exact agree_fuel hl (by omega) (by omega)
      · cases accum with
        | some a => exact (agree_except _ _ _).bind fun _ => rfl
        | none =>
          cases dem with
          | none => exact agree_fail _ _ _
          | some d =>
            obtain ⟨hsz, hm1, hm2, hge⟩ := hdem rfl d rfl
            refine Agree.bind ?_ fun _ => (agree_except _ _ _).bind fun _ => rfl
            obtain ⟨⟨q, hq⟩, q', hq'⟩ := noFlats_ends (safe d).1 (safe d).2 hm1 hm2 hge d
            rcases heng with rfl | rfl
            · exact agree_fuel hq (by omega) (by omega)
            · exact agree_fuel hq' (by omega) (by omega)
  intro n hn
  have := key n (max n0 (flowdir.rows * flowdir.cols + 1)) hn (le_max_right _ _)
  exact Eq.trans this (hn0 _ (le_max_left _ _))

end

/-! ### Examples -/

/-- A snake: a narrow valley that winds through high ground, with its mouth at the end. -/
def demoSnake : Raster ℚ :=
  Raster.ofRows [[9,9,9,9,9,9,9], [9,1,1,1,1,1,9], [9,9,9,9,9,1,9], [9,1,1,1,1,1,9], [9,1,9,9,9,9,9], [9,1,1,1,1,1,9],
    [9,9,9,9,9,1,9]]

/-- Non-vacuity for C101: the snake has 25 cells off the edge, so at most 7 runs are needed. One run is not enough, two
are. -/
example : (2 ≤ demoSnake.rows ∧ 2 ≤ demoSnake.cols) ∧ innerCells demoSnake.rows demoSnake.cols / 4 + 1 = 7 ∧
    (Fill.fillTerrain (finiteDem demoSnake) 1).isNone ∧ (Fill.fillTerrain (finiteDem demoSnake) 2).isSome := by decide +kernel

/-- Non-vacuity for C101: DemTool on the snake, with exact arithmetic; at most 50 runs. -/
example : ∃ out, EndsWithin (Dem.process (Dem.python exactSub (· * (7 / 10 : ℚ))) exactSub (exactSafe (1 / 10) (1 / 7)) true true
    (finiteDem demoSnake)) 50 (.ok out) :=
  C101_dem (exact_sound demoSnake (by decide) (by decide) (by norm_num) (by norm_num) (by norm_num)) true

/-- Non-vacuity for C101: a flow that runs into a cycle is followed for ever, one that does not is followed for at most 21
steps. -/
example : (∀ c ∈ Raster.cellList demoCycle.rows demoCycle.cols, demoCycle.get c ≤ 8) ∧
    demoCycle.rows * demoCycle.cols + 1 = 21 ∧ (Flow.traceDownstream demoCycle 21 (0, 1)).isSome := by decide +kernel

end Malstroem
