/-
Properties C68 (the subcommands in sequence do the same as `complete`) and C69 (options of `initvolumes`).
-/
import Verif.Proofs.Scripts
import Verif.Proofs.LabelContract
import Verif.Props.Levels

set_option linter.unusedSectionVars false

namespace Malstroem
open Spec Scripts

section
variable {K : Type} [Field K] [LinearOrder K] [IsStrictOrderedRing K] [FloorRing K] {β : Type} [LinearOrder β] [OrderTop β]

/-- C68. The documented sequence of subcommands writes exactly the files `complete` writes: one of them comes to an end
without error and has written `files` if and only if the other has. This holds for the Python and for the compiled
functions and for any arithmetic on elevations, provided that
* cells are square (`complete` refuses others),
* the rain is not 0 mm (`initvolumes` refuses 0),
* accumulated flow is calculated, or the DEM has no nodata cells (without, `pourpts` reads the DEM in another way),
* no filled elevation is taken for the nodata value -999 without being it, and
* labelling looks at the cells of a raster only. -/
theorem C68_sequence_is_complete_partial (elev : β → K) {cc : Raster Bool → Raster Int × Nat} (hcc : LabelContract cc)
    (hco : CellsOnly cc) (demEngine : Dem.Engine β K) {eng : Bluespots.Engine β K} (heng : Bluespots.IsEngine eng)
    (sub : β → β → K) (safe : Raster β → (β → β) × (β → β)) (subst : β) (near : β → Bool) {gt : GeoTransform K}
    (hsq : SquareCells gt) (dem : ElevFile β) (with_accum : Bool)
    (hdem : with_accum = true ∨ dem.read none = dem.read (some subst))
    (filter : Option (Bluespots.StatUnits K → Bool)) {mm : K} (hmm : mm ≠ 0) (zresolution : K)
    (hnear : ∀ n r, demEngine.fillTerrain (dem.read (some subst)) n = some (.ok r) →
      ∀ c, near (r.get c) = true → r.get c = subst) (files : Files β K) :
    (complete elev cc demEngine eng sub safe subst gt dem with_accum filter mm zresolution).Yields (.ok files) ↔
      (sequence elev cc demEngine eng sub safe subst near gt dem with_accum filter mm zresolution).Yields (.ok files) := by
  unfold Run.Yields Returns
  simp only [sequence_iff hcc hco heng hsq hdem hmm hnear]

/-- There is a labelling function as assumed. -/
theorem exists_labelContract_cellsOnly : ∃ cc, LabelContract cc ∧ CellsOnly cc := by
  obtain ⟨cc, hcc⟩ := exists_labelContract
  let norm : Raster Bool → Raster Bool := fun r => { r with get := fun c => r.get c && decide (r.Has c) }
  refine ⟨fun r => cc (norm r), fun r => ?_, fun a b h => ?_⟩
  · obtain ⟨h1, h2, hL⟩ := hcc (norm r)
    refine ⟨h1, h2, ?_⟩
    have hw : ∀ c, InGrid r.rows r.cols c → ((norm r).get c = true ↔ r.get c = true) := by
      intro c hc
      have : decide (r.Has c) = true := decide_eq_true hc
      show (r.get c && decide (r.Has c)) = true ↔ _
      rw [this, Bool.and_true]
    exact {
      background := fun c hc => by rw [hL.background c hc, hw c hc]
      range := hL.range
      used := hL.used
      same := fun a b ha hb hwa hwb => by
        rw [hL.same a b ha hb ((hw a ha).2 hwa) ((hw b hb).2 hwb)]
        exact ⟨fun h => h.mono fun x hx => ⟨hx.1, (hw x hx.1).1 hx.2⟩, fun h => h.mono fun x hx => ⟨hx.1, (hw x hx.1).2 hx.2⟩⟩ }
  · have : norm a = norm b := by
      show (⟨a.rows, a.cols, fun c => a.get c && decide (a.Has c)⟩ : Raster Bool) = ⟨b.rows, b.cols, fun c => b.get c && decide (b.Has c)⟩
      have hg : (fun c => a.get c && decide (a.Has c)) = (fun c => b.get c && decide (b.Has c)) := by
        funext c
        have hb : b.Has c ↔ a.Has c := by
          show InGrid b.rows b.cols c ↔ InGrid a.rows a.cols c
          rw [h.1, h.2.1]
        by_cases hc : a.Has c
        · simp [hc, hb, h.2.2 c hc]
        · simp [hc, hb]
      rw [hg]
      exact congrArg₂ (fun r k => (⟨r, k, fun c => b.get c && decide (b.Has c)⟩ : Raster Bool)) h.1 h.2.1
    simp only [this]

/-- In exact arithmetic every DEM of at least 2x2 cells meets the hypotheses of C68, and the commands come to an end: with
C67, whatever is proved of the files of `complete` holds for the files of the subcommands. -/
theorem C68_sequence_yields_partial {cc : Raster Bool → Raster Int × Nat} (hcc : LabelContract cc) (hco : CellsOnly cc)
    {gt : GeoTransform K} (hsq : SquareCells gt) (dem : Raster K) (hr : 2 ≤ dem.rows) (hc : 2 ≤ dem.cols) {short diag k : K}
    (hs : 0 < short) (hd : 0 < diag) (hk : 0 < k) (with_accum : Bool) (filter : Option (Bluespots.StatUnits K → Bool))
    {mm : K} (hmm : mm ≠ 0) {res : K} (hres : 0 < res)
    (hnn : ∀ c z, dem.Has c → IsSpillLevel dem.rows dem.cols dem.get c z → dem.get c < z → 0 ≤ dem.get c) :
    ∃ files, (sequence (·.untopD 0) cc (Dem.python exactSub (· * k)) Bluespots.python exactSub (exactSafe short diag)
        ((-999 : K) : WithTop K) (· = ((-999 : K) : WithTop K)) gt ⟨finiteDem dem, none⟩ with_accum filter mm res).Yields (.ok files) ∧
      ∃ vs ss, List.Forall₂ (fun f x => HasNumber f "v" x) files.finalvolumes vs ∧
        List.Forall₂ (fun f x => HasNumber f "spillv" x) (files.finalvolumes.filter fun f => IsRoot f) ss ∧
        mm / 1000 * ((dem.rows * dem.cols : Nat) * cellArea gt) = vs.sum + ss.sum := by
  obtain ⟨out, lv, _, _, h, _, _, hw, _⟩ := C67_complete_levels hcc hsq dem hr hc hs hd hk with_accum
    (filter.getD fun _ => true) mm hres hnn
  refine ⟨_, (C68_sequence_is_complete_partial _ hcc hco _ (.inl rfl) _ _ _ _ hsq _ _ (.inr rfl) _ hmm _ ?_ _).1
    (Run.yields_bind h (Run.yields_pure _)), hw⟩
  intro n r _ c hc
  exact of_decide_eq_true hc

end

/-- The hypotheses of both theorems are met by the valley of C56. -/
example : ∃ cc, LabelContract cc ∧ CellsOnly cc ∧ SquareCells (⟨0, 2, 0, 0, 0, -2⟩ : GeoTransform Rat) ∧
    2 ≤ demoValley.rows ∧ 2 ≤ demoValley.cols ∧
    ∀ c z, demoValley.Has c → IsSpillLevel demoValley.rows demoValley.cols demoValley.get c z → demoValley.get c < z →
      0 ≤ demoValley.get c := by
  obtain ⟨cc, h1, h2⟩ := exists_labelContract_cellsOnly
  refine ⟨cc, h1, h2, by unfold SquareCells; norm_num, by decide, by decide, fun c z hc _ _ => ?_⟩
  have key : ∀ c ∈ Raster.cellList 4 5, 0 ≤ demoValley.get c := by decide +kernel
  exact key c (Flow.mem_cellList.2 hc)

/-! ### Where the commands differ -/

/-- A DEM with a nodata cell (9999) on the left edge. -/
def holeDem : ElevFile (WithTop Rat) where
  data := finiteDem (Raster.ofRows [[50,50,50,50,50,50],[9999,5,1,1,7,6],[50,50,50,50,50,50]])
  nodata := some fun x => decide (x = ((9999 : Rat) : WithTop Rat))
/-- Its only bluespot has two cells. -/
def holeCC (_ : Raster Bool) : Raster Int × Nat := (Raster.ofRows [[0,0,0,0,0,0],[0,0,1,1,0,0],[0,0,0,0,0,0]], 1)

/-- Row and column of the pour points written. -/
def pointCells {K : Type} (files : Files (WithTop K) K) : List (Option (Val K) × Option (Val K)) :=
  files.pourpoints.map fun f => (f.properties.get? "cell_row", f.properties.get? "cell_col")

set_option synthInstance.maxSize 1000 in
/-- C68 fails for a DEM with nodata cells and without accumulated flow: the bluespot spills to the left, over the cell of
elevation 5 into the nodata cell, and `complete` puts its pour point into the left cell (1, 2). The subcommand `pourpts`
reads the nodata cell as a wall and puts the pour point into the right cell (1, 3). -/
theorem C68_nodata_false :
    (((complete (·.untopD 0) holeCC (Dem.python exactSub (· * (7/10))) Bluespots.python exactSub
        (exactSafe (1/1000) (14/10000)) ((-999 : Rat) : WithTop Rat) ⟨0, 2, 0, 0, 0, -2⟩ holeDem false none 20 (1/4)).run
          40).run.map fun r => r.toOption.map pointCells) =
      some (some [(some (.int 1), some (.int 0)), (some (.int 1), some (.int 2))]) ∧
    (((sequence (·.untopD 0) holeCC (Dem.python exactSub (· * (7/10))) Bluespots.python exactSub
        (exactSafe (1/1000) (14/10000)) ((-999 : Rat) : WithTop Rat) (fun x => decide (x = ((-999 : Rat) : WithTop Rat)))
          ⟨0, 2, 0, 0, 0, -2⟩ holeDem false none 20 (1/4)).run 40).run.map fun r => r.toOption.map pointCells) =
      some (some [(some (.int 1), some (.int 5)), (some (.int 1), some (.int 3))]) := by
  decide +kernel

set_option synthInstance.maxSize 1000 in
/-- With accumulated flow both put it into the same cell. -/
example :
    (((complete (·.untopD 0) holeCC (Dem.python exactSub (· * (7/10))) Bluespots.python exactSub
        (exactSafe (1/1000) (14/10000)) ((-999 : Rat) : WithTop Rat) ⟨0, 2, 0, 0, 0, -2⟩ holeDem true none 20 (1/4)).run
          40).run.map fun r => r.toOption.map pointCells) =
    (((sequence (·.untopD 0) holeCC (Dem.python exactSub (· * (7/10))) Bluespots.python exactSub
        (exactSafe (1/1000) (14/10000)) ((-999 : Rat) : WithTop Rat) (fun x => decide (x = ((-999 : Rat) : WithTop Rat)))
          ⟨0, 2, 0, 0, 0, -2⟩ holeDem true none 20 (1/4)).run 40).run.map fun r => r.toOption.map pointCells) := by
  decide +kernel

section
variable {K : Type} [Field K] [LinearOrder K] [IsStrictOrderedRing K] [FloorRing K]

/-- C68 fails for 0 mm of rain: `complete` writes its files, and `initvolumes` refuses. -/
theorem C68_zero_rain_false {cc : Raster Bool → Raster Int × Nat} (hcc : LabelContract cc)
    {gt : GeoTransform K} (hsq : SquareCells gt) (dem : Raster K) (hr : 2 ≤ dem.rows) (hc : 2 ≤ dem.cols) {short diag k : K}
    (hs : 0 < short) (hd : 0 < diag) (hk : 0 < k) (with_accum : Bool) (filter : Option (Bluespots.StatUnits K → Bool))
    {res : K} (hres : 0 < res)
    (hnn : ∀ c z, dem.Has c → IsSpillLevel dem.rows dem.cols dem.get c z → dem.get c < z → 0 ≤ dem.get c) :
    (∃ files, (complete (·.untopD 0) cc (Dem.python exactSub (· * k)) Bluespots.python exactSub (exactSafe short diag)
        ((-999 : K) : WithTop K) gt ⟨finiteDem dem, none⟩ with_accum filter 0 res).Yields (.ok files)) ∧
    ∀ nodes : List (Feature K), initvolumes nodes (some 0) none .mm none "inputv" = .error .usageError := by
  refine ⟨?_, fun nodes => by simp [initvolumes, Option.filter]⟩
  obtain ⟨out, lv, _, _, h, _⟩ := C67_complete_levels hcc hsq dem hr hc hs hd hk with_accum
    (filter.getD fun _ => true) 0 hres hnn
  exact ⟨_, Run.yields_bind h (Run.yields_pure _)⟩

/-- C68 fails for cells that are not square: `complete` always refuses the DEM. -/
theorem C68_oblong_refused {β : Type} [LinearOrder β] [OrderTop β] (elev : β → K) (cc : Raster Bool → Raster Int × Nat)
    (demEngine : Dem.Engine β K) (eng : Bluespots.Engine β K) (sub : β → β → K) (safe : Raster β → (β → β) × (β → β)) (subst : β)
    {gt : GeoTransform K} (hsq : ¬ SquareCells gt) (dem : ElevFile β) (with_accum : Bool)
    (filter : Option (Bluespots.StatUnits K → Bool)) (mm res : K) :
    (complete elev cc demEngine eng sub safe subst gt dem with_accum filter mm res).Yields (.error .assertionError) := by
  have h0 : Complete.squareCellsFl id gt = false := by unfold Complete.squareCellsFl; exact decide_eq_false hsq
  refine Run.yields_bind_error (Run.yields_bind_error (Run.yields_bind_error (Run.yields_ofFuel ⟨0, fun m _ => ?_⟩)))
  rw [h0]
  rfl

end

set_option synthInstance.maxSize 1000 in
/-- The subcommands do not check the cells and run on cells of 2 m x 3 m. -/
theorem C68_oblong_false : ¬ SquareCells (⟨0, 2, 0, 0, 0, -3⟩ : GeoTransform Rat) ∧
    (((sequence (·.untopD 0) demoValleyCC (Dem.python exactSub (· * (7/10))) Bluespots.python exactSub
        (exactSafe (1/1000) (14/10000)) ((-999 : Rat) : WithTop Rat) (fun x => decide (x = ((-999 : Rat) : WithTop Rat)))
          ⟨0, 2, 0, 0, 0, -3⟩ ⟨finiteDem demoValley, none⟩ false none 500 (1/4)).run 40).run.map fun r =>
            r.toOption.map fun o => o.finallevels.map fun f => (f.properties.get? "bspot_id", f.properties.get? "v")) =
      some (some [(some (.int 0), some (.num 0)), (some (.int 1), some (.num 18))]) := by
  refine ⟨by unfold SquareCells; norm_num, ?_⟩
  decide +kernel

/-! ### Options of `initvolumes` -/

section
variable {K : Type} [Field K] [LinearOrder K]

/-- C69, for rain that is not 0 mm: exactly one of `-mm` and `-pr` is accepted, `-pr` needs `-bluespots`, and the volumes are
those of the tool for the option given. -/
theorem C69_options_partial (nodes : List (Feature K)) (mm : Option K) (hmm : mm ≠ some 0)
    (pr : Option (Raster K)) (unit : Rain.Unit) (bluespots : Option (Raster Int × GeoTransform K)) (name : String) :
    (mm.isSome = pr.isSome → initvolumes nodes mm pr unit bluespots name = .error .usageError) ∧
    (∀ x, mm = some x → pr = none → initvolumes nodes mm pr unit bluespots name = Rain.simpleVolumes nodes name x) ∧
    (∀ r gt labels, mm = none → pr = some r → bluespots = some (labels, gt) →
      initvolumes nodes mm pr unit bluespots name = Rain.rasterVolumes nodes gt labels r unit name) ∧
    (mm = none → bluespots = none → initvolumes nodes mm pr unit bluespots name = .error .usageError) := by
  rcases mm with _ | x <;> rcases pr with _ | r
  · refine ⟨fun _ => rfl, by simp, by simp, fun _ _ => rfl⟩
  · refine ⟨by simp, by simp, ?_, ?_⟩
    · rintro r' gt' labels _ h rfl
      cases h
      rfl
    · rintro _ rfl
      rfl
  all_goals
    have hx : x ≠ 0 := fun h => hmm (by rw [h])
    simp [initvolumes, Option.filter, hx]

/-- C69 fails for `-mm 0`: alone it is refused, and together with `-pr` it is accepted and has no effect. -/
theorem C69_zero_false (nodes : List (Feature K)) (r : Raster K) (gt : GeoTransform K) (unit : Rain.Unit)
    (labels : Raster Int) (name : String) :
    initvolumes nodes (some 0) none unit (some (labels, gt)) name = .error .usageError ∧
    initvolumes nodes (some 0) (some r) unit (some (labels, gt)) name =
      initvolumes nodes none (some r) unit (some (labels, gt)) name := by
  simp [initvolumes, Option.filter]

end

/-- Both options are of use: 20 mm of rain, and one raster of rain in litres, on one node. -/
example : (initvolumes (K := Rat) [⟨none, .none, [("nodeid", .int 1), ("wshed_area", .num 100)]⟩] (some 20) none .mm none "inputv").toOption.map
      (fun l => l.map fun f => f.properties.get? "inputv") = some [some (.num 2)] ∧
    (initvolumes (K := Rat) [⟨none, .none, [("nodeid", .int 1), ("wshed_area", .num 100)]⟩] none
      (some (Raster.ofRows [[1000, 500]])) .l (some (Raster.ofRows [[1, 1]], ⟨0, 1, 0, 0, 0, -1⟩)) "inputv").toOption.map
      (fun l => l.map fun f => f.properties.get? "inputv") = some [some (.num (3/2))] := by
  decide +kernel

end Malstroem
