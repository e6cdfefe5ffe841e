/-
Model of the tools of malstroem/hyps.py and malstroem/approx.py and of `complete` with rounded arithmetic: `fl` rounds the result of each
operation, `histogram` stands for `np.histogram` and `interp` for `np.interp`.
-/
import Verif.Model.ApproxFloat
import Verif.Model.Complete

namespace Malstroem
variable {K : Type} [Field K] [LinearOrder K] [FloorRing K]

namespace Hyps

/-- `np.testing.assert_almost_equal(x, y)`. -/
def almostEqualFl (fl : K → K) (x y : K) : Bool := |fl (y - x)| < fl (3 / 2 * fl (1 / 10000000))

/-- hyps.py:26-52 `bluespot_hypsometry_io`, see `hypsometryIo`. -/
def hypsometryIoFl (fl : K → K) (histogram : List K → Int → K → K → Except PyErr (List Int)) (bluespots : Raster Int)
    (bluespots_transform : GeoTransform K) (dem : Raster K) (dem_transform : GeoTransform K) (pourpoints : List (Feature K))
    (resolution : K) : Except PyErr (List (Feature K)) := do
  if ¬ 0 < resolution then throw .assertionError
  if ¬ (bluespots.rows = dem.rows ∧ bluespots.cols = dem.cols) then throw .assertionError
  if ¬ almostEqualFl fl |bluespots_transform.t5| |dem_transform.t5| then throw .assertionError
  if ¬ almostEqualFl fl |bluespots_transform.t1| |dem_transform.t1| then throw .assertionError
  let cell_area := fl (|bluespots_transform.t5| * |bluespots_transform.t1|)
  let pourpoints_index ← pourpoints.foldlM (fun d gjn => do
    let bspot_id ← intId gjn
    pure (Dict.set d bspot_id gjn)) []
  let labels_max ← Label.npMax bluespots
  let ids ← pourpoints_index.values.mapM intId
  let vector_labels_max ← pyMax ids
  if ¬ labels_max = vector_labels_max then throw .assertionError
  let stats ← hypsometryStatsFl fl histogram bluespots dem resolution (some labels_max) 0
  let pourpoints_index ← stats.foldlM (addHypsometry cell_area) pourpoints_index
  pure pourpoints_index.values

/-- Without rounding this is the model in Verif/Model/Hyps.lean. -/
theorem hypsometryIoFl_id [IsStrictOrderedRing K] (bluespots : Raster Int) (t : GeoTransform K) (dem : Raster K) (t' : GeoTransform K)
    (pourpoints : List (Feature K)) (resolution : K) :
    hypsometryIoFl id npHistogram bluespots t dem t' pourpoints resolution = hypsometryIo bluespots t dem t' pourpoints resolution := by
  have h : ∀ x y : K, almostEqualFl id x y = almostEqual x y := by
    intro x y
    unfold almostEqualFl almostEqual
    simp only [id]
    norm_num
  unfold hypsometryIoFl hypsometryIo
  simp only [h]
  rfl

end Hyps

namespace Approx

/-- approx.py:70: `float(water_level) - zmin`. -/
def approxDmaxFl (fl : K → K) (water_level : Val K) (zmin : WithTop K) : Val K :=
  match water_level, zmin with
  | .num x, (z : K) => .num (fl (x - z))
  | .num _, ⊤ => .ninf
  | .ninf, _ => .ninf
  | .inf, (_ : K) => .inf
  | _, _ => .nan

/-- approx.py:43-70: the loop body; 31-38 `parse_hyps_feature`. -/
def levelFeatureFl (fl : K → K) (interp : K → List K → List K → Except PyErr K) (hyps_index : Dict Int (Feature K)) (f : Feature K) :
    Except PyErr (Feature K) := do
  let bsid ← bspotId f
  let final_vol ← (← f.prop "v").float
  let g ← Dict.getItem hyps_index bsid
  let _ ← bspotId g
  let hyps ← Hyps.fromFlatdict g.properties
  let cell_area ← (← g.prop "cell_area").float
  let max_depth ← (← g.prop "bspot_dmax").floatBot
  let max_vol ← (← g.prop "bspot_vol").float
  let water_level ← waterLevelFl fl interp hyps cell_area max_depth max_vol final_vol
  let props := Dict.set f.properties "approx_z" water_level
  let props := Dict.set props "approx_dmax" (approxDmaxFl fl water_level hyps.zmin)
  pure { f with properties := props }

/-- approx.py:25-73 `approx_water_level_io`: the features written. -/
def waterLevelIoFl (fl : K → K) (interp : K → List K → List K → Except PyErr K) (finalvols hyps : List (Feature K)) :
    Except PyErr (List (Feature K)) := do
  let hyps_index ← hyps.foldlM (fun d gjn => do
    let bsid ← bspotId gjn
    pure (Dict.set d bsid gjn)) []
  let features ← pourpointsOf finalvols
  features.mapM (levelFeatureFl fl interp hyps_index)

/-- approx.py:75-123 `approx_bluespots_io`, see `approxBluespotsIo`. -/
def approxBluespotsIoFl (fl : K → K) (bluespot_labels : Raster Int) (levels : List (Feature K)) (dem : Raster K)
    (want_depths want_labels : Bool) (background_label : Int) :
    Except PyErr (Option (Raster K) × Option (Raster Int)) := do
  if ¬ want_depths ∧ ¬ want_labels then throw .other
  let features ← pourpointsOf levels
  let bluespot_water_levels ← features.foldlM (fun d x => do
    let bsid ← bspotId x
    let z ← (← x.prop "approx_z").pyFloat
    pure (Dict.set d bsid z)) []
  let value_list ← labelvaluedictToList bluespot_water_levels background_label (.num (-999))
  let value_list ← value_list.mapM Val.float
  let maxextent_waterlevel ← @Label.setLabelToValue K ⟨0⟩ bluespot_labels value_list
  let (depths, below) := depthsAndBelowFl fl maxextent_waterlevel dem
  pure (if want_depths then some depths else none,
        if want_labels then some (maskLabels bluespot_labels below background_label) else none)

theorem waterLevelIoFl_id (finalvols hyps : List (Feature K)) : waterLevelIoFl id npInterp finalvols hyps = waterLevelIo finalvols hyps := by
  have h : ∀ (z : Val K) w, approxDmaxFl id z w = approxDmax z w := fun z w => rfl
  have : ∀ index : Dict Int (Feature K), levelFeatureFl id npInterp index = levelFeature index := by
    intro index
    funext f
    unfold levelFeatureFl levelFeature
    simp only [waterLevelFl_id, h]
  unfold waterLevelIoFl waterLevelIo
  simp only [this]

theorem approxBluespotsIoFl_id (bluespot_labels : Raster Int) (levels : List (Feature K)) (dem : Raster K)
    (want_depths want_labels : Bool) (background_label : Int) :
    approxBluespotsIoFl id bluespot_labels levels dem want_depths want_labels background_label =
      approxBluespotsIo bluespot_labels levels dem want_depths want_labels background_label := rfl

end Approx

namespace Complete
variable {β : Type} [LinearOrder β] [OrderTop β]

/-- complete.py:40-140 `process_all` without the polygonizing of the final bluespots at its end, see `processWithLevels`. -/
def processWithLevelsFl (fl : K → K) (histogram : List K → Int → K → K → Except PyErr (List Int))
    (interp : K → List K → List K → Except PyErr K) (elev : β → K) (cc : Raster Bool → Raster Int × Nat) (demEngine : Dem.Engine β K)
    (bluespotEngine : Bluespots.Engine β K) (sub : β → β → K)
    (safe : Raster β → (β → β) × (β → β)) (transform : GeoTransform K) (dem : Raster β) (accum : Bool)
    (filter : Option (Bluespots.StatUnits K → Bool)) (mm zresolution : K) : Run (Out β K × LevelsOut K) := do
  let out ← processAllFl fl cc demEngine bluespotEngine sub safe transform dem accum filter mm
  let z : Raster K := ⟨dem.rows, dem.cols, fun c => elev (dem.get c)⟩
  let hyps ← Run.ofExcept (Hyps.hypsometryIoFl fl histogram out.bluespots.labeled transform z transform
    (out.bluespots.pourpoints.map (·.feature)) zresolution)
  let levels ← Run.ofExcept (Approx.waterLevelIoFl fl interp out.final hyps)
  let flooded ← Run.ofExcept (Approx.approxBluespotsIoFl fl out.bluespots.labeled levels z true true 0)
  pure (out, { hyps := hyps, levels := levels, depths := flooded.1, extent := flooded.2 })

/-- Without rounding this is the model in Verif/Model/Complete.lean. -/
theorem processWithLevelsFl_id [IsStrictOrderedRing K] (elev : β → K) (cc : Raster Bool → Raster Int × Nat) (demEngine : Dem.Engine β K)
    (bluespotEngine : Bluespots.Engine β K) (sub : β → β → K)
    (safe : Raster β → (β → β) × (β → β)) (transform : GeoTransform K) (dem : Raster β) (accum : Bool)
    (filter : Option (Bluespots.StatUnits K → Bool)) (mm zresolution : K) :
    processWithLevelsFl id npHistogram Approx.npInterp elev cc demEngine bluespotEngine sub safe transform dem accum filter mm zresolution =
      processWithLevels elev cc demEngine bluespotEngine sub safe transform dem accum filter mm zresolution := by
  unfold processWithLevelsFl processWithLevels
  simp only [Hyps.hypsometryIoFl_id, Approx.waterLevelIoFl_id, Approx.approxBluespotsIoFl_id]

end Complete
end Malstroem
