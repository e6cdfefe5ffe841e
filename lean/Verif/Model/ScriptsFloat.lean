/-
The subcommands of Scripts.lean with a rounding after every operation. `fl` is the rounding, `histogram` and `interp` are numpy's
functions, as in LevelsFloat.lean. What is not modelled is as in Scripts.lean.
-/
import Verif.Model.Scripts
import Verif.Model.LevelsFloat

namespace Malstroem
namespace Scripts
variable {K : Type} [Field K] [LinearOrder K] {β : Type} [LinearOrder β] [OrderTop β]

/-- scripts/bluespot.py:31-66 `bspots`, see `bspots`. -/
def bspotsFl (fl : K → K) (cc : Raster Bool → Raster Int × Nat) (eng : Bluespots.Engine β K) (transform : GeoTransform K)
    (depths : Raster K) (filter : Option (Bluespots.StatUnits K → Bool)) : Run (Raster Int) := do
  let cell_width := |transform.t1|
  let cell_height := |transform.t5|
  let cell_area := fl (cell_width * cell_height)
  let raw := Bluespots.connectedComponents cc depths
  match filter with
  | none => pure raw.1
  | some filter_function =>
    let raw_bluespot_stats ← Run.ofExcept (eng.labelStats depths raw.1 none)
    let keepers := Bluespots.filterbluespotsFl fl filter_function cell_area raw_bluespot_stats
    let new_components ← Run.ofExcept (Label.keepLabels raw.1 keepers 0)
    pure (cc new_components).1

/-- scripts/bluespot.py:88-144 `pourpts`, see `pourpts`. -/
def pourptsFl (fl : K → K) (eng : Bluespots.Engine β K) (safe : Raster β → (β → β) × (β → β)) (transform : GeoTransform K)
    (bluespots : Raster Int) (depths : Raster K) (watersheds : Raster Int) (dem : Option (ElevFile β))
    (accum : Option (Raster Int)) : Run (List (Bluespots.PourPoint K)) := do
  if accum.isNone ∧ dem.isNone then Run.fail .other
  else
    let bluespot_stats ← Run.ofExcept (eng.labelStats depths bluespots none)
    match accum, dem with
    | some accum, _ =>
      let data : Raster (WithBot Int) := { rows := accum.rows, cols := accum.cols, get := fun c => (accum.get c : WithBot Int) }
      let pp_pix ← Run.ofExcept (Label.labelMaxIndex data bluespots none)
      let watershed_stats ← Run.ofExcept (Label.labelCount watersheds)
      pure (Bluespots.assemblePourpointsFl fl transform pp_pix bluespot_stats watershed_stats)
    | none, some dem =>
      let dem_data := dem.read none
      let (short, diag) := safe dem_data
      let filled_no_flats ← Run.ofFuel (eng.fillTerrainNoFlats short diag dem_data)
      let pp_pix ← Run.ofExcept (eng.labelMinIndex filled_no_flats bluespots none)
      let watershed_stats ← Run.ofExcept (Label.labelCount watersheds)
      pure (Bluespots.assemblePourpointsFl fl transform pp_pix bluespot_stats watershed_stats)
    | none, none => Run.fail .other

/-- scripts/initvolume.py:28-85 `initvolumes`, see `initvolumes`. -/
def initvolumesFl (fl : K → K) (nodes : List (Feature K)) (mm : Option K) (pr : Option (Raster K)) (pr_unit : Rain.Unit)
    (bluespots : Option (Raster Int × GeoTransform K)) (out_attribute : String) : Except PyErr (List (Feature K)) :=
  let mm := mm.filter (· ≠ 0)
  match mm, pr with
  | some _, some _ => .error .usageError
  | none, none => .error .usageError
  | some mm, none => Rain.simpleVolumesFl fl nodes out_attribute mm
  | none, some pr => match bluespots with
    | none => .error .usageError
    | some bluespots => Rain.rasterVolumesFl fl nodes bluespots.2 bluespots.1 pr pr_unit out_attribute

/-- scripts/finalstate.py:29-60 `finalvolumes`. -/
def finalvolumesFl (fl : K → K) (inputvolumes : List (Feature K)) (volume_attribute : String) : Run (List (Feature K)) :=
  Run.ofFuel (Network.finalStateFl fl inputvolumes volume_attribute)

section
variable [FloorRing K]

/-- scripts/hyps.py:21-52 `hyps`. -/
def hypsFl (fl : K → K) (histogram : List K → Int → K → K → Except PyErr (List Int)) (elev : β → K) (transform : GeoTransform K)
    (subst : β) (bluespots : Raster Int) (dem : ElevFile β) (pourpoints : List (Feature K)) (zresolution : K) :
    Run (List (Feature K)) :=
  Run.ofExcept (Hyps.hypsometryIoFl fl histogram bluespots transform (numbers elev (dem.read (some subst))) transform pourpoints
    zresolution)

/-- scripts/finalstate.py:64-88 `finallevels`. -/
def finallevelsFl (fl : K → K) (interp : K → List K → List K → Except PyErr K) (finalvols hyps : List (Feature K)) :
    Run (List (Feature K)) :=
  Run.ofExcept (Approx.waterLevelIoFl fl interp finalvols hyps)

/-- scripts/finalstate.py:92-113 `finalbluespots`, see `finalbluespots`. -/
def finalbluespotsFl (fl : K → K) (elev : β → K) (subst : β) (bluespots : Raster Int) (dem : ElevFile β)
    (finallevels : List (Feature K)) (out_depths out_bluespots : Bool) : Run (Option (Raster K) × Option (Raster Int)) :=
  if ¬ out_depths ∧ ¬ out_bluespots then Run.fail .usageError
  else Run.ofExcept (Approx.approxBluespotsIoFl fl bluespots finallevels (numbers elev (dem.read (some subst))) out_depths
    out_bluespots 0)

end

/-- complete.py:40-140: the files of `complete`, see `complete`. -/
def completeFl [FloorRing K] (fl : K → K) (histogram : List K → Int → K → K → Except PyErr (List Int))
    (interp : K → List K → List K → Except PyErr K) (elev : β → K) (cc : Raster Bool → Raster Int × Nat) (demEngine : Dem.Engine β K)
    (bluespotEngine : Bluespots.Engine β K) (sub : β → β → K) (safe : Raster β → (β → β) × (β → β)) (subst : β)
    (transform : GeoTransform K) (dem : ElevFile β) (accum : Bool) (filter : Option (Bluespots.StatUnits K → Bool))
    (mm zresolution : K) : Run (Files β K) := do
  let (o, l) ← Complete.processWithLevelsFl fl histogram interp elev cc demEngine bluespotEngine sub safe transform (dem.read (some subst)) accum
    (some (filter.getD fun _ => true)) mm zresolution
  pure { filled := o.dem.filled, depths := o.dem.depths, flowdir := o.dem.flowdir, accum := o.dem.accum,
         bluespots := o.bluespots.labeled, watersheds := o.bluespots.watersheds,
         pourpoints := o.bluespots.pourpoints.map (·.feature), nodes := o.nodes, streams := o.streams,
         initvolumes := o.volumes, finalvolumes := o.final, hyps := l.hyps, finallevels := l.levels,
         finaldepths := l.depths, finalbluespots := l.extent }

/-- The sequence of subcommands, see `sequence`. -/
def sequenceFl [FloorRing K] (fl : K → K) (histogram : List K → Int → K → K → Except PyErr (List Int))
    (interp : K → List K → List K → Except PyErr K) (elev : β → K) (cc : Raster Bool → Raster Int × Nat) (demEngine : Dem.Engine β K)
    (bluespotEngine : Bluespots.Engine β K) (sub : β → β → K) (safe : Raster β → (β → β) × (β → β)) (subst : β)
    (near : β → Bool) (transform : GeoTransform K) (dem : ElevFile β) (with_accum : Bool)
    (filter : Option (Bluespots.StatUnits K → Bool)) (mm zresolution : K) : Run (Files β K) := do
  let filled ← filled demEngine subst near dem
  let depths := depths sub subst dem filled
  let flowdir ← flowdir demEngine safe subst dem
  let accum ← (if with_accum then some <$> accum demEngine flowdir else pure none : Run (Option (Raster Int)))
  let bluespots ← bspotsFl fl cc bluespotEngine transform depths filter
  let watersheds ← wsheds bluespotEngine bluespots flowdir
  let points ← pourptsFl fl bluespotEngine safe transform bluespots depths watersheds (some dem) accum
  let pourpoints := points.map (·.feature)
  let net ← network transform bluespots flowdir pourpoints
  let hyps ← hypsFl fl histogram elev transform subst bluespots dem pourpoints zresolution
  let volumes ← Run.ofExcept (initvolumesFl fl net.1 (some mm) none .mm none "inputv")
  let final ← finalvolumesFl fl volumes "inputv"
  let levels ← finallevelsFl fl interp final hyps
  let flooded ← finalbluespotsFl fl elev subst bluespots dem levels true true
  pure { filled := filled.data, depths := depths, flowdir := flowdir, accum := accum, bluespots := bluespots,
         watersheds := watersheds, pourpoints := pourpoints, nodes := net.1, streams := net.2, initvolumes := volumes,
         finalvolumes := final, hyps := hyps, finallevels := levels, finaldepths := flooded.1,
         finalbluespots := flooded.2 }

end Scripts
end Malstroem
