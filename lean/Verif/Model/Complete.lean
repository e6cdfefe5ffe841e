/-
Model of malstroem/scripts/complete.py: the tools in sequence. Here a reader returns exactly what was written; Stored.lean has
the version that reads the layers back from vector files, Io.lean the conversion of values in raster files.
-/
import Verif.Model.Dem
import Verif.Model.Streams
import Verif.Model.Rain
import Verif.Model.Approx

namespace Malstroem
namespace Complete
variable {K : Type} [Field K] [LinearOrder K] {β : Type} [LinearOrder β] [OrderTop β]

/-- What the command writes: the results of DemTool, BluespotTool, StreamTool, SimpleVolumeTool and
FinalStateCalculator. -/
structure Out (β K : Type) where
  dem : Dem.Out β K
  bluespots : Bluespots.Out K
  nodes : List (Feature K)
  streams : List (Feature K)
  volumes : List (Feature K)
  final : List (Feature K)

/-- dem.py:58-59: the assertion on the cells. `fl` is the rounding of results, as in Bluespots.lean. -/
def squareCellsFl (fl : K → K) (transform : GeoTransform K) : Bool :=
  |fl (|transform.t1| - |transform.t5|)| < fl (fl (1 / 100) * |transform.t1|)

/-- dem.py:58-59 with exact arithmetic. -/
abbrev squareCells (transform : GeoTransform K) := squareCellsFl id transform

/-- complete.py:40-117 `process_all` up to the final state. `filter` is the parsed filter; the engines are the
Python or the compiled functions; the other parameters are those
of the tools. -/
def processAllFl (fl : K → K) (cc : Raster Bool → Raster Int × Nat) (demEngine : Dem.Engine β K)
    (bluespotEngine : Bluespots.Engine β K) (sub : β → β → K)
    (safe : Raster β → (β → β) × (β → β)) (transform : GeoTransform K) (dem : Raster β) (accum : Bool)
    (filter : Option (Bluespots.StatUnits K → Bool)) (mm : K) : Run (Out β K) := do
  let d ← Run.ofFuel (Dem.process demEngine sub safe (squareCellsFl fl transform) accum dem)
  let b ← Bluespots.processFl fl cc bluespotEngine safe transform d.depths filter d.flowdir d.accum (some dem)
  let s ← Run.ofFuel (Streams.process transform d.flowdir b.labeled (b.pourpoints.map (·.feature)) true)
  let volumes ← Run.ofExcept (Rain.simpleVolumesFl fl s.1 "inputv" mm)
  let final ← Run.ofFuel (Network.finalStateFl fl volumes "inputv")
  pure { dem := d, bluespots := b, nodes := s.1, streams := s.2, volumes := volumes, final := final }

/-- complete.py:40-117 with exact arithmetic. -/
abbrev processAll (cc : Raster Bool → Raster Int × Nat) (demEngine : Dem.Engine β K) (bluespotEngine : Bluespots.Engine β K) :=
  processAllFl id cc demEngine bluespotEngine

/-- What the command writes after the final state: the layers `hypsometry` and `finallevels` and the rasters
`finaldepths` and `finalbluespots`. -/
structure LevelsOut (K : Type) where
  hyps : List (Feature K)
  levels : List (Feature K)
  depths : Option (Raster K)
  extent : Option (Raster Int)

/-- complete.py:40-140 `process_all` without the polygonizing of the final bluespots at its end. `elev` is the elevation
as a number; the hypsometry uses the Python functions of `label.py`. -/
def processWithLevels [FloorRing K] (elev : β → K) (cc : Raster Bool → Raster Int × Nat) (demEngine : Dem.Engine β K)
    (bluespotEngine : Bluespots.Engine β K) (sub : β → β → K)
    (safe : Raster β → (β → β) × (β → β)) (transform : GeoTransform K) (dem : Raster β) (accum : Bool)
    (filter : Option (Bluespots.StatUnits K → Bool)) (mm zresolution : K) : Run (Out β K × LevelsOut K) := do
  let out ← processAll cc demEngine bluespotEngine sub safe transform dem accum filter mm
  let z : Raster K := ⟨dem.rows, dem.cols, fun c => elev (dem.get c)⟩
  let hyps ← Run.ofExcept (Hyps.hypsometryIo out.bluespots.labeled transform z transform
    (out.bluespots.pourpoints.map (·.feature)) zresolution)
  let levels ← Run.ofExcept (Approx.waterLevelIo out.final hyps)
  let flooded ← Run.ofExcept (Approx.approxBluespotsIo out.bluespots.labeled levels z true true 0)
  pure (out, { hyps := hyps, levels := levels, depths := flooded.1, extent := flooded.2 })

end Complete
end Malstroem
