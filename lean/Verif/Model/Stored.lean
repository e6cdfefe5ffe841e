/-
The commands with their vector files: what a tool reads is what the file gives back, not what was handed to the writer.
-/
import Verif.Model.Scripts
import Verif.Model.Vector

namespace Malstroem
namespace Scripts
variable {K : Type} [Field K] [LinearOrder K] [FloorRing K] {β : Type} [LinearOrder β] [OrderTop β]

/-- complete.py:40-140 like `complete`; `back name fs` are the features read from the layer `name` after `fs` were written to
it. -/
def completeVia (back : String → List (Feature K) → List (Feature K)) (elev : β → K)
    (cc : Raster Bool → Raster Int × Nat) (demEngine : Dem.Engine β K)
    (bluespotEngine : Bluespots.Engine β K) (sub : β → β → K) (safe : Raster β → (β → β) × (β → β)) (subst : β)
    (transform : GeoTransform K) (dem : ElevFile β) (accum : Bool) (filter : Option (Bluespots.StatUnits K → Bool))
    (mm zresolution : K) : Run (Files β K) := do
  let dem_data := dem.read (some subst)
  let d ← Run.ofFuel (Dem.process demEngine sub safe (Complete.squareCells transform) accum dem_data)
  let b ← Bluespots.process cc bluespotEngine safe transform d.depths (some (filter.getD fun _ => true)) d.flowdir d.accum
    (some dem_data)
  let pourpoints := b.pourpoints.map (·.feature)
  let s ← Run.ofFuel (Streams.process transform d.flowdir b.labeled (back "pourpoints" pourpoints) true)
  let volumes ← Run.ofExcept (Rain.simpleVolumes (back "nodes" s.1) "inputv" mm)
  let final ← Run.ofFuel (Network.finalState (back "initvolumes" volumes) "inputv")
  let z := numbers elev dem_data
  let hyps ← Run.ofExcept (Hyps.hypsometryIo b.labeled transform z transform (back "pourpoints" pourpoints) zresolution)
  let levels ← Run.ofExcept (Approx.waterLevelIo (back "finalstate" final) (back "hypsometry" hyps))
  let flooded ← Run.ofExcept (Approx.approxBluespotsIo b.labeled (back "finallevels" levels) z true true 0)
  pure { filled := d.filled, depths := d.depths, flowdir := d.flowdir, accum := d.accum,
         bluespots := b.labeled, watersheds := b.watersheds, pourpoints := pourpoints, nodes := s.1, streams := s.2,
         initvolumes := volumes, finalvolumes := final, hyps := hyps, finallevels := levels,
         finaldepths := flooded.1, finalbluespots := flooded.2 }

/-- The sequence of subcommands like `sequence`, with vector files. -/
def sequenceVia (back : String → List (Feature K) → List (Feature K)) (elev : β → K)
    (cc : Raster Bool → Raster Int × Nat) (demEngine : Dem.Engine β K)
    (bluespotEngine : Bluespots.Engine β K) (sub : β → β → K) (safe : Raster β → (β → β) × (β → β)) (subst : β)
    (near : β → Bool) (transform : GeoTransform K) (dem : ElevFile β) (with_accum : Bool)
    (filter : Option (Bluespots.StatUnits K → Bool)) (mm zresolution : K) : Run (Files β K) := do
  let filled ← filled demEngine subst near dem
  let depths := depths sub subst dem filled
  let flowdir ← flowdir demEngine safe subst dem
  let accum ← (if with_accum then some <$> accum demEngine flowdir else pure none : Run (Option (Raster Int)))
  let bluespots ← bspots cc bluespotEngine transform depths filter
  let watersheds ← wsheds bluespotEngine bluespots flowdir
  let points ← pourpts bluespotEngine safe transform bluespots depths watersheds (some dem) accum
  let pourpoints := points.map (·.feature)
  let net ← network transform bluespots flowdir (back "pourpoints" pourpoints)
  let hyps ← hyps elev transform subst bluespots dem (back "pourpoints" pourpoints) zresolution
  let volumes ← Run.ofExcept (initvolumes (back "nodes" net.1) (some mm) none .mm none "inputv")
  let final ← finalvolumes (back "initvolumes" volumes) "inputv"
  let levels ← finallevels (back "finalvolumes" final) (back "hyps" hyps)
  let flooded ← finalbluespots elev subst bluespots dem (back "finallevels" levels) true true
  pure { filled := filled.data, depths := depths, flowdir := flowdir, accum := accum, bluespots := bluespots,
         watersheds := watersheds, pourpoints := pourpoints, nodes := net.1, streams := net.2, initvolumes := volumes,
         finalvolumes := final, hyps := hyps, finallevels := levels, finaldepths := flooded.1,
         finalbluespots := flooded.2 }

end Scripts
end Malstroem
