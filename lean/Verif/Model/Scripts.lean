/-
Model of the subcommands in malstroem/scripts. A command is a function from the contents of its input files to the contents
of its output files. A reader returns exactly what was written (Stored.lean: what a vector file gives back), but for the
substitution of nodata values, which is modelled for elevation files. Not modelled: file formats, layer names and creation options, coordinate systems, logging (Command.lean has the files and layers of `complete`).
-/
import Verif.Model.Complete

namespace Malstroem
namespace Scripts
variable {K : Type} [Field K] [LinearOrder K] {β : Type} [LinearOrder β] [OrderTop β]

/-- An elevation raster file. `nodata` tells the values that `RasterReader.read` takes for the nodata value of the file
(io.py:79: equal up to a tolerance, or NaN); `none` if the file has no nodata value, or 0 (io.py:78). -/
structure ElevFile (β : Type) where
  data : Raster β
  nodata : Option (β → Bool)

/-- io.py:70-81 `RasterReader(file, nodatasubst).read()`. -/
def ElevFile.read (file : ElevFile β) (nodatasubst : Option β) : Raster β :=
  match file.nodata, nodatasubst with
  | some mask, some v => { file.data with get := fun c => if mask (file.data.get c) then v else file.data.get c }
  | _, _ => file.data

/-- scripts/dem.py:25-36 `filled`. `subst` is the elevation -999 and `near` tells the elevations taken for it. -/
def filled (eng : Dem.Engine β K) (subst : β) (near : β → Bool) (dem : ElevFile β) : Run (ElevFile β) := do
  let filled_data ← Run.ofFuel (eng.fillTerrain (dem.read (some subst)))
  pure { data := filled_data, nodata := some near }

/-- scripts/dem.py:38-54 `depths`. -/
def depths (sub : β → β → K) (subst : β) (dem filled : ElevFile β) : Raster K :=
  Dem.depths sub (filled.read (some subst)) (dem.read (some subst))

/-- scripts/dem.py:57-88 `flowdir`. -/
def flowdir (eng : Dem.Engine β K) (safe : Raster β → (β → β) × (β → β)) (subst : β) (dem : ElevFile β) :
    Run (Raster Nat) := do
  let dem_data := dem.read (some subst)
  let (short, diag) := safe dem_data
  let filled_no_flats ← Run.ofFuel (eng.fillTerrainNoFlats short diag dem_data)
  pure (Flow.terrainFlowdirection eng.drop eng.scale filled_no_flats true)

/-- scripts/dem.py:90-105 `accum`. -/
def accum (eng : Dem.Engine β K) (flowdir : Raster Nat) : Run (Raster Int) := Run.ofFuel (eng.accumulatedFlow flowdir)

/-- scripts/bluespot.py:31-66 `bspots`. `filter` is the parsed filter expression, `none` if none is given. -/
def bspots (cc : Raster Bool → Raster Int × Nat) (eng : Bluespots.Engine β K) (transform : GeoTransform K)
    (depths : Raster K) (filter : Option (Bluespots.StatUnits K → Bool)) : Run (Raster Int) := do
  let cell_width := |transform.t1|
  let cell_height := |transform.t5|
  let cell_area := cell_width * cell_height
  let raw := Bluespots.connectedComponents cc depths
  match filter with
  | none => pure raw.1
  | some filter_function =>
    let raw_bluespot_stats ← Run.ofExcept (eng.labelStats depths raw.1 none)
    let keepers := Bluespots.filterbluespots filter_function cell_area raw_bluespot_stats
    let new_components ← Run.ofExcept (Label.keepLabels raw.1 keepers 0)
    pure (cc new_components).1

/-- scripts/bluespot.py:69-85 `wsheds`. -/
def wsheds (eng : Bluespots.Engine β K) (bluespots : Raster Int) (flowdir : Raster Nat) : Run (Raster Int) :=
  Run.ofFuel (eng.watershedsFromLabels flowdir bluespots 0)

/-- scripts/bluespot.py:88-144 `pourpts`. The elevations are read without substitution of nodata (line 120). -/
def pourpts (eng : Bluespots.Engine β K) (safe : Raster β → (β → β) × (β → β)) (transform : GeoTransform K)
    (bluespots : Raster Int) (depths : Raster K) (watersheds : Raster Int) (dem : Option (ElevFile β))
    (accum : Option (Raster Int)) : Run (List (Bluespots.PourPoint K)) := do
  if accum.isNone ∧ dem.isNone then Run.fail .other
  else
    let bluespot_stats ← Run.ofExcept (eng.labelStats depths bluespots none)
    match accum, dem with
    | some accum, _ =>
      let data : Raster (WithBot Int) := { rows := accum.rows, cols := accum.cols, get := fun c => (accum.get c : WithBot Int) }
      let pp_pix ← Run.ofExcept (Label.labelMaxIndex data bluespots none)
      let watershed_stats ← Run.ofExcept (Label.labelCount watersheds)
      pure (Bluespots.assemblePourpoints transform pp_pix bluespot_stats watershed_stats)
    | none, some dem =>
      let dem_data := dem.read none
      let (short, diag) := safe dem_data
      let filled_no_flats ← Run.ofFuel (eng.fillTerrainNoFlats short diag dem_data)
      let pp_pix ← Run.ofExcept (eng.labelMinIndex filled_no_flats bluespots none)
      let watershed_stats ← Run.ofExcept (Label.labelCount watersheds)
      pure (Bluespots.assemblePourpoints transform pp_pix bluespot_stats watershed_stats)
    | none, none => Run.fail .other

/-- scripts/stream.py:29-58 `network`: nodes and streams. -/
def network (transform : GeoTransform K) (bluespots : Raster Int) (flowdir : Raster Nat) (pourpoints : List (Feature K)) :
    Run (List (Feature K) × List (Feature K)) :=
  Run.ofFuel (Streams.process transform flowdir bluespots pourpoints true)

/-- scripts/initvolume.py:28-85 `initvolumes`. `bluespots` is the raster with its transform; cells
are as large as those of the bluespots (rain.py:133-136). Numbers are tested by
their truth value: `-mm 0` counts as not given. -/
def initvolumes (nodes : List (Feature K)) (mm : Option K) (pr : Option (Raster K)) (pr_unit : Rain.Unit)
    (bluespots : Option (Raster Int × GeoTransform K)) (out_attribute : String) : Except PyErr (List (Feature K)) :=
  let mm := mm.filter (· ≠ 0)
  match mm, pr with
  | some _, some _ => .error .usageError
  | none, none => .error .usageError
  | some mm, none => Rain.simpleVolumes nodes out_attribute mm
  | none, some pr => match bluespots with
    | none => .error .usageError
    | some bluespots => Rain.rasterVolumes nodes bluespots.2 bluespots.1 pr pr_unit out_attribute

/-- scripts/finalstate.py:29-60 `finalvolumes`. -/
def finalvolumes (inputvolumes : List (Feature K)) (volume_attribute : String) : Run (List (Feature K)) :=
  Run.ofFuel (Network.finalState inputvolumes volume_attribute)

section
variable [FloorRing K] (elev : β → K)

/-- The elevations as numbers. -/
def numbers (dem : Raster β) : Raster K := ⟨dem.rows, dem.cols, fun c => elev (dem.get c)⟩

/-- scripts/hyps.py:21-52 `hyps`. -/
def hyps (transform : GeoTransform K) (subst : β) (bluespots : Raster Int) (dem : ElevFile β)
    (pourpoints : List (Feature K)) (zresolution : K) : Run (List (Feature K)) :=
  Run.ofExcept (Hyps.hypsometryIo bluespots transform (numbers elev (dem.read (some subst))) transform pourpoints zresolution)

/-- scripts/finalstate.py:64-88 `finallevels`. -/
def finallevels (finalvols hyps : List (Feature K)) : Run (List (Feature K)) :=
  Run.ofExcept (Approx.waterLevelIo finalvols hyps)

/-- scripts/finalstate.py:92-113 `finalbluespots`: depths and bluespots, if asked for. -/
def finalbluespots (subst : β) (bluespots : Raster Int) (dem : ElevFile β) (finallevels : List (Feature K))
    (out_depths out_bluespots : Bool) : Run (Option (Raster K) × Option (Raster Int)) :=
  if ¬ out_depths ∧ ¬ out_bluespots then Run.fail .usageError
  else Run.ofExcept (Approx.approxBluespotsIo bluespots finallevels (numbers elev (dem.read (some subst))) out_depths
    out_bluespots 0)

end

/-- The files written by `complete`, and by the subcommands together. -/
structure Files (β K : Type) where
  filled : Raster β
  depths : Raster K
  flowdir : Raster Nat
  accum : Option (Raster Int)
  bluespots : Raster Int
  watersheds : Raster Int
  pourpoints : List (Feature K)
  nodes : List (Feature K)
  streams : List (Feature K)
  initvolumes : List (Feature K)
  finalvolumes : List (Feature K)
  hyps : List (Feature K)
  finallevels : List (Feature K)
  finaldepths : Option (Raster K)
  finalbluespots : Option (Raster Int)

/-- complete.py:40-140: the files of `complete`. `filter` is the parsed filter expression, `none` if none is given:
`parse_filter` then returns a function that accepts every bluespot (_utils.py:30-31). -/
def complete [FloorRing K] (elev : β → K) (cc : Raster Bool → Raster Int × Nat) (demEngine : Dem.Engine β K)
    (bluespotEngine : Bluespots.Engine β K) (sub : β → β → K) (safe : Raster β → (β → β) × (β → β)) (subst : β)
    (transform : GeoTransform K) (dem : ElevFile β) (accum : Bool) (filter : Option (Bluespots.StatUnits K → Bool))
    (mm zresolution : K) : Run (Files β K) := do
  let (o, l) ← Complete.processWithLevels elev cc demEngine bluespotEngine sub safe transform (dem.read (some subst)) accum
    (some (filter.getD fun _ => true)) mm zresolution
  pure { filled := o.dem.filled, depths := o.dem.depths, flowdir := o.dem.flowdir, accum := o.dem.accum,
         bluespots := o.bluespots.labeled, watersheds := o.bluespots.watersheds,
         pourpoints := o.bluespots.pourpoints.map (·.feature), nodes := o.nodes, streams := o.streams,
         initvolumes := o.volumes, finalvolumes := o.final, hyps := l.hyps, finallevels := l.levels,
         finaldepths := l.depths, finalbluespots := l.extent }

/-- The sequence of subcommands documented in scripts/cli.py:43-45 and docs/cli.rst:16-19, each run on the files written by
the ones before. -/
def sequence [FloorRing K] (elev : β → K) (cc : Raster Bool → Raster Int × Nat) (demEngine : Dem.Engine β K)
    (bluespotEngine : Bluespots.Engine β K) (sub : β → β → K) (safe : Raster β → (β → β) × (β → β)) (subst : β)
    (near : β → Bool) (transform : GeoTransform K) (dem : ElevFile β) (with_accum : Bool)
    (filter : Option (Bluespots.StatUnits K → Bool)) (mm zresolution : K) : Run (Files β K) := do
  let filled ← filled demEngine subst near dem
  let depths := depths sub subst dem filled
  let flowdir ← flowdir demEngine safe subst dem
  let accum ← (if with_accum then some <$> accum demEngine flowdir else pure none : Run (Option (Raster Int)))
  let bluespots ← bspots cc bluespotEngine transform depths filter
  let watersheds ← wsheds bluespotEngine bluespots flowdir
  let points ← pourpts bluespotEngine safe transform bluespots depths watersheds (some dem) accum
  let pourpoints := points.map (·.feature)
  let net ← network transform bluespots flowdir pourpoints
  let hyps ← hyps elev transform subst bluespots dem pourpoints zresolution
  let volumes ← Run.ofExcept (initvolumes net.1 (some mm) none .mm none "inputv")
  let final ← finalvolumes volumes "inputv"
  let levels ← finallevels final hyps
  let flooded ← finalbluespots elev subst bluespots dem levels true true
  pure { filled := filled.data, depths := depths, flowdir := flowdir, accum := accum, bluespots := bluespots,
         watersheds := watersheds, pourpoints := pourpoints, nodes := net.1, streams := net.2, initvolumes := volumes,
         finalvolumes := final, hyps := hyps, finallevels := levels, finaldepths := flooded.1,
         finalbluespots := flooded.2 }

end Scripts
end Malstroem
