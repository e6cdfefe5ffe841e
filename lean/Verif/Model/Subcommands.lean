/-
Model of the subcommands in malstroem/scripts with their files: which files and layers they read and write, in which order,
and what is left when they fail. Scripts.lean has the computations. Vector files are GeoPackages (`-format gpkg`). Simplified:
a raster of another kind than the one expected (elevations as flow directions, ...) is an error; rasters of different shapes
are not looked at, except by `hyps`.
-/
import Verif.Model.Command

namespace Malstroem
namespace Command
open Scripts

/-- A subcommand with its options. Not modelled: `-format`, `-dsco`, `-lco`, `-v`. -/
inductive Sub (K : Type)
  /-- scripts/dem.py:25-28 -/
  | filled (dem out : Path)
  /-- scripts/dem.py:38-42 -/
  | depths (dem filled out : Path)
  /-- scripts/dem.py:57-60 -/
  | flowdir (dem out : Path)
  /-- scripts/dem.py:90-93 -/
  | accum (flowdir out : Path)
  /-- scripts/bluespot.py:31-36 -/
  | bspots (depths out : Path) (filter : Option (List Char))
  /-- scripts/bluespot.py:69-72 -/
  | wsheds (bluespots flowdir out : Path)
  /-- scripts/bluespot.py:88-98 -/
  | pourpts (bluespots depths watersheds : Path) (dem accum : Option Path) (out : Path) (layername : String)
  /-- scripts/bluespot.py:147-153 -/
  | polys (raster out : Path) (layername : String)
  /-- scripts/stream.py:29-40 -/
  | network (bluespots flowdir pourpoints : Path) (pourpoints_layer : String) (out : Path) (nodes_layer streams_layer : String)
  /-- scripts/hyps.py:21-31 -/
  | hyps (bluespots dem pourpoints : Path) (pourpoints_layer : String) (zresolution : K) (out : Path) (hyps_layer : String)
  /-- scripts/initvolume.py:28-47 -/
  | initvolumes (nodes : Path) (nodes_layer : String) (mm : Option K) (pr : Option Path) (pr_unit : Rain.Unit)
      (bluespots : Option Path) (out : Path) (out_layer out_attribute : String)
  /-- scripts/finalstate.py:29-38 -/
  | finalvolumes (inputvolumes : Path) (inputvolumes_layer volume_attribute : String) (out : Path) (out_layer : String)
  /-- scripts/finalstate.py:64-74 -/
  | finallevels (finalvols : Path) (finalvols_layer : String) (hyps : Path) (hyps_layer : String) (out : Path)
      (out_layer : String)
  /-- scripts/finalstate.py:92-99 -/
  | finalbluespots (bluespots dem finallevels : Path) (finallevels_layer : String) (out_depths out_bluespots : Option Path)

variable {K : Type} [Field K] [LinearOrder K] {β : Type} [LinearOrder β] [OrderTop β]

/-- `type=click.Path(exists=True)`: click ends the program if a file given for the option does not exist. -/
def mustExist : List Path → Cmd β K Unit
  | [] => pure ()
  | path :: rest => do
    let fs ← Cmd.files
    match fs.files.get? path with
    | some _ => mustExist rest
    | none => Cmd.fail .usageError

/-- An elevation file (`io.RasterReader` opened, not read). -/
def openElevations (path : Path) : Cmd β K (ElevFile β × Georef K) := do
  match ← openRaster path with
  | (.elevations file, georef) => pure (file, georef)
  | _ => Cmd.fail .other

/-- scripts/bluespot.py:120 and 133: the accumulated flow, or the elevations if there is none. `data = accum if accum else
dem`, so the elevations are not opened if both are given. -/
def openData (dem accum : Option Path) : Cmd β K (Option (ElevFile β) × Option (Raster Int)) :=
  match accum, dem with
  | some path, _ => do
    let (data, _) ← readCounts path
    pure (none, some data)
  | none, some path => do
    let (file, _) ← openElevations path
    pure (some file, none)
  | none, none => Cmd.fail .other

/-- vector.py:89-125 `vectorize_labels_file_io`: the layer must not exist yet, `CreateLayer` returns None otherwise and the
next line raises AttributeError. -/
def vectorizeLabelsFileIo (ogr : Ogr K) (labels path : Path) (layername : String) : Cmd β K Unit := do
  let (data, nodata, _) ← readLabels labels
  let (layers, polygons) ← openForUpdate path
  if (layers.get? layername).isSome ∨ (polygons.get? layername).isSome then Cmd.fail .attributeError
  else
    put path (.geopackage layers
      (polygons.set layername (Polygons.vectorizeLabelsFile ogr.polygonize nodata data "bspot_id")))

/-- scripts/initvolume.py:82, rain.py:138: the raster of rain, read as it is: `io.RasterReader(pr)` has no value to put in the
place of nodata. A file of floats that may have a nodata value is modelled as one of elevations. -/
def readPrecipitation (elev : β → K) (path : Path) : Cmd β K (Raster K) := do
  match ← openRaster path with
  | (.numbers data, _) => pure data
  | (.elevations file, _) => pure (Scripts.numbers elev (file.read none))
  | _ => Cmd.fail .other

/-- scripts/initvolume.py:73-85: the raster of rain and the bluespots with their transform, if `-pr` is used. -/
def readRain (elev : β → K) (pr bluespots : Option Path) :
    Cmd β K (Option (Raster K) × Option (Raster Int × GeoTransform K)) :=
  match pr, bluespots with
  | none, _ => pure (none, none)
  | some _, none => Cmd.fail .usageError
  | some pr, some bluespots => do
    let rain ← readPrecipitation elev pr
    let (labels, _, georef) ← readLabels bluespots
    pure (some rain, some (labels, georef.transform))

/-- scripts/dem.py, bluespot.py, stream.py, hyps.py, initvolume.py, finalstate.py: the functions of the subcommands. -/
def runSub [FloorRing K] (ogr : Ogr K) (s : Setting β K) : Sub K → Cmd β K Unit
  /- scripts/dem.py:29-36 `process_filled`. -/
  | .filled dem out => do
    mustExist [dem]
    let (file, georef) ← openElevations dem
    let filled_data ← Cmd.run (Scripts.filled s.demEngine s.subst s.near file)
    writeRaster out georef (.elevations filled_data)
  /- scripts/dem.py:43-54 `process_depths`. -/
  | .depths dem filled out => do
    mustExist [dem, filled]
    let (dem_file, georef) ← openElevations dem
    let (filled_file, _) ← openElevations filled
    writeRaster out georef (.numbers (Scripts.depths s.sub s.subst dem_file filled_file))
  /- scripts/dem.py:61-88 `process_flowdir`. -/
  | .flowdir dem out => do
    mustExist [dem]
    let (file, georef) ← openElevations dem
    let flowdir_data ← Cmd.run (Scripts.flowdir s.demEngine s.safe s.subst file)
    writeRaster out georef (.directions flowdir_data)
  /- scripts/dem.py:94-106 `process_accum`. -/
  | .accum flowdir out => do
    mustExist [flowdir]
    let (flowdir_data, georef) ← readDirections flowdir
    let accum_data ← Cmd.run (Scripts.accum s.demEngine flowdir_data)
    writeRaster out georef (.counts accum_data)
  /- scripts/bluespot.py:37-66 `process_bspots`. -/
  | .bspots depths out filter => do
    mustExist [depths]
    let (depths_data, georef) ← readNumbers depths
    let text ← Cmd.run (Run.ofExcept (Filter.parseFilter filter))
    let labeled ← Cmd.run (Scripts.bspots s.cc s.bluespotEngine georef.transform depths_data (text.map s.evalFilter))
    writeRaster out georef (.labels labeled (some 0))
  /- scripts/bluespot.py:73-85 `process_wsheds`. -/
  | .wsheds bluespots flowdir out => do
    mustExist [bluespots, flowdir]
    let (labels, _, georef) ← readLabels bluespots
    let (flowdir_data, _) ← readDirections flowdir
    let watersheds ← Cmd.run (Scripts.wsheds s.bluespotEngine labels flowdir_data)
    writeRaster out georef (.labels watersheds (some 0))
  /- scripts/bluespot.py:99-144 `process_pourpoints`. -/
  | .pourpts bluespots depths watersheds dem accum out layername => do
    mustExist ([bluespots, depths, watersheds] ++ dem.toList ++ accum.toList)
    let (labels, _, _) ← readLabels bluespots
    let (depths_data, georef) ← readNumbers depths
    let (watersheds_data, _, _) ← readLabels watersheds
    let data ← openData dem accum
    let points ← Cmd.run (Scripts.pourpts s.bluespotEngine s.safe georef.transform labels depths_data watersheds_data data.1
      data.2)
    writeLayer ogr out layername (points.map (·.feature))
  /- scripts/bluespot.py:154-164 `process_polys`. -/
  | .polys raster out layername => do
    mustExist [raster]
    vectorizeLabelsFileIo ogr raster out layername
  /- scripts/stream.py:41-58 `process_network`. -/
  | .network bluespots flowdir pourpoints pourpoints_layer out nodes_layer streams_layer => do
    mustExist [bluespots, flowdir]
    let points ← readLayer ogr pourpoints pourpoints_layer
    let (labels, _, _) ← readLabels bluespots
    let (flowdir_data, georef) ← readDirections flowdir
    let net ← Cmd.run (Scripts.network georef.transform labels flowdir_data points)
    writeLayer ogr out nodes_layer net.1
    writeLayer ogr out streams_layer net.2
  /- scripts/hyps.py:32-52 `process_hypsometry`. -/
  | .hyps bluespots dem pourpoints pourpoints_layer zresolution out hyps_layer => do
    mustExist [bluespots, dem]
    let points ← readLayer ogr pourpoints pourpoints_layer
    let (labels, _, labels_georef) ← readLabels bluespots
    let (dem_data, dem_georef) ← readElevations dem (some s.subst)
    let hyps ← Cmd.run (Run.ofExcept (Hyps.hypsometryIo labels labels_georef.transform (Scripts.numbers s.elev dem_data)
      dem_georef.transform points zresolution))
    writeLayer ogr out hyps_layer hyps
  /- scripts/initvolume.py:48-85 `process_volumes`. -/
  | .initvolumes nodes nodes_layer mm pr pr_unit bluespots out out_layer out_attribute => do
    mustExist (pr.toList ++ bluespots.toList)
    if (mm.filter (· ≠ 0)).isSome ∧ pr.isSome then Cmd.fail .usageError
    else if (mm.filter (· ≠ 0)).isNone ∧ pr.isNone then Cmd.fail .usageError
    else
      let features ← readLayer ogr nodes nodes_layer
      let rain ← readRain s.elev pr bluespots
      let volumes ← Cmd.run (Run.ofExcept (Scripts.initvolumes features mm rain.1 pr_unit rain.2 out_attribute))
      writeLayer ogr out out_layer volumes
  /- scripts/finalstate.py:39-60 `process_net`. -/
  | .finalvolumes inputvolumes inputvolumes_layer volume_attribute out out_layer => do
    let volumes ← readLayer ogr inputvolumes inputvolumes_layer
    let final ← Cmd.run (Scripts.finalvolumes volumes volume_attribute)
    writeLayer ogr out out_layer final
  /- scripts/finalstate.py:75-88 `process_finallevels`. -/
  | .finallevels finalvols finalvols_layer hyps hyps_layer out out_layer => do
    let final ← readLayer ogr finalvols finalvols_layer
    let hyps ← readLayer ogr hyps hyps_layer
    let levels ← Cmd.run (Scripts.finallevels final hyps)
    writeLayer ogr out out_layer levels
  /- scripts/finalstate.py:100-113 `process_bluespots`, approx.py:114-124. -/
  | .finalbluespots bluespots dem finallevels finallevels_layer out_depths out_bluespots => do
    mustExist [bluespots, dem]
    if out_depths.isNone ∧ out_bluespots.isNone then Cmd.fail .usageError
    else
      let (labels, _, georef) ← readLabels bluespots
      let (file, _) ← openElevations dem
      let levels ← readLayer ogr finallevels finallevels_layer
      let out ← Cmd.run (Scripts.finalbluespots s.elev s.subst labels file levels out_depths.isSome out_bluespots.isSome)
      match out_depths, out.1 with
      | some path, some data => writeRaster path georef (.numbers data)
      | _, _ => pure ()
      match out_bluespots, out.2 with
      | some path, some data => writeRaster path georef (.labels data (some 0))
      | _, _ => pure ()

/-- Commands given one after the other in a shell that stops at the first that fails (`set -e`). -/
def script [FloorRing K] (ogr : Ogr K) (s : Setting β K) : List (Sub K) → Cmd β K Unit
  | [] => pure ()
  | c :: rest => do
    runSub ogr s c
    script ogr s rest

end Command
end Malstroem
