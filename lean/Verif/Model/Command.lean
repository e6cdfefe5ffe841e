/-
Model of malstroem/scripts/complete.py with its effects: which files and layers are read and written, in which order, and what
is left when the command fails. Assumed of GDAL and OGR: a raster file keeps values, transform, crs and nodata value
(Io.lean has the conversion of values), a GeoPackage keeps its layers (Vector.lean).
-/
import Verif.Model.Stored
import Verif.Model.Polygons
import Verif.Model.Filter

namespace Malstroem
namespace Command

/-- A file: the directory and its name. `os.path.join(outdir, name)` is the pair of its arguments. -/
abbrev Path := String × String

/-- The georeference of a raster file. -/
structure Georef (K : Type) where
  transform : GeoTransform K
  crs : String

/-- The values of a raster file, with its nodata value where one is used. -/
inductive Values (β K : Type)
  | elevations (file : Scripts.ElevFile β)
  | numbers (data : Raster K)
  | directions (data : Raster Nat)
  | counts (data : Raster Int)
  | labels (data : Raster Int) (nodata : Option Int)

/-- What is in a file. The polygon layers of a GeoPackage are kept apart from the others, as their features are modelled by the
cells they cover. -/
inductive Content (β K : Type)
  | raster (values : Values β K) (georef : Georef K)
  | geopackage (layers : Vector.Datasource K) (polygons : Dict String (List (PolygonFeature K)))
  | other

/-- The directories that exist, and the files. A directory inside another one is listed as a file with content `other`. -/
structure FileSystem (β K : Type) where
  directories : List String
  files : Dict Path (Content β K)

/-- A command: it reads and writes files, and may run out of fuel, raise an exception or return. What it has written stays when
it raises. -/
abbrev Cmd (β K α : Type) : Type := ExceptT PyErr (StateT (FileSystem β K) (ReaderT Nat Option)) α

variable {K : Type} [Field K] [LinearOrder K] {β : Type} [LinearOrder β] [OrderTop β]

/-- A computation that leaves the files alone. -/
def Cmd.run {α : Type} (x : Run α) : Cmd β K α := fun fs n => Option.map (fun r => (r, fs)) (x n)

/-- `raise e`. -/
def Cmd.fail {α : Type} (e : PyErr) : Cmd β K α := fun fs _ => some (.error e, fs)

/-- The state of the files. -/
def Cmd.files : Cmd β K (FileSystem β K) := fun fs _ => some (.ok fs, fs)

/-- For every sufficiently large amount of fuel the command, started with the files `fs`, ends with result `r` and leaves the
files `fs'`. -/
def Cmd.Ends {α : Type} (x : Cmd β K α) (fs : FileSystem β K) (r : Except PyErr α) (fs' : FileSystem β K) : Prop :=
  Returns (fun n => x fs n) (r, fs')

/-- Put a file into place; GDAL and OGR cannot if the directory does not exist. -/
def put (path : Path) (content : Content β K) : Cmd β K Unit := fun fs _ =>
  if path.1 ∈ fs.directories then some (.ok (), { fs with files := fs.files.set path content })
  else some (.error .assertionError, fs)

/-- io.py:59-68 `RasterReader(path)`: for a file that is no raster, `gdal.Open` returns None and the next line raises
AttributeError. -/
def openRaster (path : Path) : Cmd β K (Values β K × Georef K) := do
  let fs ← Cmd.files
  match fs.files.get? path with
  | some (.raster values georef) => pure (values, georef)
  | _ => Cmd.fail .attributeError

/-- io.py:122-194 `RasterWriter(path, transform, crs, nodata).write(data)`. An existing file is replaced. -/
def writeRaster (path : Path) (georef : Georef K) (values : Values β K) : Cmd β K Unit := put path (.raster values georef)

/-- An elevation raster, with its nodata values substituted. A raster of another kind is not modelled as a DEM. -/
def readElevations (path : Path) (nodatasubst : Option β) : Cmd β K (Raster β × Georef K) := do
  match ← openRaster path with
  | (.elevations file, georef) => pure (file.read nodatasubst, georef)
  | _ => Cmd.fail .other

/-- A raster of numbers. -/
def readNumbers (path : Path) : Cmd β K (Raster K × Georef K) := do
  match ← openRaster path with
  | (.numbers data, georef) => pure (data, georef)
  | _ => Cmd.fail .other

/-- A raster of flow directions. -/
def readDirections (path : Path) : Cmd β K (Raster Nat × Georef K) := do
  match ← openRaster path with
  | (.directions data, georef) => pure (data, georef)
  | _ => Cmd.fail .other

/-- A raster of cell counts. -/
def readCounts (path : Path) : Cmd β K (Raster Int × Georef K) := do
  match ← openRaster path with
  | (.counts data, georef) => pure (data, georef)
  | _ => Cmd.fail .other

/-- A raster of labels. -/
def readLabels (path : Path) : Cmd β K (Raster Int × Option Int × Georef K) := do
  match ← openRaster path with
  | (.labels data nodata, georef) => pure (data, nodata, georef)
  | _ => Cmd.fail .other

/-- What OGR does with a vector file: `text` is what becomes of a number in a text field, `fid` and `shape` what is read as the
id of a feature and its geometry (Vector.lean); `polygonize` is `gdal.Polygonize`. -/
structure Ogr (K : Type) where
  text : Val K → Val K
  fid : Nat → Option Int
  shape : Geometry K → Geometry K
  polygonize : Raster Int → Raster Bool → List (Int × List Cell)

variable (ogr : Ogr K)

/-- io.py:257-273 `_init_datasource`: the datasource at a path, a new one if there is none. -/
def openForUpdate (path : Path) : Cmd β K (Vector.Datasource K × Dict String (List (PolygonFeature K))) := do
  let fs ← Cmd.files
  match fs.files.get? path with
  | some (.geopackage layers polygons) => pure (layers, polygons)
  | none => pure ([], [])
  | some _ => Cmd.fail .other

/-- io.py:292-332 `VectorWriter(.., path, layername, None, ..).write_geojson_features(features)` with a new writer. -/
def writeLayer (path : Path) (layername : String) (features : List (Feature K)) : Cmd β K Unit := do
  let (layers, polygons) ← openForUpdate path
  put path (.geopackage (Vector.writeGeojsonFeatures ogr.text (Vector.Writer.init layername []) layers features).2 polygons)

/-- io.py:370-405 `VectorReader(path, layername).read_geojson_features()`. -/
def readLayer (path : Path) (layername : String) : Cmd β K (List (Feature K)) := do
  let fs ← Cmd.files
  match fs.files.get? path with
  | some (.geopackage layers _) =>
    Cmd.run (Run.ofExcept (Vector.readGeojsonFeatures ogr.fid ogr.shape layers layername))
  | _ => Cmd.fail .other

/-- bluespots.py:180-183 and 193-196 (`VectorWriter` with the features of `vectorize_labels_file`), vector.py:89-125
`vectorize_labels_file_io`: the polygons of a label raster are written to a layer. Simplified: an existing layer of that name
gets the new polygons too; `vectorize_labels_file_io` fails then. -/
def writePolygons (labels path : Path) (layername : String) : Cmd β K Unit := do
  let (data, nodata, _) ← readLabels labels
  let features := Polygons.vectorizeLabelsFile ogr.polygonize nodata data "bspot_id"
  let (layers, polygons) ← openForUpdate path
  put path (.geopackage layers (polygons.set layername ((polygons.get? layername).getD [] ++ features)))

/-- dem.py:53-93 `DemTool.process` with the files of complete.py:69-76. Simplified: the rasters are written after they
have all been computed. -/
def demTool (demEngine : Dem.Engine β K) (sub : β → β → K) (safe : Raster β → (β → β) × (β → β)) (subst : β)
    (near : β → Bool) (dem : Path) (georef : Georef K) (filled depths flowdir : Path) (accum : Option Path) : Cmd β K Unit := do
  let (dem_data, dem_georef) ← readElevations dem (some subst)
  let out ← Cmd.run (Run.ofFuel (Dem.process demEngine sub safe (Complete.squareCells dem_georef.transform) accum.isSome dem_data))
  writeRaster filled georef (.elevations ⟨out.filled, some near⟩)
  writeRaster depths georef (.numbers out.depths)
  writeRaster flowdir georef (.directions out.flowdir)
  match accum, out.accum with
  | some path, some data => writeRaster path georef (.counts data)
  | _, _ => pure ()

/-- complete.py:81 and bluespots.py:199: the accumulated flow, if there is a file of it. -/
def readAccum : Option Path → Cmd β K (Option (Raster Int))
  | some path => do
    let (data, _) ← readCounts path
    pure (some data)
  | none => pure none

/-- bluespots.py:180-183 and 193-196: the polygons of a label raster, if they are asked for. -/
def vectorizeIf (vector : Bool) (labels path : Path) (layername : String) : Cmd β K Unit :=
  if vector then writePolygons ogr labels path layername else pure ()

/-- bluespots.py:138-219 `BluespotTool.process` with the files of complete.py:79-101. Simplified: the files are written
after everything has been computed. -/
def bluespotTool (cc : Raster Bool → Raster Int × Nat) (bluespotEngine : Bluespots.Engine β K)
    (safe : Raster β → (β → β) × (β → β)) (subst : β) (filter_function : Bluespots.StatUnits K → Bool)
    (dem depths flowdir : Path) (accum : Option Path) (georef : Georef K) (bluespots watersheds outvector : Path)
    (vector : Bool) : Cmd β K Unit := do
  let (depths_data, depths_georef) ← readNumbers depths
  let (flowdir_data, _) ← readDirections flowdir
  let accum_data ← readAccum accum
  let (dem_data, _) ← readElevations dem (some subst)
  let out ← Cmd.run (Bluespots.process cc bluespotEngine safe depths_georef.transform depths_data (some filter_function)
    flowdir_data accum_data (some dem_data))
  writeRaster bluespots georef (.labels out.labeled (some 0))
  vectorizeIf ogr vector bluespots outvector "bluespots"
  writeRaster watersheds georef (.labels out.watersheds (some 0))
  vectorizeIf ogr vector watersheds outvector "watersheds"
  writeLayer ogr outvector "pourpoints" (out.pourpoints.map (·.feature))

/-- streams.py:51-123 `StreamTool.process` with the files of complete.py:104-111. -/
def streamTool (outvector bluespots flowdir : Path) : Cmd β K Unit := do
  let (flowdir_data, flowdir_georef) ← readDirections flowdir
  let (labeled, _, _) ← readLabels bluespots
  let pourpoints ← readLayer ogr outvector "pourpoints"
  let out ← Cmd.run (Run.ofFuel (Streams.process flowdir_georef.transform flowdir_data labeled pourpoints true))
  writeLayer ogr outvector "nodes" out.1
  writeLayer ogr outvector "streams" out.2

/-- rain.py:54-77 `SimpleVolumeTool.process` with the layers of complete.py:114-117. -/
def volumeTool (outvector : Path) (mm : K) : Cmd β K Unit := do
  let nodes ← readLayer ogr outvector "nodes"
  let volumes ← Cmd.run (Run.ofExcept (Rain.simpleVolumes nodes "inputv" mm))
  writeLayer ogr outvector "initvolumes" volumes

/-- network.py:41-75 `FinalStateCalculator.process` with the layers of complete.py:120-123. -/
def finalStateTool (outvector : Path) : Cmd β K Unit := do
  let volumes ← readLayer ogr outvector "initvolumes"
  let final ← Cmd.run (Run.ofFuel (Network.finalState volumes "inputv"))
  writeLayer ogr outvector "finalstate" final

section
variable [FloorRing K] (elev : β → K)

/-- hyps.py:26-51 `bluespot_hypsometry_io` with the files of complete.py:126-128. -/
def hypsometryTool (subst : β) (dem bluespots outvector : Path) (zresolution : K) : Cmd β K Unit := do
  let (labeled, _, labels_georef) ← readLabels bluespots
  let (dem_data, dem_georef) ← readElevations dem (some subst)
  let pourpoints ← readLayer ogr outvector "pourpoints"
  let hyps ← Cmd.run (Run.ofExcept (Hyps.hypsometryIo labeled labels_georef.transform (Scripts.numbers elev dem_data)
    dem_georef.transform pourpoints zresolution))
  writeLayer ogr outvector "hypsometry" hyps

/-- approx.py:25-72 `approx_water_level_io` with the layers of complete.py:131-134. -/
def levelsTool (outvector : Path) : Cmd β K Unit := do
  let final ← readLayer ogr outvector "finalstate"
  let hyps ← readLayer ogr outvector "hypsometry"
  let levels ← Cmd.run (Run.ofExcept (Approx.waterLevelIo final hyps))
  writeLayer ogr outvector "finallevels" levels

/-- approx.py:114-124: a raster is written if there is a writer for it. -/
def writeIf (path : Path) (georef : Georef K) : Option (Values β K) → Cmd β K Unit
  | some values => writeRaster path georef values
  | none => pure ()

/-- approx.py:75-123 `approx_bluespots_io` with the files of complete.py:137-140. -/
def floodTool (subst : β) (dem bluespots outvector : Path) (georef : Georef K) (depths extent : Path) : Cmd β K Unit := do
  let (labeled, _, _) ← readLabels bluespots
  let levels ← readLayer ogr outvector "finallevels"
  let (dem_data, _) ← readElevations dem (some subst)
  let out ← Cmd.run (Run.ofExcept (Approx.approxBluespotsIo labeled levels (Scripts.numbers elev dem_data) true true 0))
  writeIf depths georef (out.1.map .numbers)
  writeIf extent georef (out.2.map fun data => .labels data (some 0))

/-- The parameters of the command: the elevation arithmetic and the functions it is built with. -/
structure Setting (β K : Type) where
  elev : β → K
  cc : Raster Bool → Raster Int × Nat
  demEngine : Dem.Engine β K
  bluespotEngine : Bluespots.Engine β K
  sub : β → β → K
  safe : Raster β → (β → β) × (β → β)
  subst : β
  near : β → Bool
  evalFilter : List Char → Bluespots.StatUnits K → Bool

/-- complete.py:69-123: the tools up to the final state. -/
def untilFinalState (s : Setting β K) (dem : Path) (outdir : String) (accum vector : Bool)
    (filter_function : Bluespots.StatUnits K → Bool) (mm : K) (georef : Georef K) : Cmd β K Unit := do
  let outvector := (outdir, "malstroem.gpkg")
  let accum_path := if accum then some (outdir, "accum.tif") else none
  demTool s.demEngine s.sub s.safe s.subst s.near dem georef (outdir, "filled.tif") (outdir, "bs_depths.tif")
    (outdir, "flowdir.tif") accum_path
  bluespotTool ogr s.cc s.bluespotEngine s.safe s.subst filter_function dem (outdir, "bs_depths.tif") (outdir, "flowdir.tif")
    accum_path georef (outdir, "bluespots.tif") (outdir, "watersheds.tif") outvector vector
  streamTool ogr outvector (outdir, "bluespots.tif") (outdir, "flowdir.tif")
  volumeTool ogr outvector mm
  finalStateTool ogr outvector

/-- complete.py:125-144: the tools after the final state. -/
def afterFinalState (s : Setting β K) (dem : Path) (outdir : String) (zresolution : K) (georef : Georef K) : Cmd β K Unit := do
  let outvector := (outdir, "malstroem.gpkg")
  hypsometryTool ogr s.elev s.subst dem (outdir, "bluespots.tif") outvector zresolution
  levelsTool ogr outvector
  floodTool ogr s.elev s.subst dem (outdir, "bluespots.tif") outvector georef (outdir, "finaldepths.tif")
    (outdir, "finalbluespots.tif")
  writePolygons ogr (outdir, "finalbluespots.tif") outvector "finalbluespots"

/-- complete.py:39-145 `process_all`: the value it returns is 1 if the output directory is not an empty one, and None at the
end. `evalFilter` is the function that `eval` makes of the text of a filter. Simplified: an exception in this function is
not modelled here. -/
def complete (s : Setting β K) (dem : Path) (outdir : String) (accum vector : Bool) (filter : Option (List Char))
    (mm zresolution : K) : Cmd β K (Option Nat) := do
  let fs ← Cmd.files
  if outdir ∉ fs.directories ∨ fs.files.any (fun f => f.1.1 = outdir) then pure (some 1)
  else
    let text ← Cmd.run (Run.ofExcept (Filter.parseFilter filter))
    let filter_function : Bluespots.StatUnits K → Bool := match text with
      | none => fun _ => true
      | some text => s.evalFilter text
    let (_, georef) ← openRaster dem
    untilFinalState ogr s dem outdir accum vector filter_function mm georef
    afterFinalState ogr s dem outdir zresolution georef
    pure none

end

/-- The exit status of the command line program. click (`Command.main` in standalone mode) ignores the value a command
returns and exits with status 0, and Python exits with status 1 for an exception that is not caught. (click's own errors in
the arguments, status 2, are raised before the command starts.) -/
def exitStatus : Except PyErr (Option Nat) → Nat
  | .ok _ => 0
  | .error _ => 1

end Command
end Malstroem
