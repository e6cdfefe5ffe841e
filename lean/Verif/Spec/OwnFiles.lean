/-
C108: the disk after one file is written.
-/
import Verif.Spec.Subcommands
import Verif.Props.Vector

namespace Malstroem
namespace Command
variable {K : Type} [Field K] [LinearOrder K] {β : Type} [LinearOrder β] [OrderTop β]

/-- The elevation of a cell of a file: `subst` for cells with the nodata value of the file. -/
def elevationIn (file : Scripts.ElevFile β) (subst : β) (c : Cell) : β :=
  match file.nodata with
  | some isNodata => if isNodata (file.data.get c) then subst else file.data.get c
  | none => file.data.get c

/-- `out` is the raster with this georeference; everything else on the disk is as before. -/
def RasterWritten (before : FileSystem β K) (out : Path) (values : Values β K) (georef : Georef K) (after : FileSystem β K) :
    Prop :=
  after.directories = before.directories ∧ after.files.get? out = some (.raster values georef) ∧
    ∀ p, p ≠ out → after.files.get? p = before.files.get? p

/-- `out` is a GeoPackage with the layers and polygons it had before (none if there was no file), and one layer more, from
which is read what a file gives back of the features (C70); everything else on the disk is as before. -/
def LayerWritten (ogr : Ogr K) (before : FileSystem β K) (out : Path) (name : String) (features : List (Feature K))
    (after : FileSystem β K) : Prop :=
  after.directories = before.directories ∧
    (∃ layers polygons, after.files.get? out = some (.geopackage layers polygons) ∧
      Vector.readGeojsonFeatures ogr.fid ogr.shape layers name =
        .ok (layerBack ogr.text ogr.fid ogr.shape (fun _ => []) name features)) ∧
    (∀ other, other ≠ name → layerAt after out other = layerAt before out other) ∧
    (∀ other, polygonsAt after out other = polygonsAt before out other) ∧
    ∀ p, p ≠ out → after.files.get? p = before.files.get? p

/-- A place for a new layer: the directory exists, and the file does not exist or is a GeoPackage without such a layer. -/
def RoomForLayer (fs : FileSystem β K) (out : Path) (name : String) : Prop :=
  out.1 ∈ fs.directories ∧ (fs.files.get? out = none ∨
    ∃ layers polygons, fs.files.get? out = some (.geopackage layers polygons) ∧ layers.get? name = none)

/-- The features that are read from a layer of a GeoPackage. -/
def LayerHolds (ogr : Ogr K) (fs : FileSystem β K) (path : Path) (name : String) (features : List (Feature K)) : Prop :=
  ∃ layers polygons, fs.files.get? path = some (.geopackage layers polygons) ∧
    Vector.readGeojsonFeatures ogr.fid ogr.shape layers name = .ok features

/-- The raster at `path` holds these values; cells with nodata have the nodata value. `elev` gives the values of a file of
floats as numbers. -/
def ValuesOf (elev : β → K) (fs : FileSystem β K) (path : Path) (rain : Raster K) : Prop :=
  ∃ georef, fs.files.get? path = some (.raster (.numbers rain) georef) ∨
    ∃ file, fs.files.get? path = some (.raster (.elevations file) georef) ∧
      rain = ⟨file.data.rows, file.data.cols, fun c => elev (file.data.get c)⟩

/-- A place for a new layer of polygons: as `RoomForLayer`, and there is no layer of polygons with this name either. -/
def RoomForPolygons (fs : FileSystem β K) (out : Path) (name : String) : Prop :=
  RoomForLayer fs out name ∧ polygonsAt fs out name = none

/-- `out` is a GeoPackage with the layers and polygons it had before, and these polygons. -/
def PolygonsWritten (before : FileSystem β K) (out : Path) (name : String) (features : List (PolygonFeature K))
    (after : FileSystem β K) : Prop :=
  after.directories = before.directories ∧ polygonsAt after out name = some features ∧
    (∀ other, other ≠ name → polygonsAt after out other = polygonsAt before out other) ∧
    (∀ other, layerAt after out other = layerAt before out other) ∧
    ∀ p, p ≠ out → after.files.get? p = before.files.get? p

/-- The cell has the nodata value of the file. -/
def _root_.Malstroem.Scripts.ElevFile.IsNodata (file : Scripts.ElevFile β) (c : Cell) : Prop :=
  ∃ isNodata, file.nodata = some isNodata ∧ isNodata (file.data.get c) = true

/-- The rain in a cell of the file; where it is not known there is none. -/
def rainOn (elev : β → K) (file : Scripts.ElevFile β) (c : Cell) : K :=
  match file.nodata with
  | some isNodata => if isNodata (file.data.get c) then 0 else elev (file.data.get c)
  | none => elev (file.data.get c)

/-- The node with id `id` of `ids`, up to the highest label `n`, gets the rain on the cells labelled with it. -/
def CountsRain (elev : β → K) (file : Scripts.ElevFile β) (labels : Raster Int) (ids : List Int) (n : Nat) (factor : K)
    (att : String) (features volumes : List (Feature K)) : Prop :=
  ∀ (k : Nat) f (id : Int), features[k]? = some f → ids[k]? = some id → id ≤ n → ∃ g x, volumes[k]? = some g ∧
    Spec.WithNumber att x f g ∧
    ∀ cs, Spec.CellsOf labels.rows labels.cols labels.get id cs → x = (cs.map (rainOn elev file)).sum * factor

end Command
end Malstroem
