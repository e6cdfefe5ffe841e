/-
Model of vectorizing label rasters (malstroem/vector.py:42-125). `gdal.Polygonize` is a parameter: from a raster and a mask it
makes polygons with a value each. A polygon is represented by the cells it covers; its corner coordinates are not modelled.
-/
import Verif.Model.Feature

namespace Malstroem

/-- A polygon feature. -/
structure PolygonFeature (K : Type) where
  properties : Props K
  cells : List Cell

namespace Polygons
variable {K : Type}

/-- The mask band of a raster file (`GetMaskBand`): the cells other than the nodata value, all cells if there is none. -/
def maskBand (nodata : Option Int) (data : Raster Int) : Raster Bool where
  rows := data.rows
  cols := data.cols
  get := fun c => nodata ≠ some (data.get c)

/-- vector.py:42-87 `vectorize_labels_file`, and vector.py:89-125 `vectorize_labels_file_io`, which writes the same features. -/
def vectorizeLabelsFile (polygonize : Raster Int → Raster Bool → List (Int × List Cell)) (nodata : Option Int)
    (data : Raster Int) (id_attribute : String) : List (PolygonFeature K) :=
  (polygonize data (maskBand nodata data)).map fun p => ⟨[(id_attribute, .int p.1)], p.2⟩

/-- bluespots.py:180-183: the vectorized bluespots. complete.py:87 and scripts/bluespot.py:45 give the label raster the nodata
value 0. -/
def bluespots (polygonize : Raster Int → Raster Bool → List (Int × List Cell)) (out : Bluespots.Out K) :
    List (PolygonFeature K) := vectorizeLabelsFile polygonize (some 0) out.labeled "bspot_id"

/-- bluespots.py:193-196: the vectorized watersheds, whose raster has the nodata value 0 too (complete.py:85). -/
def watersheds (polygonize : Raster Int → Raster Bool → List (Int × List Cell)) (out : Bluespots.Out K) :
    List (PolygonFeature K) := vectorizeLabelsFile polygonize (some 0) out.watersheds "bspot_id"

end Polygons
end Malstroem
