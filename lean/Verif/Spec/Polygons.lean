/-
Specification vocabulary for vectorized label rasters.
-/
import Verif.Spec.Label
import Verif.Model.Polygons

namespace Malstroem
namespace Spec

/-- What GDAL documents of `Polygonize` with 8-connectedness: one polygon for each set of cells of the same value that are not masked and
are connected by king moves. -/
structure IsPolygonized (values : Raster Int) (mask : Raster Bool) (ps : List (Int × List Cell)) : Prop where
  region : ∀ p ∈ ps, ∃ c, values.Has c ∧ mask.get c = true ∧ p.1 = values.get c ∧
    Lists values.rows values.cols (fun x => ConnectedIn
      (fun y => InGrid values.rows values.cols y ∧ mask.get y = true ∧ values.get y = values.get c) c x) p.2
  covered : ∀ c, values.Has c → mask.get c = true → ∃ p ∈ ps, c ∈ p.2
  once : ps.Pairwise fun p q => ∀ c ∈ p.2, c ∉ q.2

/-- `polygonize` is the function of GDAL. -/
def PolygonizeContract (polygonize : Raster Int → Raster Bool → List (Int × List Cell)) : Prop :=
  ∀ values mask, IsPolygonized values mask (polygonize values mask)

/-- The polygons are one for each of the labels 1..n, having its id and covering exactly its cells. -/
structure OnePerLabel {K : Type} (rows cols : Nat) (labelled : Cell → Int) (n : Nat) (idName : String)
    (ps : List (PolygonFeature K)) : Prop where
  each : ∀ p ∈ ps, ∃ l : Nat, 1 ≤ l ∧ l ≤ n ∧ p.properties = [(idName, .int l)] ∧ CellsOf rows cols labelled l p.cells
  all : ∀ l : Nat, 1 ≤ l → l ≤ n → ∃ p ∈ ps, p.properties = [(idName, .int l)]
  once : ps.Pairwise fun p q => p.properties ≠ q.properties

end Spec
end Malstroem
