/-
Model of malstroem/rain.py. Numbers are elements of a linearly ordered field. `fl` is what becomes of the exact result of
an arithmetic operation or the exact value of a decimal number: a rounding for floating point arithmetic (C78, C79), the
identity in the definitions without `Fl`, which are exact.
-/
import Verif.Model.Network

namespace Malstroem
namespace Rain
variable {K : Type} [Field K] [LinearOrder K]

/-- rain.py:69-73: one pass of the loop of SimpleVolumeTool. -/
def simpleVolumeFl (fl : K → K) (output_volume_attribute : String) (rainmm : K) (node : Feature K) : Except PyErr (Feature K) := do
  let area ← Network.number node.properties "wshed_area"
  let wshed_water_vol := fl (fl (area * rainmm) * fl (1 / 1000))
  pure { node with properties := Dict.set node.properties output_volume_attribute (.num wshed_water_vol) }

/-- rain.py:54-78 `SimpleVolumeTool.process`: the features written. -/
def simpleVolumesFl (fl : K → K) (all_nodes : List (Feature K)) (output_volume_attribute : String) (rainmm : K) :
    Except PyErr (List (Feature K)) :=
  all_nodes.mapM (simpleVolumeFl fl output_volume_attribute rainmm)

/-- rain.py:81-84 `Unit`, and anything else a caller may pass. -/
inductive Unit
  | mm | l | m3 | other
  deriving DecidableEq

/-- rain.py:145-158: the factor from raster cell unit to cubic metres. -/
def conversionFactorFl (fl : K → K) (cell_area : K) : Unit → Except PyErr K
  | .mm => .ok (fl (fl (1 / 1000) * cell_area))
  | .l => .ok (fl (1 / 1000))
  | .m3 => .ok 1
  | .other => .error .notImplemented

/-- rain.py:165-172: one pass of the loop of RasterVolumeTool. `bsid <= max_id` raises TypeError unless `bsid` is a
number; only integers are modelled. -/
def rasterVolume (output_volume_attribute : String) (water_volumes : List K) (node : Feature K) :
    Except PyErr (Feature K) := do
  let bsid ← node.prop "nodeid"
  match bsid with
  | .int bsid =>
    let wshed_water_vol : Val K ← if bsid ≤ (water_volumes.length : Int) - 1 then do
        let x ← pyGet water_volumes bsid
        pure (.num x)
      else pure (.int 0)
    pure { node with properties := Dict.set node.properties output_volume_attribute wshed_water_vol }
  | _ => .error .typeError

/-- rain.py:121-177 `RasterVolumeTool.process`: the features written. -/
def rasterVolumesFl (fl : K → K) (all_nodes : List (Feature K)) (transform : GeoTransform K) (bluespot_labels_raster : Raster Int)
    (water_raster : Raster K) (precipunit : Unit) (output_volume_attribute : String) :
    Except PyErr (List (Feature K)) := do
  let cell_width := |transform.t1|
  let cell_height := |transform.t5|
  let cell_area := fl (cell_width * cell_height)
  if ¬ (bluespot_labels_raster.rows = water_raster.rows ∧ bluespot_labels_raster.cols = water_raster.cols) then
    .error .assertionError
  else
    let water_stats ← Label.labelStatsFl fl water_raster bluespot_labels_raster none
    let conversion_factor ← conversionFactorFl fl cell_area precipunit
    let water_volumes := water_stats.map fun s => fl (s.sum * conversion_factor)
    all_nodes.mapM (rasterVolume output_volume_attribute water_volumes)

/-- rain.py:69-73 with exact arithmetic. -/
abbrev simpleVolume (output_volume_attribute : String) (rainmm : K) := simpleVolumeFl id output_volume_attribute rainmm

/-- rain.py:54-78 `SimpleVolumeTool.process` with exact arithmetic. -/
abbrev simpleVolumes (all_nodes : List (Feature K)) := simpleVolumesFl id all_nodes

/-- rain.py:145-158 with exact arithmetic. -/
abbrev conversionFactor (cell_area : K) := conversionFactorFl id cell_area

/-- rain.py:121-177 `RasterVolumeTool.process` with exact arithmetic. -/
abbrev rasterVolumes (all_nodes : List (Feature K)) := rasterVolumesFl id all_nodes

end Rain
end Malstroem
