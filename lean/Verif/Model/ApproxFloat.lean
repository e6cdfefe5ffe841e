/-
Model of malstroem/approx.py with rounded arithmetic: `fl` rounds the result of each operation. `interp` stands for `np.interp`.
-/
import Verif.Model.Approx

namespace Malstroem
namespace Approx
open Hyps

variable {K : Type} [Field K] [LinearOrder K]

/-- `np.cumsum(l)`, started with `acc`. -/
def npCumsumFromFl (fl : K → K) (acc : K) : List K → List K
  | [] => []
  | x :: xs => fl (acc + x) :: npCumsumFromFl fl (fl (acc + x)) xs

/-- approx.py:9-18 `_cumulative_volume`. The counts become float64 numbers. -/
def cumulativeVolumeFl (fl : K → K) (h : Histogram K) (cell_area : K) : List K :=
  let cumulative := npCumsumFromFl fl 0 (h.counts.map fun (n : Int) => fl (n : K))
  let cumulative_below := 0 :: cumulative.dropLast
  let prev_step_volumes := cumulative_below.map fun x => fl (fl (cell_area * h.bins.resolution) * x)
  npCumsumFromFl fl 0 prev_step_volumes

/-- approx.py:21-23 `_bin_waterlevel_z`. -/
def binWaterlevelZFl (fl : K → K) (bins : BinsInfo K) : List K :=
  (List.range bins.num_bins.toNat).map fun (i : Nat) =>
    fl (fl (fl (fl (i : K) * bins.resolution) + bins.lower_bound) + fl (bins.resolution * (1 / 2)))

/-- approx.py:50-68: the water level of one bluespot, see `waterLevel`. -/
def waterLevelFl (fl : K → K) (interp : K → List K → List K → Except PyErr K) (h : Stats K) (cell_area : K)
    (max_depth : WithBot K) (max_vol final_vol : K) : Except PyErr (Val K) :=
  if max_vol = 0 ∨ fl (final_vol / max_vol) > fl (9999 / 10000) then
    match h.zmin, max_depth with
    | (zmin : K), (d : K) => .ok (.num (fl (zmin + d)))
    | (_ : K), ⊥ => .ok .ninf
    | ⊤, (_ : K) => .ok .inf
    | ⊤, ⊥ => .ok .nan
  else
    match h.zmin, h.zmax with
    | (zmin : K), (zmax : K) =>
      let cum_vol := cumulativeVolumeFl fl h.zhistogram cell_area
      let binsz := binWaterlevelZFl fl h.zhistogram.bins
      let volumes := 0 :: (inner cum_vol ++ [max_vol])
      let z := zmin :: (inner binsz ++ [zmax])
      (interp final_vol volumes z).map .num
    | _, _ => .error .other

/-- approx.py:107-112, 155-159: depths and the mask of the cells above the water. -/
def depthsAndBelowFl (fl : K → K) (waterlevel dem : Raster K) : Raster K × Raster Bool :=
  let depths : Raster K := ⟨waterlevel.rows, waterlevel.cols, fun c => fl (waterlevel.get c - dem.get c)⟩
  let below : Raster Bool := ⟨depths.rows, depths.cols, fun c => decide (depths.get c < 0)⟩
  (⟨depths.rows, depths.cols, fun c => if below.get c then 0 else depths.get c⟩, below)

/-- approx.py:126-163 `approx_bluespots`, see `approxBluespots`. The water levels are float64 numbers, so the subtraction of the DEM is
done in float64. -/
def approxBluespotsFl [FloorRing K] (fl : K → K) (bluespot_labels : Raster Int) (levels : Dict Int K) (dem : Raster K) (background_label : Int) :
    Except PyErr (Raster Int × Raster K) := do
  let value_list ← labelvaluedictToList levels background_label (-999)
  let maxextent_waterlevel ← @Label.setLabelToValue K ⟨0⟩ bluespot_labels value_list
  let (depths, below) := depthsAndBelowFl fl maxextent_waterlevel dem
  pure (maskLabels bluespot_labels below background_label, depths)

theorem npCumsumFromFl_id (acc : K) (l : List K) : npCumsumFromFl id acc l = npCumsumFrom acc l := by
  induction l generalizing acc with
  | nil => rfl
  | cons x xs ih => simp only [npCumsumFromFl, npCumsumFrom, id]; rw [← ih]

/-- Without rounding this is the model in Verif/Model/Approx.lean. -/
theorem waterLevelFl_id (h : Stats K) (cell_area : K) (max_depth : WithBot K) (max_vol final_vol : K) :
    waterLevelFl id npInterp h cell_area max_depth max_vol final_vol = waterLevel h cell_area max_depth max_vol final_vol := by
  unfold waterLevelFl waterLevel cumulativeVolumeFl cumulativeVolume binWaterlevelZFl binWaterlevelZ npCumsum
  simp only [npCumsumFromFl_id, id]
  rfl

theorem approxBluespotsFl_id [FloorRing K] (bluespot_labels : Raster Int) (levels : Dict Int K) (dem : Raster K) (background_label : Int) :
    approxBluespotsFl id bluespot_labels levels dem background_label = approxBluespots bluespot_labels levels dem background_label := rfl

theorem depthsAndBelowFl_id (waterlevel dem : Raster K) : depthsAndBelowFl id waterlevel dem = depthsAndBelow waterlevel dem := rfl

end Approx
end Malstroem
