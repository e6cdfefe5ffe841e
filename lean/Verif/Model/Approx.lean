/-
Model of malstroem/approx.py. Numbers are elements of a linearly ordered field with floor (no rounding).
-/
import Verif.Model.Hyps

namespace Malstroem
namespace Approx
open Hyps

variable {K : Type} [Field K] [LinearOrder K]

/-- `np.interp(x, xp, fp)` for increasing `xp`, as documented: constant outside the range of `xp`, linear between. The
binary search is replaced by a linear one. The list holds the pairs `(xp, fp)`. -/
def npInterpPairs (x : K) : List (K × K) → Except PyErr K
  | [] => .error .valueError
  | [(_, f)] => .ok f
  | (a, f) :: (b, g) :: rest =>
    if x < a then .ok f
    else if x < b then .ok ((g - f) / (b - a) * (x - a) + f)
    else npInterpPairs x ((b, g) :: rest)

/-- `np.interp(x, xp, fp)`: ValueError if the lengths differ or are 0. -/
def npInterp (x : K) (xp fp : List K) : Except PyErr K :=
  if xp.length ≠ fp.length then .error .valueError else npInterpPairs x (xp.zip fp)

/-- `l[1:-1]`. -/
def inner {α : Type} (l : List α) : List α := (l.drop 1).dropLast

/-- approx.py:9-18 `_cumulative_volume`. -/
def cumulativeVolume (h : Histogram K) (cell_area : K) : List K :=
  let cumulative := npCumsum (h.counts.map fun (n : Int) => (n : K))
  let cumulative_below := 0 :: cumulative.dropLast
  let prev_step_volumes := cumulative_below.map fun x => cell_area * h.bins.resolution * x
  npCumsum prev_step_volumes

/-- approx.py:21-23 `_bin_waterlevel_z`. -/
def binWaterlevelZ (bins : BinsInfo K) : List K :=
  (List.range bins.num_bins.toNat).map fun (i : Nat) =>
    (i : K) * bins.resolution + bins.lower_bound + bins.resolution * (1 / 2)

/-- approx.py:50-68: the water level of one bluespot. `inf - inf` is nan. Interpolation with an infinite `zmin` or
`zmax` (a bluespot without cells that has a volume) is not modelled: `other`. -/
def waterLevel (h : Stats K) (cell_area : K) (max_depth : WithBot K) (max_vol final_vol : K) : Except PyErr (Val K) :=
  if max_vol = 0 ∨ final_vol / max_vol > 9999 / 10000 then
    match h.zmin, max_depth with
    | (zmin : K), (d : K) => .ok (.num (zmin + d))
    | (_ : K), ⊥ => .ok .ninf
    | ⊤, (_ : K) => .ok .inf
    | ⊤, ⊥ => .ok .nan
  else
    match h.zmin, h.zmax with
    | (zmin : K), (zmax : K) =>
      let cum_vol := cumulativeVolume h.zhistogram cell_area
      let binsz := binWaterlevelZ h.zhistogram.bins
      let volumes := 0 :: (inner cum_vol ++ [max_vol])
      let z := zmin :: (inner binsz ++ [zmax])
      (npInterp final_vol volumes z).map .num
    | _, _ => .error .other

/-- approx.py:70: `float(water_level) - zmin`. -/
def approxDmax (water_level : Val K) (zmin : WithTop K) : Val K :=
  match water_level, zmin with
  | .num x, (z : K) => .num (x - z)
  | .num _, ⊤ => .ninf
  | .ninf, _ => .ninf
  | .inf, (_ : K) => .inf
  | _, _ => .nan

variable [FloorRing K]

/-- `int(f["properties"]["bspot_id"])` (approx.py:33, 41, 45, 88). -/
def bspotId (f : Feature K) : Except PyErr Int := do (← f.prop "bspot_id").toInt

/-- approx.py:43-70: the loop body; 31-38 `parse_hyps_feature`. -/
def levelFeature (hyps_index : Dict Int (Feature K)) (f : Feature K) : Except PyErr (Feature K) := do
  let bsid ← bspotId f
  let final_vol ← (← f.prop "v").float
  let g ← Dict.getItem hyps_index bsid
  let _ ← bspotId g
  let hyps ← fromFlatdict g.properties
  let cell_area ← (← g.prop "cell_area").float
  let max_depth ← (← g.prop "bspot_dmax").floatBot
  let max_vol ← (← g.prop "bspot_vol").float
  let water_level ← waterLevel hyps cell_area max_depth max_vol final_vol
  let props := Dict.set f.properties "approx_z" water_level
  let props := Dict.set props "approx_dmax" (approxDmax water_level hyps.zmin)
  pure { f with properties := props }

/-- approx.py:42, 88: `[x for x in features if x["properties"]["nodetype"] == "pourpoint"]`. -/
def pourpointsOf : List (Feature K) → Except PyErr (List (Feature K))
  | [] => .ok []
  | x :: xs => do
    let t ← x.prop "nodetype"
    let rest ← pourpointsOf xs
    pure (if t = .str "pourpoint" then x :: rest else rest)

/-- approx.py:25-73 `approx_water_level_io`: the features written. -/
def waterLevelIo (finalvols hyps : List (Feature K)) : Except PyErr (List (Feature K)) := do
  let hyps_index ← hyps.foldlM (fun d gjn => do
    let bsid ← bspotId gjn
    pure (Dict.set d bsid gjn)) []
  let features ← pourpointsOf finalvols
  features.mapM (levelFeature hyps_index)

/-- approx.py:169-178 `_labelvaluedict_to_list`. -/
def labelvaluedictToList {α : Type} (d : Dict Int α) (background : Int) (set_background_to : α) :
    Except PyErr (List α) := do
  let max_label ← pyMax (d.map (·.1))
  (List.range (max_label + 1).toNat).mapM fun (ix : Nat) =>
    if (ix : Int) = background then .ok set_background_to else Dict.getItem d (ix : Int)

/-- approx.py:107-112, 155-159: depths and the mask of the cells above the water. -/
def depthsAndBelow (waterlevel dem : Raster K) : Raster K × Raster Bool :=
  let depths : Raster K := ⟨waterlevel.rows, waterlevel.cols, fun c => waterlevel.get c - dem.get c⟩
  let below : Raster Bool := ⟨depths.rows, depths.cols, fun c => decide (depths.get c < 0)⟩
  (⟨depths.rows, depths.cols, fun c => if below.get c then 0 else depths.get c⟩, below)

/-- approx.py:122, 162: `labels[below] = background`. -/
def maskLabels (labels : Raster Int) (below : Raster Bool) (background : Int) : Raster Int :=
  ⟨labels.rows, labels.cols, fun c => if below.get c then background else labels.get c⟩

/-- approx.py:126-163 `approx_bluespots`, for a DEM of the shape of the labels (numpy broadcasts or raises
otherwise). The label array is updated in place; the result is the updated array. -/
def approxBluespots (bluespot_labels : Raster Int) (levels : Dict Int K) (dem : Raster K) (background_label : Int) :
    Except PyErr (Raster Int × Raster K) := do
  let value_list ← labelvaluedictToList levels background_label (-999)
  let maxextent_waterlevel ← @Label.setLabelToValue K ⟨0⟩ bluespot_labels value_list
  let (depths, below) := depthsAndBelow maxextent_waterlevel dem
  pure (maskLabels bluespot_labels below background_label, depths)

/-- approx.py:75-123 `approx_bluespots_io`: what the two writers get. The level of the background, which may be nan, is
not used; a level of another bluespot that is infinite or nan is not modelled (ValueError here). Outputs that are not
asked for are `none`. -/
def approxBluespotsIo (bluespot_labels : Raster Int) (levels : List (Feature K)) (dem : Raster K)
    (want_depths want_labels : Bool) (background_label : Int) :
    Except PyErr (Option (Raster K) × Option (Raster Int)) := do
  if ¬ want_depths ∧ ¬ want_labels then throw .other
  let features ← pourpointsOf levels
  let bluespot_water_levels ← features.foldlM (fun d x => do
    let bsid ← bspotId x
    let z ← (← x.prop "approx_z").pyFloat
    pure (Dict.set d bsid z)) []
  let value_list ← labelvaluedictToList bluespot_water_levels background_label (.num (-999))
  let value_list ← value_list.mapM Val.float
  let maxextent_waterlevel ← @Label.setLabelToValue K ⟨0⟩ bluespot_labels value_list
  let (depths, below) := depthsAndBelow maxextent_waterlevel dem
  pure (if want_depths then some depths else none,
        if want_labels then some (maskLabels bluespot_labels below background_label) else none)

end Approx
end Malstroem
