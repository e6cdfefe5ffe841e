/-
Model of malstroem/hyps.py. Numbers are elements of a linearly ordered field with floor (no rounding, except
in the definitions that take a rounding function `fl`).
-/
import Verif.Model.Feature
import Verif.Model.Filter
import Mathlib.Algebra.Order.Floor.Defs
import Mathlib.Data.Nat.Digits.Defs

namespace Malstroem

/-! ### Python and numpy functions -/

/-- `str(n)` of a natural number. -/
def pyStrNat (n : Nat) : List Char := if n = 0 then ['0'] else ((Nat.digits 10 n).map Nat.digitChar).reverse

/-- `str(n)` of an integer. -/
def pyStr (n : Int) : List Char := if n < 0 then '-' :: pyStrNat n.natAbs else pyStrNat n.natAbs

/-- The value of a decimal digit. -/
def digitVal (c : Char) : Option Nat := if c.isDigit then some (c.toNat - '0'.toNat) else none

/-- A non-empty sequence of decimal digits. Python's `_` between digits and other Unicode digits are not modelled. -/
def pyParseNat : List Char → Option Nat
  | [] => none
  | cs => cs.foldl (fun acc c => do let a ← acc; let d ← digitVal c; pure (a * 10 + d)) (some 0)

/-- `int(s)` of a string: white space around it, an optional sign, digits. -/
def pyParseInt (s : List Char) : Except PyErr Int :=
  let s := pyStrip s
  let r := match s with
    | '-' :: cs => (pyParseNat cs).map fun (n : Nat) => -(n : Int)
    | '+' :: cs => (pyParseNat cs).map fun (n : Nat) => (n : Int)
    | cs => (pyParseNat cs).map fun (n : Nat) => (n : Int)
  match r with
  | some i => .ok i
  | none => .error .valueError

/-- `sep.join(l)` for a one character separator. -/
def pyJoin (sep : Char) : List (List Char) → List Char
  | [] => []
  | [s] => s
  | s :: rest => s ++ sep :: pyJoin sep rest

/-- `s.split(sep)` for a one character separator. -/
def pySplit (sep : Char) : List Char → List (List Char)
  | [] => [[]]
  | c :: cs => if c = sep then [] :: pySplit sep cs
    else match pySplit sep cs with
      | [] => [[c]]
      | w :: ws => (c :: w) :: ws

section Num
variable {K : Type} [Field K] [LinearOrder K]

/-- `np.cumsum(l)`. -/
def npCumsumFrom (acc : K) : List K → List K
  | [] => []
  | x :: xs => (acc + x) :: npCumsumFrom (acc + x) xs

def npCumsum (l : List K) : List K := npCumsumFrom 0 l

variable [FloorRing K]

/-- `int(x)` of a float: truncation toward zero. -/
def pyTrunc (x : K) : Int := if 0 ≤ x then ⌊x⌋ else ⌈x⌉

/-- `np.histogram(data, bins, range)` with a number of bins and a range, as documented: equal bins, all but the last
half open, values outside the range not counted. -/
def npHistogram (data : List K) (bins : Int) (lo hi : K) : Except PyErr (List Int) :=
  if bins < 1 then .error .valueError
  else if hi < lo then .error .valueError
  else
    let (lo, hi) := if lo = hi then (lo - 1 / 2, hi + 1 / 2) else (lo, hi)
    let bin (x : K) : Int := min ⌊(x - lo) * (bins : K) / (hi - lo)⌋ (bins - 1)
    .ok ((List.range bins.toNat).map fun (i : Nat) =>
      ((data.filter fun x => lo ≤ x ∧ x ≤ hi ∧ bin x = (i : Int)).length : Int))

/-- `int(x)` of a property value. -/
def Val.toInt : Val K → Except PyErr Int
  | .none => .error .typeError
  | .int i => .ok i
  | .num x => .ok (pyTrunc x)
  | .str s => pyParseInt s.toList
  | .inf => .error .overflowError
  | .ninf => .error .overflowError
  | .nan => .error .valueError

end Num

/-- `float(x)` of a value that is a number or `inf`; others are not modelled. -/
def Val.floatTop {K : Type} [Field K] : Val K → Except PyErr (WithTop K)
  | .inf => .ok ⊤
  | x => x.float.map fun y => (y : WithTop K)

/-- `float(x)` of a value that is a number or `-inf`; others are not modelled. -/
def Val.floatBot {K : Type} [Field K] : Val K → Except PyErr (WithBot K)
  | .ninf => .ok ⊥
  | x => x.float.map fun y => (y : WithBot K)

namespace Hyps

/-- hyps.py:22 `HistogramBinsInfo`. -/
structure BinsInfo (K : Type) where
  num_bins : Int
  lower_bound : K
  upper_bound : K
  resolution : K
  deriving DecidableEq

/-- hyps.py:23 `Histogram`. -/
structure Histogram (K : Type) where
  counts : List Int
  bins : BinsInfo K
  deriving DecidableEq

/-- hyps.py:24 `HypsometryStats`. A label without cells has `zmin = inf` and `zmax = -inf`. -/
structure Stats (K : Type) where
  zhistogram : Histogram K
  zmin : WithTop K
  zmax : WithBot K
  deriving DecidableEq

variable {K : Type} [Field K] [LinearOrder K]

/-- hyps.py:78-86 `cumulative_volume`. IndexError for an empty histogram. -/
def cumulativeVolume (h : Histogram K) (cell_area : K) : Except PyErr (List K) :=
  let cumulative := npCumsum (h.counts.map fun (n : Int) => (n : K))
  let step_volumes := cumulative.map fun x => cell_area * h.bins.resolution * x
  match step_volumes with
  | [] => .error .indexError
  | first :: _ =>
    let volumes := step_volumes.map (· - first)
    .ok (npCumsum volumes)

/-- hyps.py:100-109 `_hypsometrystats_to_flatdict`. -/
def toFlatdict (hyps : Stats K) : Props K :=
  [("hist_counts", .str (String.ofList (pyJoin '|' (hyps.zhistogram.counts.map pyStr)))),
   ("hist_num_bins", .int hyps.zhistogram.bins.num_bins),
   ("hist_lower_bound", .num hyps.zhistogram.bins.lower_bound),
   ("hist_upper_bound", .num hyps.zhistogram.bins.upper_bound),
   ("hist_resolution", .num hyps.zhistogram.bins.resolution),
   ("zmin", match hyps.zmin with | ⊤ => .inf | (x : K) => .num x),
   ("zmax", match hyps.zmax with | ⊥ => .ninf | (x : K) => .num x)]

variable [FloorRing K]

/-- hyps.py:89-97 `histogram_bins`. `fl` rounds every arithmetic result, and the integers converted to floats. -/
def histogramBinsFl (fl : K → K) (zmin zmax resolution : K) : BinsInfo K :=
  let scale := fl (1 / resolution)
  let min_scaled := pyTrunc (fl (zmin * scale))
  let max_scaled := pyTrunc (fl (zmax * scale))
  let num_bins := max_scaled - min_scaled + 1
  let lower_bound := fl (fl (min_scaled : K) * resolution)
  let upper_bound := fl (lower_bound + fl (fl (num_bins : K) * resolution))
  ⟨num_bins, lower_bound, upper_bound, resolution⟩

/-- `histogram_bins` in exact arithmetic. -/
abbrev histogramBins (zmin zmax resolution : K) : BinsInfo K := histogramBinsFl id zmin zmax resolution

/-- hyps.py:68-75: the stats of one label. `int(inf)` raises OverflowError. `histogram` stands for `np.histogram`. -/
def labelHypsometryFl (fl : K → K) (histogram : List K → Int → K → K → Except PyErr (List Int)) (resolution : K)
    (background label : Int) (st : Label.Stat K) (data : List K) : Except PyErr (Stats K) :=
  if label = background then .ok ⟨⟨[], ⟨0, 0, 0, -1⟩⟩, st.min, st.max⟩
  else match st.min, st.max with
    | (zmin : K), (zmax : K) => do
      let bins := histogramBinsFl fl zmin zmax resolution
      let counts ← histogram data bins.num_bins bins.lower_bound bins.upper_bound
      pure ⟨⟨counts, bins⟩, st.min, st.max⟩
    | _, _ => .error .overflowError

/-- The stats of one label in exact arithmetic. -/
abbrev labelHypsometry (resolution : K) := labelHypsometryFl id npHistogram resolution

/-- hyps.py:54-75 `bluespot_hypsometry_stats`. The generator is modelled by the list of its items; the functions of
`label.py` are those imported by name, in their Python version (see C27 for the compiled ones). -/
def hypsometryStatsFl (fl : K → K) (histogram : List K → Int → K → K → Except PyErr (List Int)) (bluespotlabels : Raster Int)
    (dem : Raster K) (resolution : K) (labels_max : Option Int) (background : Int) : Except PyErr (List (Int × Stats K)) := do
  let labels_max ← match labels_max with
    | none => Label.npMax bluespotlabels
    | some m => pure m
  let label_z_stats ← Label.labelStatsFl fl dem bluespotlabels (some labels_max)
  let label_data_values ← Label.labelData dem bluespotlabels (some labels_max) background
  label_data_values.zipIdx.mapM fun (data, label) => do
    let st ← pyGet label_z_stats (label : Int)
    let stats ← labelHypsometryFl fl histogram resolution background label st data
    pure ((label : Int), stats)

/-- `bluespot_hypsometry_stats` in exact arithmetic. -/
abbrev hypsometryStats (bluespotlabels : Raster Int) (dem : Raster K) (resolution : K) (labels_max : Option Int) (background : Int) :=
  hypsometryStatsFl id npHistogram bluespotlabels dem resolution labels_max background

/-- `max(l)` of a list of integers; ValueError if it is empty. -/
def pyMax : List Int → Except PyErr Int
  | [] => .error .valueError
  | x :: xs => .ok (xs.foldl max x)

/-- hyps.py:41: a pour point's bluespot id used as a number: only integers are modelled. -/
def intId (f : Feature K) : Except PyErr Int := do
  match ← f.prop "bspot_id" with
  | .int i => pure i
  | _ => .error .typeError

/-- hyps.py:47-49: one item of the loop. -/
def addHypsometry (cell_area : K) (index : Dict Int (Feature K)) (item : Int × Stats K) :
    Except PyErr (Dict Int (Feature K)) := do
  let pp ← Dict.getItem index item.1
  let props := (toFlatdict item.2).foldl (fun d (kv : String × Val K) => Dict.set d kv.1 kv.2) pp.properties
  let props := Dict.set props "cell_area" (.num cell_area)
  pure (Dict.set index item.1 { pp with properties := props })

/-- `np.testing.assert_almost_equal(x, y)`. -/
def almostEqual (x y : K) : Bool := |y - x| < 15 / 100000000

/-- hyps.py:26-52 `bluespot_hypsometry_io`: the features written. The readers are given by their raster and transform. -/
def hypsometryIo (bluespots : Raster Int) (bluespots_transform : GeoTransform K) (dem : Raster K)
    (dem_transform : GeoTransform K) (pourpoints : List (Feature K)) (resolution : K) :
    Except PyErr (List (Feature K)) := do
  if ¬ 0 < resolution then throw .assertionError
  if ¬ (bluespots.rows = dem.rows ∧ bluespots.cols = dem.cols) then throw .assertionError
  if ¬ almostEqual |bluespots_transform.t5| |dem_transform.t5| then throw .assertionError
  if ¬ almostEqual |bluespots_transform.t1| |dem_transform.t1| then throw .assertionError
  let cell_area := |bluespots_transform.t5| * |bluespots_transform.t1|
  let pourpoints_index ← pourpoints.foldlM (fun d gjn => do
    let bspot_id ← intId gjn
    pure (Dict.set d bspot_id gjn)) []
  let labels_max ← Label.npMax bluespots
  let ids ← pourpoints_index.values.mapM intId
  let vector_labels_max ← pyMax ids
  if ¬ labels_max = vector_labels_max then throw .assertionError
  let stats ← hypsometryStats bluespots dem resolution (some labels_max) 0
  let pourpoints_index ← stats.foldlM (addHypsometry cell_area) pourpoints_index
  pure pourpoints_index.values

/-- hyps.py:112-119 `hypsometrystats_from_flatdict`. -/
def fromFlatdict (d : Props K) : Except PyErr (Stats K) := do
  let num_bins ← (← Dict.getItem d "hist_num_bins").toInt
  let lower_bound ← (← Dict.getItem d "hist_lower_bound").float
  let upper_bound ← (← Dict.getItem d "hist_upper_bound").float
  let resolution ← (← Dict.getItem d "hist_resolution").float
  let bins : BinsInfo K := ⟨num_bins, lower_bound, upper_bound, resolution⟩
  let counts ← if bins.num_bins > 0 then do
      match ← Dict.getItem d "hist_counts" with
      | .str s => (pySplit '|' s.toList).mapM pyParseInt
      | _ => .error .attributeError
    else pure []
  let zmin ← (← Dict.getItem d "zmin").floatTop
  let zmax ← (← Dict.getItem d "zmax").floatBot
  pure ⟨⟨counts, bins⟩, zmin, zmax⟩

/-- hyps.py:122-126 `assert_hypsometrystats_valid`. -/
def assertValid (h : Stats K) : Except PyErr Unit :=
  if ¬ (h.zhistogram.counts.length : Int) = h.zhistogram.bins.num_bins then .error .assertionError
  else if ¬ h.zhistogram.bins.lower_bound ≤ h.zhistogram.bins.upper_bound then .error .assertionError
  else
    let num_bins := (h.zhistogram.bins.upper_bound - h.zhistogram.bins.lower_bound) / h.zhistogram.bins.resolution
    if ¬ almostEqual (h.zhistogram.bins.num_bins : K) num_bins then .error .assertionError
    else .ok ()

end Hyps
end Malstroem
