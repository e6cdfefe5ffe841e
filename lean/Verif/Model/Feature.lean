/-
Python dicts and GeoJSON features.

A dict is the list of its items in insertion order. Reading and writing vector files is modelled in Vector.lean.
-/
import Verif.Model.Bluespots

namespace Malstroem

/-- A Python dict as its items in insertion order. -/
abbrev Dict (κ ν : Type) := List (κ × ν)

namespace Dict
variable {κ ν : Type} [DecidableEq κ]

/-- `d.get(k)`. -/
def get? : Dict κ ν → κ → Option ν
  | [], _ => none
  | (k', v) :: d, k => if k' = k then some v else get? d k

/-- `d[k] = v`: a present key keeps its position, a new one goes to the end. -/
def set : Dict κ ν → κ → ν → Dict κ ν
  | [], k, v => [(k, v)]
  | (k', v') :: d, k, v => if k' = k then (k', v) :: d else (k', v') :: set d k v

/-- `d[k]`. -/
def getItem (d : Dict κ ν) (k : κ) : Except PyErr ν :=
  match get? d k with
  | some v => .ok v
  | none => .error .keyError

/-- `list(d.values())`. -/
def values (d : Dict κ ν) : List ν := d.map (·.2)

end Dict

/-- A property value. Numbers are elements of `K`; `inf`/`nan` arise from empty statistics. Python compares `1 == 1.0`
as equal keys, the model does not; ids are always `int` here. -/
inductive Val (K : Type)
  | none
  | int (i : Int)
  | num (x : K)
  | str (s : String)
  | inf
  | ninf
  | nan
  deriving DecidableEq

/-- Python `float(x)`, where the result is used in arithmetic: infinities and nan are not modelled there, they raise
ValueError here, like strings (which are not parsed). -/
def Val.float {K : Type} [Field K] : Val K → Except PyErr K
  | .none => .error .typeError
  | .int i => .ok (i : K)
  | .num x => .ok x
  | .str _ => .error .valueError
  | .inf => .error .valueError
  | .ninf => .error .valueError
  | .nan => .error .valueError

/-- Python `float(x)` where the result may be infinite or nan. Text is as in `Val.float`. Simplified: an integer is kept as it
is, the conversion takes place where the number is used. -/
def Val.pyFloat {K : Type} : Val K → Except PyErr (Val K)
  | .none => .error .typeError
  | .str _ => .error .valueError
  | x => .ok x

/-- The `properties` of a feature. -/
abbrev Props (K : Type) := Dict String (Val K)

/-- A GeoJSON geometry as far as the tools build them. -/
inductive Geometry (K : Type)
  | none
  | point (xy : K × K)
  | lineString (coordinates : List (K × K))
  deriving DecidableEq

/-- A GeoJSON feature. -/
structure Feature (K : Type) where
  id : Option Int
  geometry : Geometry K
  properties : Props K
  deriving DecidableEq

/-- `gjn['properties'][name]`. -/
def Feature.prop {K : Type} (f : Feature K) (name : String) : Except PyErr (Val K) := Dict.getItem f.properties name

/-- bluespots.py:76-87: the feature written for a pour point. -/
def Bluespots.PourPoint.feature {K : Type} (p : Bluespots.PourPoint K) : Feature K where
  id := some p.id
  geometry := .point p.coordinates
  properties :=
    [("bspot_id", .int p.bspot_id), ("cell_row", .int p.cell_row), ("cell_col", .int p.cell_col),
     ("bspot_dmax", match p.bspot_dmax with | ⊥ => .ninf | (x : K) => .num x),
     ("bspot_area", .num p.bspot_area), ("bspot_vol", .num p.bspot_vol), ("wshed_area", .num p.wshed_area),
     ("bspot_fumm", match p.bspot_fumm with | Option.none => .nan | some x => .num x)]

end Malstroem
