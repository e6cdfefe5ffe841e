/-
Specification vocabulary for features that have been written to a vector file and read back.
-/
import Verif.Model.Feature

namespace Malstroem
namespace Spec
variable {K : Type} [Field K]

/-- Value `y` is value `x`, where an integer may have become a real number. -/
def SameNumber (x y : Val K) : Prop := y = x ∨ ∃ i : Int, x = .int i ∧ y = .num (i : K)

/-- Attributes `q` are attributes `p` as they come back from a file: the same values, where an integer may have become a
real number unless the attribute is one of `ids`, and nulls for attributes `p` does not have. -/
def SameProps (ids : List String) (p q : Props K) : Prop :=
  ∀ key, match p.get? key with
    | none => q.get? key = none ∨ q.get? key = some .none
    | some x => ∃ y, q.get? key = some y ∧ SameNumber x y ∧ (key ∈ ids → y = x)

/-- Feature `g` has the attributes of feature `f` as they come back from a file. Ids and geometries are not compared. -/
def SameAttributes (ids : List String) (f g : Feature K) : Prop := SameProps ids f.properties g.properties

/-- A real number, possibly infinite or nan. -/
def IsReal (x : Val K) : Prop := (∃ y, x = .num y) ∨ x = .inf ∨ x = .ninf ∨ x = .nan

/-- A value as real number, if it is an integer. -/
def asReal : Val K → Val K
  | .int i => .num (i : K)
  | x => x

/-- Feature `g` is feature `f`, one of the features `fs` of a layer, as it comes back from a file: each attribute has its value, an
integer being converted if the attribute is a real number in some feature of the layer. Attributes that only other features
have are null, and there are no others. -/
structure ReadBack (shape : Geometry K → Geometry K) (fs : List (Feature K)) (f g : Feature K) : Prop where
  geometry : g.geometry = shape f.geometry
  real : ∀ key x, f.properties.get? key = some x → (∃ h ∈ fs, ∃ y, h.properties.get? key = some y ∧ IsReal y) →
    g.properties.get? key = some (asReal x)
  same : ∀ key x, f.properties.get? key = some x → (¬ ∃ h ∈ fs, ∃ y, h.properties.get? key = some y ∧ IsReal y) →
    g.properties.get? key = some x
  null : ∀ key, f.properties.get? key = none → (∃ h ∈ fs, ∃ y, h.properties.get? key = some y) →
    g.properties.get? key = some .none
  none : ∀ key, (∀ h ∈ fs, h.properties.get? key = none) → g.properties.get? key = none

/-- No attribute is a text in one feature and a number in another. -/
def Homogeneous (fs : List (Feature K)) : Prop :=
  ∀ f ∈ fs, ∀ g ∈ fs, ∀ key s y, f.properties.get? key = some (.str s) → g.properties.get? key = some y →
    y = .none ∨ ∃ s', y = .str s'

/-- In none of the features one of the attributes `ids` is a real number. -/
def NoReals (ids : List String) (fs : List (Feature K)) : Prop :=
  ∀ f ∈ fs, ∀ key ∈ ids, ∀ x, f.properties.get? key = some x → ¬ IsReal x

end Spec

/-- The attributes that are used as ids or indexes. -/
def Stored.ids : List String := ["bspot_id", "nodeid", "dstrnodeid", "cell_row", "cell_col"]

end Malstroem
