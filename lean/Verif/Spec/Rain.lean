/-
Specification vocabulary for the initial water volumes.
-/
import Verif.Model.Rain
import Verif.Spec.Label

namespace Malstroem
namespace Spec
variable {K : Type}

/-- Attribute `name` of the feature holds the number `x`. -/
def HasNumber [Field K] (f : Feature K) (name : String) (x : K) : Prop :=
  ∃ y, f.properties.get? name = some y ∧ y.float = .ok x

/-- Feature `g` is `f` with attribute `attr` set to `x` and nothing else changed. -/
structure WithNumber [Field K] (attr : String) (x : K) (f g : Feature K) : Prop where
  id : g.id = f.id
  geometry : g.geometry = f.geometry
  others : ∀ key, key ≠ attr → g.properties.get? key = f.properties.get? key
  value : HasNumber g attr x

/-- Cubic metres of water per cell for a raster value of 1. -/
def unitFactor [Field K] (cellArea : K) : Rain.Unit → Option K
  | .mm => some (cellArea / 1000)
  | .l => some (1 / 1000)
  | .m3 => some 1
  | .other => none

end Spec
end Malstroem
