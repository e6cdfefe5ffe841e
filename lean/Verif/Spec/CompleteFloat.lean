/-
Specification vocabulary for the complete command computed with floating point numbers.
-/
import Verif.Spec.Float
import Verif.Model.Bluespots

namespace Malstroem
namespace Spec

/-- Cell sizes and the amount of rain are float64 numbers, the rain is not negative, and neither is so small (below about 5e-91)
that products underflow. -/
structure FloatRain (gt : GeoTransform Rat) (mm : Rat) : Prop where
  width : IsF64 gt.t1 ∧ 2 ^ (-300 : Int) ≤ |gt.t1|
  height : IsF64 gt.t5 ∧ 2 ^ (-300 : Int) ≤ |gt.t5|
  rain : IsF64 mm ∧ (mm = 0 ∨ 2 ^ (-300 : Int) ≤ mm)

/-- `x` is within `k` roundings to float64 of `y`, in relative terms: about `k` times 1.1e-16. -/
def Rounded (k : Nat) (x y : Rat) : Prop := |x - y| ≤ ((1 + 1 / 2 ^ 53) ^ k - 1) * y

end Spec
end Malstroem
