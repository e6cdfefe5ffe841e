/-
Binary floating point numbers as rationals, for stating properties of rounded arithmetic. Overflow is left out: there is no
largest number.
-/
import Mathlib.Data.Rat.Defs
import Mathlib.Algebra.Order.Field.Rat
import Mathlib.Algebra.Order.Ring.Abs
import Mathlib.Order.Bounds.Basic

namespace Malstroem
namespace Spec

/-- Floating point numbers with `p` significant bits and least exponent `emin`: `m * 2 ^ e` with `|m| < 2 ^ p`. -/
def IsFloat (p : Nat) (emin : Int) (x : Rat) : Prop := ∃ m e : Int, |m| < 2 ^ p ∧ emin ≤ e ∧ x = (m : Rat) * 2 ^ e

/-- float64 -/
abbrev IsF64 (x : Rat) : Prop := IsFloat 53 (-1074) x

/-- float32 -/
abbrev IsF32 (x : Rat) : Prop := IsFloat 24 (-149) x

/-- `fl` rounds to a nearest floating point number (any of them in case of a tie). -/
def IsRounding (p : Nat) (emin : Int) (fl : Rat → Rat) : Prop :=
  ∀ x, IsFloat p emin (fl x) ∧ ∀ z, IsFloat p emin z → |x - fl x| ≤ |x - z|

/-- `nextafter(x, inf)` for `x` at least 0: the least float64 above `x`. -/
def IsNextAfter (next : Rat → Rat) : Prop := ∀ x, 0 ≤ x → IsF64 x → IsLeast {z | IsF64 z ∧ x < z} (next x)

end Spec
end Malstroem
