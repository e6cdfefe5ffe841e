/-
Numbers, array types and file types, for stating the raster input/output properties.
-/
import Mathlib.Data.Rat.Defs
import Mathlib.Algebra.Order.Field.Rat
import Mathlib.Algebra.Order.Ring.Abs
import Verif.Spec.Float

namespace Malstroem
namespace Spec

/-- A floating point number: a rational, an infinity or NaN. -/
inductive Num
  | fin (x : Rat)
  | inf
  | ninf
  | nan
  deriving DecidableEq

/-- The cells `RasterReader.read` is meant to replace: NaN cells if nodata is NaN, otherwise the cells equal to nodata up to
numpy's tolerance `1e-8 + 1e-5 * |nodata|`. -/
def IsNodata (nodata x : Num) : Prop :=
  x = nodata ∨ ∃ n v, nodata = .fin n ∧ x = .fin v ∧ |v - n| ≤ 1 / 100000000 + 1 / 100000 * |n|

/-- The numpy types of real arrays. -/
inductive DType
  | int8 | int16 | int32 | int64 | uint8 | uint16 | uint32 | uint64
  | float16 | float32 | float64 | longdouble | bool
  deriving DecidableEq, Repr

/-- Smallest and largest value of an integer type. -/
def DType.range? : DType → Option (Int × Int)
  | .int8 => some (-2 ^ 7, 2 ^ 7 - 1)
  | .int16 => some (-2 ^ 15, 2 ^ 15 - 1)
  | .int32 => some (-2 ^ 31, 2 ^ 31 - 1)
  | .int64 => some (-2 ^ 63, 2 ^ 63 - 1)
  | .uint8 => some (0, 2 ^ 8 - 1)
  | .uint16 => some (0, 2 ^ 16 - 1)
  | .uint32 => some (0, 2 ^ 32 - 1)
  | .uint64 => some (0, 2 ^ 64 - 1)
  | _ => none

/-- Can the value be held by an array of the type? Integers in the range of an integer type, 0 and 1 for booleans;
numbers with 11, 24 or 53 significant bits in the range of the type, infinities and NaN for the floating point types. Every
value can be held by a long double (its format depends on the platform). -/
def Holds : DType → Num → Prop
  | .float16, .fin x => IsFloat 11 (-24) x ∧ |x| ≤ 65504
  | .float32, .fin x => IsFloat 24 (-149) x ∧ |x| ≤ (2 ^ 24 - 1) * 2 ^ 104
  | .float64, .fin x => IsFloat 53 (-1074) x ∧ |x| ≤ (2 ^ 53 - 1) * 2 ^ 971
  | .float16, _ => True
  | .float32, _ => True
  | .float64, _ => True
  | .longdouble, _ => True
  | .bool, x => x = .fin 0 ∨ x = .fin 1
  | t, x => ∃ lo hi n : Int, t.range? = some (lo, hi) ∧ x = .fin n ∧ lo ≤ n ∧ n ≤ hi

/-- The types GDAL can write, as the corresponding numpy types. -/
def IsFileType (t : DType) : Prop :=
  t = .uint8 ∨ t = .uint16 ∨ t = .int16 ∨ t = .uint32 ∨ t = .int32 ∨ t = .float32 ∨ t = .float64

/-- `astype` is exact for the values the target type can hold; nothing is assumed about other values. -/
def ExactCast (astype : DType → Num → Num) : Prop := ∀ t x, Holds t x → astype t x = x

end Spec
end Malstroem
