/-
Model of minimum_safe_short_and_diag (malstroem/algorithms/fill.py:235-250) in float64 arithmetic.
-/
import Verif.Spec.Float
import Verif.Model.Raster
import Mathlib.Order.Lattice

namespace Malstroem
namespace Fill

/-- `np.amax`: ValueError for an array without cells. -/
def amax (dem : Raster Rat) : Except PyErr Rat :=
  match dem.cells.map dem.get with
  | [] => .error .valueError
  | x :: l => .ok (l.foldl max x)

/-- `np.amin`. -/
def amin (dem : Raster Rat) : Except PyErr Rat :=
  match dem.cells.map dem.get with
  | [] => .error .valueError
  | x :: l => .ok (l.foldl min x)

/-- The float64 number `2**0.5`. -/
def sqrt2 : Rat := 6369051672525773 / 2 ^ 52

/-- fill.py:235-250 `minimum_safe_short_and_diag`. `fl` rounds the exact result of an operation to float64; `nextafter` is
`np.nextafter(_, inf)`. -/
def minimumSafeShortAndDiag (fl nextafter : Rat → Rat) (dem : Raster Rat) : Except PyErr (Rat × Rat) := do
  let highest ← amax dem
  let lowest ← amin dem
  let maxval := fl (max |highest| |lowest|)
  let nextval := nextafter maxval
  let short := fl (fl (nextval - maxval) * 1024)
  let diag := fl (short * sqrt2)
  pure (short, diag)

end Fill
end Malstroem
