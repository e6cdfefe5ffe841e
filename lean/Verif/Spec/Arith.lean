/-
Specification vocabulary for rounded arithmetic: `fl` is applied to the exact result of every operation.
Nothing in this file models malstroem code.
-/
import Mathlib.Algebra.Field.Defs

namespace Malstroem
namespace Spec
variable {K : Type}

/-- The sum of a list from left to right. -/
def sumFl [Field K] (fl : K → K) (l : List K) : K := l.foldl (fun a b => fl (a + b)) 0

end Spec
end Malstroem
