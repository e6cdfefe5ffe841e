/-
Specification vocabulary: lengths of ways over the raster.
-/
import Mathlib.Algebra.Field.Defs
import Verif.Spec.Flow

namespace Malstroem
namespace Spec
variable {K : Type} [Field K]

/-- The length of the way through the cells `p` in cell widths, if a step to a diagonal neighbour has the length `diagonal`. -/
def wayLength (diagonal : K) : List Cell → K
  | [] => 0
  | [_] => 0
  | a :: b :: rest => (if Orth a b then 1 else diagonal) + wayLength diagonal (b :: rest)

/-- `p` is a way from `c` to `o` over neighbouring cells of the raster. -/
structure IsWay (rows cols : Nat) (c o : Cell) (p : List Cell) : Prop where
  head : p.head? = some c
  last : p.getLast? = some o
  chain : p.IsChain Adj
  inside : ∀ x ∈ p, InGrid rows cols x

end Spec
end Malstroem
