/-
Specification vocabulary: the same terrain in smaller cells.
-/
import Verif.Spec.Bluespots

namespace Malstroem
namespace Spec

/-- The cell of the coarse raster in which the cell `c` lies, if every cell was cut into `k` × `k` cells. -/
def block (k : Nat) (c : Cell) : Cell := (c.1 / (k : Int), c.2 / (k : Int))

/-- `fine` is the raster `a` with every cell cut into `k` × `k` cells of the same value. -/
structure IsRefined {α : Type*} (k : Nat) (a fine : Raster α) : Prop where
  rows : fine.rows = k * a.rows
  cols : fine.cols = k * a.cols
  get : ∀ c, fine.Has c → fine.get c = a.get (block k c)

/-- The filter looks at depth, area and volume only, not at the number of cells. -/
def UnitsOnly {K : Type} (f : Bluespots.StatUnits K → Bool) : Prop :=
  ∀ u u' : Bluespots.StatUnits K, u'.min = u.min → u'.max = u.max → u'.volume = u.volume → u'.area = u.area → f u' = f u

end Spec
end Malstroem
