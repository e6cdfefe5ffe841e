/-
Specification vocabulary: cutting a window out of a raster.
-/
import Verif.Spec.Flow
import Verif.Model.Raster

namespace Malstroem
namespace Spec

/-- The cell that lies `o` rows and columns further. -/
def shift (o c : Cell) : Cell := (o.1 + c.1, o.2 + c.2)

/-- `win` is the part of `dem` whose first cell is `o`. -/
structure IsWindow {β : Type*} (win dem : Raster β) (o : Cell) : Prop where
  inside : 0 ≤ o.1 ∧ 0 ≤ o.2 ∧ o.1 + win.rows ≤ dem.rows ∧ o.2 + win.cols ≤ dem.cols
  get : ∀ c, win.Has c → win.get c = dem.get (shift o c)

/-- The cell `c` lies under the surface `s`. -/
def Under {β : Type*} [LT β] (dem s : Raster β) (c : Cell) : Prop := dem.Has c ∧ dem.get c < s.get c

/-- The cells connected to `c` by cells under the surface `s` lie all inside the window, none of them on its edge. -/
def InsideWindow {β : Type*} [LT β] (win dem s : Raster β) (o c : Cell) : Prop :=
  ∀ x, ConnectedIn (Under dem s) c x → ∃ y, Interior win.rows win.cols y ∧ x = shift o y

end Spec
end Malstroem
