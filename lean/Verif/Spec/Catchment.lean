/-
Specification vocabulary: bluespots that are left at one cell only.
-/
import Verif.Spec.Net

namespace Malstroem
namespace Spec

/-- From every bluespot the flow leaves at one cell only, its outlet `point l`. -/
def OneOutlet (rows cols : Nat) (fd : Cell → Nat) (lab : Cell → Int) (point : Nat → Cell) : Prop :=
  ∀ y, InGrid rows cols y → lab y ≠ 0 → LeavesLabel rows cols fd lab y → y = point (lab y).toNat

end Spec
end Malstroem
