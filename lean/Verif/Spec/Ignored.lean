/-
Specification vocabulary: bluespots that are left out.
-/
import Verif.Spec.Net

namespace Malstroem
namespace Spec

/-- All water that runs through bluespot `l` goes to the same next bluespot: whatever cell of `l` it starts in, the first
other bluespot it meets is the same, or it never meets one. -/
def OneWayOut (rows cols : Nat) (fd : Cell → Nat) (lab : Cell → Int) (l : Int) : Prop :=
  ∀ a b, InGrid rows cols a → InGrid rows cols b → lab a = l → lab b = l → ∀ d e g h,
    NextLabel rows cols fd lab (some 0) a d g → NextLabel rows cols fd lab (some 0) b e h → d = e

end Spec
end Malstroem
