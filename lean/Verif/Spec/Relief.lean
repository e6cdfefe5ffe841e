/-
Specification vocabulary: which bluespots lie upstream.
-/
import Mathlib.Logic.Relation

namespace Malstroem
namespace Spec

/-- Going from a bluespot to the next one (`next`), again and again, one comes from bluespot `k` to bluespot `l`. -/
def LeadsTo (next : Nat → Option Int) (k l : Nat) : Prop :=
  Relation.ReflTransGen (fun a b : Nat => next a = some (b : Int)) k l

end Spec
end Malstroem
