/-
Specification vocabulary for attributes that hold no number.
-/
import Verif.Spec.Network

namespace Malstroem
namespace Spec

variable {K : Type}

/-- Values which Python's `float` rejects: null, and plain text that has no digit and is not `inf`, `nan` or the like. -/
def NoNumber : Val K → Prop
  | .none => True
  | .str s => ∀ ch ∈ s.toList, ch.val < 128 ∧ ¬ ch.isDigit ∧ ch ≠ 'n' ∧ ch ≠ 'N'
  | _ => False

/-- The feature has the attribute, and it is not one of those values. -/
def Known (f : Feature K) (name : String) : Prop := ∃ x, f.properties.get? name = some x ∧ ¬ NoNumber x

/-- Following `dstrnodeid` from feature to feature ends in one where it is null. -/
inductive FlowsToRoot (fs : List (Feature K)) : Feature K → Prop
  | root {f} : f.properties.get? "dstrnodeid" = some .none → FlowsToRoot fs f
  | step {f g d} : g ∈ fs → f.properties.get? "dstrnodeid" = some d → g.properties.get? "nodeid" = some d → FlowsToRoot fs g →
      FlowsToRoot fs f

end Spec
end Malstroem
