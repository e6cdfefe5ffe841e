/-
Specification vocabulary for water levels in floating point arithmetic.
-/
import Verif.Spec.HypsFloat

namespace Malstroem
namespace Spec

/-- What is assumed of `np.interp(x, xp, fp)`, also if `xp` is not increasing: the first value if `x` is less than the first of
`xp`; otherwise some `xp[j]` that is at most `x` and the last one or followed by a greater one than `x` is found, and the result is `fp[j]` if
`j` is the last or `xp[j]` equals `x`, and else the formula for a straight line, computed in floating point arithmetic. The product may be rounded before the
addition or not (`prod`). -/
def Interpolates (fl : Rat → Rat) (interp : Rat → List Rat → List Rat → Except PyErr Rat) : Prop :=
  ∃ prod : Rat → Rat, (prod = fl ∨ prod = id) ∧
    ∀ (x : Rat) (xp fp : List Rat), xp.length = fp.length → xp ≠ [] → ∃ z, interp x xp fp = .ok z ∧
      ((∃ a f : Rat, xp[0]? = some a ∧ fp[0]? = some f ∧ x < a ∧ z = f) ∨
       ∃ (j : Nat) (a f : Rat), xp[j]? = some a ∧ fp[j]? = some f ∧ a ≤ x ∧ (∀ b, xp[j + 1]? = some b → x < b) ∧
        ((j + 1 = xp.length ∨ x = a) ∧ z = f ∨
         ∃ b g : Rat, xp[j + 1]? = some b ∧ fp[j + 1]? = some g ∧
           z = fl (prod (fl (fl (g - f) / fl (b - a)) * fl (x - a)) + f)))

end Spec
end Malstroem
