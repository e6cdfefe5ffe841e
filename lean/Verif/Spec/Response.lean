/-
Specification vocabulary for how the water that spills depends on the water put in.
-/
import Verif.Spec.Network

namespace Malstroem
namespace Spec

variable {K : Type}

/-- The node `n` with the water `w` put in and the capacity `c`, both by node id. -/
def charge (w c : Int → K) (n : RainNode K) : RainNode K := ⟨n.id, n.down, w n.id, c n.id⟩

/-- All nodes of `ns` with the water `w` put in and the capacities `c`. -/
def charged (ns : List (RainNode K)) (w c : Int → K) : List (RainNode K) := ns.map (charge w c)

/-- What a node holds and spills as a function of the amount of rain: nothing without rain; with more rain never less; from
two showers that fall together at least what they spill one by one; in proportion or more as the rain grows; and between two
amounts of rain at most what is interpolated between them. -/
structure RainCurve [Field K] [LinearOrder K] (v spill : K → K) : Prop where
  dry : v 0 = 0 ∧ spill 0 = 0
  more : ∀ a b, a ≤ b → v a ≤ v b ∧ spill a ≤ spill b
  together : ∀ a b, 0 ≤ a → 0 ≤ b → spill a + spill b ≤ spill (a + b)
  proportional : ∀ a k, 0 ≤ a → 1 ≤ k → k * spill a ≤ spill (k * a)
  between : ∀ a b t, 0 ≤ t → t ≤ 1 → spill (t * a + (1 - t) * b) ≤ t * spill a + (1 - t) * spill b

end Spec
end Malstroem
