/-
Specification vocabulary for the final state computed with floating point numbers.
-/
import Verif.Spec.Network
import Verif.Spec.Float

namespace Malstroem
namespace Spec

/-- The features `fs` describe the nodes `ns`: distinct ids, every node leads to a root, volumes and capacities are float64
numbers that are not negative. `attr` is the attribute with the volumes. -/
structure FloatNodes (attr : String) (fs : List (Feature Rat)) (ns : List (RainNode Rat)) : Prop where
  carries : List.Forall₂ (fun f n => Carries attr f.properties n) fs ns
  distinct : (ns.map (·.id)).Nodup
  attr_ne : attr ≠ "nodeid"
  drains : ∀ n ∈ ns, LeadsToRoot ns n
  volumes : ∀ n ∈ ns, 0 ≤ n.vol ∧ IsF64 n.vol
  capacities : ∀ n ∈ ns, 0 ≤ n.cap ∧ IsF64 n.cap

/-- The features `fs` describe the nodes `ns`: distinct ids, every node leads to a root. `attr` is the attribute with the volumes. -/
structure NetworkNodes (attr : String) (fs : List (Feature Rat)) (ns : List (RainNode Rat)) : Prop where
  carries : List.Forall₂ (fun f n => Carries attr f.properties n) fs ns
  distinct : (ns.map (·.id)).Nodup
  attr_ne : attr ≠ "nodeid"
  drains : ∀ n ∈ ns, LeadsToRoot ns n

theorem FloatNodes.network {attr : String} {fs : List (Feature Rat)} {ns : List (RainNode Rat)} (h : FloatNodes attr fs ns) :
    NetworkNodes attr fs ns := ⟨h.carries, h.distinct, h.attr_ne, h.drains⟩

/-- The features `out` belong to the nodes `ns`, in order, and their attributes v and spillv are the numbers `v` and `spill` of the
node. -/
def Shows (out : List (Feature Rat)) (ns : List (RainNode Rat)) (v spill : Int → Rat) : Prop :=
  List.Forall₂ (fun g n => g.properties.get? "nodeid" = some (.int n.id) ∧ g.properties.get? "v" = some (.num (v n.id)) ∧
    g.properties.get? "spillv" = some (.num (spill n.id))) out ns

/-- The water put into the nodes. -/
def totalWater (ns : List (RainNode Rat)) : Rat := (ns.map (·.vol)).sum

/-- The relative error of `3 * n` roundings to float64: about `n` times 3.3e-16. -/
def roundingError (n : Nat) : Rat := (1 + 1 / 2 ^ 53) ^ (3 * n) - 1

end Spec
end Malstroem
