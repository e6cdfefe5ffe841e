/-
Specification vocabulary for the water balance on the node network.
-/
import Verif.Model.Network
import Verif.Spec.Arith

namespace Malstroem
namespace Spec

/-- A node as the water balance sees it: id, downstream node, own water volume, capacity of its bluespot. -/
structure RainNode (K : Type) where
  id : Int
  down : Option Int
  vol : K
  cap : K
  deriving DecidableEq

/-- A downstream id as property value. -/
def downVal {K : Type} : Option Int → Val K
  | none => .none
  | some d => .int d

/-- The properties of a node feature hold the data of node `n`; its own volume stands in attribute `attr`. -/
structure Carries {K : Type} [Field K] (attr : String) (p : Props K) (n : RainNode K) : Prop where
  id : p.get? "nodeid" = some (.int n.id)
  down : p.get? "dstrnodeid" = some (downVal n.down)
  area : ∃ x a, p.get? "wshed_area" = some x ∧ x.float = .ok a
  vol : ∃ x, p.get? attr = some x ∧ x.float = .ok n.vol
  cap : ∃ x, p.get? "bspot_vol" = some x ∧ x.float = .ok n.cap

variable {K : Type}

/-- The nodes directly upstream of `n`. -/
def upstreamOf (ns : List (RainNode K)) (n : RainNode K) : List (RainNode K) :=
  ns.filter fun m => m.down = some n.id

/-- Following downstream ids from `n` ends in a node without downstream node. -/
inductive LeadsToRoot (ns : List (RainNode K)) : RainNode K → Prop
  | root {n} : n.down = none → LeadsToRoot ns n
  | step {n m} : m ∈ ns → n.down = some m.id → LeadsToRoot ns m → LeadsToRoot ns n

/-- Following downstream ids from `m` one comes to `n` (also if they are the same node). -/
inductive Reaches (ns : List (RainNode K)) : RainNode K → RainNode K → Prop
  | refl {n} : Reaches ns n n
  | step {m k n} : k ∈ ns → m.down = some k.id → Reaches ns k n → Reaches ns m n

/-- The water arriving at `n`, given what each node spills. -/
def arriving [Field K] (ns : List (RainNode K)) (spill : Int → K) (n : RainNode K) : K :=
  n.vol + ((upstreamOf ns n).map fun m => spill m.id).sum

/-- The water retained by and spilled from `n` is right, given what its upstream nodes spill. -/
def Balanced [Field K] [LinearOrder K] (ns : List (RainNode K)) (v spill : Int → K) (n : RainNode K) : Prop :=
  v n.id = min (arriving ns spill n) n.cap ∧ spill n.id = max 0 (arriving ns spill n - n.cap)

/-- Percent filled; none for a node without capacity. -/
def percent [Field K] [DecidableEq K] (v cap : K) : Val K := if cap = 0 then .none else .num (100 * v / cap)

/-! With rounded arithmetic: `fl` is applied to the exact result of every operation. -/

/-- The water arriving at `n`, given what each node spills. -/
def arrivingFl [Field K] (fl : K → K) (ns : List (RainNode K)) (spill : Int → K) (n : RainNode K) : K :=
  fl (n.vol + sumFl fl ((upstreamOf ns n).map fun m => spill m.id))

/-- `Balanced` with rounded arithmetic. -/
def BalancedFl [Field K] [LinearOrder K] (fl : K → K) (ns : List (RainNode K)) (v spill : Int → K) (n : RainNode K) : Prop :=
  v n.id = min (arrivingFl fl ns spill n) n.cap ∧ spill n.id = max 0 (fl (arrivingFl fl ns spill n - n.cap))

/-- Percent filled with rounded arithmetic. -/
def percentFl [Field K] [DecidableEq K] (fl : K → K) (v cap : K) : Val K :=
  if cap = 0 then .none else .num (fl (fl (100 * v) / cap))

/-- The event reported for `n`. -/
structure IsEvent [Field K] [DecidableEq K] (e : Props K) (n : RainNode K) (v spill : Int → K) : Prop where
  id : e.get? "nodeid" = some (.int n.id)
  retained : e.get? "v" = some (.num (v n.id))
  spilled : e.get? "spillv" = some (.num (spill n.id))
  pct : e.get? "pctv" = some (percent (v n.id) n.cap)

/-- A list of nodes in which each node comes after its upstream nodes. -/
def UpstreamFirst (ns order : List (RainNode K)) : Prop :=
  ∀ pre n post, order = pre ++ n :: post → ∀ m ∈ upstreamOf ns n, m ∈ pre

/-- The node id of a feature. -/
def nodeId (f : Feature K) : Option (Val K) := f.properties.get? "nodeid"

/-- `kept` holds, once per distinct node id, the last feature of `fs` with that id. -/
structure LastPerId (fs kept : List (Feature K)) : Prop where
  distinct : (kept.map nodeId).Nodup
  last : ∀ f ∈ kept, ∃ pre post, fs = pre ++ f :: post ∧ ∀ g ∈ post, nodeId g ≠ nodeId f
  all : ∀ f ∈ fs, ∃ g ∈ kept, nodeId g = nodeId f

/-- Feature `g` is `f` with the final state of node `n` added and nothing else changed. -/
structure Finished [Field K] [DecidableEq K] (f g : Feature K) (n : RainNode K) (v spill : Int → K) : Prop where
  id : g.id = f.id
  geometry : g.geometry = f.geometry
  others : ∀ key, key ≠ "spillv" → key ≠ "v" → key ≠ "pctv" → g.properties.get? key = f.properties.get? key
  state : IsEvent g.properties n v spill

end Spec
end Malstroem
