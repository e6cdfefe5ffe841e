/-
Specification vocabulary for the stream network: next downstream label, routes through junctions.
The record `Net.Node` is the data the functions return.
-/
import Verif.Spec.Flow
import Verif.Model.Net

namespace Malstroem
namespace Spec

/-- The label of the cell is neither the label of the source nor the background. -/
def Foreign (lab : Cell → Int) (background : Option Int) (src : Int) (x : Cell) : Prop :=
  lab x ≠ src ∧ some (lab x) ≠ background

/-- Following the flow from `c`, `d` is the first label met that is neither the label of `c` nor the background, and
`g` is the path up to and including the cell where it is met; `d` is `none` and `g` the whole trace if there is no such
label. -/
def NextLabel (rows cols : Nat) (fd : Cell → Nat) (lab : Cell → Int) (background : Option Int) (c : Cell)
    (d : Option Int) (g : List Cell) : Prop :=
  ∃ l, IsTrace rows cols fd c l ∧
    ((∃ pre x post, l = pre ++ x :: post ∧ (∀ y ∈ pre, ¬ Foreign lab background (lab c) y) ∧
        Foreign lab background (lab c) x ∧ d = some (lab x) ∧ g = pre ++ [x]) ∨
     ((∀ y ∈ l, ¬ Foreign lab background (lab c) y) ∧ d = none ∧ g = l))

/-- The pour points handed to the network functions: pour point `i ≥ 1` lies in bluespot `i`; pour point 0 is absent
(-1, -1) or a background cell from which the water does not flow to another background cell; there are not more
pour points than labels. -/
structure GoodPourPoints (rows cols : Nat) (fd : Cell → Nat) (lab : Cell → Int) (pps : List Cell) : Prop where
  own : ∀ (i : Nat) (p : Cell), 1 ≤ i → pps[i]? = some p → InGrid rows cols p ∧ lab p = i
  background : ∀ p : Cell, pps[0]? = some p → p = (-1, -1) ∨
    (InGrid rows cols p ∧ lab p = 0 ∧ ∀ q, Step rows cols fd p q → lab q ≠ 0)
  labels : ∃ c, InGrid rows cols c ∧ (pps.length : Int) ≤ lab c + 1

/-- There are `k` junctions one after the other on one stream: each drains to the next. -/
def JunctionsInSeries (nodes : List Net.Node) (k : Nat) : Prop :=
  ∃ js : List Net.Node, js.length = k ∧ (∀ j ∈ js, j ∈ nodes ∧ j.nodetype = .junction) ∧
    js.IsChain fun a b => a.downstream_id = some b.id

/-- Following the network from node `n` through junctions: the concatenated path (the shared cell of two consecutive
geometries counted once) and the final downstream id. -/
inductive Route (nodes : List Net.Node) : Net.Node → List Cell → Option Int → Prop
  | stop {n} : (∀ j ∈ nodes, j.nodetype = .junction → n.downstream_id ≠ some j.id) →
      Route nodes n n.geometry n.downstream_id
  | via {n j path d} : j ∈ nodes → j.nodetype = .junction → n.downstream_id = some j.id →
      n.geometry.getLast? = some j.pix → Route nodes j path d → Route nodes n (n.geometry.dropLast ++ path) d

/-- The pour points are the cells of lowest rank of their labels, and the rank falls in each step of the flow. With no
cell of label 0 the pour point 0 is absent. Rank: the elevation on the surface that produced the flow directions, or
the accumulated flow in descending order. -/
structure LowestOutlets {β : Type} [LinearOrder β] (rows cols : Nat) (fd : Cell → Nat) (lab : Cell → Int)
    (rank : Cell → β) (pps : List Cell) : Prop where
  falls : ∀ a b, Step rows cols fd a b → rank b < rank a
  lowest : ∀ (i : Nat) (p : Cell), pps[i]? = some p →
    (i = 0 ∧ p = (-1, -1) ∧ ∀ c, InGrid rows cols c → lab c ≠ 0) ∨
    (InGrid rows cols p ∧ lab p = i ∧ ∀ c, InGrid rows cols c → lab c = i → rank p ≤ rank c)
  covers : ∀ c, InGrid rows cols c → 0 ≤ lab c ∧ lab c < pps.length
  used : ∃ c, InGrid rows cols c ∧ lab c + 1 = pps.length

/-- The next step of the flow from `c` leaves the area with the label of `c` (or the raster). -/
def LeavesLabel (rows cols : Nat) (fd : Cell → Nat) (lab : Cell → Int) (c : Cell) : Prop :=
  ∃ d, FlowsTo fd c d ∧ (InGrid rows cols d → lab d ≠ lab c)

/-- `m` is the downstream node of `n`. -/
def DrainsTo (nodes : List Net.Node) (n m : Net.Node) : Prop :=
  n ∈ nodes ∧ m ∈ nodes ∧ n.downstream_id = some m.id

/-- Following downstream ids never returns to a node, never leads to an id without node, and ends in a node without
downstream id. -/
structure IsForest (nodes : List Net.Node) : Prop where
  acyclic : ∀ n, ¬ Relation.TransGen (DrainsTo nodes) n n
  resolves : ∀ n ∈ nodes, ∀ d, n.downstream_id = some d → ∃ m ∈ nodes, m.id = d
  root : ∀ n ∈ nodes, ∃ r ∈ nodes, Relation.ReflTransGen (DrainsTo nodes) n r ∧ r.downstream_id = none

end Spec
end Malstroem
