/-
Model of malstroem/algorithms/net.py.

Labels and node ids are `Int`, a downstream id is `Option Int` (`None` is `none`). Node dicts become records; the code
edits them in place, but every node belongs to exactly one group, so passing on the edited copies is the same.
`geometry` is `[]` for the nodes of `pourpoint_network`, whose dicts lack that key. The recursion limit of the
interpreter is left out, but for the functions at the end, which have it.
-/
import Verif.Model.Flow
import Verif.Model.Label

namespace Malstroem
namespace Net

inductive NodeType
  | pourpoint | junction
  deriving DecidableEq, Repr

/-- A node dict (net.py:90, 190, 214). -/
structure Node where
  id : Int
  downstream_id : Option Int
  nodetype : NodeType
  pix : Cell
  geometry : List Cell
  deriving DecidableEq, Repr

/-- An element of `pour_points`: a pair of cell indexes or a GeoJSON feature with `bspot_id`, `cell_row`, `cell_col`. -/
inductive PourPointArg
  | pix (cell : Cell)
  | feature (bspot_id : Int) (cell : Cell)
  deriving DecidableEq

/-- net.py:21-40 `_pourpoint_enumerator`. -/
def pourpointEnumerator (pour_points : List PourPointArg) : List (Int × Cell) :=
  pour_points.zipIdx.map fun x => match x.1 with
    | .pix cell => ((x.2 : Int), cell)
    | .feature bspot_id cell => (bspot_id, cell)

/-- `a[r, c]` in numpy: negative indexes wrap around, others outside raise IndexError. -/
def npGet {α : Type} (a : Raster α) (cell : Cell) : Except PyErr α :=
  match pyIdx a.rows cell.1, pyIdx a.cols cell.2 with
  | some r, some c => .ok (a.get ((r : Int), (c : Int)))
  | _, _ => .error .indexError

/-- A terminating or failing computation, or one that ran out of fuel. -/
abbrev Comp (α : Type) := ExceptT PyErr Option α

/-- Out of fuel. -/
def Comp.out {α : Type} : Comp α := (none : Option (Except PyErr α))

/-- net.py:162-169: the loop over the generator `trace_downstream(flowdir, cell)` (flow.py:279-301), which computes the
next cell only when the loop body did not return. `labeled[c[0], c[1]]` is read for cells inside the raster only. -/
def downstreamLoop (flowdir : Raster Nat) (labeled : Raster Int) (src_label : Int) (background_label : Option Int)
    (geometry : Bool) : Nat → Cell → List Cell → Comp (Option Int × List Cell)
  | 0, _, _ => Comp.out
  | fuel + 1, c, geom =>
    if Flow.cellInRaster flowdir.rows flowdir.cols c then
      let lbl := labeled.get c
      let geom := if geometry then geom ++ [c] else geom
      if ¬ (lbl = src_label) ∧ (background_label = none ∨ ¬ (some lbl = background_label)) then
        pure (some lbl, geom)
      else
        match Flow.directionToDelta (flowdir.get c) with
        | .error e => throw e
        | .ok none => pure (none, geom)
        | .ok (some delta) =>
          downstreamLoop flowdir labeled src_label background_label geometry fuel (c.1 + delta.1, c.2 + delta.2) geom
    else pure (none, geom)

/-- net.py:142-169 `next_downstream_label`. -/
def nextDownstreamLabel (flowdir : Raster Nat) (labeled : Raster Int) (cell : Cell) (background_label : Option Int)
    (geometry : Bool) (fuel : Nat) : Comp (Option Int × List Cell) := do
  let src_label ← ExceptT.mk (some (npGet labeled cell))
  downstreamLoop flowdir labeled src_label background_label geometry fuel cell []

/-- net.py:172-192 `pourpoint_network`. -/
def pourpointNetwork (flowdir : Raster Nat) (labeled : Raster Int) (pour_points : List PourPointArg)
    (background_label : Option Int) (fuel : Nat) : Comp (List Node) :=
  (pourpointEnumerator pour_points).mapM fun x => do
    let r ← nextDownstreamLabel flowdir labeled x.2 background_label false fuel
    pure { id := x.1, downstream_id := r.1, nodetype := .pourpoint, pix := x.2, geometry := [] }

/-- net.py:57-61: the inner loop over a copy of the unhandled nodes; `this_geom[-2] == other_geom[-2]` is only evaluated
for geometries with more than two cells. `remove` removes the first equal node. -/
def collect (this_geom : List Cell) (others : List Node) (st : List Node × List Node) : List Node × List Node :=
  others.foldl (fun st other_n =>
    if other_n.geometry.length > 2 ∧ this_geom[this_geom.length - 2]? = other_n.geometry[other_n.geometry.length - 2]? then
      (st.1 ++ [other_n], st.2.erase other_n)
    else st) st

/-- net.py:51-62: the outer loop. -/
def splitLoop : Nat → List Node → List (List Node) → Comp (List (List Node))
  | _, [], groups => pure groups
  | 0, _ :: _, _ => Comp.out
  | fuel + 1, this_n :: unhandled, groups =>
    let st := if this_n.geometry.length > 2 then collect this_n.geometry unhandled ([this_n], unhandled)
      else ([this_n], unhandled)
    splitLoop fuel st.2 (groups ++ [st.1])

/-- net.py:43-64 `_split_into_common_flow_groups` with `min_common_cells=2`, its only use. -/
def splitIntoCommonFlowGroups (nodes : List Node) (fuel : Nat) : Comp (List (List Node)) :=
  if nodes.length ≤ 1 then pure [nodes] else splitLoop fuel nodes []

/-- `g[-k]`. -/
def fromEnd (g : List Cell) (k : Nat) : Except PyErr Cell := pyGet g (-(k : Int))

/-- `all([geoms[0][-k] == g[-k] for g in geoms])` for a non-empty list with first element `g0`. -/
def allShare (k : Nat) (g0 : List Cell) (geoms : List (List Cell)) : Except PyErr Bool := do
  let l ← geoms.mapM fun g => do
    let a ← fromEnd g0 k
    let b ← fromEnd g k
    pure (a = b : Bool)
  pure (l.all id)

/-- net.py:91-99: the while loop; `shared_path` in order of appending. -/
def pruneLoop : Nat → List (List Cell) → List Cell → Comp (List (List Cell) × List Cell)
  | 0, _, _ => Comp.out
  | fuel + 1, geoms, shared_path => do
    if ← ExceptT.mk (some (allShare 1 (geoms.headD []) geoms)) then
      let x ← ExceptT.mk (some (fromEnd (geoms.headD []) 1))
      pruneLoop fuel (geoms.map List.dropLast) (shared_path ++ [x])
    else pure (geoms, shared_path)

/-- net.py:67-114 `_prune_common_flow`. -/
def pruneCommonFlow (nodes : List Node) (new_label_id : Int) (fuel : Nat) : Comp (List Node × Node) := do
  match nodes with
  | [] => throw .indexError
  | n0 :: _ =>
    let downstream_id := n0.downstream_id
    let geoms := nodes.map (·.geometry)
    if ¬ nodes.all fun n => downstream_id = n.downstream_id then throw .assertionError
    else if ¬ (← ExceptT.mk (some (allShare 2 n0.geometry geoms))) then throw .assertionError
    else
      let r ← pruneLoop fuel geoms []
      let geoms := r.1
      let shared_path := r.2.reverse
      match shared_path with
      | [] => throw .indexError
      | pix :: _ =>
        let new_node : Node := ⟨new_label_id, downstream_id, .junction, pix, shared_path⟩
        let nodes := (nodes.zip geoms).map fun x =>
          { x.1 with downstream_id := some new_node.id, geometry := x.2 ++ [pix] }
        pure (nodes, new_node)

/-- net.py:129-139: the loop over the groups; `rec` is the recursive call. -/
def forGroups (prune : List Node → Int → Comp (List Node × Node)) (rec : List Node → Int → Comp (List (Node × Int))) :
    List (List Node) → Int → Comp (List (Node × Int))
  | [], _ => pure []
  | group :: groups, next_available_label => do
    if group.length > 1 then
      let r ← prune group next_available_label
      let next_available_label := next_available_label + 1
      let inner ← rec r.1 next_available_label
      let next' := (inner.getLast?.map (·.2)).getD next_available_label
      let outer ← forGroups prune rec groups next'
      pure ((r.2, next_available_label) :: inner ++ outer)
    else match group with
      | [] => throw .indexError
      | n :: _ =>
        let outer ← forGroups prune rec groups next_available_label
        pure ((n, next_available_label) :: outer)

/-- net.py:117-139 `_untangle`: the pairs the generator yields. -/
def untangle : Nat → List Node → Int → Comp (List (Node × Int))
  | 0, _, _ => Comp.out
  | fuel + 1, nodes, next_available_label => do
    let groups ← splitIntoCommonFlowGroups nodes fuel
    forGroups (fun g l => pruneCommonFlow g l fuel) (untangle fuel) groups next_available_label

/-- `upstream_nodes[key].append(node)` on a defaultdict: keys in insertion order. -/
def appendTo (key : Option Int) (node : Node) : List (Option Int × List Node) → List (Option Int × List Node)
  | [] => [(key, [node])]
  | (k, v) :: rest => if k = key then (k, v ++ [node]) :: rest else (k, v) :: appendTo key node rest

/-- net.py:211-215: the first loop. -/
def groupByDownstream (flowdir : Raster Nat) (labeled : Raster Int) (background_label : Option Int) (fuel : Nat) :
    List (Int × Cell) → List (Option Int × List Node) → Comp (List (Option Int × List Node))
  | [], upstream_nodes => pure upstream_nodes
  | (pid, pp) :: rest, upstream_nodes => do
    let r ← nextDownstreamLabel flowdir labeled pp background_label true fuel
    let node : Node := ⟨pid, r.1, .pourpoint, pp, r.2⟩
    groupByDownstream flowdir labeled background_label fuel rest (appendTo r.1 node upstream_nodes)

/-- net.py:219-224: the second loop. -/
def untangleAll (fuel : Nat) : List (Option Int × List Node) → Int → List Node → Comp (List Node)
  | [], _, final_nodes => pure final_nodes
  | (_, upstream) :: rest, next_available_label, final_nodes => do
    let ys ← untangle fuel upstream next_available_label
    untangleAll fuel rest ((ys.getLast?.map (·.2)).getD next_available_label) (final_nodes ++ ys.map (·.1))

/-- net.py:195-224 `geometric_pourpoint_network`. -/
def geometricPourpointNetwork (flowdir : Raster Nat) (labeled_bluespots : Raster Int) (pour_points : List PourPointArg)
    (background_label : Option Int) (fuel : Nat) : Comp (List Node) := do
  let upstream_nodes ← groupByDownstream flowdir labeled_bluespots background_label fuel
    (pourpointEnumerator pour_points) []
  let m ← ExceptT.mk (some (Label.npMax labeled_bluespots))
  untangleAll fuel upstream_nodes (m + 1) []

/-- net.py:117-139 `_untangle` on an interpreter with a recursion limit. Each level of the recursion is a generator that
is driven by the one above it, so all of them are on the stack at once; there is room for `depth` of them
(`sys.getrecursionlimit()`, 1000 by default, less the frames of the callers). The limit is met when a generator is
started; what the outer generators have yielded before is lost with the exception. -/
def untangleLimited : Nat → Nat → List Node → Int → Comp (List (Node × Int))
  | 0, _, _, _ => throw .recursionError
  | _ + 1, 0, _, _ => Comp.out
  | depth + 1, fuel + 1, nodes, next_available_label => do
    let groups ← splitIntoCommonFlowGroups nodes fuel
    forGroups (fun g l => pruneCommonFlow g l fuel) (untangleLimited depth fuel) groups next_available_label

/-- net.py:219-224: the second loop, with a recursion limit. -/
def untangleAllLimited (depth fuel : Nat) : List (Option Int × List Node) → Int → List Node → Comp (List Node)
  | [], _, final_nodes => pure final_nodes
  | (_, upstream) :: rest, next_available_label, final_nodes => do
    let ys ← untangleLimited depth fuel upstream next_available_label
    untangleAllLimited depth fuel rest ((ys.getLast?.map (·.2)).getD next_available_label) (final_nodes ++ ys.map (·.1))

/-- net.py:195-224 `geometric_pourpoint_network` on an interpreter with a recursion limit. -/
def geometricPourpointNetworkLimited (depth : Nat) (flowdir : Raster Nat) (labeled_bluespots : Raster Int)
    (pour_points : List PourPointArg) (background_label : Option Int) (fuel : Nat) : Comp (List Node) := do
  let upstream_nodes ← groupByDownstream flowdir labeled_bluespots background_label fuel
    (pourpointEnumerator pour_points) []
  let m ← ExceptT.mk (some (Label.npMax labeled_bluespots))
  untangleAllLimited depth fuel upstream_nodes (m + 1) []

end Net
end Malstroem
