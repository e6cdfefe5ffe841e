/-
Model of malstroem/network.py.

Numbers are elements of a linearly ordered field. `fl` is what becomes of the exact result of an arithmetic operation: a
rounding for floating point arithmetic (C74-C77), the identity in the definitions without `Fl`, which are exact. Reading a
missing key of the defaultdict `upstream_tree` also inserts an empty list there; the model does not insert it.
-/
import Verif.Model.Feature
import Verif.Model.Net

namespace Malstroem
namespace Network
variable {K : Type} [Field K] [LinearOrder K]

/-- network.py:90-95: the attributes of a `Network`. -/
structure State (K : Type) where
  nodes : List (Props K)
  nodes_index : Dict (Val K) (Props K)
  root_nodes : List (Val K)
  upstream_tree : Dict (Val K) (List (Val K))

/-- network.py:90-95 `__init__`. -/
def State.init : State K := ⟨[], [], [], []⟩

/-- `upstream_tree[k]` on a defaultdict(list). -/
def State.upstream (s : State K) (k : Val K) : List (Val K) := (s.upstream_tree.get? k).getD []

/-- network.py:112-130 `add_node`. -/
def addNode (s : State K) (node : Props K) : Except PyErr (State K) := do
  let nodes := s.nodes ++ [node]
  let node_id ← Dict.getItem node "nodeid"
  let downstream_id ← Dict.getItem node "dstrnodeid"
  pure { nodes := nodes
         nodes_index := s.nodes_index.set node_id node
         upstream_tree := s.upstream_tree.set downstream_id (s.upstream downstream_id ++ [node_id])
         root_nodes := if downstream_id = .none then s.root_nodes ++ [node_id] else s.root_nodes }

/-- network.py:97-110 `add_nodes`. -/
def addNodes (s : State K) (nodes : List (Props K)) : Except PyErr (State K) := nodes.foldlM addNode s

/-- `sum(l)`: from left to right, starting with 0 (Python before 3.12; later versions also carry the rounding errors along). -/
def pySumFl (fl : K → K) (l : List K) : K := l.foldl (fun a b => fl (a + b)) 0

/-- `d[name]` where a number is expected. -/
def number (d : Props K) (name : String) : Except PyErr K := do
  let x ← Dict.getItem d name
  x.float

/-- network.py:132-155 `_calc_node`: the updated `_node_rain_values`. -/
def calcNodeFl (fl : K → K) (s : State K) (volume_attribute : String) (values : Dict (Val K) (Props K)) (node_id : Val K) :
    Except PyErr (Dict (Val K) (Props K)) := do
  let node ← Dict.getItem s.nodes_index node_id
  let _area ← number node "wshed_area"
  let wshed_water_vol ← number node volume_attribute
  let bspot_capacity ← number node "bspot_vol"
  let upstream_node_ids := s.upstream node_id
  let upstream_event_values ← upstream_node_ids.mapM fun nid => Dict.getItem values nid
  let spills ← upstream_event_values.mapM fun un => number un "spillv"
  let upstream_volume := if upstream_node_ids = [] then 0 else pySumFl fl spills
  let total_water_vol := fl (wshed_water_vol + upstream_volume)
  let bspot_filled_vol := min total_water_vol bspot_capacity
  let spillover := max 0 (fl (total_water_vol - bspot_capacity))
  let event : Props K := [("nodeid", ← Dict.getItem node "nodeid")]
  let event := Dict.set event volume_attribute (.num wshed_water_vol)
  let event := Dict.set event "spillv" (.num spillover)
  let event := Dict.set event "v" (.num bspot_filled_vol)
  let event := Dict.set event "pctv"
    (if bspot_capacity = 0 then .none else .num (fl (fl (100 * bspot_filled_vol) / bspot_capacity)))
  pure (values.set node_id event)

/-- network.py:158-163: the first while loop of `_calc_stream_tree`. The deques are lists with the right end first. -/
def treeLoop (upstream : Val K → List (Val K)) : Nat → List (Val K) → List (Val K) → Option (List (Val K))
  | _, [], tree => some tree
  | 0, _ :: _, _ => none
  | fuel + 1, n :: nodes, tree => treeLoop upstream fuel ((upstream n).reverse ++ nodes) (n :: tree)

/-- network.py:157-168 `_calc_stream_tree`. -/
def calcStreamTreeFl (fl : K → K) (s : State K) (volume_attribute : String) (fuel : Nat) (values : Dict (Val K) (Props K))
    (root_node_id : Val K) : Net.Comp (Dict (Val K) (Props K)) := do
  let tree ← ExceptT.mk ((treeLoop s.upstream fuel [root_node_id] []).map .ok)
  ExceptT.mk (some (tree.foldlM (calcNodeFl fl s volume_attribute) values))

/-- network.py:170-186 `rain_event`. -/
def rainEventFl (fl : K → K) (s : State K) (volume_attribute : String) (fuel : Nat) : Net.Comp (List (Props K)) := do
  let values ← s.root_nodes.foldlM (calcStreamTreeFl fl s volume_attribute fuel) []
  pure (Dict.values values)

/-- network.py:50: the dict comprehension over the features. -/
def indexFeatures (features : List (Feature K)) : Except PyErr (Dict (Val K) (Feature K)) :=
  features.foldlM (fun d f => do
    let nodeid ← f.prop "nodeid"
    pure (Dict.set d nodeid f)) []

/-- network.py:69-70: copying the properties of an event to the feature (which the code edits in place). -/
def copyProps (f : Feature K) (e : Props K) : Except PyErr (Feature K) := do
  let props ← ["spillv", "v", "pctv"].foldlM (fun (p : Props K) prop => do
    let x ← Dict.getItem e prop
    pure (Dict.set p prop x)) f.properties
  pure { f with properties := props }

/-- network.py:66-70: the loop over the events. -/
def copyEvents (index : Dict (Val K) (Feature K)) (events : List (Props K)) : Except PyErr (Dict (Val K) (Feature K)) :=
  events.foldlM (fun d e => do
    let node_id ← Dict.getItem e "nodeid"
    let gjn ← Dict.getItem d node_id
    let gjn ← copyProps gjn e
    pure (Dict.set d node_id gjn)) index

/-- network.py:41-75 `FinalStateCalculator.process`: the features written. -/
def finalStateFl (fl : K → K) (features : List (Feature K)) (input_volume_attribute : String) (fuel : Nat) :
    Net.Comp (List (Feature K)) := do
  let geojsonnodes_index ← ExceptT.mk (some (indexFeatures features))
  let nodes := geojsonnodes_index.values.map (·.properties)
  let network ← ExceptT.mk (some (addNodes State.init nodes))
  let eventvalues ← rainEventFl fl network input_volume_attribute fuel
  let geojsonnodes_index ← ExceptT.mk (some (copyEvents geojsonnodes_index eventvalues))
  pure geojsonnodes_index.values

/-- network.py:132-155 `_calc_node` with exact arithmetic. -/
abbrev calcNode (s : State K) := calcNodeFl id s

/-- network.py:157-168 `_calc_stream_tree` with exact arithmetic. -/
abbrev calcStreamTree (s : State K) := calcStreamTreeFl id s

/-- network.py:170-186 `rain_event` with exact arithmetic. -/
abbrev rainEvent (s : State K) := rainEventFl id s

/-- network.py:41-75 `FinalStateCalculator.process` with exact arithmetic. -/
abbrev finalState (features : List (Feature K)) := finalStateFl id features

end Network
end Malstroem
