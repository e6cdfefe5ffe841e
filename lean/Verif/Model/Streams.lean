/-
Model of malstroem/streams.py.
-/
import Verif.Model.Network

namespace Malstroem
namespace Streams
variable {K : Type} [Field K] [LinearOrder K]

/-- A property used as raster index: only integers are modelled. -/
def index (f : Feature K) (name : String) : Except PyErr Int := do
  match ← f.prop name with
  | .int i => pure i
  | _ => .error .typeError

/-- net.py:90, 190, 214: the value of 'nodetype'. -/
def typeName : Net.NodeType → String
  | .pourpoint => "pourpoint"
  | .junction => "junction"

/-- A downstream id as property value. -/
def optVal : Option Int → Val K
  | none => .none
  | some d => .int d

/-- streams.py:82-105: one pass of the loop that builds the node features. -/
def nodeFeature (transform : GeoTransform K) (pp_index : Dict (Val K) (Feature K)) (n : Net.Node) :
    Except PyErr (Feature K) := do
  let props : Props K :=
    [("nodeid", .int n.id), ("dstrnodeid", optVal n.downstream_id), ("nodetype", .str (typeName n.nodetype)),
     ("cell_row", .int n.pix.1), ("cell_col", .int n.pix.2), ("bspot_id", .none), ("bspot_area", .num 0),
     ("bspot_vol", .num 0), ("wshed_area", .num 0)]
  let props ← match Dict.get? pp_index (.int n.id) with
    | none => pure props
    | some ppoint => do
      let props := Dict.set props "bspot_id" (← ppoint.prop "bspot_id")
      let props := Dict.set props "bspot_area" (← ppoint.prop "bspot_area")
      let props := Dict.set props "bspot_vol" (← ppoint.prop "bspot_vol")
      let props := Dict.set props "wshed_area" (← ppoint.prop "wshed_area")
      pure props
  let coord := transformCellToWorld n.pix transform
  pure { id := some n.id, geometry := .point coord, properties := props }

/-- streams.py:113-122: one pass of the loop that builds the stream features. -/
def streamFeature (transform : GeoTransform K) (n : Net.Node) : Option (Feature K) :=
  if n.geometry = [] then none
  else some
    { id := some n.id
      geometry := .lineString (n.geometry.map fun c => transformCellToWorld c transform)
      properties := [("nodeid", .int n.id), ("dstrnodeid", optVal n.downstream_id)] }

/-- streams.py:77: the pour points by their bluespot id. -/
def indexPourpoints (pourpoints : List (Feature K)) : Except PyErr (Dict (Val K) (Feature K)) :=
  pourpoints.foldlM (fun d pp => do
    let bspot_id ← pp.prop "bspot_id"
    pure (Dict.set d bspot_id pp)) []

/-- streams.py:51-123 `StreamTool.process`: the node features and, with an output for streams, the stream features
written. -/
def process (transform : GeoTransform K) (flowdir : Raster Nat) (labeled_bluespots : Raster Int)
    (pourpoints : List (Feature K)) (output_streams : Bool) (fuel : Nat) :
    Net.Comp (List (Feature K) × List (Feature K)) := do
  let pourpoints_pix ← ExceptT.mk (some (pourpoints.mapM fun pp => do
    let row ← index pp "cell_row"
    let col ← index pp "cell_col"
    pure (Net.PourPointArg.pix (row, col))))
  let nodes ← if output_streams then Net.geometricPourpointNetwork flowdir labeled_bluespots pourpoints_pix (some 0) fuel
    else Net.pourpointNetwork flowdir labeled_bluespots pourpoints_pix (some 0) fuel
  let pp_index ← ExceptT.mk (some (indexPourpoints pourpoints))
  let geojson_nodes ← ExceptT.mk (some (nodes.mapM (nodeFeature transform pp_index)))
  let geojson_streams := if output_streams then nodes.filterMap (streamFeature transform) else []
  pure (geojson_nodes, geojson_streams)

end Streams
end Malstroem
