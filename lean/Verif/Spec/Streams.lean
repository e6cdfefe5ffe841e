/-
Specification vocabulary for the features StreamTool writes.
-/
import Verif.Model.Streams
import Verif.Spec.Network

namespace Malstroem
namespace Spec
variable {K : Type} [Field K] [LinearOrder K]

/-- The attributes StreamTool copies from a pour point to its node. -/
def copied : List String := ["bspot_id", "bspot_area", "bspot_vol", "wshed_area"]

/-- `f` is a pour point feature of bluespot `i` in the given cell. -/
structure IsPourPointFeature (f : Feature K) (i : Nat) (cell : Cell) : Prop where
  id : f.properties.get? "bspot_id" = some (.int i)
  row : f.properties.get? "cell_row" = some (.int cell.1)
  col : f.properties.get? "cell_col" = some (.int cell.2)
  has : ∀ key ∈ copied, ∃ x, f.properties.get? key = some x

/-- The features are those of the pour points in the given cells, in this order. -/
def ArePourPoints (fps : List (Feature K)) (cells : List Cell) : Prop :=
  List.Forall₂ (fun f (x : Cell × Nat) => IsPourPointFeature f x.2 x.1) fps cells.zipIdx

/-- `f` is the node feature of the network node `n`: a point in the centre of its cell with ids, node type and cell. A
pour point node has the attributes of the pour point feature with its id; a junction has no bluespot and no areas. -/
structure IsNodeFeature (gt : GeoTransform K) (pourpoints : List (Feature K)) (n : Net.Node) (f : Feature K) : Prop where
  id : f.id = some n.id
  point : f.geometry = .point (transformCellToWorld n.pix gt)
  nodeid : f.properties.get? "nodeid" = some (.int n.id)
  down : f.properties.get? "dstrnodeid" = some (downVal n.downstream_id)
  row : f.properties.get? "cell_row" = some (.int n.pix.1)
  col : f.properties.get? "cell_col" = some (.int n.pix.2)
  pourpoint : n.nodetype = .pourpoint → f.properties.get? "nodetype" = some (.str "pourpoint") ∧
    ∃ (i : Nat) (p : Feature K), n.id = i ∧ pourpoints[i]? = some p ∧
      ∀ key ∈ copied, f.properties.get? key = p.properties.get? key
  junction : n.nodetype = .junction → f.properties.get? "nodetype" = some (.str "junction") ∧
    f.properties.get? "bspot_id" = some .none ∧ f.properties.get? "bspot_area" = some (.num 0) ∧
    f.properties.get? "bspot_vol" = some (.num 0) ∧ f.properties.get? "wshed_area" = some (.num 0)

/-- `f` is the stream feature of node `n`: a line through the centres of the cells of its path. -/
structure IsStreamFeature (gt : GeoTransform K) (n : Net.Node) (f : Feature K) : Prop where
  id : f.id = some n.id
  line : f.geometry = .lineString (n.geometry.map fun c => transformCellToWorld c gt)
  properties : f.properties = [("nodeid", .int n.id), ("dstrnodeid", downVal n.downstream_id)]

end Spec
end Malstroem
