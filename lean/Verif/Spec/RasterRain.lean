/-
Specification vocabulary: the final state after rain that is given as a raster.
-/
import Verif.Spec.Direct

namespace Malstroem
namespace Spec
variable {K : Type} [Field K] [LinearOrder K]

/-- The final state that the node features `final` report after the rain in the raster `precip`: the water of bluespot `l`
is the sum of the raster over the cells labelled `l` in `lab`, times `factor`; the rest as in `ReportsState`. -/
structure ReportsRain {β : Type} (rows cols : Nat) (gt : GeoTransform K) (lab : Cell → Int) (precip : Cell → K) (factor : K)
    (out : Complete.Out β K) (final : List (Feature K)) (point : Nat → Cell) (next : Nat → Option Int) (v spill : Nat → K) :
    Prop where
  outlet : ∀ l ≤ out.bluespots.nlabels, ∃ p, out.bluespots.pourpoints[l]? = some p ∧ point l = (p.cell_row, p.cell_col)
  goes : GoesTo rows cols out.dem.flowdir.get out.bluespots.labeled.get out.bluespots.nlabels point next
  state : ∃ water cap : Nat → K, FinalState out.bluespots.nlabels next water cap v spill ∧
    ∀ l ≤ out.bluespots.nlabels, ∀ cs ws, CellsOf rows cols out.bluespots.labeled.get l cs → CellsOf rows cols lab l ws →
      water l = (ws.map precip).sum * factor ∧ cap l = (cs.map out.dem.depths.get).sum * cellArea gt
  shown : ∀ l : Nat, l ≤ out.bluespots.nlabels → ∃ f ∈ final, f.properties.get? "nodeid" = some (.int l) ∧
    HasNumber f "v" (v l) ∧ HasNumber f "spillv" (spill l)
  others : ∀ f ∈ final, (∃ l : Nat, l ≤ out.bluespots.nlabels ∧ f.properties.get? "nodeid" = some (.int l)) ∨
    (f.properties.get? "nodetype" = some (.str "junction") ∧ HasNumber f "v" 0)

end Spec
end Malstroem
