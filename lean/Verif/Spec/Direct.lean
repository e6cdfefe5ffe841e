/-
Specification vocabulary: the final state of the bluespots without streams and junctions.
-/
import Verif.Spec.Net
import Verif.Spec.Bluespots
import Verif.Spec.Label
import Verif.Spec.Rain
import Verif.Model.Complete

namespace Malstroem
namespace Spec

/-- Where the water goes that leaves bluespot `l`: down from its outlet `point l` to the first other bluespot, `next l`;
`none` if it meets none, or if there is no outlet on the raster. -/
def GoesTo (rows cols : Nat) (fd : Cell → Nat) (lab : Cell → Int) (n : Nat) (point : Nat → Cell) (next : Nat → Option Int) :
    Prop :=
  ∀ l ≤ n, (InGrid rows cols (point l) ∧ ∃ path, NextLabel rows cols fd lab (some 0) (point l) (next l) path) ∨
    (¬ InGrid rows cols (point l) ∧ next l = none)

variable {K : Type} [Field K] [LinearOrder K]

/-- The water that comes to bluespot `l`: its own, and what the bluespots spill that go to it. -/
def comesTo (n : Nat) (next : Nat → Option Int) (water spill : Nat → K) (l : Nat) : K :=
  water l + (((List.range (n + 1)).filter fun k => next k = some (l : Int)).map spill).sum

/-- Each of the bluespots 0 to `n` holds what comes to it up to its capacity and spills the rest. -/
def FinalState (n : Nat) (next : Nat → Option Int) (water cap v spill : Nat → K) : Prop :=
  ∀ l ≤ n, v l = min (comesTo n next water spill l) (cap l) ∧ spill l = max 0 (comesTo n next water spill l - cap l)

/-- The final state that a run of the chain reports after `mm` of rain, described by its rasters and pour points alone:
the water of a bluespot is the rain on its watershed, its capacity the volume of its cells; node features of other nodes
hold nothing. -/
structure ReportsState {β : Type} (rows cols : Nat) (gt : GeoTransform K) (mm : K) (out : Complete.Out β K)
    (point : Nat → Cell) (next : Nat → Option Int) (v spill : Nat → K) : Prop where
  outlet : ∀ l ≤ out.bluespots.nlabels, ∃ p, out.bluespots.pourpoints[l]? = some p ∧ point l = (p.cell_row, p.cell_col)
  goes : GoesTo rows cols out.dem.flowdir.get out.bluespots.labeled.get out.bluespots.nlabels point next
  state : ∃ water cap : Nat → K, FinalState out.bluespots.nlabels next water cap v spill ∧
    ∀ l ≤ out.bluespots.nlabels, ∀ cs ws, CellsOf rows cols out.bluespots.labeled.get l cs →
      CellsOf rows cols out.bluespots.watersheds.get l ws →
      water l = ws.length * cellArea gt * mm / 1000 ∧ cap l = (cs.map out.dem.depths.get).sum * cellArea gt
  shown : ∀ l : Nat, l ≤ out.bluespots.nlabels → ∃ f ∈ out.final, f.properties.get? "nodeid" = some (.int l) ∧
    HasNumber f "v" (v l) ∧ HasNumber f "spillv" (spill l)
  others : ∀ f ∈ out.final, (∃ l : Nat, l ≤ out.bluespots.nlabels ∧ f.properties.get? "nodeid" = some (.int l)) ∨
    (f.properties.get? "nodetype" = some (.str "junction") ∧ HasNumber f "v" 0)

end Spec
end Malstroem
