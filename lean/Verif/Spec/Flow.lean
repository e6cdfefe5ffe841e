/-
Specification vocabulary for flow direction rasters.
-/
import Verif.Spec.Grid
import Mathlib.Logic.Relation
import Mathlib.Data.Set.Card

namespace Malstroem
namespace Spec

/-- Compass offset (row, column) of flow codes 0..7: clockwise from Up. Codes from 8 on do not flow. -/
def offset : Nat → Option (Int × Int)
  | 0 => some (-1, 0)
  | 1 => some (-1, 1)
  | 2 => some (0, 1)
  | 3 => some (1, 1)
  | 4 => some (1, 0)
  | 5 => some (1, -1)
  | 6 => some (0, -1)
  | 7 => some (-1, -1)
  | _ => none

/-- The neighbour of `c` in compass direction `k < 8`. -/
def neighbour (c : Cell) (k : Nat) : Cell :=
  (c.1 + ((offset k).getD (0, 0)).1, c.2 + ((offset k).getD (0, 0)).2)

/-- Drop per distance from `c` to its neighbour in direction `k`: `drop` gives the height difference of two elevations,
`perDiag` divides by the length of a diagonal. Odd directions are the diagonal ones. -/
def slope {β γ : Type*} (drop : β → β → γ) (perDiag : γ → γ) (z : Cell → β) (c : Cell) (k : Nat) : γ :=
  if k % 2 = 0 then drop (z c) (z (neighbour c k)) else perDiag (drop (z c) (z (neighbour c k)))

/-- Water in `a` flows to the cell `b` (which may be outside the raster). -/
def FlowsTo (fd : Cell → Nat) (a b : Cell) : Prop :=
  ∃ o, offset (fd a) = some o ∧ b = (a.1 + o.1, a.2 + o.2)

/-- Water in raster cell `a` flows to raster cell `b` in one step. -/
def Step (rows cols : Nat) (fd : Cell → Nat) (a b : Cell) : Prop :=
  InGrid rows cols a ∧ InGrid rows cols b ∧ FlowsTo fd a b

/-- `c` lies on the downstream trace of `a` (every cell on its own). -/
def Downstream (rows cols : Nat) (fd : Cell → Nat) : Cell → Cell → Prop :=
  Relation.ReflTransGen (Step rows cols fd)

/-- The raster cell flows off the raster directly. -/
def FlowsOut (rows cols : Nat) (fd : Cell → Nat) (a : Cell) : Prop :=
  InGrid rows cols a ∧ ∃ b, FlowsTo fd a b ∧ ¬ InGrid rows cols b

/-- Following the flow from `a` leaves the raster after finitely many steps. -/
def Drains (rows cols : Nat) (fd : Cell → Nat) (a : Cell) : Prop :=
  ∃ e, Downstream rows cols fd a e ∧ FlowsOut rows cols fd e

/-- The flow directions form a cycle through `a`. -/
def OnCycle (rows cols : Nat) (fd : Cell → Nat) (a : Cell) : Prop :=
  Relation.TransGen (Step rows cols fd) a a

/-- `l` is the downstream trace of raster cell `c`: it starts in `c`, every cell flows to the next one, all cells lie in
the raster, and the last one flows off the raster or does not flow at all. -/
structure IsTrace (rows cols : Nat) (fd : Cell → Nat) (c : Cell) (l : List Cell) : Prop where
  head : l.head? = some c
  chain : l.IsChain (FlowsTo fd)
  inside : ∀ x ∈ l, InGrid rows cols x
  stop : ∃ e, l.getLast? = some e ∧ ∀ d, FlowsTo fd e d → ¬ InGrid rows cols d

/-- Number of raster cells whose downstream trace passes through `c`. -/
noncomputable def upstreamCount (rows cols : Nat) (fd : Cell → Nat) (c : Cell) : Nat :=
  {a | InGrid rows cols a ∧ Downstream rows cols fd a c}.ncard

/-- `v` is the label of the first labelled cell on the downstream trace of the cell; it is `unassigned` if the trace
ends without meeting a label. -/
inductive FirstLabel {L : Type*} (rows cols : Nat) (fd : Cell → Nat) (lab : Cell → L) (unassigned : L) :
    Cell → L → Prop
  | here {c} : lab c ≠ unassigned → FirstLabel rows cols fd lab unassigned c (lab c)
  | next {c d v} : lab c = unassigned → Step rows cols fd c d →
      FirstLabel rows cols fd lab unassigned d v → FirstLabel rows cols fd lab unassigned c v
  | out {c} : lab c = unassigned → (∀ d, ¬ Step rows cols fd c d) →
      FirstLabel rows cols fd lab unassigned c unassigned

end Spec
end Malstroem
