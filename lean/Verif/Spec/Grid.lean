/-
Specification vocabulary for rasters: cells, neighbourhood, escape paths, spill level.
Nothing in this file models malstroem code; it is what the English properties talk about.
-/
import Mathlib.Order.Bounds.Basic
import Mathlib.Data.List.Chain
import Mathlib.Algebra.Order.Group.Int
import Mathlib.Algebra.Order.Group.Unbundled.Abs

namespace Malstroem

/-- A raster cell: (row, column). -/
abbrev Cell := Int × Int

namespace Spec

/-- The cell lies inside a raster with the given number of rows and columns. -/
def InGrid (rows cols : Nat) (c : Cell) : Prop :=
  0 ≤ c.1 ∧ c.1 < rows ∧ 0 ≤ c.2 ∧ c.2 < cols

/-- The cell lies on the outermost row or column of the raster. -/
def OnEdge (rows cols : Nat) (c : Cell) : Prop :=
  InGrid rows cols c ∧ (c.1 = 0 ∨ c.1 = (rows : Int) - 1 ∨ c.2 = 0 ∨ c.2 = (cols : Int) - 1)

/-- The cell lies in the raster but not on its edge. -/
def Interior (rows cols : Nat) (c : Cell) : Prop :=
  InGrid rows cols c ∧ ¬ OnEdge rows cols c

/-- 8-neighbourhood (king moves). -/
def Adj (a b : Cell) : Prop := a ≠ b ∧ |a.1 - b.1| ≤ 1 ∧ |a.2 - b.2| ≤ 1

/-- Neighbours sharing an edge (not just a corner). -/
def Orth (a b : Cell) : Prop := Adj a b ∧ (a.1 = b.1 ∨ a.2 = b.2)

instance (rows cols c) : Decidable (InGrid rows cols c) := by unfold InGrid; infer_instance
instance (rows cols c) : Decidable (OnEdge rows cols c) := by unfold OnEdge; infer_instance
instance (rows cols c) : Decidable (Interior rows cols c) := by unfold Interior; infer_instance
instance (a b) : Decidable (Adj a b) := by unfold Adj; infer_instance
instance (a b) : Decidable (Orth a b) := by unfold Orth; infer_instance

/-- Two cells are connected through cells satisfying `S` by king moves. -/
def ConnectedIn (S : Cell → Prop) (a b : Cell) : Prop :=
  ∃ p : List Cell, p.head? = some a ∧ p.getLast? = some b ∧ p.IsChain Adj ∧ ∀ x ∈ p, S x

/-- `p` is an 8-connected path inside the raster that starts in `c` and ends on the raster edge. -/
structure IsEscape (rows cols : Nat) (c : Cell) (p : List Cell) : Prop where
  head : p.head? = some c
  chain : p.IsChain Adj
  inside : ∀ x ∈ p, InGrid rows cols x
  exit : ∃ e, p.getLast? = some e ∧ OnEdge rows cols e

/-- `z` is the highest elevation met on the path `p`. -/
def IsHighest {β : Type*} [LE β] (dem : Cell → β) (p : List Cell) (z : β) : Prop :=
  IsGreatest {h | ∃ x ∈ p, dem x = h} z

/-- `z` is the spill level of `c`: the lowest level at which water standing in `c` can escape over the edge,
i.e. the minimum over all escape paths of the highest elevation on the path. -/
def IsSpillLevel {β : Type*} [LE β] (rows cols : Nat) (dem : Cell → β) (c : Cell) (z : β) : Prop :=
  IsLeast {h | ∃ p, IsEscape rows cols c p ∧ IsHighest dem p h} z

/-- A surface is depressionless: from every cell there is an escape path along which it never rises. -/
def Depressionless {β : Type*} [LE β] (rows cols : Nat) (s : Cell → β) : Prop :=
  ∀ c, InGrid rows cols c → ∃ p, IsEscape rows cols c p ∧ p.IsChain (fun a b => s b ≤ s a)

/-- The elevation reached when climbing backwards along the path from its last cell to its first one: every step adds
`short` (orthogonal) or `diag` (diagonal), and one never is below the terrain. -/
def climb {β : Type*} [Max β] [Top β] (short diag : β → β) (dem : Cell → β) : List Cell → β
  | [] => ⊤
  | [e] => dem e
  | a :: b :: rest =>
    max (dem a) ((if Orth a b then short else diag) (climb short diag dem (b :: rest)))

end Spec
end Malstroem
