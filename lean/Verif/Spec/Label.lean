/-
Specification vocabulary for labelled rasters: row-major order, cells of a label, the contract of
connected component labelling, rasters that hold one value per label.
Nothing in this file models malstroem code.
-/
import Verif.Spec.Grid
import Mathlib.Data.Set.Card

namespace Malstroem
namespace Spec

/-- Row-major order: `a` is met before `b` when reading the raster row by row. -/
def Before (a b : Cell) : Prop := a.1 < b.1 ∨ (a.1 = b.1 ∧ a.2 < b.2)

instance (a b) : Decidable (Before a b) := by unfold Before; infer_instance

/-- `cs` lists exactly the raster cells satisfying `P`, each once, in row-major order. -/
def Lists (rows cols : Nat) (P : Cell → Prop) (cs : List Cell) : Prop :=
  cs.Pairwise Before ∧ ∀ c, c ∈ cs ↔ InGrid rows cols c ∧ P c

/-- `cs` lists the cells carrying the label `l` in row-major order. -/
def CellsOf (rows cols : Nat) (labelled : Cell → Int) (l : Int) (cs : List Cell) : Prop :=
  Lists rows cols (fun c => labelled c = l) cs

/-- `n` is the number of labels the caller asked for: `nlabels` itself, or the highest label in the raster if `nlabels`
is absent or zero. -/
def TopLabel (rows cols : Nat) (labelled : Cell → Int) (nlabels : Option Int) (n : Int) : Prop :=
  (nlabels = some n ∧ n ≠ 0) ∨
  ((nlabels = none ∨ nlabels = some 0) ∧ IsGreatest {l | ∃ c, InGrid rows cols c ∧ labelled c = l} n)

/-- All labels lie in 0..n. -/
def LabelsIn (rows cols : Nat) (labelled : Cell → Int) (n : Int) : Prop :=
  ∀ c, InGrid rows cols c → 0 ≤ labelled c ∧ labelled c ≤ n

/-- Contract of 8-connected component labelling of the cells satisfying `wet`: the others get label 0, the wet cells
get labels 1..n, all of these are used, and two wet cells share their label iff they are connected by king moves
through wet cells of the raster. -/
structure IsLabelling (rows cols : Nat) (wet : Cell → Prop) (labelled : Cell → Int) (n : Nat) : Prop where
  background : ∀ c, InGrid rows cols c → (labelled c = 0 ↔ ¬ wet c)
  range : ∀ c, InGrid rows cols c → 0 ≤ labelled c ∧ labelled c ≤ n
  used : ∀ l : Nat, 1 ≤ l → l ≤ n → ∃ c, InGrid rows cols c ∧ labelled c = l
  same : ∀ a b, InGrid rows cols a → InGrid rows cols b → wet a → wet b →
    (labelled a = labelled b ↔ ConnectedIn (fun x => InGrid rows cols x ∧ wet x) a b)

/-- `x` is the cell of `cs` with the smallest value, the first one in row-major order if there are several. -/
def IsFirstMin {β : Type*} [LE β] (v : Cell → β) (cs : List Cell) (x : Cell) : Prop :=
  x ∈ cs ∧ (∀ c ∈ cs, v x ≤ v c) ∧ ∀ c ∈ cs, v c = v x → c = x ∨ Before x c

/-- `x` is the cell of `cs` with the largest value, the first one in row-major order if there are several. -/
def IsFirstMax {β : Type*} [LE β] (v : Cell → β) (cs : List Cell) (x : Cell) : Prop :=
  x ∈ cs ∧ (∀ c ∈ cs, v c ≤ v x) ∧ ∀ c ∈ cs, v c = v x → c = x ∨ Before x c

end Spec
end Malstroem
