/-
Rasters, Python ranges, while loops with fuel, Python exceptions.
-/
import Verif.Spec.Grid
import Mathlib.Logic.Function.Basic

namespace Malstroem

/-- A 2D numpy array. Values outside the shape are junk. -/
structure Raster (α : Type*) where
  rows : Nat
  cols : Nat
  get : Cell → α

namespace Raster
variable {α β : Type*}

/-- `a[r, c] = v` (in place in the code; here the updated array). -/
def set (a : Raster α) (c : Cell) (v : α) : Raster α := { a with get := Function.update a.get c v }

/-- The cell is a valid (non-negative) index of the array. -/
abbrev Has (a : Raster α) (c : Cell) : Prop := Spec.InGrid a.rows a.cols c

/-- Two arrays are equal (`np.all(a == b)`): same shape and same values in the cells. -/
def Same (a b : Raster α) : Prop := a.rows = b.rows ∧ a.cols = b.cols ∧ ∀ c, a.Has c → a.get c = b.get c

/-- Row-major list of all cells: `for r in range(0, shape[0]): for c in range(0, shape[1])`. -/
def cellList (rows cols : Nat) : List Cell :=
  (List.range rows).flatMap fun (r : Nat) => (List.range cols).map fun (c : Nat) => ((r : Int), (c : Int))

/-- Row-major list of all cells of the array. -/
def cells (a : Raster α) : List Cell := cellList a.rows a.cols

/-- Array from a list of rows (used for concrete examples). -/
def ofRows [Inhabited α] (l : List (List α)) : Raster α where
  rows := l.length
  cols := (l.headD []).length
  get := fun c => (l.getD c.1.toNat []).getD c.2.toNat default

/-- The array as a list of rows (used for concrete examples). -/
def toRows (a : Raster α) : List (List α) :=
  (List.range a.rows).map fun (r : Nat) => (List.range a.cols).map fun (c : Nat) => a.get ((r : Int), (c : Int))

/-- numpy `a.T`. -/
def transpose (a : Raster α) : Raster α where
  rows := a.cols
  cols := a.rows
  get := fun c => a.get (c.2, c.1)

/-- numpy `a[::-1, :]` (flip upside down). -/
def flipud (a : Raster α) : Raster α where
  rows := a.rows
  cols := a.cols
  get := fun c => a.get ((a.rows : Int) - 1 - c.1, c.2)

/-- numpy `a[:, ::-1]` (mirror left-right). -/
def fliplr (a : Raster α) : Raster α where
  rows := a.rows
  cols := a.cols
  get := fun c => a.get (c.1, (a.cols : Int) - 1 - c.2)

end Raster

/-- Python exceptions that the modelled code can raise. -/
inductive PyErr
  | indexError | keyError | typeError | valueError | assertionError | nameError | unknownDirection
  | unsupportedFilter | notImplemented | usageError | overflowError | attributeError | recursionError | other
  deriving DecidableEq, Repr

/-- Python `range(start, stop, step)` as a list (step 0 raises in Python and never occurs). -/
def pyRange (start stop step : Int) : List Int :=
  if 0 < step then
    (List.range ((stop - start + step - 1) / step).toNat).map fun (i : Nat) => start + i * step
  else if step < 0 then
    (List.range ((start - stop - step - 1) / (-step)).toNat).map fun (i : Nat) => start + i * step
  else []

/-- A loop `keep = True; while keep: (s, keep) = body(s)`, run for at most `fuel` iterations. -/
def doWhile {σ : Type*} (body : σ → σ × Bool) : Nat → σ → Option σ
  | 0, _ => none
  | n + 1, s =>
    let (s', keep) := body s
    if keep then doWhile body n s' else some s'

/-- The fuelled computation `f` returns `r` (for every sufficiently large amount of fuel). -/
def Returns {ρ : Type*} (f : Nat → Option ρ) (r : ρ) : Prop := ∃ n, ∀ m, n ≤ m → f m = some r

end Malstroem
