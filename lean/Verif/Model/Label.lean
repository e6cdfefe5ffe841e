/-
Model of malstroem/algorithms/label.py.

Data rasters and label rasters have the same shape (numpy raises IndexError otherwise; all callers pass rasters of one
shape). Labels are `Int`. `float('inf')` / `float('-inf')` in the `min`/`max` fields are the top of `WithTop` and the
bottom of `WithBot`. NaN data are not modelled.
-/
import Verif.Model.Raster
import Mathlib.Order.WithBot

namespace Malstroem

/-- numpy/Python indexing of a sequence of length `n` by `i`: negative indexes count from the end; `none` is
IndexError. -/
def pyIdx (n : Nat) (i : Int) : Option Nat :=
  if 0 ≤ i then (if i < n then some i.toNat else none)
  else if 0 ≤ i + n then some (i + n).toNat else none

/-- `l[i]` in Python. -/
def pyGet {α : Type} (l : List α) (i : Int) : Except PyErr α :=
  match pyIdx l.length i with
  | none => .error .indexError
  | some k => match l[k]? with
    | none => .error .indexError
    | some x => .ok x

namespace Label

/-- `np.max(labelled)`; ValueError for an empty array. -/
def npMax (labelled : Raster Int) : Except PyErr Int :=
  match labelled.cells.map labelled.get with
  | [] => .error .valueError
  | x :: xs => .ok (xs.foldl max x)

/-- `if not nlabels: nlabels = np.max(labelled)` (label.py:56-57, 115-116, 149-150, 203-204): both `None` and 0 select
the maximum label. -/
def resolve (labelled : Raster Int) (nlabels : Option Int) : Except PyErr Int :=
  match nlabels with
  | none => npMax labelled
  | some 0 => npMax labelled
  | some n => .ok n

/-- `np.zeros((nlabels + 1,), dtype)` with all records set to `r`; ValueError for a negative dimension. -/
def table {ρ : Type} (nlabels : Int) (r : ρ) : Except PyErr (List ρ) :=
  if nlabels + 1 < 0 then .error .valueError else .ok (List.replicate (nlabels + 1).toNat r)

/-- The double loop shared by label.py:64-74, 123-131, 157-165: for each cell in row-major order update the record of
the cell's label in place. -/
def scan {ρ : Type} (upd : Cell → ρ → ρ) (labelled : Raster Int) : List Cell → List ρ → Except PyErr (List ρ)
  | [], st => .ok st
  | c :: cs, st =>
    match pyIdx st.length (labelled.get c) with
    | none => .error .indexError
    | some i => scan upd labelled cs (st.modify i (upd c))

/-- A record of label.py:60 (`min`, `max`, `sum`, `count`). -/
structure Stat (α : Type) where
  min : WithTop α
  max : WithBot α
  sum : α
  count : Int
  deriving DecidableEq

/-- A record of label.py:118/152 (`value`, `row`, `col`). -/
structure Index (β : Type) where
  value : β
  row : Int
  col : Int
  deriving DecidableEq

section Stats
variable {α : Type} [LinearOrder α] [Zero α] [Add α]

/-- label.py:61-63: initial record. -/
def Stat.init : Stat α := { min := ⊤, max := ⊥, sum := 0, count := 0 }

/-- label.py:66-73: loop body. `fl` is what becomes of the exact sum: the identity or a rounding. -/
def statUpdFl (fl : α → α) (data : Raster α) (rc : Cell) (record : Stat α) : Stat α :=
  let val := data.get rc
  let record := { record with count := record.count + 1 }
  let record := { record with sum := fl (record.sum + val) }
  let record := if (val : WithTop α) < record.min then { record with min := (val : WithTop α) } else record
  let record := if record.max < (val : WithBot α) then { record with max := (val : WithBot α) } else record
  record

/-- label.py:43-75 `label_stats`. -/
def labelStatsFl (fl : α → α) (data : Raster α) (labelled : Raster Int) (nlabels : Option Int) : Except PyErr (List (Stat α)) := do
  let nlabels ← resolve labelled nlabels
  let stats ← table nlabels Stat.init
  scan (statUpdFl fl data) labelled data.cells stats

/-- label.py:66-73: loop body, exact. -/
abbrev statUpd (data : Raster α) := statUpdFl id data

/-- label.py:43-75 `label_stats` with exact arithmetic. -/
abbrev labelStats (data : Raster α) := labelStatsFl id data

end Stats

/-- label.py:78-98 `keep_labels`, with `keep_label[background] = False` and the fancy indexing
`keep_array[labelled]`. The caller's list is modified in place too; it is not used afterwards. -/
def keepLabels (labelled : Raster Int) (keep_label : List Bool) (background : Int) : Except PyErr (Raster Bool) :=
  match pyIdx keep_label.length background with
  | none => .error .indexError
  | some b =>
    let keep_array := keep_label.set b false
    if labelled.cells.all fun c => (pyIdx keep_array.length (labelled.get c)).isSome then
      .ok { rows := labelled.rows, cols := labelled.cols,
            get := fun c => ((pyIdx keep_array.length (labelled.get c)).bind (keep_array[·]?)).getD false }
    else .error .indexError

/-- label.py:125-131: loop body of `label_min_index`. -/
def minUpd {β : Type} [LT β] [DecidableLT β] (data : Raster β) (rc : Cell) (record : Index β) : Index β :=
  let val := data.get rc
  if val < record.value then { value := val, row := rc.1, col := rc.2 } else record

/-- label.py:101-132 `label_min_index`. The initial value `float('inf')` is the top element. -/
def labelMinIndex {β : Type} [LinearOrder β] [OrderTop β] (data : Raster β) (labelled : Raster Int)
    (nlabels : Option Int) : Except PyErr (List (Index β)) := do
  let nlabels ← resolve labelled nlabels
  let lmin ← table nlabels { value := ⊤, row := -1, col := -1 }
  scan (minUpd data) labelled data.cells lmin

/-- label.py:159-165: loop body of `label_max_index`. -/
def maxUpd {β : Type} [LT β] [DecidableLT β] (data : Raster β) (rc : Cell) (record : Index β) : Index β :=
  let val := data.get rc
  if val > record.value then { value := val, row := rc.1, col := rc.2 } else record

/-- label.py:135-166 `label_max_index`. The initial value `float('-inf')` is the bottom element. -/
def labelMaxIndex {β : Type} [LinearOrder β] [OrderBot β] (data : Raster β) (labelled : Raster Int)
    (nlabels : Option Int) : Except PyErr (List (Index β)) := do
  let nlabels ← resolve labelled nlabels
  let lmax ← table nlabels { value := ⊥, row := -1, col := -1 }
  scan (maxUpd data) labelled data.cells lmax

/-- label.py:169-180 `label_count`: `np.bincount(labelled.ravel())`, which raises ValueError if there is a negative
number, returns an empty array for an empty one, and otherwise an array of length `max + 1`. -/
def labelCount (labelled : Raster Int) : Except PyErr (List Int) :=
  let ravelled := labelled.cells.map labelled.get
  if ravelled.any (· < 0) then .error .valueError
  else match ravelled with
    | [] => .ok []
    | x :: xs => .ok ((List.range ((xs.foldl max x).toNat + 1)).map fun (l : Nat) => (ravelled.count (l : Int) : Int))

/-- label.py:207 `l = [[] for x in range(nlabels + 1)]`: an empty list if the range is empty. -/
def emptyLists {α : Type} (nlabels : Int) : List (List α) := List.replicate (nlabels + 1).toNat []

/-- label.py:210-217: loop over the ravelled arrays. -/
def dataLoop {α : Type} (data : Raster α) (labelled : Raster Int) (background : Int) :
    List Cell → List (List α) → Except PyErr (List (List α))
  | [], l => .ok l
  | ix :: rest, l =>
    let label_id := labelled.get ix
    let data_value := data.get ix
    if label_id = background then dataLoop data labelled background rest l
    else match pyIdx l.length label_id with
      | none => .error .indexError
      | some i => dataLoop data labelled background rest (l.modify i (· ++ [data_value]))

/-- label.py:184-218 `label_data`. -/
def labelData {α : Type} (data : Raster α) (labelled : Raster Int) (nlabels : Option Int) (background : Int) :
    Except PyErr (List (List α)) := do
  let nlabels ← resolve labelled nlabels
  dataLoop data labelled background labelled.cells (emptyLists nlabels)

/-- label.py:221-237 `set_label_to_value`: `np_values[labelled.ravel()].reshape(labelled.shape)`. -/
def setLabelToValue {α : Type} [Inhabited α] (labelled : Raster Int) (bluespot_values : List α) :
    Except PyErr (Raster α) :=
  if labelled.cells.all fun c => (pyIdx bluespot_values.length (labelled.get c)).isSome then
    .ok { rows := labelled.rows, cols := labelled.cols,
          get := fun c => ((pyIdx bluespot_values.length (labelled.get c)).bind (bluespot_values[·]?)).getD default }
  else .error .indexError

end Label
end Malstroem
