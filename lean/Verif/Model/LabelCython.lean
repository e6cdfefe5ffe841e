/-
Model of malstroem/algorithms/speedups/_label.pyx (compiled label functions), installed by speedups.enable().

The functions are compiled with boundscheck off: a label outside the table is undefined behaviour, represented here by
the error `.other`. Negative labels still wrap around (Cython's default). The typed variants (float32/float64/int32 and
fallback) have identical bodies and are modelled once.
-/
import Verif.Model.Label

namespace Malstroem
namespace LabelCython

/-- The double loop of _label.pyx:55-66, 86-97, 119-128, 150-159: the record is copied out, updated and stored back. -/
def scan {ρ : Type} (upd : Cell → ρ → ρ) (labelled : Raster Int) : List Cell → List ρ → Except PyErr (List ρ)
  | [], st => .ok st
  | c :: cs, st =>
    match pyIdx st.length (labelled.get c) with
    | none => .error .other
    | some i => match st[i]? with
      | none => .error .other
      | some record => scan upd labelled cs (st.set i (upd c record))

/-- _label.pyx:57-65, 88-96: loop body of `label_stats`. -/
def statUpdFl {α : Type} [LinearOrder α] [Zero α] [Add α] (fl : α → α) (data : Raster α) (rc : Cell) (record : Label.Stat α) :
    Label.Stat α :=
  let val := data.get rc
  let record := { record with count := record.count + 1 }
  let record := { record with sum := fl (record.sum + val) }
  let record := if (val : WithTop α) < record.min then { record with min := (val : WithTop α) } else record
  let record := if record.max < (val : WithBot α) then { record with max := (val : WithBot α) } else record
  record

/-- _label.pyx:32-98 `label_stats`. -/
def labelStatsFl {α : Type} [LinearOrder α] [Zero α] [Add α] (fl : α → α) (data : Raster α) (labelled : Raster Int)
    (nlabels : Option Int) : Except PyErr (List (Label.Stat α)) := do
  let nlabels ← Label.resolve labelled nlabels
  let stats ← Label.table nlabels Label.Stat.init
  scan (statUpdFl fl data) labelled data.cells stats

/-- _label.pyx:32-98 `label_stats` with exact arithmetic. -/
abbrev labelStats {α : Type} [LinearOrder α] [Zero α] [Add α] (data : Raster α) := labelStatsFl id data

/-- _label.pyx:121-128, 152-159: loop body of `label_min_index`. -/
def minUpd {β : Type} [LT β] [DecidableLT β] (data : Raster β) (rc : Cell) (record : Label.Index β) : Label.Index β :=
  let val := data.get rc
  if val < record.value then { value := val, row := rc.1, col := rc.2 } else record

/-- _label.pyx:100-165 `label_min_index`. -/
def labelMinIndex {β : Type} [LinearOrder β] [OrderTop β] (data : Raster β) (labelled : Raster Int)
    (nlabels : Option Int) : Except PyErr (List (Label.Index β)) := do
  let nlabels ← Label.resolve labelled nlabels
  let lmin ← Label.table nlabels { value := ⊤, row := -1, col := -1 }
  scan (minUpd data) labelled data.cells lmin

/-- _label.pyx:197-205, 219-227, 240-248: the loop. The parameter `background` of the enclosing functions is not used:
the test is `if lbl == 0`. The access to the Python list of arrays is bounds checked (IndexError). -/
def dataLoop {α : Type} (data : Raster α) (labels : Raster Int) :
    List Cell → List (List α) → Except PyErr (List (List α))
  | [], l => .ok l
  | rc :: rest, l =>
    let lbl := labels.get rc
    let val := data.get rc
    if lbl = 0 then dataLoop data labels rest l
    else match pyIdx l.length lbl with
      | none => .error .indexError
      | some i => dataLoop data labels rest (l.modify i (· ++ [val]))

/-- _label.pyx:167-183 `label_data`: only `None` selects the maximum label. -/
def labelData {α : Type} (data : Raster α) (labelled : Raster Int) (nlabels : Option Int) (_background : Int) :
    Except PyErr (List (List α)) := do
  let nlabels ← match nlabels with
    | none => Label.npMax labelled
    | some n => .ok n
  dataLoop data labelled data.cells (Label.emptyLists nlabels)

end LabelCython
end Malstroem
