/-
Model of malstroem/algorithms/speedups/_fill.pyx (compiled fill), installed by speedups.enable().
-/
import Verif.Model.Fill

namespace Malstroem
namespace FillCython

variable {β : Type*} [LinearOrder β] [OrderTop β]

/-- The values taken by a loop `x = from; while x != to: ...; x += step` (`fuel` iterations are enough because
`step` points from `from` to `to`; the unsigned counters therefore never wrap around). -/
def untilNe : Nat → Int → Int → Int → List Int
  | 0, _, _, _ => []
  | n + 1, x, stop, step => if x ≠ stop then x :: untilNe n (x + step) stop step else []

/-- _fill.pyx:33-45,67-68 and 77-89,121-122: the cells visited by one compiled sweep. Note that row `torow` and column
`tocol` are *not* visited. -/
def sweepCells (fromrow torow fromcol tocol : Int) : List Cell :=
  let rowstep : Int := if torow > fromrow then 1 else -1
  let colstep : Int := if tocol > fromcol then 1 else -1
  (untilNe (torow - fromrow).natAbs fromrow torow rowstep).flatMap fun r =>
    (untilNe (tocol - fromcol).natAbs fromcol tocol colstep).map fun c => (r, c)

/-- _fill.pyx:46-66: the update of one cell. -/
def fillCell (dtm filled : Raster β) (rc : Cell) : Raster β × Bool :=
  let row := rc.1
  let col := rc.2
  let up := row - 1
  let down := row + 1
  let filled_value := filled.get (row, col)
  let dtm_value := dtm.get (row, col)
  if filled_value > dtm_value then
    let left := col - 1
    let right := col + 1
    let m := filled_value
    let m := min (filled.get (up, left)) m
    let m := min (filled.get (up, col)) m
    let m := min (filled.get (up, right)) m
    let m := min (filled.get (row, left)) m
    let m := min (filled.get (row, right)) m
    let m := min (filled.get (down, left)) m
    let m := min (filled.get (down, col)) m
    let m := min (filled.get (down, right)) m
    let new_value := max m dtm_value
    if new_value ≠ filled_value then (filled.set (row, col) new_value, true)
    else (filled, false)
  else (filled, false)

/-- _fill.pyx:90-120: the update of one cell, no flats. -/
def fillCellNoFlats (short diag : β → β) (dtm filled : Raster β) (rc : Cell) : Raster β × Bool :=
  let row := rc.1
  let col := rc.2
  let up := row - 1
  let down := row + 1
  let filled_value := filled.get (row, col)
  let dtm_value := dtm.get (row, col)
  if filled_value > dtm_value then
    let left := col - 1
    let right := col + 1
    let m := diag (min (filled.get (up, left)) (min (filled.get (up, right))
      (min (filled.get (down, left)) (filled.get (down, right)))))
    let m := min m (short (min (filled.get (up, col)) (min (filled.get (row, left))
      (min (filled.get (row, right)) (filled.get (down, col))))))
    let m := min m filled_value
    let new_value := max m dtm_value
    if new_value ≠ filled_value then (filled.set (row, col) new_value, true)
    else (filled, false)
  else (filled, false)

/-- _fill.pyx:30-70 `_fill_terrain`: the return value `changes` is only used as a truth value (`changes != 0`; the
C int counter is assumed not to overflow). -/
def fillTerrainSweep (dtm filled : Raster β) (fromrow torow fromcol tocol : Int) : Raster β × Bool :=
  Fill.sweepWith (fillCell dtm) (sweepCells fromrow torow fromcol tocol) filled

/-- _fill.pyx:74-124 `_fill_terrain_no_flats`. -/
def fillTerrainNoFlatsSweep (short diag : β → β) (dtm filled : Raster β) (fromrow torow fromcol tocol : Int) :
    Raster β × Bool :=
  Fill.sweepWith (fillCellNoFlats short diag dtm) (sweepCells fromrow torow fromcol tocol) filled

/-- The errors raised before the first cell is visited: `filled[0, :]` on an empty array (fill.py:105-106),
OverflowError when converting `maxrow = -1` to unsigned int, ValueError of _fill.pyx:31-32/75-76. In all later calls
the same two pairs of bounds occur, so nothing is raised later. -/
def shapeError (rows cols : Nat) : Option PyErr :=
  if rows = 0 ∨ cols = 0 then some .indexError
  else if rows = 1 ∨ cols = 1 then some .other
  else if rows = 3 ∨ cols = 3 then some .valueError
  else none

/-- fill.py:112-171 `fill_terrain` with the compiled sweep installed. -/
def fillTerrain (dtm : Raster β) (fuel : Nat) : Option (Except PyErr (Raster β)) :=
  match shapeError dtm.rows dtm.cols with
  | some e => some (.error e)
  | none => (doWhile (Fill.iteration (fillTerrainSweep dtm) dtm) fuel (Fill.initializeFilled dtm)).map .ok

/-- fill.py:174-232 `fill_terrain_no_flats` with the compiled sweep installed. -/
def fillTerrainNoFlats (short diag : β → β) (dtm : Raster β) (fuel : Nat) :
    Option (Except PyErr (Raster β)) :=
  match shapeError dtm.rows dtm.cols with
  | some e => some (.error e)
  | none =>
    (doWhile (Fill.iteration (fillTerrainNoFlatsSweep short diag dtm) dtm) fuel
      (Fill.initializeFilled dtm)).map .ok

end FillCython
end Malstroem
