/-
`fill_terrain` when the DEM does not have the number type of the filled raster.

The filled raster is always float32 (dtypes.py:18-23) and the DEM is used as it is. Reading compares values of both types
exactly; writing an elevation of the DEM into the filled raster rounds it. `store` is that rounding. Model/Fill.lean is
the case where the DEM is float32 as well, so that storing changes nothing.
-/
import Verif.Model.Fill
import Verif.Model.FillCython

namespace Malstroem
namespace Fill

variable {β : Type*} [LinearOrder β] [OrderTop β]

/-- fill.py:34-62 `_fill_cell` for `filled` of another number type than `dtm`: line 59 `filled[row, col] = new_value`
converts the value. The comparisons (38, 49-57) are exact: float32 and float64 are compared as float64. -/
def fillCellStored (store : β → β) (dtm filled : Raster β) (rc : Cell) : Raster β × Bool :=
  let row := rc.1
  let col := rc.2
  let filled_value := filled.get (row, col)
  let dtm_value := dtm.get (row, col)
  if filled_value ≤ dtm_value then (filled, false)
  else
    let up := row - 1
    let down := row + 1
    let left := col - 1
    let right := col + 1
    let m := filled_value
    let m := min (filled.get (up, left)) m
    let m := min (filled.get (up, col)) m
    let m := min (filled.get (up, right)) m
    let m := min (filled.get (row, left)) m
    let m := min (filled.get (row, right)) m
    let m := min (filled.get (down, left)) m
    let m := min (filled.get (down, col)) m
    let m := min (filled.get (down, right)) m
    let new_value := max m dtm_value
    if ¬ new_value = filled_value then (filled.set (row, col) (store new_value), true)
    else (filled, false)

/-- fill.py:20-31 `_fill_terrain`. -/
def fillTerrainSweepStored (store : β → β) (dtm filled : Raster β) (fromrow torow fromcol tocol : Int) :
    Raster β × Bool :=
  sweepWith (fillCellStored store dtm) (sweepCells fromrow torow fromcol tocol) filled

/-- fill.py:102-109 `_initialize_filled`: the four assignments of the edges convert the values. -/
def initializeStored (store : β → β) (dtm : Raster β) : Raster β where
  rows := dtm.rows
  cols := dtm.cols
  get := fun c =>
    if c.1 = 0 ∨ c.2 = 0 ∨ c.1 = (dtm.rows : Int) - 1 ∨ c.2 = (dtm.cols : Int) - 1 then store (dtm.get c) else ⊤

/-- fill.py:112-171 `fill_terrain`, pure Python, for a DEM with at least 3 rows and 3 columns. (With two rows or columns the
sweeps visit cells on the edge, see Model/Fill.lean. Such a cell is now looked at when its elevation is rounded up; that
case is left out of the model.) -/
def fillTerrainStored (store : β → β) (dtm : Raster β) (fuel : Nat) : Option (Raster β) :=
  doWhile (iteration (fillTerrainSweepStored store dtm) dtm) fuel (initializeStored store dtm)

end Fill

/-- The number types of a raster that are told apart here: float32, and everything else. -/
inductive NumberType where
  | float32
  | other
deriving DecidableEq

namespace FillCython

variable {β : Type*} [LinearOrder β] [OrderTop β]

/-- _fill.pyx:28 `_fill_terrain` called from fill.py:147: both buffers are declared `DTYPE_t_FILL`, that is float32
(_definitions.pxd), and Cython raises ValueError ("Buffer dtype mismatch") for a DEM of another type. The numbers are
converted before the buffers are taken: with fewer than 2 rows or columns `maxrow`/`maxcol` is negative, which is the
error of the float32 case. -/
def fillTerrainTyped (t : NumberType) (dtm : Raster β) (fuel : Nat) : Option (Except PyErr (Raster β)) :=
  if dtm.rows < 2 ∨ dtm.cols < 2 then fillTerrain dtm fuel
  else match t with
    | .float32 => fillTerrain dtm fuel
    | .other => some (.error .valueError)

end FillCython
end Malstroem
