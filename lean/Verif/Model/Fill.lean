/-
Model of malstroem/algorithms/fill.py (pure Python fill).

Elevations: a linear order `β` with a top element; `⊤` is float('inf'). NaN is excluded.
-/
import Verif.Model.Raster
import Mathlib.Order.Lattice
import Mathlib.Order.BoundedOrder.Basic

namespace Malstroem
namespace Fill

variable {β : Type*} [LinearOrder β] [OrderTop β]

/-- fill.py:34-62 `_fill_cell`. Returns the array after the (possible) write and the function result. -/
def fillCell (dtm filled : Raster β) (rc : Cell) : Raster β × Bool :=
  let row := rc.1
  let col := rc.2
  let filled_value := filled.get (row, col)
  let dtm_value := dtm.get (row, col)
  if filled_value ≤ dtm_value then (filled, false)
  else
    let up := row - 1
    let down := row + 1
    let left := col - 1
    let right := col + 1
    let m := filled_value
    let m := min (filled.get (up, left)) m
    let m := min (filled.get (up, col)) m
    let m := min (filled.get (up, right)) m
    let m := min (filled.get (row, left)) m
    let m := min (filled.get (row, right)) m
    let m := min (filled.get (down, left)) m
    let m := min (filled.get (down, col)) m
    let m := min (filled.get (down, right)) m
    let new_value := max m dtm_value
    if ¬ new_value = filled_value then (filled.set (row, col) new_value, true)
    else (filled, false)

/-- fill.py:77-99 `_fill_cell_no_flats`. `short`/`diag` are the functions `x ↦ x + short`, `x ↦ x + diag`.
The conversion `filled.dtype.type(dtm[row, col])` float32 -> float64 is exact and modelled as the identity. -/
def fillCellNoFlats (short diag : β → β) (dtm filled : Raster β) (rc : Cell) : Raster β × Bool :=
  let row := rc.1
  let col := rc.2
  let filled_value := filled.get (row, col)
  let dtm_value := dtm.get (row, col)
  if filled_value ≤ dtm_value then (filled, false)
  else
    let up := row - 1
    let down := row + 1
    let left := col - 1
    let right := col + 1
    let m := diag (min (filled.get (up, left)) (min (filled.get (up, right))
      (min (filled.get (down, left)) (filled.get (down, right)))))
    let m := min m (short (min (filled.get (up, col)) (min (filled.get (row, left))
      (min (filled.get (row, right)) (filled.get (down, col))))))
    let m := min m filled_value
    let new_value := max m dtm_value
    if ¬ new_value = filled_value then (filled.set (row, col) new_value, true)
    else (filled, false)

/-- fill.py:20-31 and 65-74: the cells visited by one sweep, in order. Both sweeps use the same two nested ranges. -/
def sweepCells (fromrow torow fromcol tocol : Int) : List Cell :=
  let rowstep : Int := if torow > fromrow then 1 else -1
  let colstep : Int := if tocol > fromcol then 1 else -1
  (pyRange fromrow (torow + rowstep) rowstep).flatMap fun r =>
    (pyRange fromcol (tocol + colstep) colstep).map fun c => (r, c)

/-- fill.py:26-31 / 69-74: loop body over the visited cells, accumulating `changed_something`. -/
def sweepWith (cell : Raster β → Cell → Raster β × Bool) (cs : List Cell) (filled : Raster β) :
    Raster β × Bool :=
  cs.foldl (fun st c =>
    let (filled', ch) := cell st.1 c
    (filled', if ch then true else st.2)) (filled, false)

/-- fill.py:20-31 `_fill_terrain`. -/
def fillTerrainSweep (dtm filled : Raster β) (fromrow torow fromcol tocol : Int) : Raster β × Bool :=
  sweepWith (fillCell dtm) (sweepCells fromrow torow fromcol tocol) filled

/-- fill.py:65-74 `_fill_terrain_no_flats`. -/
def fillTerrainNoFlatsSweep (short diag : β → β) (dtm filled : Raster β) (fromrow torow fromcol tocol : Int) :
    Raster β × Bool :=
  sweepWith (fillCellNoFlats short diag dtm) (sweepCells fromrow torow fromcol tocol) filled

/-- fill.py:102-109 `_initialize_filled`: inf inside, dtm on first/last row and column. -/
def initializeFilled (dtm : Raster β) : Raster β where
  rows := dtm.rows
  cols := dtm.cols
  get := fun c =>
    if c.1 = 0 ∨ c.2 = 0 ∨ c.1 = (dtm.rows : Int) - 1 ∨ c.2 = (dtm.cols : Int) - 1 then dtm.get c else ⊤

/-- fill.py:139-169 / 200-230: one iteration of `while keep_going`: sweeps UL, LR, UR, LL with short-circuiting
`if keep_going and sweep(...)`. Generic in the sweep so that the compiled sweep can be installed by speedups. -/
def iteration (sweep : Raster β → Int → Int → Int → Int → Raster β × Bool) (dtm : Raster β)
    (filled : Raster β) : Raster β × Bool :=
  let maxrow : Int := dtm.rows - 2
  let maxcol : Int := dtm.cols - 2
  -- UL
  let (filled, keep) := sweep filled 1 maxrow 1 maxcol
  -- LR
  let (filled, keep) := if keep then sweep filled maxrow 1 maxcol 1 else (filled, false)
  -- UR
  let (filled, keep) := if keep then sweep filled 1 maxrow maxcol 1 else (filled, false)
  -- LL
  if keep then sweep filled maxrow 1 1 maxcol else (filled, false)

/-- fill.py:112-171 `fill_terrain`, for rasters with at least 2 rows and 2 columns. (With fewer, `_fill_cell` is called
with row or column 1 and numpy raises IndexError, see `fillTerrain`.) -/
def fillTerrainLoop (dtm : Raster β) (fuel : Nat) : Option (Raster β) :=
  doWhile (iteration (fillTerrainSweep dtm) dtm) fuel (initializeFilled dtm)

/-- fill.py:112-171 `fill_terrain`. With one row, `range(1, -2, -1)` starts at row 1 and `filled[1, col]` is out of
bounds; the same for columns; with no rows or columns `filled[0, :]` is. -/
def fillTerrain (dtm : Raster β) (fuel : Nat) : Option (Except PyErr (Raster β)) :=
  if dtm.rows < 2 ∨ dtm.cols < 2 then some (.error .indexError)
  else (fillTerrainLoop dtm fuel).map .ok

/-- fill.py:174-232 `fill_terrain_no_flats`. -/
def fillTerrainNoFlatsLoop (short diag : β → β) (dtm : Raster β) (fuel : Nat) : Option (Raster β) :=
  doWhile (iteration (fillTerrainNoFlatsSweep short diag dtm) dtm) fuel (initializeFilled dtm)

/-- fill.py:174-232 `fill_terrain_no_flats`, IndexError as for `fillTerrain`. -/
def fillTerrainNoFlats (short diag : β → β) (dtm : Raster β) (fuel : Nat) :
    Option (Except PyErr (Raster β)) :=
  if dtm.rows < 2 ∨ dtm.cols < 2 then some (.error .indexError)
  else (fillTerrainNoFlatsLoop short diag dtm fuel).map .ok

end Fill
end Malstroem
