/-
Model of malstroem/algorithms/flow.py and _raster_utils.py.

Flow direction rasters hold codes in `Nat` (uint8 in the code). `accum` is float64 in the code and counts cells; it is
modelled by `Int` (exact up to 2^53 cells).
-/
import Verif.Model.Raster

namespace Malstroem
namespace Flow

/-- _raster_utils.py:18-37 `cell_in_raster`. -/
def cellInRaster (rows cols : Nat) (cell : Cell) : Bool :=
  if ¬ (0 ≤ cell.1 ∧ cell.1 < rows) then false
  else if ¬ (0 ≤ cell.2 ∧ cell.2 < cols) then false
  else true

/-- _raster_utils.py:40-60 `edge_cell_indexes`. -/
def edgeCellIndexes (rows cols : Nat) : List Cell :=
  let maxr : Int := rows - 1
  let maxc : Int := cols - 1
  ((pyRange 0 (maxc + 1) 1).flatMap fun c => [(0, c), (maxr, c)]) ++
    ((pyRange 1 maxr 1).flatMap fun r => [(r, 0), (r, maxc)])

section Terrain
variable {β γ : Type*} [LT γ] [DecidableLT γ] [Zero γ]

/-- flow.py:68-112: the body of the inner loop, one cell. `sub` is the elevation subtraction, `scale` the division by
SQRT2 (multiplication with INV_SQRT2 in _flow.pyx:129-173). The pair is `(i, dzmax)`. -/
def cellFlow (sub : β → β → γ) (scale : γ → γ) (terrain : Raster β) (r c : Int) : Nat :=
  let up := r - 1
  let down := r + 1
  let left := c - 1
  let right := c + 1
  let z := terrain.get (r, c)
  let st : Nat × γ := (8, 0)
  -- Up
  let dz := sub z (terrain.get (up, c))
  let st := if dz > st.2 then (0, dz) else st
  -- UpRight
  let dz := scale (sub z (terrain.get (up, right)))
  let st := if dz > st.2 then (1, dz) else st
  -- Right
  let dz := sub z (terrain.get (r, right))
  let st := if dz > st.2 then (2, dz) else st
  -- DownRight
  let dz := scale (sub z (terrain.get (down, right)))
  let st := if dz > st.2 then (3, dz) else st
  -- Down
  let dz := sub z (terrain.get (down, c))
  let st := if dz > st.2 then (4, dz) else st
  -- DownLeft
  let dz := scale (sub z (terrain.get (down, left)))
  let st := if dz > st.2 then (5, dz) else st
  -- Left
  let dz := sub z (terrain.get (r, left))
  let st := if dz > st.2 then (6, dz) else st
  -- UpLeft
  let dz := scale (sub z (terrain.get (up, left)))
  let st := if dz > st.2 then (7, dz) else st
  st.1

/-- flow.py:43-115 `_terrain_flow`. The loop iterations write different cells and only read `terrain`, so the result is
given cell by cell: `range(1, maxrow + 1)` x `range(1, maxcol + 1)` is computed, the rest keeps the fill value 8.
_flow.pyx:99-176 `terrain_flow` is the same with another `scale` (for at least two rows and columns, so that the
unsigned `rows - 2` does not wrap). -/
def terrainFlow (sub : β → β → γ) (scale : γ → γ) (terrain : Raster β) : Raster Nat where
  rows := terrain.rows
  cols := terrain.cols
  get := fun c =>
    if c.1 ∈ pyRange 1 ((terrain.rows : Int) - 2 + 1) 1 ∧ c.2 ∈ pyRange 1 ((terrain.cols : Int) - 2 + 1) 1 then
      cellFlow sub scale terrain c.1 c.2
    else 8

/-- `a[i, :] = v` -/
def setRow (a : Raster Nat) (i : Int) (v : Nat) : Raster Nat :=
  { a with get := fun c => if c.1 = i then v else a.get c }

/-- `a[:, j] = v` -/
def setCol (a : Raster Nat) (j : Int) (v : Nat) : Raster Nat :=
  { a with get := fun c => if c.2 = j then v else a.get c }

/-- flow.py:118-139 `set_edges_flow_outward` (for a raster with at least one cell; otherwise IndexError). -/
def setEdgesFlowOutward (flowdir : Raster Nat) : Raster Nat :=
  let maxr : Int := flowdir.rows - 1
  let maxc : Int := flowdir.cols - 1
  let f := setRow flowdir 0 0
  let f := setRow f maxr 4
  let f := setCol f 0 6
  let f := setCol f maxc 2
  let f := f.set (0, 0) 7
  let f := f.set (0, maxc) 1
  let f := f.set (maxr, 0) 5
  f.set (maxr, maxc) 3

/-- flow.py:142-167 `terrain_flowdirection` (for a raster with at least one cell). -/
def terrainFlowdirection (sub : β → β → γ) (scale : γ → γ) (terrain : Raster β) (edges_flow_outward : Bool) :
    Raster Nat :=
  let f := terrainFlow sub scale terrain
  if edges_flow_outward then setEdgesFlowOutward f else f

end Terrain

/-- flow.py:170-214 `direction_to_delta` (`None` argument not modelled: it never occurs). -/
def directionToDelta (direction : Nat) : Except PyErr (Option (Int × Int)) :=
  if direction = 0 then .ok (some (-1, 0))
  else if direction = 1 then .ok (some (-1, 1))
  else if direction = 2 then .ok (some (0, 1))
  else if direction = 3 then .ok (some (1, 1))
  else if direction = 4 then .ok (some (1, 0))
  else if direction = 5 then .ok (some (1, -1))
  else if direction = 6 then .ok (some (0, -1))
  else if direction = 7 then .ok (some (-1, -1))
  else if direction = 8 then .ok none
  else .error .unknownDirection

/-- flow.py:217-230 `cell_in_direction`: `delta[0]` raises TypeError when `delta` is None (code 8). -/
def cellInDirection (cell : Cell) (direction : Nat) : Except PyErr Cell := do
  match ← directionToDelta direction with
  | some delta => pure (cell.1 + delta.1, cell.2 + delta.2)
  | none => throw .typeError

/-- flow.py:233-254 `is_upstream_cell`. -/
def isUpstreamCell (flowdir : Raster Nat) (this_cell : Cell) (direction : Nat) : Except PyErr Bool := do
  let to_cell ← cellInDirection this_cell direction
  if ¬ cellInRaster flowdir.rows flowdir.cols to_cell then pure false
  else
    let neighbor_direction := flowdir.get to_cell
    if neighbor_direction = 8 then pure false
    else pure ((direction + 4) % 8 = neighbor_direction)

/-- flow.py:257-276 `upstream_cells`. -/
def upstreamCells (flowdir : Raster Nat) (cell : Cell) : Except PyErr (List Cell) :=
  (List.range 8).foldlM (fun upstream direction => do
    if ← isUpstreamCell flowdir cell direction then
      pure (upstream ++ [← cellInDirection cell direction])
    else pure upstream) []

/-- flow.py:279-301 `trace_downstream`: the yielded cells and the exception that ends the generator, if any. -/
def traceDownstream (flowdir : Raster Nat) : Nat → Cell → Option (List Cell × Option PyErr)
  | 0, _ => none
  | fuel + 1, cell =>
    if cellInRaster flowdir.rows flowdir.cols cell then
      match directionToDelta (flowdir.get cell) with
      | .error e => some ([cell], some e)
      | .ok (some delta) =>
        (traceDownstream flowdir fuel (cell.1 + delta.1, cell.2 + delta.2)).map fun (l, e) => (cell :: l, e)
      | .ok none => some ([cell], none)
    else some ([], none)

/-- flow.py:319-327 `sum_cells`. -/
def sumCells : List Cell → (Cell → Int) → Int → Int
  | [], _, sm => sm
  | c :: cs, grid, sm => if grid c ≤ 0 then -1 else sumCells cs grid (sm + grid c)

/-- flow.py:304-341 `trace_accumulated_flow`. -/
def traceAccumulatedFlow (flowdir : Raster Nat) : Nat → Raster Int → Cell → Option (Except PyErr (Raster Int))
  | 0, _, _ => none
  | fuel + 1, accum, cell =>
    if cellInRaster flowdir.rows flowdir.cols cell then
      match upstreamCells flowdir cell with
      | .error e => some (.error e)
      | .ok cells =>
        let s := if cells ≠ [] then sumCells cells accum.get 0 else 0
        if cells ≠ [] ∧ s ≤ 0 then some (.ok accum)
        else
          let accum := accum.set cell (s + 1)
          match cellInDirection cell (flowdir.get cell) with
          | .error e => some (.error e)
          | .ok cell => traceAccumulatedFlow flowdir fuel accum cell
    else some (.ok accum)

/-- `np.zeros(flowdir.shape)` -/
def zeros (rows cols : Nat) : Raster Int := ⟨rows, cols, fun _ => 0⟩

/-- flow.py:344-364 `accumulated_flow`: the loop over the cells in row-major order. -/
def accumulatedFlowLoop (flowdir : Raster Nat) (fuel : Nat) : List Cell → Raster Int →
    Option (Except PyErr (Raster Int))
  | [], accum => some (.ok accum)
  | cell :: rest, accum =>
    match upstreamCells flowdir cell with
    | .error e => some (.error e)
    | .ok up_cells =>
      if up_cells = [] then
        match traceAccumulatedFlow flowdir fuel accum cell with
        | some (.ok accum) => accumulatedFlowLoop flowdir fuel rest accum
        | other => other
      else accumulatedFlowLoop flowdir fuel rest accum

/-- flow.py:344-364 `accumulated_flow`. -/
def accumulatedFlow (flowdir : Raster Nat) (fuel : Nat) : Option (Except PyErr (Raster Int)) :=
  accumulatedFlowLoop flowdir fuel (Raster.cellList flowdir.rows flowdir.cols) (zeros flowdir.rows flowdir.cols)

section Watersheds
variable {L : Type*} [DecidableEq L]

/-- flow.py:384-395: the loop of `assign_watersheds_upstream`; the head of the list is the right end of the deque. -/
def assignLoop (flowdir : Raster Nat) (unassigned : L) : Nat → Raster L → List (Cell × L) →
    Option (Except PyErr (Raster L))
  | _, labelled, [] => some (.ok labelled)
  | 0, _, _ :: _ => none
  | fuel + 1, labelled, (cell, downlbl) :: stack =>
    let lbl := labelled.get cell
    let labelled' := if lbl = unassigned then labelled.set cell downlbl else labelled
    let lbl := if lbl = unassigned then downlbl else lbl
    match upstreamCells flowdir cell with
    | .error e => some (.error e)
    | .ok cells => assignLoop flowdir unassigned fuel labelled' ((cells.map fun c => (c, lbl)).reverse ++ stack)

/-- flow.py:367-395 `assign_watersheds_upstream`. -/
def assignWatershedsUpstream (flowdir : Raster Nat) (labelled : Raster L) (cell : Cell) (unassigned : L)
    (fuel : Nat) : Option (Except PyErr (Raster L)) :=
  assignLoop flowdir unassigned fuel labelled [(cell, unassigned)]

/-- flow.py:411-412: the loop over a list of start cells. -/
def watershedsLoop (flowdir : Raster Nat) (unassigned : L) (fuel : Nat) : List Cell → Raster L →
    Option (Except PyErr (Raster L))
  | [], labelled => some (.ok labelled)
  | cell :: rest, labelled =>
    match assignWatershedsUpstream flowdir labelled cell unassigned fuel with
    | some (.ok labelled) => watershedsLoop flowdir unassigned fuel rest labelled
    | other => other

/-- flow.py:398-412 `watersheds_from_labels` (for rasters with at least one cell). Result: the updated `labelled`. -/
def watershedsFromLabels (flowdir : Raster Nat) (labelled : Raster L) (unassigned : L) (fuel : Nat) :
    Option (Except PyErr (Raster L)) :=
  watershedsLoop flowdir unassigned fuel (edgeCellIndexes flowdir.rows flowdir.cols) labelled

end Watersheds

end Flow
end Malstroem
