/-
Model of malstroem/algorithms/speedups/_flow.pyx: accumulated flow and watersheds. (`terrain_flow` is
`Flow.terrainFlow` with multiplication by INV_SQRT2 as `scale`.)
-/
import Verif.Model.Flow

namespace Malstroem
namespace FlowCython

/-- _flow.pyx:93-94 `INV_SQRT2 = 1 / SQRT2`, the float64 value as an exact fraction. -/
def invSqrt2 : Rat := 1592262918131443 / 2 ^ 51

/-- _flow.pyx:180-204 `cell_in_direction_cython`. For codes from 8 on `delta` is uninitialised and the result arbitrary:
`junk` stands for whatever the uninitialised memory holds. -/
def cellInDirection (junk : Int × Int) (cell : Cell) (direction : Nat) : Cell :=
  let delta : Int × Int :=
    if direction = 0 then (-1, 0)
    else if direction = 1 then (-1, 1)
    else if direction = 2 then (0, 1)
    else if direction = 3 then (1, 1)
    else if direction = 4 then (1, 0)
    else if direction = 5 then (1, -1)
    else if direction = 6 then (0, -1)
    else if direction = 7 then (-1, -1)
    else junk
  (cell.1 + delta.1, cell.2 + delta.2)

/-- _flow.pyx:207-208 `is_in_raster_cython`. -/
def isInRaster (rows cols : Nat) (cell : Cell) : Bool :=
  0 ≤ cell.1 && cell.1 < rows && 0 ≤ cell.2 && cell.2 < cols

/-- _flow.pyx:212-222 `is_upstream_cython`. -/
def isUpstream (flowdir : Raster Nat) (direction_to : Nat) (to_cell : Cell) : Bool :=
  let agnps := flowdir.get to_cell
  if agnps > 7 then false
  else (direction_to + 4) % 8 = agnps

/-- _flow.pyx:236-243: the sum over upstream neighbours, `none` when an unresolved one is met. -/
def upstreamSum (junk : Int × Int) (flowdir : Raster Nat) (accum : Raster Int) (cell : Cell) :
    List Nat → Int → Option Int
  | [], s => some s
  | direction :: rest, s =>
    let neighbor := cellInDirection junk cell direction
    if isInRaster flowdir.rows flowdir.cols neighbor && isUpstream flowdir direction neighbor then
      let upstream_accum := accum.get neighbor
      if upstream_accum ≤ 0 then none
      else upstreamSum junk flowdir accum cell rest (s + upstream_accum)
    else upstreamSum junk flowdir accum cell rest s

/-- _flow.pyx:226-247 `trace_accumulated_flow_cython`. -/
def traceAccumulatedFlow (junk : Int × Int) (flowdir : Raster Nat) : Nat → Raster Int → Cell → Option (Raster Int)
  | 0, _, _ => none
  | fuel + 1, accum, cell =>
    if isInRaster flowdir.rows flowdir.cols cell then
      match upstreamSum junk flowdir accum cell (List.range 8) 0 with
      | none => some accum
      | some s =>
        let accum := accum.set cell (s + 1)
        traceAccumulatedFlow junk flowdir fuel accum (cellInDirection junk cell (flowdir.get cell))
    else some accum

/-- _flow.pyx:264-272: a trace is started in every cell. -/
def accumulatedFlowLoop (junk : Int × Int) (flowdir : Raster Nat) (fuel : Nat) : List Cell → Raster Int →
    Option (Raster Int)
  | [], accum => some accum
  | cell :: rest, accum =>
    match traceAccumulatedFlow junk flowdir fuel accum cell with
    | some accum => accumulatedFlowLoop junk flowdir fuel rest accum
    | none => none

/-- _flow.pyx:257-273 `accumulated_flow`. -/
def accumulatedFlow (junk : Int × Int) (flowdir : Raster Nat) (fuel : Nat) : Option (Raster Int) :=
  accumulatedFlowLoop junk flowdir fuel (Raster.cellList flowdir.rows flowdir.cols)
    (Flow.zeros flowdir.rows flowdir.cols)

section Watersheds
variable {L : Type*} [DecidableEq L]

/-- _flow.pyx:306-314 (and 346-354, 387-395): push the upstream neighbours. -/
def pushUpstream (junk : Int × Int) (flowdir : Raster Nat) (cell : Cell) (lbl : L) :
    List Nat → List (Cell × L) → List (Cell × L)
  | [], stack => stack
  | direction :: rest, stack =>
    let neighbor := cellInDirection junk cell direction
    if isInRaster flowdir.rows flowdir.cols neighbor && isUpstream flowdir direction neighbor then
      pushUpstream junk flowdir cell lbl rest ((neighbor, lbl) :: stack)
    else pushUpstream junk flowdir cell lbl rest stack

/-- _flow.pyx:295-314 (32 bit), 335-354 (64 bit), 376-395 (fallback): the loop of `assign_watersheds_upstream`. Labels
are assumed to fit the label type. -/
def assignLoop (junk : Int × Int) (flowdir : Raster Nat) (background : L) : Nat → Raster L → List (Cell × L) →
    Option (Raster L)
  | _, labelled, [] => some labelled
  | 0, _, _ :: _ => none
  | fuel + 1, labelled, (cell, downlbl) :: stack =>
    let lbl := labelled.get cell
    let labelled' := if lbl = background then labelled.set cell downlbl else labelled
    let lbl := if lbl = background then downlbl else lbl
    assignLoop junk flowdir background fuel labelled' (pushUpstream junk flowdir cell lbl (List.range 8) stack)

/-- flow.py:411-412 with the compiled `assign_watersheds_upstream` installed. -/
def watershedsLoop (junk : Int × Int) (flowdir : Raster Nat) (unassigned : L) (fuel : Nat) : List Cell → Raster L →
    Option (Raster L)
  | [], labelled => some labelled
  | cell :: rest, labelled =>
    match assignLoop junk flowdir unassigned fuel labelled [(cell, unassigned)] with
    | some labelled => watershedsLoop junk flowdir unassigned fuel rest labelled
    | none => none

/-- flow.py:398-412 `watersheds_from_labels` with the compiled `assign_watersheds_upstream` installed. -/
def watershedsFromLabels (junk : Int × Int) (flowdir : Raster Nat) (labelled : Raster L) (unassigned : L) (fuel : Nat) :
    Option (Raster L) :=
  watershedsLoop junk flowdir unassigned fuel (Flow.edgeCellIndexes flowdir.rows flowdir.cols) labelled

end Watersheds
end FlowCython
end Malstroem
