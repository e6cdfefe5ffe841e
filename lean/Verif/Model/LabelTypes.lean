/-
Model of the integer types of label rasters in malstroem/algorithms/speedups/_flow.pyx: the choice between the three
versions of `assign_watersheds_upstream` and the conversions to C integers. Label rasters of other types (floats,
booleans) are not modelled.
-/
import Verif.Model.FlowCython

namespace Malstroem

/-- The integer dtypes of numpy. -/
inductive IntType
  | int8 | int16 | int32 | int64 | uint8 | uint16 | uint32 | uint64
  deriving DecidableEq, Repr

namespace IntType

/-- The smallest value of the type. -/
def lo : IntType → Int
  | int8 => -2 ^ 7 | int16 => -2 ^ 15 | int32 => -2 ^ 31 | int64 => -2 ^ 63
  | uint8 | uint16 | uint32 | uint64 => 0

/-- The largest value of the type. -/
def hi : IntType → Int
  | int8 => 2 ^ 7 - 1 | int16 => 2 ^ 15 - 1 | int32 => 2 ^ 31 - 1 | int64 => 2 ^ 63 - 1
  | uint8 => 2 ^ 8 - 1 | uint16 => 2 ^ 16 - 1 | uint32 => 2 ^ 32 - 1 | uint64 => 2 ^ 64 - 1

/-- The number is a value of the type. -/
abbrev Holds (t : IntType) (z : Int) : Prop := t.lo ≤ z ∧ z ≤ t.hi

/-- Conversion of a Python or numpy integer to a C integer of the type (code generated by Cython), or its assignment to
a numpy element of the type. -/
def convert (t : IntType) (z : Int) : Except PyErr Int := if t.Holds z then .ok z else .error .overflowError

end IntType

namespace FlowCython

/-- _flow.pyx:376-395: the loop of `assign_watersheds_upstream_fallback_cython`. `labelled` is a numpy array of type
`dtype` accessed through Python, `lbl` an int64: reading a label and storing one convert it. -/
def fallbackLoop (dtype : IntType) (junk : Int × Int) (flowdir : Raster Nat) (background : Int) :
    Nat → Raster Int → List (Cell × Int) → Option (Except PyErr (Raster Int))
  | _, labelled, [] => some (.ok labelled)
  | 0, _, _ :: _ => none
  | fuel + 1, labelled, (cell, downlbl) :: stack =>
    match IntType.int64.convert (labelled.get cell) with
    | .error e => some (.error e)
    | .ok lbl =>
      if lbl = background then
        match dtype.convert downlbl with
        | .error e => some (.error e)
        | .ok v =>
          fallbackLoop dtype junk flowdir background fuel (labelled.set cell v)
            (pushUpstream junk flowdir cell downlbl (List.range 8) stack)
      else
        fallbackLoop dtype junk flowdir background fuel labelled
          (pushUpstream junk flowdir cell lbl (List.range 8) stack)

/-- _flow.pyx:397-403 `assign_watersheds_upstream`, with lines 276-293 `assign_watersheds_upstream_32_cython`, 317-333
`assign_watersheds_upstream_64_cython` and 358-374 `assign_watersheds_upstream_fallback_cython` up to their loops:
`background = unassigned` converts to a C integer. In the 32 and 64 bit versions `labelled` is a memory view of the same
type as `lbl`, so nothing is converted in the loop. -/
def assignWatershedsUpstream (dtype : IntType) (junk : Int × Int) (flowdir : Raster Nat) (labelled : Raster Int)
    (cell : Cell) (unassigned : Int) (fuel : Nat) : Option (Except PyErr (Raster Int)) :=
  if dtype = .int32 then
    match IntType.int32.convert unassigned with
    | .error e => some (.error e)
    | .ok background => (assignLoop junk flowdir background fuel labelled [(cell, background)]).map .ok
  else if dtype = .int64 then
    match IntType.int64.convert unassigned with
    | .error e => some (.error e)
    | .ok background => (assignLoop junk flowdir background fuel labelled [(cell, background)]).map .ok
  else
    match IntType.int64.convert unassigned with
    | .error e => some (.error e)
    | .ok background => fallbackLoop dtype junk flowdir background fuel labelled [(cell, background)]

/-- flow.py:411-412 with the compiled `assign_watersheds_upstream` installed, `labelled` of type `dtype`. -/
def typedLoop (dtype : IntType) (junk : Int × Int) (flowdir : Raster Nat) (unassigned : Int) (fuel : Nat) :
    List Cell → Raster Int → Option (Except PyErr (Raster Int))
  | [], labelled => some (.ok labelled)
  | cell :: rest, labelled =>
    match assignWatershedsUpstream dtype junk flowdir labelled cell unassigned fuel with
    | some (.ok labelled) => typedLoop dtype junk flowdir unassigned fuel rest labelled
    | other => other

/-- flow.py:398-412 `watersheds_from_labels` with the compiled `assign_watersheds_upstream` installed, `labelled` of
type `dtype`. -/
def watershedsTyped (dtype : IntType) (junk : Int × Int) (flowdir : Raster Nat) (labelled : Raster Int)
    (unassigned : Int) (fuel : Nat) : Option (Except PyErr (Raster Int)) :=
  typedLoop dtype junk flowdir unassigned fuel (Flow.edgeCellIndexes flowdir.rows flowdir.cols) labelled

end FlowCython
end Malstroem
