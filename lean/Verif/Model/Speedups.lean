/-
Model of malstroem/algorithms/speedups/__init__.py and of the way the tools look up the functions. Functions are values of
an arbitrary type; only their identity matters.
-/
import Verif.Model.Feature

namespace Malstroem
namespace Speedups

/-- The replaceable functions. A constructor stands both for the module attribute (such as `fill._fill_terrain`) and for
the string used as a key of `_orig`. -/
inductive Name
  | fill_terrain
  | fill_terrain_no_flats
  | trace_accumulated_flow
  | accumulated_flow
  | terrain_flow
  | assign_watersheds_upstream
  | label_stats
  | label_min_index
  | label_data
  deriving DecidableEq, Repr

/-- The compiled modules (speedups/__init__.py:23): the functions used from them. -/
structure Compiled (F : Type) where
  fill_terrain : F
  fill_terrain_no_flats : F
  trace_accumulated_flow : F
  accumulated_flow : F
  terrain_flow : F
  assign_watersheds_upstream : F
  label_stats : F
  label_min_index : F
  label_data : F

/-- The module attributes, `_orig` and `enabled`. -/
structure State (F : Type) where
  attr : Name → F
  orig : Dict Name F
  enabled : Bool

variable {F : Type}

/-- An assignment to a module attribute. -/
def State.assign (st : State F) (name : Name) (f : F) : State F :=
  { st with attr := fun n => if n = name then f else st.attr n }

/-- `_orig['...'] = ...`. -/
def State.remember (st : State F) (key : Name) (f : F) : State F := { st with orig := Dict.set st.orig key f }

/-- speedups/__init__.py:37-80 `enable`. The warning is not modelled. `compiled` is `none` if the import in lines 22-27
failed. -/
def enable (compiled : Option (Compiled F)) (st : State F) : State F :=
  match compiled with
  | none => st
  | some c =>
    if st.orig ≠ [] then st
    else
      let st := st.remember .fill_terrain (st.attr .fill_terrain)
      let st := st.assign .fill_terrain c.fill_terrain
      let st := st.remember .fill_terrain_no_flats (st.attr .fill_terrain_no_flats)
      let st := st.assign .fill_terrain_no_flats c.fill_terrain_no_flats
      let st := st.remember .trace_accumulated_flow (st.attr .trace_accumulated_flow)
      let st := st.assign .trace_accumulated_flow c.trace_accumulated_flow
      let st := st.remember .accumulated_flow (st.attr .accumulated_flow)
      let st := st.assign .accumulated_flow c.accumulated_flow
      let st := st.remember .terrain_flow (st.attr .terrain_flow)
      let st := st.assign .terrain_flow c.terrain_flow
      let st := st.remember .assign_watersheds_upstream (st.attr .assign_watersheds_upstream)
      let st := st.assign .assign_watersheds_upstream c.assign_watersheds_upstream
      let st := st.remember .label_stats (st.attr .label_stats)
      let st := st.assign .label_stats c.label_stats
      let st := st.remember .label_min_index (st.attr .label_min_index)
      let st := st.assign .label_min_index c.label_min_index
      let st := st.remember .label_data (st.attr .label_data)
      let st := st.assign .label_data c.label_data
      { st with enabled := true }

/-- speedups/__init__.py:83-103 `disable`. KeyError if a function is missing in `_orig`. -/
def disable (st : State F) : Except PyErr (State F) :=
  if st.orig = [] then .ok st
  else do
    let st := st.assign .fill_terrain (← Dict.getItem st.orig .fill_terrain)
    let st := st.assign .fill_terrain_no_flats (← Dict.getItem st.orig .fill_terrain_no_flats)
    let st := st.assign .trace_accumulated_flow (← Dict.getItem st.orig .trace_accumulated_flow)
    let st := st.assign .accumulated_flow (← Dict.getItem st.orig .accumulated_flow)
    let st := st.assign .terrain_flow (← Dict.getItem st.orig .terrain_flow)
    let st := st.assign .assign_watersheds_upstream (← Dict.getItem st.orig .assign_watersheds_upstream)
    let st := st.assign .label_stats (← Dict.getItem st.orig .label_stats)
    let st := st.assign .label_min_index (← Dict.getItem st.orig .label_min_index)
    let st := st.assign .label_data (← Dict.getItem st.orig .label_data)
    pure { st with orig := [], enabled := false }

/-- speedups/__init__.py:31-34, 106-108: the state after the package has been imported; `python` are the functions
defined in fill.py, flow.py and label.py. -/
def initial (compiled : Option (Compiled F)) (python : Name → F) : State F :=
  let st : State F := ⟨python, [], false⟩
  match compiled with
  | none => st
  | some c => enable (some c) st

/-- A call made by the user. -/
inductive Call
  | enable
  | disable
  deriving DecidableEq, Repr

def Call.run (compiled : Option (Compiled F)) (st : State F) : Call → Except PyErr (State F)
  | .enable => .ok (Speedups.enable compiled st)
  | .disable => Speedups.disable st

/-- hyps.py:17-18: `from malstroem.algorithms import speedups`, then `from malstroem.algorithms.label import label_stats,
label_data` binds the attributes of that moment to names of their own. -/
structure HypsNames (F : Type) where
  label_stats : F
  label_data : F

def importHyps (st : State F) : HypsNames F := ⟨st.attr .label_stats, st.attr .label_data⟩

end Speedups
end Malstroem
