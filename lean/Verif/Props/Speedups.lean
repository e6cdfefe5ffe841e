/-
Properties C52 and C64: toggling the compiled functions.
-/
import Verif.Model.Speedups
import Verif.Proofs.Dict
import Mathlib.Tactic.Common

namespace Malstroem
namespace Speedups

variable {F : Type}

/-- The compiled function for each of the nine names. -/
def Compiled.get (c : Compiled F) : Name → F
  | .fill_terrain => c.fill_terrain
  | .fill_terrain_no_flats => c.fill_terrain_no_flats
  | .trace_accumulated_flow => c.trace_accumulated_flow
  | .accumulated_flow => c.accumulated_flow
  | .terrain_flow => c.terrain_flow
  | .assign_watersheds_upstream => c.assign_watersheds_upstream
  | .label_stats => c.label_stats
  | .label_min_index => c.label_min_index
  | .label_data => c.label_data

/-- What `_orig` holds while the speedups are on. -/
def saved (python : Name → F) : Dict Name F :=
  [(.fill_terrain, python .fill_terrain), (.fill_terrain_no_flats, python .fill_terrain_no_flats),
   (.trace_accumulated_flow, python .trace_accumulated_flow), (.accumulated_flow, python .accumulated_flow),
   (.terrain_flow, python .terrain_flow), (.assign_watersheds_upstream, python .assign_watersheds_upstream),
   (.label_stats, python .label_stats), (.label_min_index, python .label_min_index),
   (.label_data, python .label_data)]

/-- The two states that are ever reached. -/
def off (python : Name → F) : State F := ⟨python, [], false⟩
def on (c : Compiled F) (python : Name → F) : State F := ⟨c.get, saved python, true⟩

theorem enable_off (c : Compiled F) (python : Name → F) : enable (some c) (off python) = on c python := by
  unfold enable off on saved
  simp only [ne_eq, not_true_eq_false, if_false, State.mk.injEq, and_true]
  constructor
  · funext n
    cases n <;> rfl
  · rfl

theorem enable_on (c : Compiled F) (python : Name → F) : enable (some c) (on c python) = on c python := by
  simp [enable, on, saved]

theorem disable_off (python : Name → F) : disable (off python) = .ok (off python) := by
  simp [disable, off]

theorem disable_on (c : Compiled F) (python : Name → F) : disable (on c python) = .ok (off python) := by
  have h : ∀ n, Dict.getItem (saved python) n = .ok (python n) := by
    intro n; cases n <;> rfl
  unfold disable
  rw [if_neg (by simp [on, saved])]
  simp only [State.assign, on, h, bind, Except.bind, pure, Except.pure, Except.ok.injEq, off, State.mk.injEq, and_true]
  funext n
  cases n <;> rfl

/-- Whether the last call was `enable`; importing the package counts as one. -/
def lastEnable (calls : List Call) : Bool := (calls.getLast?.getD .enable) = .enable

/-- C52: after importing the package and any history of calls there was no exception, the flag `enabled` says whether
the compiled functions are installed, which is so iff they are available and the last call was `enable` (importing counts
as one), and all nine functions are the compiled ones or all nine are the original ones. -/
theorem C52_toggle (compiled : Option (Compiled F)) (python : Name → F) (calls : List Call) :
    ∃ st, calls.foldlM (Call.run compiled) (initial compiled python) = .ok st ∧
      st.enabled = (compiled.isSome && lastEnable calls) ∧
      (st.enabled = false → st.attr = python) ∧
      (st.enabled = true → ∃ c, compiled = some c ∧ ∀ n, st.attr n = c.get n) := by
  cases compiled with
  | none =>
    refine ⟨off python, ?_, rfl, fun _ => rfl, by simp [off]⟩
    show List.foldlM _ (off python) calls = _
    induction calls with
    | nil => rfl
    | cons x calls ih =>
      rw [List.foldlM_cons]
      cases x
      · exact ih
      · show (disable (off python) >>= _) = _
        rw [disable_off]; exact ih
  | some c =>
    have hi : initial (some c) python = on c python := enable_off c python
    have key : ∀ (calls : List Call) (b : Bool), List.foldlM (Call.run (some c)) (if b then on c python else off python)
        calls = .ok (if (calls.getLast?.getD (if b then .enable else .disable)) = .enable then on c python
          else off python) := by
      intro calls
      induction calls with
      | nil => intro b; cases b <;> rfl
      | cons x calls ih =>
        intro b
        rw [List.foldlM_cons]
        have hstep : Call.run (some c) (if b then on c python else off python) x =
            .ok (if decide (x = .enable) then on c python else off python) := by
          cases x <;> cases b
          · exact congrArg Except.ok (enable_off c python)
          · exact congrArg Except.ok (enable_on c python)
          · exact disable_off python
          · exact disable_on c python
        rw [hstep]
        show List.foldlM _ _ calls = _
        rw [ih]
        cases x <;> simp [List.getLast?_cons]
    have hk := key calls true
    simp only [if_true] at hk
    rw [hi, hk]
    by_cases hl : calls.getLast?.getD .enable = .enable
    · rw [if_pos hl]
      exact ⟨_, rfl, by simp [lastEnable, hl, on], by simp [on], fun _ => ⟨c, rfl, fun _ => rfl⟩⟩
    · rw [if_neg hl]
      exact ⟨_, rfl, by simp [lastEnable, hl, off], fun _ => rfl, by simp [off]⟩

/-- C52: `disable` restores the original functions and `enable` the compiled ones, whatever happened before. -/
theorem C52_disable_restores (compiled : Option (Compiled F)) (python : Name → F) (calls : List Call) :
    (∃ st, (calls ++ [Call.disable]).foldlM (Call.run compiled) (initial compiled python) = .ok st ∧
      st.enabled = false ∧ st.attr = python) ∧
    ∀ c, compiled = some c → ∃ st, (calls ++ [Call.enable]).foldlM (Call.run compiled) (initial compiled python) = .ok st ∧
      st.enabled = true ∧ ∀ n, st.attr n = c.get n := by
  constructor
  · obtain ⟨st, h1, h2, h3, _⟩ := C52_toggle compiled python (calls ++ [.disable])
    have : st.enabled = false := by rw [h2]; simp [lastEnable]
    exact ⟨st, h1, this, h3 this⟩
  · rintro c rfl
    obtain ⟨st, h1, h2, _, h4⟩ := C52_toggle (some c) python (calls ++ [.enable])
    have : st.enabled = true := by rw [h2]; simp [lastEnable]
    obtain ⟨c', hc', h⟩ := h4 this
    cases hc'
    exact ⟨st, h1, this, h⟩

/-- Non-vacuity for C52: functions named by strings. -/
def exampleCompiled : Compiled String := ⟨"cfill", "cnoflats", "ctrace", "caccum", "cflow", "cshed", "cstats", "cmin", "cdata"⟩
example : (([.enable, .disable, .disable, .enable, .disable] : List Call).foldlM (Call.run (some exampleCompiled))
    (initial (some exampleCompiled) fun _ => "python")).toOption.map (fun st => (st.enabled, st.attr .terrain_flow)) =
    some (false, "python") := by decide +kernel
example : (([.disable, .enable, .enable] : List Call).foldlM (Call.run (some exampleCompiled))
    (initial (some exampleCompiled) fun _ => "python")).toOption.map (fun st => (st.enabled, st.attr .terrain_flow)) =
    some (true, "cflow") := by decide +kernel

/-! ### C64 -/

/-- C64, what holds: whatever the history of calls before and after importing `malstroem.hyps`, functions that are looked up
through their module when they are used (dem, bluespots, rain) follow the flag `enabled`, and the names imported into
`malstroem.hyps` are the functions that were installed at that moment. Missing: that the latter follow the flag, which is
false (`C64_false`). -/
theorem C64_lookup_partial (compiled : Option (Compiled F)) (python : Name → F) (before after : List Call) :
    ∃ st st', before.foldlM (Call.run compiled) (initial compiled python) = .ok st ∧
      after.foldlM (Call.run compiled) st = .ok st' ∧
      (st'.enabled = false → st'.attr = python) ∧
      (st'.enabled = true → ∃ c, compiled = some c ∧ ∀ n, st'.attr n = c.get n) ∧
      (st.enabled = false → (importHyps st).label_stats = python .label_stats ∧
        (importHyps st).label_data = python .label_data) ∧
      (st.enabled = true → ∃ c, compiled = some c ∧ (importHyps st).label_stats = c.label_stats ∧
        (importHyps st).label_data = c.label_data) := by
  obtain ⟨st, h1, _, h3, h4⟩ := C52_toggle compiled python before
  obtain ⟨st', g1, _, g3, g4⟩ := C52_toggle compiled python (before ++ after)
  refine ⟨st, st', h1, ?_, g3, g4, fun h => ?_, fun h => ?_⟩
  · rw [List.foldlM_append, h1] at g1
    exact g1
  · have := h3 h
    unfold importHyps
    rw [this]
    exact ⟨rfl, rfl⟩
  · obtain ⟨c, hc, hn⟩ := h4 h
    exact ⟨c, hc, hn _, hn _⟩

/-- C64 is false: after `disable()` the flag is off but the hypsometry still uses the compiled functions. -/
theorem C64_false (c : Compiled F) (python : Name → F) :
    ∃ st, disable (initial (some c) python) = .ok st ∧ st.enabled = false ∧
      (importHyps (initial (some c) python)).label_data = c.label_data ∧ st.attr .label_data = python .label_data := by
  have hi : initial (some c) python = on c python := enable_off c python
  rw [hi]
  exact ⟨off python, disable_on c python, rfl, rfl, rfl⟩

end Speedups
end Malstroem
