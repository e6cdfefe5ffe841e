/-
C105: watersheds of label rasters of every integer type, with the compiled functions.
-/
import Verif.Model.LabelTypes
import Verif.Props.Flow

namespace Malstroem
open Spec
set_option linter.unusedSectionVars false

/-- All labels of the raster are values of its type. -/
def OfType (t : IntType) (fd : Raster Nat) (lab : Raster Int) : Prop := ∀ c, fd.Has c → t.Holds (lab.get c)

/-- The C integer type the compiled function works with. -/
def workType : IntType → IntType
  | .int32 => .int32
  | _ => .int64

namespace FlowCython
open Flow
variable {fd : Raster Nat} {t : IntType} {un : Int} {junk : Int × Int}

theorem convert_ok {t : IntType} {z : Int} (h : t.Holds z) : t.convert z = .ok z := if_pos h

theorem convert_error {t : IntType} {z : Int} (h : ¬ t.Holds z) : t.convert z = .error .overflowError := if_neg h

/-- The entries of the stack lie in the raster and have labels of the type or the unassigned value. -/
def TypedStack (fd : Raster Nat) (t t' : IntType) (un : Int) (stack : List (Cell × Int)) : Prop :=
  ∀ p ∈ stack, fd.Has p.1 ∧ ((t.Holds p.2 ∧ t'.Holds p.2) ∨ p.2 = un)

theorem typedStack_push {t' : IntType} {c : Cell} {lbl : Int} {stack : List (Cell × Int)}
    (hl : (t.Holds lbl ∧ t'.Holds lbl) ∨ lbl = un) (hs : TypedStack fd t t' un stack) :
    TypedStack fd t t' un (pushUpstream junk fd c lbl (List.range 8) stack) := by
  rw [pushUpstream_eq junk c _ _ _ (fun d hd => List.mem_range.1 hd)]
  intro p hp
  simp only [List.mem_append, List.mem_reverse, List.mem_map] at hp
  rcases hp with ⟨x, ⟨d, hd, rfl⟩, rfl⟩ | hp
  · have hx : Flow.move c d ∈ up fd c := List.mem_map.2 ⟨d, hd, rfl⟩
    exact ⟨(mem_up.1 hx).1, hl⟩
  · exact hs p hp

theorem mem_push {c u : Cell} {lbl : Int} {stack : List (Cell × Int)} (hu : u ∈ up fd c) :
    (u, lbl) ∈ pushUpstream junk fd c lbl (List.range 8) stack := by
  rw [pushUpstream_eq junk c _ _ _ (fun d hd => List.mem_range.1 hd)]
  simp only [List.mem_append, List.mem_reverse, List.mem_map]
  obtain ⟨d, hd, rfl⟩ := List.mem_map.1 hu
  exact .inl ⟨_, ⟨d, hd, rfl⟩, rfl⟩

theorem push_keeps {c : Cell} {lbl : Int} {stack : List (Cell × Int)} {p : Cell × Int} (hp : p ∈ stack) :
    p ∈ pushUpstream junk fd c lbl (List.range 8) stack := by
  rw [pushUpstream_eq junk c _ _ _ (fun d hd => List.mem_range.1 hd)]
  exact List.mem_append.2 (.inr hp)

theorem set_get_ne (lab : Raster Int) {c x : Cell} (l : Int) (hx : x ≠ c) : (lab.set c l).get x = lab.get x := by
  simp [Raster.set, Function.update_of_ne hx]

theorem set_get (lab : Raster Int) (c : Cell) (l : Int) : (lab.set c l).get c = l := by simp [Raster.set]

theorem assignLoop_typed : ∀ (n : Nat) (lab lab' : Raster Int) (stack : List (Cell × Int)),
    OfType t fd lab → TypedStack fd t t un stack → assignLoop junk fd un n lab stack = some lab' →
    OfType t fd lab' ∧ ∀ x, lab'.get x = lab.get x ∨ lab.get x = un := by
  intro n
  induction n with
  | zero =>
    intro lab lab' stack hT hS h
    cases stack with
    | nil =>
      simp only [assignLoop, Option.some.injEq] at h
      subst h
      exact ⟨hT, fun _ => .inl rfl⟩
    | cons p rest => simp [assignLoop] at h
  | succ n ih =>
    intro lab lab' stack hT hS h
    cases stack with
    | nil =>
      simp only [assignLoop, Option.some.injEq] at h
      subst h
      exact ⟨hT, fun _ => .inl rfl⟩
    | cons p rest =>
      obtain ⟨c, l⟩ := p
      have hc : fd.Has c := (hS (c, l) (by simp)).1
      have hlS : (t.Holds l ∧ t.Holds l) ∨ l = un := (hS (c, l) (by simp)).2
      have hS' : TypedStack fd t t un rest := fun q hq => hS q (by simp [hq])
      rw [assignLoop] at h
      by_cases hb : lab.get c = un
      · rw [if_pos hb, if_pos hb] at h
        have hl : t.Holds l := by
          rcases hlS with hl | hl
          · exact hl.1
          · rw [hl]; exact hb ▸ hT c hc
        have hT1 : OfType t fd (lab.set c l) := by
          intro x hx
          by_cases hxc : x = c
          · rw [hxc, set_get]; exact hl
          · rw [set_get_ne _ _ hxc]; exact hT x hx
        obtain ⟨g1, g2⟩ := ih _ lab' _ hT1 (typedStack_push (junk := junk) (c := c) (.inl ⟨hl, hl⟩) hS') h
        refine ⟨g1, fun x => ?_⟩
        by_cases hxc : x = c
        · exact .inr (hxc ▸ hb)
        · rw [← set_get_ne lab l hxc]; exact g2 x
      · rw [if_neg hb, if_neg hb] at h
        exact ih _ lab' _ hT
          (typedStack_push (junk := junk) (c := c) (lbl := lab.get c) (.inl ⟨hT c hc, hT c hc⟩) hS') h

theorem fallback_run (hun : IntType.int64.Holds un) : ∀ (n : Nat) (lab lab' : Raster Int) (stack : List (Cell × Int)),
    OfType t fd lab → TypedStack fd t .int64 un stack → assignLoop junk fd un n lab stack = some lab' →
    (fallbackLoop t junk fd un n lab stack = some (.ok lab') ∧
        (∀ p ∈ stack, ∀ x, Downstream fd.rows fd.cols fd.get x p.1 → IntType.int64.Holds (lab.get x)) ∧
        (∀ x, IntType.int64.Holds (lab.get x) → IntType.int64.Holds (lab'.get x)) ∨
      fallbackLoop t junk fd un n lab stack = some (.error .overflowError) ∧
        ∃ x, fd.Has x ∧ ¬ IntType.int64.Holds (lab.get x)) := by
  intro n
  induction n with
  | zero =>
    intro lab lab' stack hT hS h
    cases stack with
    | nil =>
      simp only [assignLoop, Option.some.injEq] at h
      subst h
      exact .inl ⟨rfl, by simp, fun _ h => h⟩
    | cons p rest => simp [assignLoop] at h
  | succ n ih =>
    intro lab lab' stack hT hS h
    cases stack with
    | nil =>
      simp only [assignLoop, Option.some.injEq] at h
      subst h
      exact .inl ⟨rfl, by simp, fun _ h => h⟩
    | cons p rest =>
      obtain ⟨c, l⟩ := p
      have hc : fd.Has c := (hS (c, l) (by simp)).1
      have hlS : (t.Holds l ∧ IntType.int64.Holds l) ∨ l = un := (hS (c, l) (by simp)).2
      have hS' : TypedStack fd t .int64 un rest := fun q hq => hS q (by simp [hq])
      rw [assignLoop] at h
      rw [fallbackLoop]
      by_cases hb : lab.get c = un
      · rw [if_pos hb, if_pos hb] at h
        have hl : t.Holds l ∧ IntType.int64.Holds l := by
          rcases hlS with hl | hl
          · exact hl
          · rw [hl]; exact ⟨hb ▸ hT c hc, hun⟩
        have hT1 : OfType t fd (lab.set c l) := by
          intro x hx
          by_cases hxc : x = c
          · rw [hxc, set_get]; exact hl.1
          · rw [set_get_ne _ _ hxc]; exact hT x hx
        have g3 := ih _ lab' _ hT1 (typedStack_push (junk := junk) (c := c) (.inl hl) hS') h
        have hconv : IntType.int64.convert (lab.get c) = .ok un := by rw [hb]; exact convert_ok hun
        simp only [hconv, convert_ok hl.1, if_true]
        have hfit : ∀ x, IntType.int64.Holds ((lab.set c l).get x) ↔ IntType.int64.Holds (lab.get x) := by
          intro x
          by_cases hxc : x = c
          · rw [hxc, set_get, hb]; exact ⟨fun _ => hun, fun _ => hl.2⟩
          · rw [set_get_ne _ _ hxc]
        rcases g3 with ⟨e1, e2, e3⟩ | ⟨e1, x, hx, e2⟩
        · refine .inl ⟨e1, fun p hp x hx => ?_, fun x hf => e3 x ((hfit x).2 hf)⟩
          rcases List.mem_cons.1 hp with rfl | hp
          · rcases Relation.ReflTransGen.cases_tail hx with hxc | ⟨u, hxu, huc⟩
            · have hxc' : x = c := hxc.symm
              rw [hxc', hb]; exact hun
            · exact (hfit x).1 (e2 _ (mem_push ((step_iff_mem_up hc).1 huc)) x hxu)
          · exact (hfit x).1 (e2 p (push_keeps hp) x hx)
        · exact .inr ⟨e1, x, hx, fun hf => e2 ((hfit x).2 hf)⟩
      · rw [if_neg hb, if_neg hb] at h
        by_cases hf : IntType.int64.Holds (lab.get c)
        · have g3 := ih _ lab' _ hT
            (typedStack_push (junk := junk) (c := c) (lbl := lab.get c) (.inl ⟨hT c hc, hf⟩) hS') h
          simp only [convert_ok hf, if_neg hb]
          rcases g3 with ⟨e1, e2, e3⟩ | g3
          · refine .inl ⟨e1, fun p hp x hx => ?_, e3⟩
            rcases List.mem_cons.1 hp with rfl | hp
            · rcases Relation.ReflTransGen.cases_tail hx with hxc | ⟨u, hxu, huc⟩
              · have hxc' : x = c := hxc.symm
                rw [hxc']; exact hf
              · exact e2 _ (mem_push ((step_iff_mem_up hc).1 huc)) x hxu
            · exact e2 p (push_keeps hp) x hx
          · exact .inr g3
        · simp only [convert_error hf]
          exact .inr ⟨trivial, c, hc, hf⟩

/-- One call of the compiled function next to one of the pure Python function. -/
theorem assign_run (hun : (workType t).Holds un) {n : Nat} {lab lab' : Raster Int} {c : Cell} (hc : fd.Has c)
    (hT : OfType t fd lab) (h : Flow.assignWatershedsUpstream fd lab c un n = some (.ok lab')) :
    OfType t fd lab' ∧ (∀ x, lab'.get x = lab.get x ∨ lab.get x = un) ∧
    (assignWatershedsUpstream t junk fd lab c un n = some (.ok lab') ∧
        (∀ x, fd.Has x → Downstream fd.rows fd.cols fd.get x c → (workType t).Holds (lab.get x)) ∧
        (∀ x, fd.Has x → (workType t).Holds (lab.get x) → (workType t).Holds (lab'.get x)) ∨
      assignWatershedsUpstream t junk fd lab c un n = some (.error .overflowError) ∧
        ∃ x, fd.Has x ∧ ¬ (workType t).Holds (lab.get x)) := by
  have hA : assignLoop junk fd un n lab [(c, un)] = some lab' := by
    have := C21_compiled_watershed_eq_python junk fd lab un c n
    rw [h] at this
    cases hr : assignLoop junk fd un n lab [(c, un)] with
    | none => rw [hr] at this; cases this
    | some r => rw [hr] at this; cases this; rfl
  have hS : ∀ t', TypedStack fd t t' un [(c, un)] := by
    intro t' p hp
    simp only [List.mem_singleton] at hp
    subst hp
    exact ⟨hc, .inr rfl⟩
  obtain ⟨g1, g2⟩ := assignLoop_typed n lab lab' _ hT (hS t) hA
  refine ⟨g1, g2, ?_⟩
  have viewed : workType t = t → (Option.map Except.ok (assignLoop junk fd un n lab [(c, un)]) :
        Option (Except PyErr (Raster Int))) = some (.ok lab') ∧
      (∀ x, fd.Has x → Downstream fd.rows fd.cols fd.get x c → (workType t).Holds (lab.get x)) ∧
      (∀ x, fd.Has x → (workType t).Holds (lab.get x) → (workType t).Holds (lab'.get x)) := by
    intro hw
    rw [hA, hw]
    exact ⟨rfl, fun x hx _ => hT x hx, fun x hx _ => g1 x hx⟩
  by_cases h32 : t = .int32
  · subst h32
    rw [assignWatershedsUpstream, if_pos rfl, convert_ok (show IntType.int32.Holds un from hun)]
    exact .inl (viewed rfl)
  · by_cases h64 : t = .int64
    · subst h64
      rw [assignWatershedsUpstream, if_neg (by decide), if_pos rfl, convert_ok (show IntType.int64.Holds un from hun)]
      exact .inl (viewed rfl)
    · have hw : workType t = .int64 := by cases t <;> first | rfl | exact absurd rfl h32
      rw [hw] at hun ⊢
      rw [assignWatershedsUpstream, if_neg h32, if_neg h64, convert_ok hun]
      rcases fallback_run (junk := junk) hun n lab lab' _ hT (hS .int64) hA with ⟨e1, e2, e3⟩ | g
      · exact .inl ⟨e1, fun x _ hx => e2 (c, un) (by simp) x hx, fun x _ => e3 x⟩
      · exact .inr g

theorem typedLoop_run (hun : (workType t).Holds un) {n : Nat} : ∀ (l : List Cell) (lab lab' : Raster Int),
    (∀ c ∈ l, fd.Has c) → OfType t fd lab → Flow.watershedsLoop fd un n l lab = some (.ok lab') →
    OfType t fd lab' ∧
    (typedLoop t junk fd un n l lab = some (.ok lab') ∧
        (∀ c ∈ l, ∀ x, fd.Has x → Downstream fd.rows fd.cols fd.get x c → (workType t).Holds (lab.get x)) ∨
      typedLoop t junk fd un n l lab = some (.error .overflowError) ∧
        ∃ x, fd.Has x ∧ ¬ (workType t).Holds (lab.get x)) := by
  intro l
  induction l with
  | nil =>
    intro lab lab' _ hT h
    simp only [Flow.watershedsLoop, Option.some.injEq, Except.ok.injEq] at h
    subst h
    exact ⟨hT, .inl ⟨rfl, by simp⟩⟩
  | cons c l ih =>
    intro lab lab' hl hT h
    rw [Flow.watershedsLoop] at h
    cases h1 : Flow.assignWatershedsUpstream fd lab c un n with
    | none => rw [h1] at h; cases h
    | some e =>
      rw [h1] at h
      cases e with
      | error e => cases h
      | ok lab1 =>
        obtain ⟨g1, g2, g3⟩ := assign_run (junk := junk) hun (hl c (by simp)) hT h1
        obtain ⟨k1, k2⟩ := ih lab1 lab' (fun x hx => hl x (by simp [hx])) g1 h
        refine ⟨k1, ?_⟩
        rw [typedLoop]
        rcases g3 with ⟨e1, e2, e3⟩ | ⟨e1, e2⟩
        · rw [e1]
          rcases k2 with ⟨f1, f2⟩ | ⟨f1, x, hx, f2⟩
          · refine .inl ⟨f1, fun b hb x hx hd => ?_⟩
            rcases List.mem_cons.1 hb with rfl | hb
            · exact e2 x hx hd
            · have := f2 b hb x hx hd
              rcases g2 x with g | g
              · rw [g] at this; exact this
              · rw [g]; exact hun
          · exact .inr ⟨f1, x, hx, fun hf => f2 (e3 x hx hf)⟩
        · rw [e1]
          exact .inr ⟨rfl, e2⟩

end FlowCython

/-- The cell (0, 0) is on the edge, so the compiled function is called at least once. -/
theorem edgeCells_cons {rows cols : Nat} (hr : 0 < rows) (hc : 0 < cols) :
    ∃ c l, Flow.edgeCellIndexes rows cols = c :: l := by
  have h : ((0, 0) : Cell) ∈ Flow.edgeCellIndexes rows cols :=
    (Flow.mem_edgeCellIndexes hr hc).2 (by
      simp only [OnEdge, InGrid, true_or, and_true]; omega)
  cases hl : Flow.edgeCellIndexes rows cols with
  | nil => rw [hl] at h; simp at h
  | cons c l => exact ⟨c, l, rfl⟩

/-- C105: on a raster of flow directions that drain, with labels of any integer type and any unassigned value: if the
unassigned value and all labels are values of the C type the compiled function works with, then
`watersheds_from_labels` returns with the compiled function the same labels as with the pure Python one, and they are
values of the type of the raster. Otherwise it raises OverflowError with the compiled function. -/
theorem C105_typed_watersheds (t : IntType) (junk : Int × Int) (fd : Raster Nat) (hr : 0 < fd.rows) (hc : 0 < fd.cols)
    (hd : ∀ c, fd.Has c → Drains fd.rows fd.cols fd.get c) (lab : Raster Int) (hlab : OfType t fd lab) (un : Int) :
    ∃ lab', Returns (Flow.watershedsFromLabels fd lab un) (.ok lab') ∧ OfType t fd lab' ∧
      ((workType t).Holds un → OfType (workType t) fd lab →
        Returns (FlowCython.watershedsTyped t junk fd lab un) (.ok lab')) ∧
      (¬ ((workType t).Holds un ∧ OfType (workType t) fd lab) →
        Returns (FlowCython.watershedsTyped t junk fd lab un) (.error .overflowError)) := by
  have hin : ∀ c ∈ Flow.edgeCellIndexes fd.rows fd.cols, fd.Has c := fun c h =>
    ((Flow.mem_edgeCellIndexes hr hc).1 h).1
  have hrun : ∀ n, fd.rows * fd.cols ≤ n → ∃ lab', Flow.watershedsFromLabels fd lab un n = some (.ok lab') := by
    intro n hn
    obtain ⟨lab', h, _⟩ := Flow.watershedsLoop_spec (un := un) hn (Flow.edgeCellIndexes fd.rows fd.cols) lab
      (fun c h => ⟨hin c h, hd c (hin c h)⟩)
    exact ⟨lab', h⟩
  obtain ⟨lab', h1, _, _, hW⟩ := C21_watershed_first_label fd hr hc hd lab un
  have hsame : ∀ n, fd.rows * fd.cols ≤ n → Flow.watershedsFromLabels fd lab un n = some (.ok lab') := by
    intro n hn
    obtain ⟨lab'', h⟩ := hrun n hn
    have h2 : Returns (Flow.watershedsFromLabels fd lab un) (.ok lab'') :=
      Returns.of_mono h (fun n r h => Flow.watershedsLoop_mono _ n lab r h)
    rw [h, h2.unique h1]
  have hwork : (workType t).Holds un → ∀ n, fd.rows * fd.cols ≤ n → _ := fun hun n hn =>
    FlowCython.typedLoop_run (junk := junk) hun (Flow.edgeCellIndexes fd.rows fd.cols) lab lab' hin hlab (hsame n hn)
  have hall : ∀ x, fd.Has x → ∃ c ∈ Flow.edgeCellIndexes fd.rows fd.cols, Downstream fd.rows fd.cols fd.get x c := by
    intro x hx
    obtain ⟨e, hxe, he⟩ := hd x hx
    exact ⟨e, (Flow.mem_edgeCellIndexes hr hc).2 (Flow.flowsOut_onEdge he), hxe⟩
  refine ⟨lab', h1, fun c hc' => ?_, fun hun hf => ⟨fd.rows * fd.cols, fun n hn => ?_⟩, fun hnot => ?_⟩
  · obtain ⟨_, _, w3, w4⟩ := hW c hc'
    by_cases hu : lab'.get c = un
    · rw [hu, ← w3.1 hu c .refl]; exact hlab c hc'
    · obtain ⟨d, hcd, hdl⟩ := w4 hu
      rw [← hdl]
      refine hlab d ?_
      rcases Relation.ReflTransGen.cases_tail hcd with h | ⟨u, _, hs⟩
      · rw [h]; exact hc'
      · exact hs.2.1
  · rcases (hwork hun n hn).2 with h | ⟨_, x, hx, hbad⟩
    · exact h.1
    · exact absurd (hf x hx) hbad
  · by_cases hun : (workType t).Holds un
    · refine ⟨fd.rows * fd.cols, fun n hn => ?_⟩
      rcases (hwork hun n hn).2 with ⟨_, h⟩ | ⟨h, _⟩
      · exact absurd ⟨hun, fun x hx => (hall x hx).elim fun c hc => h c hc.1 x hx hc.2⟩ hnot
      · exact h
    · refine ⟨0, fun n _ => ?_⟩
      obtain ⟨c, l, hl⟩ := edgeCells_cons hr hc
      rw [FlowCython.watershedsTyped, hl, FlowCython.typedLoop]
      have : FlowCython.assignWatershedsUpstream t junk fd lab c un n = some (.error .overflowError) := by
        cases t <;> simp only [workType] at hun <;> (rw [FlowCython.assignWatershedsUpstream]; simp only [reduceCtorEq, if_false, if_true]) <;>
          rw [FlowCython.convert_error hun]
      rw [this]

/-- C105 for the types no larger than int64: with an unassigned value of the type of the raster, all labels being such
values, the compiled function gives the same labels as the pure Python one. -/
theorem C105_same_labels (t : IntType) (ht : t ≠ .uint64) (junk : Int × Int) (fd : Raster Nat) (hr : 0 < fd.rows)
    (hc : 0 < fd.cols) (hd : ∀ c, fd.Has c → Drains fd.rows fd.cols fd.get c) (lab : Raster Int)
    (hlab : OfType t fd lab) (un : Int) (hun : t.Holds un) :
    ∃ lab', Returns (Flow.watershedsFromLabels fd lab un) (.ok lab') ∧
      Returns (FlowCython.watershedsTyped t junk fd lab un) (.ok lab') ∧
      IsWatershed fd.rows fd.cols fd.get un lab.get lab'.get := by
  have hw : ∀ z, t.Holds z → (workType t).Holds z := by
    rintro z ⟨h1, h2⟩
    cases t <;> simp only [IntType.lo, IntType.hi, workType, IntType.Holds] at h1 h2 ⊢ <;>
      first | exact absurd rfl ht | constructor <;> omega
  obtain ⟨lab', h1, _, h3, _⟩ := C105_typed_watersheds t junk fd hr hc hd lab hlab un
  obtain ⟨lab'', g1, _, _, g⟩ := C21_watershed_first_label fd hr hc hd lab un
  obtain rfl : lab'' = lab' := Except.ok.inj (g1.unique h1)
  exact ⟨lab'', h1, h3 (hw un hun) fun c hc => hw _ (hlab c hc), g⟩

/-- C105 for an unassigned value that is not a value of the type of the raster: no cell is unassigned, the pure Python
function changes no label. The compiled function changes none either or, if the value does not even fit its C integer
or a label does not, raises OverflowError. -/
theorem C105_foreign_unassigned (t : IntType) (junk : Int × Int) (fd : Raster Nat) (hr : 0 < fd.rows)
    (hc : 0 < fd.cols) (hd : ∀ c, fd.Has c → Drains fd.rows fd.cols fd.get c) (lab : Raster Int)
    (hlab : OfType t fd lab) (un : Int) (hun : ¬ t.Holds un) :
    ∃ lab', Returns (Flow.watershedsFromLabels fd lab un) (.ok lab') ∧ (∀ c, fd.Has c → lab'.get c = lab.get c) ∧
      (Returns (FlowCython.watershedsTyped t junk fd lab un) (.ok lab') ∨
        Returns (FlowCython.watershedsTyped t junk fd lab un) (.error .overflowError)) := by
  obtain ⟨lab', h1, _, h3, h4⟩ := C105_typed_watersheds t junk fd hr hc hd lab hlab un
  obtain ⟨lab'', g1, _, _, g⟩ := C21_watershed_first_label fd hr hc hd lab un
  obtain rfl : lab'' = lab' := Except.ok.inj (g1.unique h1)
  refine ⟨lab'', h1, fun c hc => (g c hc).2.1 fun h => hun (h ▸ hlab c hc), ?_⟩
  by_cases h : (workType t).Holds un ∧ OfType (workType t) fd lab
  · exact .inl (h3 h.1 h.2)
  · exact .inr (h4 h)

/-- C105, the claim that the compiled function gives the same labels for every integer type is false: a raster of one
cell with the uint64 label 2^63 makes it raise OverflowError, the pure Python function returns. -/
theorem C105_uint64_false : ∃ (fd : Raster Nat) (lab : Raster Int) (un : Int), 0 < fd.rows ∧ 0 < fd.cols ∧
    (∀ c, fd.Has c → Drains fd.rows fd.cols fd.get c) ∧ OfType .uint64 fd lab ∧ IntType.uint64.Holds un ∧
    (∃ lab', Returns (Flow.watershedsFromLabels fd lab un) (.ok lab')) ∧
    ∀ junk, Returns (FlowCython.watershedsTyped .uint64 junk fd lab un) (.error .overflowError) := by
  let fd : Raster Nat := ⟨1, 1, fun _ => 0⟩
  let lab : Raster Int := ⟨1, 1, fun _ => 2 ^ 63⟩
  have hd : ∀ c, fd.Has c → Drains fd.rows fd.cols fd.get c := by
    intro c hc
    have h0 : c = (0, 0) := by
      obtain ⟨a, b⟩ := c
      simp only [InGrid, fd] at hc
      simp only [Prod.mk.injEq]
      omega
    exact drainsIn_sound fd 1 c (by rw [h0]; decide +kernel)
  have hlab : OfType .uint64 fd lab := fun c _ => by simp only [IntType.Holds, lab]; decide
  refine ⟨fd, lab, 0, by decide, by decide, hd, hlab, by decide, ?_, fun junk => ?_⟩
  · obtain ⟨lab', h, _⟩ := C105_typed_watersheds .uint64 (0, 0) fd (by decide) (by decide) hd lab hlab 0
    exact ⟨lab', h⟩
  · obtain ⟨_, _, _, _, h⟩ := C105_typed_watersheds .uint64 junk fd (by decide) (by decide) hd lab hlab 0
    refine h fun ⟨_, h⟩ => ?_
    have := h (0, 0) (by simp only [InGrid, fd]; decide)
    revert this
    simp only [workType, lab]
    decide

/-- C105 for the labels of the bluespot tool: int32 (scipy.ndimage.label) with unassigned value 0. The call never
raises OverflowError and is the one `Bluespots.compiledFl` makes, for all flow directions. -/
theorem C105_bluespot_labels (junk : Int × Int) (fd : Raster Nat) (lab : Raster Int) (n : Nat) :
    FlowCython.watershedsTyped .int32 junk fd lab 0 n =
      (FlowCython.watershedsFromLabels junk fd lab 0 n).map .ok := by
  rw [FlowCython.watershedsTyped, FlowCython.watershedsFromLabels]
  generalize Flow.edgeCellIndexes fd.rows fd.cols = l
  induction l generalizing lab with
  | nil => rfl
  | cons c l ih =>
    rw [FlowCython.typedLoop, FlowCython.watershedsLoop, FlowCython.assignWatershedsUpstream, if_pos rfl,
      FlowCython.convert_ok (show IntType.int32.Holds 0 by decide)]
    simp only
    cases FlowCython.assignLoop junk fd 0 n lab [(c, 0)] with
    | none => rfl
    | some r => exact ih r

/-- Non-vacuity for C105: `demoFlow` drains (`demoFlow_drains`); int16 labels, the fallback. -/
example : ((FlowCython.watershedsTyped .int16 (77, 77) demoFlow
    (Raster.ofRows [[0,0,0,0],[9,0,0,0],[0,0,-5,0]]) 0 20).map fun r => r.toOption.map Raster.toRows) =
    some (some ([[0,0,0,0],[9,-5,0,0],[0,-5,-5,0]] : List (List Int))) := by decide +kernel

/-- Non-vacuity for C105: int32 labels with an unassigned value that only int64 holds. -/
example : (FlowCython.watershedsTyped .int32 (77, 77) demoFlow
    (Raster.ofRows [[0,0,0,0],[9,0,0,0],[0,0,5,0]]) (2 ^ 31) 20).map (fun r => r.toOption.map Raster.toRows) =
    some none := by decide +kernel

example : OfType .int16 demoFlow (Raster.ofRows [[0,0,0,0],[9,0,0,0],[0,0,-5,0]]) := by
  intro c hc
  obtain ⟨a, b⟩ := c
  simp only [InGrid, show demoFlow.rows = 3 from rfl, show demoFlow.cols = 4 from rfl] at hc
  obtain ⟨h1, h2, h3, h4⟩ := hc
  have ha : a = 0 ∨ a = 1 ∨ a = 2 := by omega
  have hb : b = 0 ∨ b = 1 ∨ b = 2 ∨ b = 3 := by omega
  rcases ha with rfl | rfl | rfl <;> rcases hb with rfl | rfl | rfl | rfl <;> decide

end Malstroem
