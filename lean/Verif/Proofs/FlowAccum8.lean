/-
Accumulated flow on rasters with cells that do not flow anywhere (code 8, or a code that does not exist).
-/
import Verif.Proofs.FlowAccum

set_option linter.unusedSectionVars false

namespace Malstroem
open Spec

namespace Flow
variable {flowdir : Raster Nat}

/-- The trace: `some none` when it has to leave a cell without a flow direction. -/
def trace8 (flowdir : Raster Nat) : Nat → Raster Int → Cell → Option (Option (Raster Int))
  | 0, _, _ => none
  | fuel + 1, accum, cell =>
    if InGrid flowdir.rows flowdir.cols cell then
      if ∀ u ∈ up flowdir cell, 0 < accum.get u then
        if flowdir.get cell < 8 then
          trace8 flowdir fuel (accum.set cell (((up flowdir cell).map accum.get).sum + 1))
            (move cell (flowdir.get cell))
        else some none
      else some (some accum)
    else some (some accum)

/-- Resolved cells flow somewhere. -/
def Flowing (flowdir : Raster Nat) (A : Raster Int) : Prop :=
  ∀ c, flowdir.Has c → A.get c ≠ 0 → flowdir.get c < 8

theorem trace8_spec : ∀ (n : Nat) (A : Raster Int) (c : Cell)
    (k : Nat), Sound flowdir A → Blocked flowdir A (some c) → Flowing flowdir A → k ≤ flowdir.rows * flowdir.cols →
    (flowdir.Has c → NoCycleAbove flowdir.rows flowdir.cols flowdir.get c → k < N flowdir c) →
    flowdir.rows * flowdir.cols < n + k →
    ∃ o, trace8 flowdir n A c = some o ∧ ∀ A', o = some A' →
      Sound flowdir A' ∧ Blocked flowdir A' none ∧ Flowing flowdir A' ∧
      (∀ d, flowdir.Has d → A.get d ≠ 0 → A'.get d ≠ 0) ∧
      (flowdir.Has c → up flowdir c = [] → A'.get c ≠ 0) := by
  intro n
  induction n with
  | zero => intro A c k _ _ _ _ _ h; omega
  | succ n ih =>
    intro A c k hS hB hF hk hkc hn
    rw [trace8]
    by_cases hc : InGrid flowdir.rows flowdir.cols c
    · rw [if_pos hc]
      by_cases hp : ∀ u ∈ up flowdir c, 0 < A.get u
      · rw [if_pos hp]
        by_cases hcode : flowdir.get c < 8
        · rw [if_pos hcode]
          obtain ⟨hnc, hsum, hS'⟩ := hS.set hc hp
          have hpos : 0 < N flowdir c := upstreamCount_pos hc
          have hget : ∀ d, d ≠ c → (A.set c (((up flowdir c).map A.get).sum + 1)).get d = A.get d := by
            intro d hd
            simp [Raster.set, Function.update_of_ne hd]
          have hgetc : (A.set c (((up flowdir c).map A.get).sum + 1)).get c = N flowdir c := by
            simp [Raster.set, hsum]
          have hB' : Blocked flowdir (A.set c (((up flowdir c).map A.get).sum + 1))
              (some (move c (flowdir.get c))) := by
            intro d hd hdx h0
            have hdc : d ≠ c := by
              rintro rfl
              rw [hgetc] at h0
              omega
            rw [hget d hdc] at h0
            rcases hB d hd (by simpa using hdc) h0 with hl | ⟨u, hu, hu0⟩
            · exact .inl hl
            · right
              refine ⟨u, hu, ?_⟩
              have huc : u ≠ c := by
                rintro rfl
                exact hdx (by rw [(flowsTo_iff.1 (mem_up.1 hu).2).2])
              rw [hget u huc, hu0]
          have hF' : Flowing flowdir (A.set c (((up flowdir c).map A.get).sum + 1)) := by
            intro d hd hne
            by_cases hdc : d = c
            · rw [hdc]; exact hcode
            · rw [hget d hdc] at hne
              exact hF d hd hne
          have hlt := hkc hc hnc
          obtain ⟨o, h1, h2⟩ := ih _ (move c (flowdir.get c)) (N flowdir c) hS' hB' hF'
            (upstreamCount_le_total c) (by
              intro hd hdn
              refine upstreamCount_lt ⟨hc, hd, ?_⟩ (hdn _ .refl)
              exact flowsTo_iff.2 ⟨hcode, rfl⟩) (by omega)
          refine ⟨o, h1, fun A' ho => ?_⟩
          obtain ⟨h2, h3, hF2, h4, h5⟩ := h2 A' ho
          refine ⟨h2, h3, hF2, ?_, ?_⟩
          · intro d hd hne
            apply h4 d hd
            by_cases hdc : d = c
            · subst hdc
              rw [hgetc]
              omega
            · rw [hget d hdc]
              exact hne
          · intro _ _
            apply h4 c hc
            rw [hgetc]
            omega
        · rw [if_neg hcode]
          exact ⟨none, rfl, fun A' h => by cases h⟩
      · rw [if_neg hp]
        refine ⟨some A, rfl, fun A' hA' => ?_⟩
        cases hA'
        refine ⟨hS, ?_, hF, fun _ _ h => h, ?_⟩
        · intro d hd _ h0
          by_cases hdc : d = c
          · subst hdc
            right
            push Not at hp
            obtain ⟨u, hu, hu0⟩ := hp
            refine ⟨u, hu, ?_⟩
            by_contra hne
            have := (hS.pos_iff (mem_up.1 hu).1).2 hne
            omega
          · exact hB d hd (by simpa using hdc) h0
        · intro _ hnil
          exact absurd (by rw [hnil]; simp) hp
    · rw [if_neg hc]
      refine ⟨some A, rfl, fun A' hA' => ?_⟩
      cases hA'
      refine ⟨hS, ?_, hF, fun _ _ h => h, fun h => absurd h hc⟩
      intro d hd _ h0
      apply hB d hd _ h0
      intro h
      simp only [Option.some.injEq] at h
      exact hc (h ▸ hd)

/-- Start a trace at every listed cell selected by `sel`, as long as none of them has to leave a cell without a
direction. -/
def traceAll8 (flowdir : Raster Nat) (sel : Cell → Bool) (fuel : Nat) :
    List Cell → Raster Int → Option (Option (Raster Int))
  | [], A => some (some A)
  | c :: rest, A =>
    if sel c then
      match trace8 flowdir fuel A c with
      | some (some A) => traceAll8 flowdir sel fuel rest A
      | other => other
    else traceAll8 flowdir sel fuel rest A

theorem traceAll8_spec (sel : Cell → Bool)
    (hsel : ∀ c, up flowdir c = [] → sel c = true) {n : Nat} (hn : flowdir.rows * flowdir.cols < n) :
    ∀ (l : List Cell) (A : Raster Int), (∀ c ∈ l, flowdir.Has c) → Sound flowdir A → Blocked flowdir A none →
    Flowing flowdir A →
    ∃ o, traceAll8 flowdir sel n l A = some o ∧ ∀ A', o = some A' → Sound flowdir A' ∧ Blocked flowdir A' none ∧
      Flowing flowdir A' ∧
      (∀ d, flowdir.Has d → A.get d ≠ 0 → A'.get d ≠ 0) ∧ (∀ c ∈ l, up flowdir c = [] → A'.get c ≠ 0) := by
  intro l
  induction l with
  | nil =>
    intro A _ hS hB hF
    refine ⟨some A, rfl, fun A' h => ?_⟩
    cases h
    exact ⟨hS, hB, hF, fun _ _ h => h, by simp⟩
  | cons c l ih =>
    intro A hl hS hB hF
    have hc := hl c (by simp)
    have hl' : ∀ c ∈ l, flowdir.Has c := fun x hx => hl x (by simp [hx])
    rw [traceAll8]
    by_cases hs : sel c
    · rw [if_pos hs]
      obtain ⟨o1, h1, h2⟩ := trace8_spec n A c 0 hS (fun d hd _ h0 => hB d hd (by simp) h0) hF
        (Nat.zero_le _) (fun h _ => upstreamCount_pos h) (by omega)
      rw [h1]
      cases o1 with
      | none => exact ⟨none, rfl, fun A' h => by cases h⟩
      | some A1 =>
        obtain ⟨h2, h3, hF1, h4, h5⟩ := h2 A1 rfl
        obtain ⟨o, g1, g2⟩ := ih A1 hl' h2 h3 hF1
        refine ⟨o, g1, fun A' ho => ?_⟩
        obtain ⟨g2, g3, gF, g4, g5⟩ := g2 A' ho
        refine ⟨g2, g3, gF, fun d hd h => g4 d hd (h4 d hd h), ?_⟩
        intro x hx hnil
        rcases List.mem_cons.1 hx with rfl | hx
        · exact g4 x hc (h5 hc hnil)
        · exact g5 x hx hnil
    · rw [if_neg hs]
      obtain ⟨o, g1, g2⟩ := ih A hl' hS hB hF
      refine ⟨o, g1, fun A' ho => ?_⟩
      obtain ⟨g2, g3, gF, g4, g5⟩ := g2 A' ho
      refine ⟨g2, g3, gF, g4, ?_⟩
      intro x hx hnil
      rcases List.mem_cons.1 hx with rfl | hx
      · exact absurd (hsel x hnil) hs
      · exact g5 x hx hnil

/-- No cycle lies upstream of a cell that does not flow anywhere. -/
theorem noCycleAbove_of_noDir {c : Cell} (h : ¬ flowdir.get c < 8) :
    NoCycleAbove flowdir.rows flowdir.cols flowdir.get c := by
  have hno : ∀ b, ¬ Step flowdir.rows flowdir.cols flowdir.get c b := fun b hb => h (flowsTo_iff.1 hb.2.2).1
  intro a ha hcyc
  -- everything downstream of a cell on a cycle is on a cycle, so `c` would flow on
  have key : ∀ x, Downstream flowdir.rows flowdir.cols flowdir.get x c → OnCycle flowdir.rows flowdir.cols flowdir.get x →
      OnCycle flowdir.rows flowdir.cols flowdir.get c := by
    intro x hx
    induction hx using Relation.ReflTransGen.head_induction_on with
    | refl => exact id
    | head hs _ ih =>
      intro hx
      apply ih
      obtain ⟨b, hb, hrest⟩ := Relation.TransGen.head'_iff.1 hx
      have hb' := (flowsTo_iff.1 hb.2.2).2.trans (flowsTo_iff.1 hs.2.2).2.symm
      subst hb'
      exact Relation.TransGen.tail' hrest hs
  obtain ⟨b, hb, _⟩ := Relation.TransGen.head'_iff.1 (key a ha hcyc)
  exact hno b hb

/-- With a cell that does not flow anywhere, some trace gets there. -/
theorem traceAll8_stuck (sel : Cell → Bool) (hsel : ∀ c, up flowdir c = [] → sel c = true) {n : Nat}
    (hn : flowdir.rows * flowdir.cols < n) {c : Cell} (hc : flowdir.Has c) (h8 : ¬ flowdir.get c < 8) :
    traceAll8 flowdir sel n (Raster.cellList flowdir.rows flowdir.cols)
      (zeros flowdir.rows flowdir.cols) = some none := by
  obtain ⟨o, h1, h2⟩ := traceAll8_spec sel hsel hn
    (Raster.cellList flowdir.rows flowdir.cols) (zeros flowdir.rows flowdir.cols)
    (fun c hc => mem_cellList.1 hc) (fun c _ => .inl rfl) (by
      intro d hd _ _
      rcases h : up flowdir d with _ | ⟨u, l⟩
      · exact .inl rfl
      · exact .inr ⟨u, by simp, rfl⟩) (fun c _ h => absurd rfl h)
  cases o with
  | none => exact h1
  | some A =>
    exfalso
    obtain ⟨hS, hB, hF, _, h5⟩ := h2 A rfl
    have key : ∀ m c, flowdir.Has c → NoCycleAbove flowdir.rows flowdir.cols flowdir.get c → N flowdir c = m →
        A.get c ≠ 0 := by
      intro m
      induction m using Nat.strong_induction_on with
      | _ m ih =>
        intro c hc hnc hm h0
        rcases hB c hc (by simp) h0 with hl | ⟨u, hu, hu0⟩
        · exact h5 c (mem_cellList.2 hc) hl h0
        · have hs := (step_iff_mem_up hc).2 hu
          have hlt := upstreamCount_lt hs (hnc c .refl)
          exact ih (N flowdir u) (by rw [← hm]; exact hlt) u hs.1 (hnc.up hs) rfl hu0
    exact h8 (hF c hc (key _ c hc (noCycleAbove_of_noDir h8) rfl))

/-- One round of the Python trace. -/
theorem trace_python_step (n : Nat) (A : Raster Int) (c : Cell) : traceAccumulatedFlow flowdir (n + 1) A c =
    if InGrid flowdir.rows flowdir.cols c then
      if ∀ u ∈ up flowdir c, 0 < A.get u then
        match cellInDirection c (flowdir.get c) with
        | .error e => some (.error e)
        | .ok d => traceAccumulatedFlow flowdir n (A.set c (((up flowdir c).map A.get).sum + 1)) d
      else some (.ok A)
    else some (.ok A) := by
  rw [traceAccumulatedFlow]
  by_cases hc : InGrid flowdir.rows flowdir.cols c
  · rw [if_pos (cellInRaster_iff.2 hc), if_pos hc, upstreamCells_eq]
    simp only
    by_cases hp : ∀ u ∈ up flowdir c, 0 < A.get u
    · have hs := sum_nonneg_of_pos A.get _ hp
      have heq : (if up flowdir c ≠ [] then sumCells (up flowdir c) A.get 0 else 0) =
          ((up flowdir c).map A.get).sum := by
        split_ifs with h
        · rw [sumCells_of_pos _ _ _ hp, zero_add]
        · simp only [ne_eq, not_not] at h
          rw [h]; rfl
      rw [heq, if_neg (by intro ⟨h1, h2⟩; have := hs.2 h1; omega), if_pos hp]
      cases cellInDirection c (flowdir.get c) <;> rfl
    · have hne : up flowdir c ≠ [] := by
        rintro h
        apply hp
        rw [h]
        simp
      rw [if_pos hne, sumCells_of_not_pos _ _ _ hp, if_pos ⟨hne, by omega⟩, if_neg hp]
  · rw [if_neg (by rw [cellInRaster_iff]; exact hc), if_neg hc]

theorem cellInDirection_noDir {c : Cell} {d : Nat} (h : ¬ d < 8) :
    cellInDirection c d = .error (if d = 8 then .typeError else .unknownDirection) := by
  by_cases h8 : d = 8
  · subst h8
    rfl
  · have hd : directionToDelta d = .error .unknownDirection := by
      unfold directionToDelta
      rw [if_neg (by omega), if_neg (by omega), if_neg (by omega), if_neg (by omega), if_neg (by omega),
        if_neg (by omega), if_neg (by omega), if_neg (by omega), if_neg (by omega)]
    rw [if_neg h8]
    unfold cellInDirection
    rw [hd]
    rfl

/-- What the Python loops make of a trace: leaving a cell without a direction raises. -/
theorem trace8_python : ∀ (n : Nat) (A : Raster Int) (c : Cell),
    (∀ A', trace8 flowdir n A c = some (some A') → traceAccumulatedFlow flowdir n A c = some (.ok A')) ∧
    (trace8 flowdir n A c = some none → ∃ e, traceAccumulatedFlow flowdir n A c = some (.error e) ∧
      ((∀ c, flowdir.Has c → flowdir.get c ≤ 8) → e = .typeError)) := by
  intro n
  induction n with
  | zero => intro A c; exact ⟨fun A' h => (by cases h), fun h => (by cases h)⟩
  | succ n ih =>
    intro A c
    have hok : ∀ B : Raster Int, (∀ A', some (some B) = some (some A') → some (Except.ok B) = some (Except.ok (ε := PyErr) A')) ∧
        (some (some B) = some none → ∃ e : PyErr, some (Except.ok B) = some (.error e) ∧
          ((∀ c, flowdir.Has c → flowdir.get c ≤ 8) → e = .typeError)) :=
      fun B => ⟨fun A' h => (by cases h; rfl), fun h => (by cases h)⟩
    rw [trace_python_step, trace8]
    by_cases hc : InGrid flowdir.rows flowdir.cols c
    · simp only [if_pos hc]
      by_cases hp : ∀ u ∈ up flowdir c, 0 < A.get u
      · simp only [if_pos hp]
        by_cases hcode : flowdir.get c < 8
        · simp only [if_pos hcode, cellInDirection_lt hcode]
          exact ih _ _
        · simp only [if_neg hcode, cellInDirection_noDir hcode]
          refine ⟨fun A' h => (by cases h), fun _ => ⟨_, rfl, fun h => ?_⟩⟩
          have := h c hc
          rw [if_pos (by omega)]
      · simp only [if_neg hp]
        exact hok A
    · simp only [if_neg hc]
      exact hok A

theorem accumLoop8 (n : Nat) : ∀ (l : List Cell) (A : Raster Int),
    traceAll8 flowdir (fun c => (up flowdir c).isEmpty) n l A = some none →
    ∃ e, accumulatedFlowLoop flowdir n l A = some (.error e) ∧
      ((∀ c, flowdir.Has c → flowdir.get c ≤ 8) → e = .typeError) := by
  intro l
  induction l with
  | nil => intro A h; cases h
  | cons c l ih =>
    intro A h
    rw [traceAll8] at h
    rw [accumulatedFlowLoop, upstreamCells_eq]
    simp only
    by_cases hu : up flowdir c = []
    · rw [if_pos (by rw [hu]; rfl)] at h
      rw [if_pos hu]
      have hpy := trace8_python (flowdir := flowdir) n A c
      rcases ht : trace8 flowdir n A c with _ | _ | A1
      · rw [ht] at h; cases h
      · obtain ⟨e, he, hty⟩ := hpy.2 ht
        rw [he]
        exact ⟨e, rfl, hty⟩
      · rw [ht] at h
        rw [hpy.1 A1 ht]
        exact ih A1 h
    · rw [if_neg (by simpa using hu)] at h
      rw [if_neg hu]
      exact ih A h

end Flow

namespace FlowCython
open Flow
variable {flowdir : Raster Nat}

theorem cellInDirection_stay {c : Cell} {d : Nat} (h : ¬ d < 8) : cellInDirection (0, 0) c d = c := by
  obtain ⟨r, k⟩ := c
  unfold cellInDirection
  rw [if_neg (by omega), if_neg (by omega), if_neg (by omega), if_neg (by omega), if_neg (by omega),
    if_neg (by omega), if_neg (by omega), if_neg (by omega)]
  simp

theorem self_not_up {c : Cell} : c ∉ up flowdir c := by
  intro h
  have := flowsTo_iff.1 (mem_up.1 h).2
  have h2 := flowsTo_adj (mem_up.1 h).2
  exact h2.1 rfl

/-- With a zero delta for code 8 the compiled trace never leaves a resolved cell without a direction. -/
theorem trace_stay {c : Cell} (hc : flowdir.Has c) (hcode : ¬ flowdir.get c < 8) : ∀ (n : Nat) (A : Raster Int),
    (∀ u ∈ up flowdir c, 0 < A.get u) → traceAccumulatedFlow (0, 0) flowdir n A c = none := by
  intro n
  induction n with
  | zero => intro A _; rfl
  | succ n ih =>
    intro A hp
    rw [traceAccumulatedFlow, upstreamSum_eq (0, 0) A c _ _ (fun d hd => List.mem_range.1 hd)]
    have h1 : isInRaster flowdir.rows flowdir.cols c = true ↔ InGrid flowdir.rows flowdir.cols c := by
      simp [isInRaster, InGrid, and_assoc]
    rw [if_pos (h1.2 hc)]
    change (match (if ∀ u ∈ up flowdir c, 0 < A.get u then some (0 + ((up flowdir c).map A.get).sum) else none) with
        | none => _ | some s => _) = _
    rw [if_pos hp]
    simp only [zero_add]
    rw [cellInDirection_stay hcode]
    apply ih
    intro u hu
    have huc : u ≠ c := by
      rintro rfl
      exact self_not_up hu
    simpa [Raster.set, Function.update_of_ne huc] using hp u hu

theorem trace8_cython : ∀ (n : Nat) (A : Raster Int) (c : Cell) (A' : Raster Int),
    traceAccumulatedFlow (0, 0) flowdir n A c = some A' → trace8 flowdir n A c = some (some A') := by
  intro n
  induction n with
  | zero => intro A c A' h; cases h
  | succ n ih =>
    intro A c A' h
    by_cases hstuck : InGrid flowdir.rows flowdir.cols c ∧ (∀ u ∈ up flowdir c, 0 < A.get u) ∧ ¬ flowdir.get c < 8
    · rw [trace_stay hstuck.1 hstuck.2.2 (n + 1) A hstuck.2.1] at h
      cases h
    rw [traceAccumulatedFlow, upstreamSum_eq (0, 0) A c _ _ (fun d hd => List.mem_range.1 hd)] at h
    rw [trace8]
    have h1 : isInRaster flowdir.rows flowdir.cols c = true ↔ InGrid flowdir.rows flowdir.cols c := by
      simp [isInRaster, InGrid, and_assoc]
    by_cases hc : InGrid flowdir.rows flowdir.cols c
    · rw [if_pos (h1.2 hc)] at h
      rw [if_pos hc]
      change (match (if ∀ u ∈ up flowdir c, 0 < A.get u then some (0 + ((up flowdir c).map A.get).sum) else none) with
        | none => _ | some s => _) = _ at h
      by_cases hp : ∀ u ∈ up flowdir c, 0 < A.get u
      · rw [if_pos hp] at h
        simp only [zero_add] at h
        have hcode : flowdir.get c < 8 := by
          by_contra hno
          exact hstuck ⟨hc, hp, hno⟩
        rw [if_pos hp, if_pos hcode]
        rw [cellInDirection_lt (0, 0) c hcode] at h
        exact ih _ _ _ h
      · rw [if_neg hp] at h ⊢
        cases h
        rfl
    · rw [if_neg (by rw [h1]; exact hc)] at h
      rw [if_neg hc]
      cases h
      rfl

theorem accumLoop8 (n : Nat) : ∀ (l : List Cell) (A A' : Raster Int),
    accumulatedFlowLoop (0, 0) flowdir n l A = some A' → traceAll8 flowdir (fun _ => true) n l A = some (some A') := by
  intro l
  induction l with
  | nil => intro A A' h; cases h; rfl
  | cons c l ih =>
    intro A A' h
    rw [accumulatedFlowLoop] at h
    rw [traceAll8, if_pos rfl]
    cases ht : traceAccumulatedFlow (0, 0) flowdir n A c with
    | none => rw [ht] at h; cases h
    | some A1 =>
      rw [ht] at h
      rw [trace8_cython n A c A1 ht]
      exact ih A1 A' h

theorem trace_mono (junk : Int × Int) : ∀ n A c A', traceAccumulatedFlow junk flowdir n A c = some A' → ∀ m, n ≤ m →
    traceAccumulatedFlow junk flowdir m A c = some A' := by
  intro n
  induction n with
  | zero => intro A c A' h; cases h
  | succ n ih =>
    intro A c A' h m hm
    obtain ⟨m, rfl⟩ : ∃ k, m = k + 1 := ⟨m - 1, by omega⟩
    rw [traceAccumulatedFlow] at h ⊢
    split_ifs at h ⊢ with h1
    · cases hs : upstreamSum junk flowdir A c (List.range 8) 0 with
      | none => rw [hs] at h; exact h
      | some s =>
        rw [hs] at h
        exact ih _ _ _ h m (by omega)
    · exact h

theorem accumulatedFlow_mono {junk : Int × Int} {n m : Nat} {A : Raster Int}
    (h : accumulatedFlow junk flowdir n = some A) (hm : n ≤ m) : accumulatedFlow junk flowdir m = some A := by
  unfold accumulatedFlow at h ⊢
  generalize Raster.cellList flowdir.rows flowdir.cols = l at h ⊢
  generalize zeros flowdir.rows flowdir.cols = B at h ⊢
  induction l generalizing B with
  | nil => exact h
  | cons c l ih =>
    rw [accumulatedFlowLoop] at h ⊢
    cases ht : traceAccumulatedFlow junk flowdir n B c with
    | none => rw [ht] at h; cases h
    | some A1 =>
      rw [ht] at h
      rw [trace_mono junk n B c A1 ht m hm]
      exact ih A1 h

end FlowCython
end Malstroem
