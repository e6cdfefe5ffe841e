/-
Downstream traces.
-/
import Verif.Proofs.FlowDir

set_option linter.unusedSectionVars false

namespace Malstroem
open Spec

namespace Flow
variable {flowdir : Raster Nat}

/-- The cell reaches no flow cycle. -/
def ReachesNoCycle (rows cols : Nat) (fd : Cell → Nat) (c : Cell) : Prop :=
  ∀ b, Downstream rows cols fd c b → ¬ OnCycle rows cols fd b

theorem traceDownstream_mono : ∀ (n : Nat) (c : Cell) (r : List Cell × Option PyErr),
    traceDownstream flowdir n c = some r → traceDownstream flowdir (n + 1) c = some r := by
  intro n
  induction n with
  | zero => intro c r h; cases h
  | succ n ih =>
    intro c r h
    rw [traceDownstream] at h ⊢
    split_ifs at h ⊢ with hc
    · cases hd : directionToDelta (flowdir.get c) with
      | error e => rw [hd] at h; exact h
      | ok o =>
        cases o with
        | none => rw [hd] at h; exact h
        | some delta =>
          rw [hd] at h
          simp only [Option.map_eq_some_iff] at h ⊢
          obtain ⟨a, ha, hr⟩ := h
          exact ⟨a, ih _ _ ha, hr⟩
    · exact h

theorem traceDownstream_correct (hcodes : ∀ c, flowdir.Has c → flowdir.get c ≤ 8) :
    ∀ (n : Nat) (c : Cell) (r : List Cell × Option PyErr), traceDownstream flowdir n c = some r →
      r.2 = none ∧ (¬ flowdir.Has c → r.1 = []) ∧
      (flowdir.Has c → IsTrace flowdir.rows flowdir.cols flowdir.get c r.1) := by
  intro n
  induction n with
  | zero => intro c r h; cases h
  | succ n ih =>
    intro c r h
    rw [traceDownstream] at h
    by_cases hc : InGrid flowdir.rows flowdir.cols c
    · rw [if_pos (cellInRaster_iff.2 hc)] at h
      rcases (hcodes c hc).lt_or_eq with hlt | h8
      · rw [directionToDelta_lt hlt] at h
        simp only [Option.map_eq_some_iff] at h
        obtain ⟨⟨l, e⟩, hl, rfl⟩ := h
        obtain ⟨h1, h2, h3⟩ := ih _ _ hl
        refine ⟨h1, fun hn => absurd hc hn, fun _ => ?_⟩
        have hft : FlowsTo flowdir.get c (move c (flowdir.get c)) := flowsTo_iff.2 ⟨hlt, rfl⟩
        by_cases hd : flowdir.Has (move c (flowdir.get c))
        · have ht := h3 hd
          simp only at ht h1
          obtain ⟨x, l', rfl⟩ : ∃ x l', l = x :: l' := by
            cases l with
            | nil => have := ht.head; simp at this
            | cons x l' => exact ⟨x, l', rfl⟩
          have hx : x = move c (flowdir.get c) := Option.some.inj ht.head
          refine ⟨rfl, ?_, ?_, ?_⟩
          · exact List.isChain_cons_cons.2 ⟨hx ▸ hft, ht.chain⟩
          · intro y hy
            rcases List.mem_cons.1 hy with rfl | hy
            · exact hc
            · exact ht.inside y hy
          · obtain ⟨e, he, hs⟩ := ht.stop
            exact ⟨e, by rw [List.getLast?_cons_cons]; exact he, hs⟩
        · have hnil : l = [] := h2 hd
          subst hnil
          refine ⟨rfl, List.isChain_singleton _, by simpa using hc, c, rfl, fun d hdd => ?_⟩
          rw [flowsTo_det hdd hft]; exact hd
      · rw [h8, directionToDelta_8] at h
        simp only [Option.some.injEq] at h
        subst h
        refine ⟨rfl, fun hn => absurd hc hn, fun _ => ⟨rfl, List.isChain_singleton _, by simpa using hc, c, rfl, ?_⟩⟩
        intro d hd
        have := (flowsTo_iff.1 hd).1
        omega
    · rw [if_neg (by rw [cellInRaster_iff]; exact hc)] at h
      simp only [Option.some.injEq] at h
      subst h
      exact ⟨rfl, fun _ => rfl, fun h => absurd h hc⟩

theorem traceDownstream_total (hcodes : ∀ c, flowdir.Has c → flowdir.get c ≤ 8) : ∀ (m : Nat) (c : Cell),
    {b | InGrid flowdir.rows flowdir.cols b ∧ Downstream flowdir.rows flowdir.cols flowdir.get c b}.ncard ≤ m →
    (flowdir.Has c → ReachesNoCycle flowdir.rows flowdir.cols flowdir.get c) →
    ∃ r, traceDownstream flowdir (m + 1) c = some r := by
  intro m
  induction m with
  | zero =>
    intro c hm _
    by_cases hc : InGrid flowdir.rows flowdir.cols c
    · exfalso
      have : 0 < {b | InGrid flowdir.rows flowdir.cols b ∧
          Downstream flowdir.rows flowdir.cols flowdir.get c b}.ncard := by
        rw [Set.ncard_pos ((inGrid_finite _ _).subset fun x hx => hx.1)]
        exact ⟨c, hc, .refl⟩
      omega
    · rw [traceDownstream, if_neg (by rw [cellInRaster_iff]; exact hc)]
      exact ⟨_, rfl⟩
  | succ m ih =>
    intro c hm hcyc
    rw [traceDownstream]
    by_cases hc : InGrid flowdir.rows flowdir.cols c
    · rw [if_pos (cellInRaster_iff.2 hc)]
      rcases (hcodes c hc).lt_or_eq with hlt | h8
      · rw [directionToDelta_lt hlt]
        have hft : FlowsTo flowdir.get c (move c (flowdir.get c)) := flowsTo_iff.2 ⟨hlt, rfl⟩
        have hsub : ∀ b, InGrid flowdir.rows flowdir.cols (move c (flowdir.get c)) →
            Downstream flowdir.rows flowdir.cols flowdir.get (move c (flowdir.get c)) b →
            Downstream flowdir.rows flowdir.cols flowdir.get c b := fun b hd h => h.head ⟨hc, hd, hft⟩
        by_cases hd : InGrid flowdir.rows flowdir.cols (move c (flowdir.get c))
        · have hcard : {b | InGrid flowdir.rows flowdir.cols b ∧
              Downstream flowdir.rows flowdir.cols flowdir.get (move c (flowdir.get c)) b}.ncard <
              {b | InGrid flowdir.rows flowdir.cols b ∧
                Downstream flowdir.rows flowdir.cols flowdir.get c b}.ncard := by
            apply Set.ncard_lt_ncard _ ((inGrid_finite _ _).subset fun x hx => hx.1)
            refine ⟨fun x hx => ⟨hx.1, hsub x hd hx.2⟩, fun hs => ?_⟩
            have : c ∈ {b | InGrid flowdir.rows flowdir.cols b ∧
              Downstream flowdir.rows flowdir.cols flowdir.get (move c (flowdir.get c)) b} := hs ⟨hc, .refl⟩
            exact hcyc hc c .refl (Relation.TransGen.head' ⟨hc, hd, hft⟩ this.2)
          obtain ⟨r, hr⟩ := ih (move c (flowdir.get c)) (by omega)
            (fun _ b hb => hcyc hc b (hsub b hd hb))
          exact ⟨(c :: r.1, r.2), by
            simp only [Option.map_eq_some_iff]
            exact ⟨r, hr, rfl⟩⟩
        · refine ⟨([c], none), ?_⟩
          have : traceDownstream flowdir (m + 1) (move c (flowdir.get c)) = some ([], none) := by
            rw [traceDownstream, if_neg (by rw [cellInRaster_iff]; exact hd)]
          simp only [Option.map_eq_some_iff]
          exact ⟨([], none), this, rfl⟩
      · rw [h8, directionToDelta_8]
        exact ⟨_, rfl⟩
    · rw [if_neg (by rw [cellInRaster_iff]; exact hc)]
      exact ⟨_, rfl⟩

/-- The generator never ends once the flow runs into a cycle. -/
theorem traceDownstream_cycle : ∀ (n : Nat) (c b : Cell),
    Downstream flowdir.rows flowdir.cols flowdir.get c b → OnCycle flowdir.rows flowdir.cols flowdir.get b →
    traceDownstream flowdir n c = none := by
  intro n
  induction n with
  | zero => intro c b _ _; rfl
  | succ n ih =>
    intro c b hcb hb
    obtain ⟨d, hs, b', hdb', hb'⟩ : ∃ d, Step flowdir.rows flowdir.cols flowdir.get c d ∧
        ∃ b', Downstream flowdir.rows flowdir.cols flowdir.get d b' ∧
          OnCycle flowdir.rows flowdir.cols flowdir.get b' := by
      rcases Relation.ReflTransGen.cases_head hcb with rfl | ⟨d, hd, hdb⟩
      · obtain ⟨d, hd, hdc⟩ := Relation.TransGen.head'_iff.1 hb
        exact ⟨d, hd, c, hdc, hb⟩
      · exact ⟨d, hd, b, hdb, hb⟩
    obtain ⟨hlt, rfl⟩ := flowsTo_iff.1 hs.2.2
    rw [traceDownstream, if_pos (cellInRaster_iff.2 hs.1), directionToDelta_lt hlt]
    simp only [Option.map_eq_none_iff]
    exact ih _ b' hdb' hb'

/-- A trace that avoids cycles repeats no cell. -/
theorem trace_nodup {rows cols : Nat} {fd : Cell → Nat} : ∀ (l : List Cell) (c : Cell), IsTrace rows cols fd c l →
    (∀ x ∈ l, ¬ OnCycle rows cols fd x) → l.Nodup := by
  intro l
  induction l with
  | nil => intro c _ _; exact List.nodup_nil
  | cons x l ih =>
    intro c h hno
    cases l with
    | nil => simp
    | cons y l =>
      have hch := List.isChain_cons_cons.1 h.chain
      have ht : IsTrace rows cols fd y (y :: l) := by
        refine ⟨rfl, hch.2, fun z hz => h.inside z (by simp [hz]), ?_⟩
        obtain ⟨e, he, hs⟩ := h.stop
        exact ⟨e, by rw [List.getLast?_cons_cons] at he; exact he, hs⟩
      refine List.nodup_cons.2 ⟨fun hmem => ?_, ih y ht (fun z hz => hno z (by simp [hz]))⟩
      have hreach : ∀ (l : List Cell) (a : Cell), (a :: l).IsChain (FlowsTo fd) →
          (∀ z ∈ a :: l, InGrid rows cols z) → ∀ z ∈ a :: l, Downstream rows cols fd a z := by
        intro l
        induction l with
        | nil => intro a _ _ z hz; simp at hz; subst hz; exact .refl
        | cons b l ih =>
          intro a hc hi z hz
          rcases List.mem_cons.1 hz with rfl | hz
          · exact .refl
          · have hc := List.isChain_cons_cons.1 hc
            exact Relation.ReflTransGen.head ⟨hi a (by simp), hi b (by simp), hc.1⟩
              (ih b hc.2 (fun w hw => hi w (List.mem_cons_of_mem _ hw)) z hz)
      exact hno x (by simp) (Relation.TransGen.head'
        ⟨h.inside x (by simp), h.inside y (by simp), hch.1⟩ (hreach l y hch.2 ht.inside x hmem))

theorem trace_downstream {rows cols : Nat} {fd : Cell → Nat} : ∀ (l : List Cell) (c : Cell), IsTrace rows cols fd c l →
    ∀ x, x ∈ l ↔ Downstream rows cols fd c x := by
  intro l
  induction l with
  | nil => intro c h; have := h.head; simp at this
  | cons a l ih =>
    intro c h x
    have ha : a = c := by simpa using h.head
    subst ha
    cases l with
    | nil =>
      constructor
      · intro hx; simp at hx; subst hx; exact .refl
      · intro hx
        rcases Relation.ReflTransGen.cases_head hx with rfl | ⟨d, hd, _⟩
        · simp
        · obtain ⟨e, he, hs⟩ := h.stop
          simp at he
          subst he
          exact absurd hd.2.1 (hs d hd.2.2)
    | cons y l =>
      have hch := List.isChain_cons_cons.1 h.chain
      have ht : IsTrace rows cols fd y (y :: l) := by
        refine ⟨rfl, hch.2, fun z hz => h.inside z (by simp [hz]), ?_⟩
        obtain ⟨e, he, hs⟩ := h.stop
        exact ⟨e, by rw [List.getLast?_cons_cons] at he; exact he, hs⟩
      have hst : Step rows cols fd a y := ⟨h.inside a (by simp), h.inside y (by simp), hch.1⟩
      rw [List.mem_cons, ih y ht x]
      constructor
      · rintro (rfl | hx)
        · exact .refl
        · exact .head hst hx
      · intro hx
        rcases Relation.ReflTransGen.cases_head hx with rfl | ⟨d, hd, hdx⟩
        · exact .inl rfl
        · rw [step_det hd hst] at hdx
          exact .inr hdx

end Flow
end Malstroem
