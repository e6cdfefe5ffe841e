/-
Watersheds: correctness and termination of the stack loop.
-/
import Verif.Proofs.FlowAccum

set_option linter.unusedSectionVars false

namespace Malstroem
open Spec

theorem Returns.of_mono {ρ : Type*} {f : Nat → Option ρ} {r : ρ} {n : Nat} (h : f n = some r)
    (hm : ∀ n r, f n = some r → f (n + 1) = some r) : Returns f r := by
  refine ⟨n, fun m hnm => ?_⟩
  induction m, hnm using Nat.le_induction with
  | base => exact h
  | succ m _ ih => exact hm m r ih

namespace Flow

section Graph
variable {rows cols : Nat} {fd : Cell → Nat}

theorem flowsOut_no_step {e d : Cell} (he : FlowsOut rows cols fd e) : ¬ Step rows cols fd e d := by
  intro h
  obtain ⟨_, b, hb, hout⟩ := he
  rw [flowsTo_det hb h.2.2] at hout
  exact hout h.2.1

theorem not_onCycle_of_drains {a : Cell} (h : Drains rows cols fd a) : ¬ OnCycle rows cols fd a := by
  obtain ⟨e, hae, he⟩ := h
  intro hc
  induction hae using Relation.ReflTransGen.head_induction_on with
  | refl =>
    obtain ⟨b, hb, _⟩ := Relation.TransGen.head'_iff.1 hc
    exact flowsOut_no_step he hb
  | head h1 _ ih =>
    apply ih
    obtain ⟨b, hb, hba⟩ := Relation.TransGen.head'_iff.1 hc
    rw [step_det hb h1] at hba
    exact Relation.TransGen.tail' hba h1

theorem Drains.up {a c : Cell} (hac : Downstream rows cols fd a c) (h : Drains rows cols fd c) :
    Drains rows cols fd a := by
  obtain ⟨e, h1, h2⟩ := h
  exact ⟨e, hac.trans h1, h2⟩

theorem Drains.noCycleAbove {c : Cell} (h : Drains rows cols fd c) : NoCycleAbove rows cols fd c :=
  fun _ ha => not_onCycle_of_drains (Drains.up ha h)

theorem Drains.code_lt {c : Cell} (h : Drains rows cols fd c) : fd c < 8 := by
  obtain ⟨e, h1, h2⟩ := h
  rcases Relation.ReflTransGen.cases_head h1 with rfl | ⟨b, hb, _⟩
  · obtain ⟨_, b, hb, _⟩ := h2
    exact (flowsTo_iff.1 hb).1
  · exact (flowsTo_iff.1 hb.2.2).1

theorem flowsOut_onEdge {e : Cell} (h : FlowsOut rows cols fd e) : OnEdge rows cols e := by
  obtain ⟨h1, b, hb, hout⟩ := h
  rcases edge_or_interior h1 with h | h
  · exact h
  · exact absurd (interior_adj_inGrid h (flowsTo_adj hb)) hout

variable {L : Type*} [DecidableEq L] {un : L}

theorem firstLabel_det {lab : Cell → L} {c : Cell} {v : L} (h : FirstLabel rows cols fd lab un c v) :
    ∀ {w}, FirstLabel rows cols fd lab un c w → v = w := by
  induction h with
  | here h =>
    intro w hw
    cases hw with
    | here _ => rfl
    | next h' _ _ => exact absurd h' h
    | out h' _ => exact absurd h' h
  | next h hs _ ih =>
    intro w hw
    cases hw with
    | here h' => exact absurd h h'
    | next _ hs' hw' => rw [step_det hs' hs] at hw'; exact ih hw'
    | out _ hn => exact absurd hs (hn _)
  | out h hn =>
    intro w hw
    cases hw with
    | here h' => exact absurd h h'
    | next _ hs' _ => exact absurd hs' (hn _)
    | out _ _ => rfl

theorem firstLabel_exists (lab : Cell → L) {c : Cell} (h : Drains rows cols fd c) :
    ∃ v, FirstLabel rows cols fd lab un c v := by
  obtain ⟨e, hce, he⟩ := h
  induction hce using Relation.ReflTransGen.head_induction_on with
  | refl =>
    by_cases hl : lab e = un
    · exact ⟨un, .out hl fun d => flowsOut_no_step he⟩
    · exact ⟨_, .here hl⟩
  | @head a _ h1 _ ih =>
    obtain ⟨v, hv⟩ := ih
    by_cases hl : lab a = un
    · exact ⟨v, .next hl h1 hv⟩
    · exact ⟨_, .here hl⟩

/-- Writing the right label into an unassigned cell does not change any first label. -/
theorem firstLabel_update {lab : Cell → L} {c : Cell} {l : L} (hun : lab c = un)
    (hl : FirstLabel rows cols fd lab un c l) {x : Cell} {v : L} (h : FirstLabel rows cols fd lab un x v) :
    FirstLabel rows cols fd (Function.update lab c l) un x v := by
  by_cases hlu : l = un
  · have : Function.update lab c l = lab := by
      rw [hlu, ← hun]; exact Function.update_eq_self c lab
    rw [this]; exact h
  · have hc : FirstLabel rows cols fd (Function.update lab c l) un c l := by
      have := FirstLabel.here (rows := rows) (cols := cols) (fd := fd) (lab := Function.update lab c l) (c := c)
        (unassigned := un) (by simpa using hlu)
      simpa using this
    induction h with
    | @here x hx =>
      have hxc : x ≠ c := fun h => hx (h ▸ hun)
      have := FirstLabel.here (rows := rows) (cols := cols) (fd := fd) (lab := Function.update lab c l) (c := x)
        (unassigned := un) (by rw [Function.update_of_ne hxc]; exact hx)
      rwa [Function.update_of_ne hxc] at this
    | @next x d v hx hs hv ih =>
      by_cases hxc : x = c
      · subst hxc
        rw [← firstLabel_det hl (.next hx hs hv)]
        exact hc
      · exact .next (by rw [Function.update_of_ne hxc]; exact hx) hs ih
    | @out x hx hn =>
      by_cases hxc : x = c
      · subst hxc
        have := firstLabel_det hl (.out hx hn)
        exact absurd this hlu
      · exact .out (by rw [Function.update_of_ne hxc]; exact hx) hn

end Graph

variable {flowdir : Raster Nat} {L : Type*} [DecidableEq L] {un : L}

/-- First label in a raster. -/
abbrev FL (flowdir : Raster Nat) (lab : Raster L) (un : L) : Cell → L → Prop :=
  FirstLabel flowdir.rows flowdir.cols flowdir.get lab.get un

/-- Invariant of the stack entries. -/
def StackOk (flowdir : Raster Nat) (un : L) (good : Prop) (lab : Raster L) (stack : List (Cell × L)) : Prop :=
  ∀ p ∈ stack, flowdir.Has p.1 ∧ Drains flowdir.rows flowdir.cols flowdir.get p.1 ∧
    (lab.get p.1 = un → (¬ good ∧ p.2 = un) ∨ FL flowdir lab un p.1 p.2)

/-- What a run of the loop does to the label raster. -/
structure Refines (flowdir : Raster Nat) (un : L) (lab lab' : Raster L) : Prop where
  shape : lab'.rows = lab.rows ∧ lab'.cols = lab.cols
  pres : ∀ x v, FL flowdir lab un x v → FL flowdir lab' un x v
  keep : ∀ x, ¬ Drains flowdir.rows flowdir.cols flowdir.get x → lab'.get x = lab.get x
  correct : ∀ x, FL flowdir lab un x (lab.get x) → FL flowdir lab' un x (lab'.get x)

theorem Refines.rfl' (lab : Raster L) : Refines flowdir un lab lab :=
  ⟨⟨rfl, rfl⟩, fun _ _ h => h, fun _ _ => rfl, fun _ h => h⟩

theorem Refines.trans {a b c : Raster L} (h : Refines flowdir un a b) (h' : Refines flowdir un b c) :
    Refines flowdir un a c :=
  ⟨⟨h'.shape.1.trans h.shape.1, h'.shape.2.trans h.shape.2⟩, fun x v hx => h'.pres x v (h.pres x v hx),
    fun x hx => (h'.keep x hx).trans (h.keep x hx), fun x hx => h'.correct x (h.correct x hx)⟩

theorem pop_spec (good : Prop) {lab : Raster L} {c : Cell} {l : L} (hd : Drains flowdir.rows flowdir.cols flowdir.get c)
    (hl : lab.get c = un → (¬ good ∧ l = un) ∨ FL flowdir lab un c l) :
    let lab' := if lab.get c = un then lab.set c l else lab
    let lbl := if lab.get c = un then l else lab.get c
    Refines flowdir un lab lab' ∧ ((¬ good ∧ lbl = un) ∨ FL flowdir lab' un c lbl) ∧
      (good → FL flowdir lab' un c (lab'.get c)) := by
  simp only
  by_cases hun : lab.get c = un
  · simp only [if_pos hun]
    rcases hl hun with ⟨hg, rfl⟩ | hF
    · have : lab.set c l = lab := by
        simp only [Raster.set]
        rw [← hun, Function.update_eq_self]
      rw [this]
      exact ⟨Refines.rfl' lab, .inl ⟨hg, rfl⟩, fun h => absurd h hg⟩
    · have hup : ∀ x v, FL flowdir lab un x v → FL flowdir (lab.set c l) un x v :=
        fun x v hx => firstLabel_update hun hF hx
      have hcl : (lab.set c l).get c = l := by simp [Raster.set]
      refine ⟨⟨⟨rfl, rfl⟩, hup, ?_, ?_⟩, .inr (hup c l hF), fun _ => by rw [hcl]; exact hup c l hF⟩
      · intro x hx
        have : x ≠ c := by rintro rfl; exact hx hd
        simp [Raster.set, Function.update_of_ne this]
      · intro x hx
        by_cases hxc : x = c
        · subst hxc
          rw [hcl]; exact hup x l hF
        · have : (lab.set c l).get x = lab.get x := by simp [Raster.set, Function.update_of_ne hxc]
          rw [this]; exact hup _ _ hx
  · simp only [if_neg hun]
    exact ⟨Refines.rfl' lab, .inr (.here hun), fun _ => .here hun⟩

theorem assignLoop_spec (good : Prop) : ∀ (n : Nat) (lab : Raster L) (stack : List (Cell × L)),
    StackOk flowdir un good lab stack → (stack.map fun p => N flowdir p.1).sum ≤ n →
    ∃ lab', assignLoop flowdir un n lab stack = some (.ok lab') ∧ Refines flowdir un lab lab' ∧
      (good → ∀ p ∈ stack, ∀ x, Downstream flowdir.rows flowdir.cols flowdir.get x p.1 →
        FL flowdir lab' un x (lab'.get x)) := by
  intro n
  induction n with
  | zero =>
    intro lab stack hS hn
    cases stack with
    | nil => exact ⟨lab, rfl, Refines.rfl' lab, by simp⟩
    | cons p rest =>
      have : 0 < N flowdir p.1 := upstreamCount_pos (hS p (by simp)).1
      simp only [List.map_cons, List.sum_cons] at hn
      omega
  | succ n ih =>
    intro lab stack hS hn
    cases stack with
    | nil => exact ⟨lab, rfl, Refines.rfl' lab, by simp⟩
    | cons p rest =>
      obtain ⟨c, l⟩ := p
      obtain ⟨hc, hd, hl⟩ := hS (c, l) (by simp)
      replace hc : flowdir.Has c := hc
      replace hd : Drains flowdir.rows flowdir.cols flowdir.get c := hd
      obtain ⟨h1, h2, h3⟩ := pop_spec good hd hl
      rw [assignLoop, upstreamCells_eq]
      simp only at h1 h2 h3 ⊢
      generalize (if lab.get c = un then lab.set c l else lab) = lab1 at h1 h2 h3 ⊢
      generalize (if lab.get c = un then l else lab.get c) = lbl at h2 ⊢
      have hS' : StackOk flowdir un good lab1 (((up flowdir c).map fun x => (x, lbl)).reverse ++ rest) := by
        intro q hq
        simp only [List.mem_append, List.mem_reverse, List.mem_map] at hq
        rcases hq with ⟨u, hu, rfl⟩ | hq
        · have hs := (step_iff_mem_up hc).2 hu
          refine ⟨hs.1, Drains.up (.single hs) hd, fun hun => ?_⟩
          rcases h2 with h2 | h2
          · exact .inl h2
          · exact .inr (.next hun hs h2)
        · obtain ⟨g1, g2, g3⟩ := hS q (by simp [hq])
          refine ⟨g1, g2, fun hun => ?_⟩
          by_cases hq0 : lab.get q.1 = un
          · rcases g3 hq0 with g | g
            · exact .inl g
            · exact .inr (h1.pres _ _ g)
          · exfalso
            have := firstLabel_det (h1.pres _ _ (.here hq0)) (h1.correct _ (.here hq0))
            rw [hun] at this
            exact hq0 this
      have hn' : ((((up flowdir c).map fun x => (x, lbl)).reverse ++ rest).map fun p => N flowdir p.1).sum ≤ n := by
        have hrec := upstreamCount_rec hc (Drains.noCycleAbove hd)
        have : ((((up flowdir c).map fun x => (x, lbl)).reverse ++ rest).map fun p => N flowdir p.1).sum =
            ((up flowdir c).map (N flowdir)).sum + (rest.map fun p => N flowdir p.1).sum := by
          rw [List.map_append, List.sum_append, List.map_reverse, List.sum_reverse, List.map_map]
          rfl
        simp only [List.map_cons, List.sum_cons] at hn
        rw [this]
        rw [hrec] at hn
        omega
      obtain ⟨lab', g1, g2, g3⟩ := ih lab1 _ hS' hn'
      refine ⟨lab', g1, h1.trans g2, fun hg p hp x hx => ?_⟩
      rcases List.mem_cons.1 hp with rfl | hp
      · rcases Relation.ReflTransGen.cases_tail hx with hxc | ⟨u, hxu, huc⟩
        · rw [← hxc]; exact g2.correct _ (h3 hg)
        · exact g3 hg (u, lbl) (by
            simp only [List.mem_append, List.mem_reverse, List.mem_map]
            exact .inl ⟨u, (step_iff_mem_up hc).1 huc, rfl⟩) x hxu
      · exact g3 hg p (by simp [hp]) x hx

theorem assignLoop_mono : ∀ (n : Nat) (lab : Raster L) (stack : List (Cell × L)) (r : Except PyErr (Raster L)),
    assignLoop flowdir un n lab stack = some r → assignLoop flowdir un (n + 1) lab stack = some r := by
  intro n
  induction n with
  | zero =>
    intro lab stack r h
    cases stack with
    | nil => exact h
    | cons p rest => cases h
  | succ n ih =>
    intro lab stack r h
    cases stack with
    | nil => exact h
    | cons p rest =>
      obtain ⟨c, l⟩ := p
      rw [assignLoop, upstreamCells_eq] at h ⊢
      exact ih _ _ _ h

theorem watershedsLoop_mono : ∀ (l : List Cell) (n : Nat) (lab : Raster L) (r : Except PyErr (Raster L)),
    watershedsLoop flowdir un n l lab = some r → watershedsLoop flowdir un (n + 1) l lab = some r := by
  intro l
  induction l with
  | nil => intro n lab r h; exact h
  | cons c l ih =>
    intro n lab r h
    rw [watershedsLoop] at h ⊢
    cases h1 : assignWatershedsUpstream flowdir lab c un n with
    | none => rw [h1] at h; cases h
    | some e =>
      rw [h1] at h
      have : assignWatershedsUpstream flowdir lab c un (n + 1) = some e := assignLoop_mono _ _ _ _ h1
      rw [this]
      cases e with
      | error e => exact h
      | ok lab1 => exact ih _ _ _ h

theorem assign_spec {lab : Raster L} {c : Cell} (hc : flowdir.Has c)
    (hd : Drains flowdir.rows flowdir.cols flowdir.get c) {n : Nat} (hn : flowdir.rows * flowdir.cols ≤ n) :
    ∃ lab', assignWatershedsUpstream flowdir lab c un n = some (.ok lab') ∧ Refines flowdir un lab lab' ∧
      (FlowsOut flowdir.rows flowdir.cols flowdir.get c →
        ∀ x, Downstream flowdir.rows flowdir.cols flowdir.get x c → FL flowdir lab' un x (lab'.get x)) := by
  have := assignLoop_spec (flowdir := flowdir) (un := un) (FlowsOut flowdir.rows flowdir.cols flowdir.get c) n lab
    [(c, un)] (by
      intro p hp
      simp only [List.mem_singleton] at hp
      subst hp
      refine ⟨hc, hd, fun hun => ?_⟩
      by_cases ho : FlowsOut flowdir.rows flowdir.cols flowdir.get c
      · exact .inr (.out hun fun d => flowsOut_no_step ho)
      · exact .inl ⟨ho, rfl⟩) (by
      have := upstreamCount_le_total (rows := flowdir.rows) (cols := flowdir.cols) (fd := flowdir.get) c
      simpa using this.trans hn)
  obtain ⟨lab', h1, h2, h3⟩ := this
  exact ⟨lab', h1, h2, fun hg x hx => h3 hg (c, un) (by simp) x hx⟩

theorem watershedsLoop_spec {n : Nat} (hn : flowdir.rows * flowdir.cols ≤ n) : ∀ (l : List Cell) (lab : Raster L),
    (∀ c ∈ l, flowdir.Has c ∧ Drains flowdir.rows flowdir.cols flowdir.get c) →
    ∃ lab', watershedsLoop flowdir un n l lab = some (.ok lab') ∧ Refines flowdir un lab lab' ∧
      (∀ c ∈ l, FlowsOut flowdir.rows flowdir.cols flowdir.get c →
        ∀ x, Downstream flowdir.rows flowdir.cols flowdir.get x c → FL flowdir lab' un x (lab'.get x)) := by
  intro l
  induction l with
  | nil => intro lab _; exact ⟨lab, rfl, Refines.rfl' lab, by simp⟩
  | cons c l ih =>
    intro lab h
    obtain ⟨hc, hd⟩ := h c (by simp)
    obtain ⟨lab1, h1, h2, h3⟩ := assign_spec (un := un) (lab := lab) hc hd hn
    obtain ⟨lab', g1, g2, g3⟩ := ih lab1 (fun x hx => h x (by simp [hx]))
    refine ⟨lab', by rw [watershedsLoop, h1]; exact g1, h2.trans g2, fun x hx ho y hy => ?_⟩
    rcases List.mem_cons.1 hx with rfl | hx
    · exact g2.correct _ (h3 ho y hy)
    · exact g3 x hx ho y hy

theorem watershedsLoop_returns (lab : Raster L) (l : List Cell)
    (hl : ∀ c ∈ l, flowdir.Has c ∧ Drains flowdir.rows flowdir.cols flowdir.get c)
    (hall : ∀ c, OnEdge flowdir.rows flowdir.cols c → c ∈ l) :
    ∃ lab', Returns (fun n => watershedsLoop flowdir un n l lab) (.ok lab') ∧
      (lab'.rows = lab.rows ∧ lab'.cols = lab.cols) ∧
      (∀ x, Drains flowdir.rows flowdir.cols flowdir.get x → FL flowdir lab un x (lab'.get x)) ∧
      (∀ x, ¬ Drains flowdir.rows flowdir.cols flowdir.get x → lab'.get x = lab.get x) := by
  obtain ⟨lab', h1, h2, h3⟩ := watershedsLoop_spec (un := un) (le_refl (flowdir.rows * flowdir.cols)) l lab hl
  refine ⟨lab', Returns.of_mono h1 (fun n r h => watershedsLoop_mono l n lab r h), h2.shape, fun x hx => ?_, h2.keep⟩
  obtain ⟨v, hv⟩ := firstLabel_exists (un := un) lab.get hx
  obtain ⟨e, hxe, he⟩ := hx
  have hF := h3 e (hall e (flowsOut_onEdge he)) he x hxe
  rw [← firstLabel_det (h2.pres x v hv) hF]
  exact hv

theorem mem_edgeCellIndexes {rows cols : Nat} (hr : 0 < rows) (hc : 0 < cols) {c : Cell} :
    c ∈ edgeCellIndexes rows cols ↔ OnEdge rows cols c := by
  obtain ⟨r, k⟩ := c
  simp only [edgeCellIndexes, List.mem_append, List.mem_flatMap, mem_pyRange_pos, List.mem_cons, Prod.mk.injEq,
    List.not_mem_nil, or_false, OnEdge, InGrid]
  constructor
  · rintro (⟨a, h1, h2⟩ | ⟨a, h1, h2⟩) <;> omega
  · intro h
    by_cases h1 : r = 0 ∨ r = (rows : Int) - 1
    · exact .inl ⟨k, by omega, by omega⟩
    · exact .inr ⟨r, by omega, by omega⟩

end Flow

namespace FlowCython
open Flow
variable {flowdir : Raster Nat} {L : Type*} [DecidableEq L]

theorem pushUpstream_eq (junk : Int × Int) (c : Cell) (lbl : L) : ∀ (l : List Nat) (stack : List (Cell × L)),
    (∀ d ∈ l, d < 8) → pushUpstream junk flowdir c lbl l stack =
      (((l.filter (isUp flowdir c)).map (move c)).map fun x => (x, lbl)).reverse ++ stack := by
  intro l
  induction l with
  | nil => intro stack _; rfl
  | cons d l ih =>
    intro stack hl
    have hd := hl d (by simp)
    have hup := isUp_eq (flowdir := flowdir) junk c hd
    rw [cellInDirection_lt junk c hd] at hup
    rw [pushUpstream]
    simp only [cellInDirection_lt junk c hd, hup]
    have ih' := fun stack => ih stack (fun x hx => hl x (by simp [hx]))
    by_cases hb : isUp flowdir c d = true
    · rw [if_pos hb, List.filter_cons_of_pos hb, ih']
      simp
    · rw [if_neg hb, List.filter_cons_of_neg hb, ih']

theorem assignLoop_eq (junk : Int × Int) (un : L) : ∀ (n : Nat) (lab : Raster L) (stack : List (Cell × L)),
    Flow.assignLoop flowdir un n lab stack = (assignLoop junk flowdir un n lab stack).map .ok := by
  intro n
  induction n with
  | zero => intro lab stack; cases stack <;> rfl
  | succ n ih =>
    intro lab stack
    cases stack with
    | nil => rfl
    | cons p rest =>
      obtain ⟨c, l⟩ := p
      rw [Flow.assignLoop, upstreamCells_eq, assignLoop]
      simp only
      rw [pushUpstream_eq junk c _ _ _ (fun d hd => List.mem_range.1 hd)]
      exact ih _ _

end FlowCython
end Malstroem
