/-
Bluespots left out on a raster: where the flow leads.
-/
import Verif.Proofs.Contract
import Verif.Proofs.FlowTrace
import Verif.Proofs.FlowWatershed
import Verif.Proofs.NetForest

namespace Malstroem
namespace Contract
open Spec

section Trace
variable {rows cols : Nat} {fd : Cell → Nat} {lab : Cell → Int}

theorem trace_head {c x : Cell} {t : List Cell} (h : IsTrace rows cols fd c (x :: t)) : x = c := by
  simpa using h.head

theorem trace_tail {c x y : Cell} {t : List Cell} (h : IsTrace rows cols fd c (x :: y :: t)) :
    IsTrace rows cols fd y (y :: t) ∧ Step rows cols fd c y := by
  obtain rfl := trace_head h
  have hch := List.isChain_cons_cons.1 h.chain
  refine ⟨⟨rfl, hch.2, fun z hz => h.inside z (List.mem_cons_of_mem _ hz), ?_⟩,
    h.inside x (by simp), h.inside y (by simp), hch.1⟩
  obtain ⟨e, he, hs⟩ := h.stop
  exact ⟨e, by rwa [List.getLast?_cons_cons] at he, hs⟩

theorem trace_suffix {x : Cell} {post : List Cell} : ∀ (pre : List Cell) (c : Cell),
    IsTrace rows cols fd c (pre ++ x :: post) → IsTrace rows cols fd x (x :: post) := by
  intro pre
  induction pre with
  | nil => intro c h; obtain rfl := trace_head h; exact h
  | cons y pre ih =>
    intro c h
    cases pre with
    | nil => exact (trace_tail h).1
    | cons z pre => exact ih z (trace_tail h).1

theorem first_of_prefix {x : Cell} {post : List Cell} {r : Int} (hx : FirstLabel rows cols fd lab 0 x r) :
    ∀ (pre : List Cell) (c : Cell), IsTrace rows cols fd c (pre ++ x :: post) → (∀ y ∈ pre, lab y = 0) →
      FirstLabel rows cols fd lab 0 c r := by
  intro pre
  induction pre with
  | nil => intro c h _; obtain rfl := trace_head h; exact hx
  | cons y pre ih =>
    intro c h h0
    have hy := trace_head h
    subst hy
    cases pre with
    | nil => exact .next (h0 y (by simp)) (trace_tail h).2 hx
    | cons z pre =>
      exact .next (h0 y (by simp)) (trace_tail h).2 (ih z (trace_tail h).1 fun w hw => h0 w (List.mem_cons_of_mem _ hw))

theorem first_of_zero : ∀ (l : List Cell) (c : Cell), IsTrace rows cols fd c l → (∀ y ∈ l, lab y = 0) →
    FirstLabel rows cols fd lab 0 c 0 := by
  intro l
  induction l with
  | nil => intro c h; have := h.head; simp at this
  | cons y l ih =>
    intro c h h0
    have hy := trace_head h
    subst hy
    cases l with
    | nil =>
      refine .out (h0 y (by simp)) fun d hd => ?_
      obtain ⟨e, he, hs⟩ := h.stop
      obtain rfl : y = e := by simpa using he
      exact hs d hd.2.2 hd.2.1
    | cons z l =>
      exact .next (h0 y (by simp)) (trace_tail h).2 (ih z (trace_tail h).1 fun w hw => h0 w (List.mem_cons_of_mem _ hw))

theorem first_split {c : Cell} {r : Int} (h : FirstLabel rows cols fd lab 0 c r) : ∀ l, IsTrace rows cols fd c l →
    (r = 0 ∧ ∀ y ∈ l, lab y = 0) ∨
    (r ≠ 0 ∧ ∃ pre x post, l = pre ++ x :: post ∧ (∀ y ∈ pre, lab y = 0) ∧ lab x = r) := by
  induction h with
  | @here c h =>
    intro l hl
    cases l with
    | nil => have := hl.head; simp at this
    | cons y l =>
      obtain rfl := trace_head hl
      exact .inr ⟨h, [], y, l, rfl, by simp, rfl⟩
  | @next c d v h0 hst _ ih =>
    intro l hl
    cases l with
    | nil => have := hl.head; simp at this
    | cons y l =>
      have hy := trace_head hl
      subst hy
      cases l with
      | nil =>
        obtain ⟨e, he, hs⟩ := hl.stop
        obtain rfl : y = e := by simpa using he
        exact absurd hst.2.1 (hs d hst.2.2)
      | cons z l =>
        obtain ⟨ht, hs⟩ := trace_tail hl
        obtain rfl := Flow.flowsTo_det hst.2.2 hs.2.2
        rcases ih _ ht with ⟨h1, h2⟩ | ⟨h1, pre, x, post, h2, h3, h4⟩
        · refine .inl ⟨h1, fun w hw => ?_⟩
          rcases List.mem_cons.1 hw with rfl | hw
          · exact h0
          · exact h2 w hw
        · refine .inr ⟨h1, y :: pre, x, post, by rw [h2]; rfl, fun w hw => ?_, h4⟩
          rcases List.mem_cons.1 hw with rfl | hw
          · exact h0
          · exact h3 w hw
  | @out c h0 hno =>
    intro l hl
    left
    refine ⟨rfl, fun w hw => ?_⟩
    cases l with
    | nil => exact nomatch hw
    | cons y l =>
      have hy := trace_head hl
      subst hy
      cases l with
      | nil => rw [List.mem_singleton.1 hw]; exact h0
      | cons z l => exact absurd (trace_tail hl).2 (hno z)

end Trace

/-- Labels of a loose and of a strict run: bluespot `k` of the strict run has the cells of `old k`, and all other cells have
no label in the strict run. -/
structure Compat (rows cols : Nat) (labL labS : Cell → Int) (n m : Nat) (old : Nat → Nat) : Prop where
  pos : ∀ k, 1 ≤ k → k ≤ m → 1 ≤ old k ∧ old k ≤ n
  inj : ∀ k k', 1 ≤ k → k ≤ m → 1 ≤ k' → k' ≤ m → old k = old k' → k = k'
  same : ∀ k, 1 ≤ k → k ≤ m → ∀ c, InGrid rows cols c → (labS c = k ↔ labL c = old k)
  range : ∀ c, InGrid rows cols c → 0 ≤ labL c ∧ labL c ≤ n
  rest : ∀ c, InGrid rows cols c → (∀ k, 1 ≤ k → k ≤ m → labL c ≠ (old k : Int)) → labS c = 0

variable {rows cols : Nat} {fd : Cell → Nat} {labL labS : Cell → Int} {n m : Nat} {old : Nat → Nat}
  {next : Nat → Option Int}

theorem Compat.left (h : Compat rows cols labL labS n m old) {c : Cell} (hc : InGrid rows cols c) {b : Nat}
    (hb : labL c = b) (hk : ¬ Kept m old b) : labS c = 0 := by
  refine h.rest c hc fun k h1 h2 e => hk ⟨k, h1, h2, ?_⟩
  rw [hb] at e
  exact_mod_cast e.symm

theorem Compat.zero_left (h : Compat rows cols labL labS n m old) : ¬ Kept m old 0 := by
  rintro ⟨k, h1, h2, e⟩
  have := h.pos k h1 h2
  omega

theorem Compat.zero (h : Compat rows cols labL labS n m old) {c : Cell} (hc : InGrid rows cols c) (h0 : labL c = 0) :
    labS c = 0 := h.left hc (b := 0) h0 h.zero_left

/-- Cells without label or of a bluespot that is left out have no label in the strict run. -/
theorem Compat.quiet (h : Compat rows cols labL labS n m old) {c : Cell} (hc : InGrid rows cols c) {b : Nat}
    (hk : ¬ Kept m old b) (hf : ¬ Foreign labL (some 0) b c) : labS c = 0 := by
  unfold Foreign at hf
  by_cases h0 : labL c = 0
  · exact h.zero hc h0
  · refine h.left hc (b := b) ?_ hk
    by_contra hne
    exact hf ⟨hne, fun e => h0 (Option.some.inj e)⟩

/-- The label of the strict run that stands for a landing. -/
def asLabel (r : Option Nat) : Int := r.elim 0 fun k => (k : Int)

/-- Where the flow from a cell leads in the loose run decides where it leads in the strict run. -/
theorem lands_first (h : Compat rows cols labL labS n m old) (hz : next 0 = none)
    (hone : ∀ b : Nat, 1 ≤ b → b ≤ n → ¬ Kept m old b → ∀ c, InGrid rows cols c → labL c = b →
      ∃ path, NextLabel rows cols fd labL (some 0) c (next b) path)
    {b : Nat} {r : Option Nat} (hL : Lands m old next b r) : b ≤ n → ∀ x v, InGrid rows cols x →
      FirstLabel rows cols fd labL 0 x v → v = (b : Int) → FirstLabel rows cols fd labS 0 x (asLabel r) := by
  induction hL with
  | @kept k h1 h2 =>
    intro _ x v hx hF
    induction hF with
    | @here c hn =>
      intro e
      have e' := (h.same k h1 h2 c hx).2 e
      have := FirstLabel.here (rows := rows) (cols := cols) (fd := fd) (lab := labS) (unassigned := (0 : Int)) (c := c)
        (by omega)
      rw [e'] at this
      exact this
    | next h0 hst _ ih => intro e; exact .next (h.zero hx h0) hst (ih hst.2.1 e)
    | out => intro e; have := h.pos k h1 h2; omega
  | @via b b' r hk e _ ih =>
    intro hb x v hx hF
    have hb1 : 1 ≤ b := by
      rcases Nat.eq_zero_or_pos b with rfl | h
      · rw [hz] at e; exact nomatch e
      · exact h
    induction hF with
    | @here c hn =>
      intro e'
      obtain ⟨path, l, hl, ⟨pre, y, post, rfl, hpre, hy, hd, -⟩ | ⟨-, hd, -⟩⟩ := hone b hb1 hb hk c hx e'
      · have hyb : labL y = (b' : Int) := by
          rw [e] at hd; exact (Option.some.inj hd).symm
        have hyin := hl.inside y (by simp)
        have hy0 : labL y ≠ 0 := fun h0 => hy.2 (by rw [h0])
        have hfirst := FirstLabel.here (rows := rows) (cols := cols) (fd := fd) (lab := labL) (unassigned := (0 : Int)) hy0
        rw [hyb] at hfirst
        have := h.range y hyin
        exact first_of_prefix (ih (by omega) y _ hyin hfirst rfl) pre c hl fun w hw =>
          h.quiet (hl.inside w (by simp [hw])) hk (by rw [← e']; exact hpre w hw)
      · rw [e] at hd; exact nomatch hd
    | next h0 hst _ ih' => intro e'; exact .next (h.zero hx h0) hst (ih' hst.2.1 e')
    | out => intro e'; omega
  | @gone b hk e =>
    intro hb x v hx hF
    induction hF with
    | @here c hn =>
      intro e'
      have hb1 : 1 ≤ b := by omega
      obtain ⟨path, l, hl, ⟨pre, y, post, rfl, hpre, hy, hd, -⟩ | ⟨hall, hd, -⟩⟩ := hone b hb1 hb hk c hx e'
      · rw [e] at hd; exact nomatch hd
      · refine first_of_zero l c hl fun y hy => ?_
        exact h.quiet (hl.inside y hy) hk (by rw [← e']; exact hall y hy)
    | next h0 hst _ ih' => intro e'; exact .next (h.zero hx h0) hst (ih' hst.2.1 e')
    | out h0 hno => intro _; exact .out (h.zero hx h0) hno

theorem Lands.pos {b : Nat} {r : Option Nat} (h : Lands m old next b r) : ∀ k, r = some k → 1 ≤ k ∧ k ≤ m := by
  induction h with
  | kept h1 h2 => intro k e; obtain rfl := Option.some.inj e; exact ⟨h1, h2⟩
  | via _ _ _ ih => exact ih
  | gone => exact nofun

/-- The next bluespot in the strict run. `p` is the pour point of `old k`, to which the flow does not return. -/
theorem next_strict (h : Compat rows cols labL labS n m old) (hz : next 0 = none)
    (hone : ∀ b : Nat, 1 ≤ b → b ≤ n → ¬ Kept m old b → ∀ c, InGrid rows cols c → labL c = b →
      ∃ path, NextLabel rows cols fd labL (some 0) c (next b) path)
    {k : Nat} (h1 : 1 ≤ k) (h2 : k ≤ m) {p : Cell} (hp : InGrid rows cols p) (hpl : labL p = old k)
    (hret : ∀ z, Relation.TransGen (Step rows cols fd) p z → labL z ≠ labL p)
    {path : List Cell} (hn : NextLabel rows cols fd labL (some 0) p (next (old k)) path) :
    (next (old k) = none → ∃ path', NextLabel rows cols fd labS (some 0) p none path') ∧
    ∀ (b : Nat) r, next (old k) = some (b : Int) → Lands m old next b r →
      ∃ path', NextLabel rows cols fd labS (some 0) p (r.map fun k => (k : Int)) path' := by
  have hpS : labS p = k := (h.same k h1 h2 p hp).2 hpl
  -- cells that are not foreign stay so
  have hown : ∀ y, InGrid rows cols y → ¬ Foreign labL (some 0) (labL p) y → ¬ Foreign labS (some 0) (labS p) y := by
    intro y hy hf hf'
    by_cases h0 : labL y = 0
    · exact hf'.2 (by rw [h.zero hy h0])
    · have : labL y = labL p := by
        by_contra hne
        exact hf ⟨hne, fun e => h0 (Option.some.inj e)⟩
      rw [hpl] at this
      exact hf'.1 (by rw [hpS]; exact (h.same k h1 h2 y hy).2 this)
  obtain ⟨l, hl, hcase⟩ := hn
  constructor
  · intro hnone
    rcases hcase with ⟨pre, x, post, -, -, -, hd, -⟩ | ⟨hall, -, -⟩
    · rw [hnone] at hd; exact nomatch hd
    · exact ⟨l, l, hl, .inr ⟨fun y hy => hown y (hl.inside y hy) (hall y hy), rfl, rfl⟩⟩
  · intro b r hb hL
    rcases hcase with ⟨pre, x, post, rfl, hpre, hx, hd, -⟩ | ⟨-, hd, -⟩
    · have hxb : labL x = (b : Int) := by rw [hb] at hd; exact (Option.some.inj hd).symm
      have hxin := hl.inside x (by simp)
      have hx0 : labL x ≠ 0 := fun h0 => hx.2 (by rw [h0])
      have hfirst := FirstLabel.here (rows := rows) (cols := cols) (fd := fd) (lab := labL) (unassigned := (0 : Int)) hx0
      have hrange := h.range x hxin
      have hS := lands_first h hz hone hL (by omega) x _ hxin hfirst hxb
      have hpx : Relation.TransGen (Step rows cols fd) p x := by
        rcases Relation.reflTransGen_iff_eq_or_transGen.1 ((Flow.trace_downstream _ _ hl x).1 (by simp)) with e | h
        · exact absurd (by rw [e]) hx.1
        · exact h
      have hsuf := trace_suffix pre p hl
      rcases first_split hS _ hsuf with ⟨e0, hall⟩ | ⟨hne, pre2, z, post2, e2, hpre2, hz2⟩
      · have hr : r = none := by
          cases r with
          | none => rfl
          | some k' =>
            have := hL.pos
            have e0 : (k' : Int) = 0 := e0
            have := this k' rfl
            omega
        subst hr
        refine ⟨_, _, hl, .inr ⟨fun y hy => ?_, rfl, rfl⟩⟩
        rcases List.mem_append.1 hy with hy' | hy'
        · exact hown y (hl.inside y hy) (hpre y hy')
        · exact fun hf => hf.2 (by rw [hall y hy'])
      · obtain ⟨k', rfl⟩ : ∃ k', r = some k' := by
          cases r with
          | none => exact absurd rfl hne
          | some k' => exact ⟨k', rfl⟩
        have hz2 : labS z = (k' : Int) := hz2
        have hzmem : z ∈ x :: post := by rw [e2]; simp
        have hpz : Relation.TransGen (Step rows cols fd) p z := hpx.trans_left ((Flow.trace_downstream _ _ hsuf z).1 hzmem)
        have hzin : InGrid rows cols z := hsuf.inside z hzmem
        refine ⟨pre ++ pre2 ++ [z], pre ++ x :: post, hl, .inl ⟨pre ++ pre2, z, post2, by rw [e2]; simp, fun y hy => ?_, ⟨?_, ?_⟩, ?_, rfl⟩⟩
        · rcases List.mem_append.1 hy with hy' | hy'
          · exact hown y (hl.inside y (by simp [hy'])) (hpre y hy')
          · exact fun hf => hf.2 (by rw [hpre2 y hy'])
        · rw [hpS]
          intro e
          exact hret z hpz (by rw [hpl]; exact (h.same k h1 h2 z hzin).1 e)
        · rw [hz2]
          intro e
          exact hne (Option.some.inj e)
        · rw [hz2]; rfl
    · rw [hb] at hd; exact nomatch hd

end Contract
end Malstroem
