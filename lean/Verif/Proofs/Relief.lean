/-
Final states of the same network with different capacities.
-/
import Verif.Proofs.Contract
import Verif.Spec.Relief

set_option linter.unusedSectionVars false

namespace Malstroem
namespace Relief
open Spec Finset Contract

variable {K : Type} [Field K] [LinearOrder K] [IsStrictOrderedRing K]

/-- Ranks that fall along the network can be turned into natural numbers that grow. -/
theorem natRank {γ : Type} [LinearOrder γ] {n : Nat} {next : Nat → Option Int} (rank : Nat → γ)
    (h : ∀ a ≤ n, ∀ b : Nat, next a = some (b : Int) → b ≤ n ∧ rank b < rank a) :
    ∃ r : Nat → Nat, ∀ a ≤ n, ∀ b : Nat, next a = some (b : Int) → b ≤ n ∧ r a < r b := by
  refine ⟨fun b => ((range (n + 1)).filter fun a => rank b < rank a).card, fun a ha b e => ?_⟩
  obtain ⟨h3, h4⟩ := h a ha b e
  refine ⟨h3, card_lt_card ⟨fun x hx => ?_, fun hsub => ?_⟩⟩
  · rw [mem_filter] at hx ⊢
    exact ⟨hx.1, h4.trans hx.2⟩
  · have := hsub (mem_filter.2 ⟨mem_range.2 (by omega), h4⟩)
    exact lt_irrefl _ (mem_filter.1 this).2

variable {n : Nat} {next : Nat → Option Int} {water cap v spill cap' v' spill' : Nat → K} {rank : Nat → Nat}

theorem held_and_spilled (hst : FinalState n next water cap v spill) {l : Nat} (hl : l ≤ n) :
    v l + spill l = comesTo n next water spill l := by
  rw [(hst l hl).1, (hst l hl).2]
  rcases le_total (comesTo n next water spill l) (cap l) with h | h
  · rw [min_eq_left h, max_eq_left (by linarith), add_zero]
  · rw [min_eq_right h, max_eq_right (by linarith)]; ring

/-- The balance of a part of the network into which nothing flows from outside. -/
theorem balance (hst : FinalState n next water cap v spill) (S : Finset Nat) (hS : ∀ a ∈ S, a ≤ n)
    (hup : ∀ a ≤ n, ∀ b ∈ S, next a = some ((b : Nat) : Int) → a ∈ S) :
    ∑ a ∈ S, v a + ∑ a ∈ S.filter (fun a => ∀ b ∈ S, next a ≠ some ((b : Nat) : Int)), spill a = ∑ a ∈ S, water a := by
  classical
  have h1 : ∑ l ∈ S, (v l + spill l) = ∑ l ∈ S, (water l + ∑ a ∈ range (n + 1), if next a = some (l : Int) then spill a else 0) :=
    sum_congr rfl fun l hl => by rw [held_and_spilled hst (hS l hl), comesTo_sum]
  rw [sum_add_distrib, sum_add_distrib, sum_comm] at h1
  have h2 : ∀ a ∈ range (n + 1), (∑ l ∈ S, if next a = some ((l : Nat) : Int) then spill a else 0) =
      if ∃ b ∈ S, next a = some ((b : Nat) : Int) then spill a else 0 := by
    intro a _
    by_cases h : ∃ b ∈ S, next a = some ((b : Nat) : Int)
    · obtain ⟨b, hb, e⟩ := h
      rw [if_pos ⟨b, hb, e⟩, sum_eq_single_of_mem b hb, if_pos e]
      intro b' _ hne
      rw [if_neg]
      intro e'
      rw [e] at e'
      simp only [Option.some.injEq, Nat.cast_inj] at e'
      exact hne e'.symm
    · rw [if_neg h]
      exact sum_eq_zero fun b hb => if_neg fun e => h ⟨b, hb, e⟩
  rw [sum_congr rfl h2, ← sum_filter] at h1
  have h3 : (range (n + 1)).filter (fun a => ∃ b ∈ S, next a = some ((b : Nat) : Int)) =
      S.filter fun a => ¬ ∀ b ∈ S, next a ≠ some ((b : Nat) : Int) := by
    ext a
    rw [mem_filter, mem_filter, mem_range]
    push Not
    constructor
    · rintro ⟨h4, b, hb, e⟩
      exact ⟨hup a (by omega) b hb e, b, hb, e⟩
    · rintro ⟨h4, h5⟩
      exact ⟨by have := hS a h4; omega, h5⟩
  rw [h3] at h1
  have h4 := sum_filter_add_sum_filter_not S (fun a => ∀ b ∈ S, next a ≠ some ((b : Nat) : Int)) spill
  linarith

theorem LeadsTo.le (hrank : ∀ a ≤ n, ∀ b : Nat, next a = some (b : Int) → b ≤ n ∧ rank a < rank b) {a b : Nat}
    (h : LeadsTo next a b) (ha : a ≤ n) : b ≤ n ∧ rank a ≤ rank b := by
  induction h with
  | refl => exact ⟨ha, le_rfl⟩
  | tail _ e ih =>
    obtain ⟨h1, h2⟩ := hrank _ ih.1 _ e
    exact ⟨h1, by omega⟩

/-- The water spilled by `l` and all that is held upstream of it is what was put in upstream of it. -/
theorem upstream_balance (hrank : ∀ a ≤ n, ∀ b : Nat, next a = some (b : Int) → b ≤ n ∧ rank a < rank b)
    (hst : FinalState n next water cap v spill) {l : Nat} (hl : l ≤ n) (S : Finset Nat)
    (hS : ∀ a, a ∈ S ↔ a ≤ n ∧ LeadsTo next a l) : ∑ a ∈ S, v a + spill l = ∑ a ∈ S, water a := by
  classical
  rw [← balance hst S (fun a h => ((hS a).1 h).1) fun a ha b hb e => (hS a).2 ⟨ha, .head e ((hS b).1 hb).2⟩]
  congr 1
  have : S.filter (fun a => ∀ b ∈ S, next a ≠ some ((b : Nat) : Int)) = {l} := by
    ext a
    rw [mem_filter, mem_singleton]
    constructor
    · rintro ⟨h1, h2⟩
      obtain ⟨h3, h4⟩ := (hS a).1 h1
      rcases Relation.ReflTransGen.cases_head h4 with rfl | ⟨b, e, h5⟩
      · rfl
      · exact absurd e (h2 b ((hS b).2 ⟨(hrank a h3 b e).1, h5⟩))
    · rintro rfl
      refine ⟨(hS a).2 ⟨hl, .refl⟩, fun b hb e => ?_⟩
      have h1 := (hrank a hl b e).2
      have h2 := (LeadsTo.le hrank ((hS b).1 hb).2 ((hS b).1 hb).1).2
      omega
  rw [this, sum_singleton]

/-- With larger capacities nothing spills more. -/
theorem spill_le (hrank : ∀ a ≤ n, ∀ b : Nat, next a = some (b : Int) → b ≤ n ∧ rank a < rank b)
    (hst : FinalState n next water cap v spill) (hst' : FinalState n next water cap' v' spill')
    (hcap : ∀ l ≤ n, cap l ≤ cap' l) : ∀ l ≤ n, comesTo n next water spill' l ≤ comesTo n next water spill l ∧ spill' l ≤ spill l := by
  have key : ∀ N, ∀ l ≤ n, rank l ≤ N → comesTo n next water spill' l ≤ comesTo n next water spill l ∧ spill' l ≤ spill l := by
    intro N
    induction N using Nat.strong_induction_on with
    | _ N ih =>
      intro l hl hN
      have h1 : comesTo n next water spill' l ≤ comesTo n next water spill l := by
        rw [comesTo_sum, comesTo_sum]
        gcongr with a ha
        have han : a ≤ n := by have := mem_range.1 ha; omega
        split
        · next e =>
          have := (hrank a han l e).2
          exact (ih (rank a) (by omega) a han le_rfl).2
        · exact le_rfl
      refine ⟨h1, ?_⟩
      rw [(hst l hl).2, (hst' l hl).2]
      have := hcap l hl
      exact max_le_max le_rfl (by linarith)
  exact fun l hl => key _ l hl le_rfl

/-- No more is added to what a bluespot holds than its capacity grows by. -/
theorem held_le (hrank : ∀ a ≤ n, ∀ b : Nat, next a = some (b : Int) → b ≤ n ∧ rank a < rank b)
    (hst : FinalState n next water cap v spill) (hst' : FinalState n next water cap' v' spill')
    (hcap : ∀ l ≤ n, cap l ≤ cap' l) : ∀ l ≤ n, v' l ≤ v l + (cap' l - cap l) := by
  intro l hl
  obtain ⟨h1, -⟩ := spill_le hrank hst hst' hcap l hl
  have := hcap l hl
  rw [(hst l hl).1, (hst' l hl).1, ← sub_le_iff_le_add]
  refine le_min ?_ ?_
  · have := min_le_left (comesTo n next water spill' l) (cap' l)
    linarith
  · have := min_le_right (comesTo n next water spill' l) (cap' l)
    linarith

/-- Where no capacity changes upstream, nothing changes. -/
theorem unchanged (hrank : ∀ a ≤ n, ∀ b : Nat, next a = some (b : Int) → b ≤ n ∧ rank a < rank b)
    (hst : FinalState n next water cap v spill) (hst' : FinalState n next water cap' v' spill') :
    ∀ l ≤ n, (∀ a ≤ n, LeadsTo next a l → cap' a = cap a) → v' l = v l ∧ spill' l = spill l := by
  have key : ∀ N, ∀ l ≤ n, rank l ≤ N → (∀ a ≤ n, LeadsTo next a l → cap' a = cap a) → v' l = v l ∧ spill' l = spill l := by
    intro N
    induction N using Nat.strong_induction_on with
    | _ N ih =>
      intro l hl hN h
      have h1 : comesTo n next water spill' l = comesTo n next water spill l := by
        rw [comesTo_sum, comesTo_sum]
        congr 1
        refine sum_congr rfl fun a ha => ?_
        have han : a ≤ n := by have := mem_range.1 ha; omega
        split
        · next e =>
          have := (hrank a han l e).2
          exact (ih (rank a) (by omega) a han le_rfl fun b hb hba => h b hb (hba.tail e)).2
        · rfl
      rw [(hst l hl).1, (hst' l hl).1, (hst l hl).2, (hst' l hl).2, h1, h l hl .refl]
      exact ⟨rfl, rfl⟩
  exact fun l hl h => key _ l hl le_rfl h

end Relief
end Malstroem
