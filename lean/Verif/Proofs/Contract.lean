/-
Bluespots left out of a network: those that stay get at least as much water.
-/
import Verif.Spec.Direct
import Mathlib.Algebra.BigOperators.Group.Finset.Basic
import Mathlib.Algebra.BigOperators.Ring.Finset
import Mathlib.Algebra.Order.BigOperators.Group.Finset
import Mathlib.Tactic.Linarith

namespace Malstroem
namespace Contract
open Spec Finset

variable {K : Type} [Field K] [LinearOrder K] [IsStrictOrderedRing K]

/-- Bluespot `b` of the fine numbering is bluespot `k` of the coarse one. -/
def Kept (m : Nat) (old : Nat → Nat) (b : Nat) : Prop := ∃ k, 1 ≤ k ∧ k ≤ m ∧ old k = b

/-- Following `next` from `b` through bluespots that are left out, the first that stays is `r`. -/
inductive Lands (m : Nat) (old : Nat → Nat) (next : Nat → Option Int) : Nat → Option Nat → Prop
  | kept {k} : 1 ≤ k → k ≤ m → Lands m old next (old k) (some k)
  | via {b b' r} : ¬ Kept m old b → next b = some ((b' : Nat) : Int) → Lands m old next b' r → Lands m old next b r
  | gone {b} : ¬ Kept m old b → next b = none → Lands m old next b none

theorem Lands.unique {m : Nat} {old : Nat → Nat} {next : Nat → Option Int}
    (hinj : ∀ k k', 1 ≤ k → k ≤ m → 1 ≤ k' → k' ≤ m → old k = old k' → k = k') {b : Nat} {r r' : Option Nat}
    (h : Lands m old next b r) : Lands m old next b r' → r = r' := by
  induction h with
  | @kept k h1 h2 =>
    intro h'
    generalize hb : old k = b at h'
    cases h' with
    | kept h3 h4 => rw [hinj _ _ h1 h2 h3 h4 hb]
    | via h3 => exact absurd ⟨k, h1, h2, hb⟩ h3
    | gone h3 => exact absurd ⟨k, h1, h2, hb⟩ h3
  | via h1 h2 _ ih =>
    intro h'
    cases h' with
    | kept h3 h4 => exact absurd ⟨_, h3, h4, rfl⟩ h1
    | via _ h4 h5 =>
      have := h2.symm.trans h4
      simp only [Option.some.injEq, Nat.cast_inj] at this
      exact ih (this ▸ h5)
    | gone _ h4 => rw [h2] at h4; exact nomatch h4
  | gone h1 h2 =>
    intro h'
    cases h' with
    | kept h3 h4 => exact absurd ⟨_, h3, h4, rfl⟩ h1
    | via _ h4 _ => rw [h2] at h4; exact nomatch h4
    | gone => rfl

omit [LinearOrder K] [IsStrictOrderedRing K] in
/-- A function that is computed along a forest exists. -/
theorem exists_along (n : Nat) (next : Nat → Option Int) (rank : Nat → Nat)
    (hrank : ∀ a ≤ n, ∀ b : Nat, next a = some (b : Int) → rank a < rank b) (F : Nat → K → K) :
    ∃ T : Nat → K, ∀ b, T b = F b (∑ a ∈ range (n + 1), if next a = some (b : Int) then T a else 0) := by
  classical
  let T : Nat → K := (measure rank).wf.fix fun b rec =>
    F b (∑ a ∈ range (n + 1), if h : rank a < rank b then (if next a = some (b : Int) then rec a h else 0) else 0)
  refine ⟨T, fun b => ?_⟩
  have : T b = F b (∑ a ∈ range (n + 1), if h : rank a < rank b then (if next a = some (b : Int) then T a else 0) else 0) :=
    (measure rank).wf.fix_eq _ b
  rw [this]
  congr 1
  refine sum_congr rfl fun a ha => ?_
  by_cases e : next a = some (b : Int)
  · rw [dif_pos (hrank a (by have := mem_range.1 ha; omega) b e)]
  · simp [e]

omit [LinearOrder K] [IsStrictOrderedRing K] in
theorem comesTo_sum (n : Nat) (next : Nat → Option Int) (water spill : Nat → K) (l : Nat) :
    comesTo n next water spill l = water l + ∑ a ∈ range (n + 1), if next a = some (l : Int) then spill a else 0 := by
  unfold comesTo
  congr 1
  generalize n + 1 = N
  induction N with
  | zero => simp
  | succ N ih =>
    rw [List.range_succ, List.filter_append, List.map_append, List.sum_append, ih, sum_range_succ]
    congr 1
    by_cases h : next N = some (l : Int) <;> simp [h]

/-- The main step: two final states, `n` bluespots of which `m` stay. -/
theorem more_water {n m : Nat} {old : Nat → Nat} {next next' : Nat → Option Int} {water cap v spill water' cap' v' spill' : Nat → K}
    (hold : ∀ k, 1 ≤ k → k ≤ m → 1 ≤ old k ∧ old k ≤ n)
    (hinj : ∀ k k', 1 ≤ k → k ≤ m → 1 ≤ k' → k' ≤ m → old k = old k' → k = k')
    (rank : Nat → Nat) (hrank : ∀ a ≤ n, ∀ b : Nat, next a = some (b : Int) → b ≤ n ∧ rank a < rank b)
    (hnat : ∀ a ≤ n, ∀ d, next a = some d → ∃ b : Nat, d = b)
    (hst : FinalState n next water cap v spill) (hst' : FinalState m next' water' cap' v' spill')
    (hw : ∀ b ≤ n, 0 ≤ water b) (hcap : ∀ b ≤ n, 0 ≤ cap b)
    (hnext : ∀ k, 1 ≤ k → k ≤ m → ∀ k', 1 ≤ k' → k' ≤ m →
      (next' k = some (k' : Int) ↔ ∃ b : Nat, next (old k) = some (b : Int) ∧ Lands m old next b (some k')))
    (hzero : next' 0 = none)
    (hwater : ∀ k, 1 ≤ k → k ≤ m → ∀ I : Finset Nat, (∀ b, b ∈ I ↔ b ≤ n ∧ Lands m old next b (some k)) →
      water' k = ∑ b ∈ I, water b)
    (hcap' : ∀ k, 1 ≤ k → k ≤ m → cap' k = cap (old k)) :
    ∀ k, 1 ≤ k → k ≤ m → v (old k) ≤ v' k ∧ spill (old k) ≤ spill' k := by
  classical
  -- the water passing bluespot `b` when the others are left out
  obtain ⟨T, hT⟩ := exists_along (K := K) n next rank (fun a ha b e => (hrank a ha b e).2)
    (fun b x => if h : Kept m old b then spill' h.choose else water b + x)
  have hTkept : ∀ k, 1 ≤ k → k ≤ m → T (old k) = spill' k := by
    intro k h1 h2
    have hk : Kept m old (old k) := ⟨k, h1, h2, rfl⟩
    rw [hT, dif_pos hk]
    congr 1
    exact hinj _ _ hk.choose_spec.1 hk.choose_spec.2.1 h1 h2 hk.choose_spec.2.2
  have hTleft : ∀ b, ¬ Kept m old b → T b = water b + ∑ a ∈ range (n + 1), if next a = some (b : Int) then T a else 0 := by
    intro b hb
    rw [hT, dif_neg hb]
  -- what comes to a bluespot that stays
  have hcomes : ∀ k, 1 ≤ k → k ≤ m → comesTo m next' water' spill' k =
      water (old k) + ∑ a ∈ range (n + 1), if next a = some ((old k : Nat) : Int) then T a else 0 := by
    intro k h1 h2
    obtain ⟨o1, o2⟩ := hold k h1 h2
    -- those that are left out and land in `k`
    set D := (range (n + 1)).filter fun b => ¬ Kept m old b ∧ Lands m old next b (some k) with hD
    have hDmem : ∀ b, b ∈ D ↔ b ≤ n ∧ ¬ Kept m old b ∧ Lands m old next b (some k) := by
      intro b; rw [hD, mem_filter, mem_range]; simp
    have hwk : water' k = water (old k) + ∑ b ∈ D, water b := by
      have hnot : old k ∉ D := fun h => ((hDmem _).1 h).2.1 ⟨k, h1, h2, rfl⟩
      rw [← sum_insert hnot]
      refine hwater k h1 h2 _ fun b => ?_
      rw [mem_insert, hDmem]
      constructor
      · rintro (rfl | ⟨h3, _, h4⟩)
        · exact ⟨o2, .kept h1 h2⟩
        · exact ⟨h3, h4⟩
      · rintro ⟨h3, h4⟩
        by_cases hb : Kept m old b
        · obtain ⟨k', h5, h6, rfl⟩ := hb
          have := h4.unique hinj (.kept h5 h6)
          simp only [Option.some.injEq] at this
          exact .inl (by rw [this])
        · exact .inr ⟨h3, hb, h4⟩
    -- sum of the equations of `D`
    have hsum : ∑ b ∈ D, T b = ∑ b ∈ D, water b + ∑ a ∈ range (n + 1), if ∃ b ∈ D, next a = some ((b : Nat) : Int) then T a else 0 := by
      rw [sum_congr rfl fun b hb => hTleft b ((hDmem b).1 hb).2.1, sum_add_distrib, sum_comm]
      congr 1
      refine sum_congr rfl fun a _ => ?_
      by_cases h : ∃ b ∈ D, next a = some ((b : Nat) : Int)
      · obtain ⟨b, hb, e⟩ := h
        rw [if_pos ⟨b, hb, e⟩, sum_eq_single_of_mem b hb, if_pos e]
        intro b' _ hne
        rw [if_neg]
        intro e'
        rw [e] at e'
        simp only [Option.some.injEq, Nat.cast_inj] at e'
        exact hne e'.symm
      · rw [if_neg h]
        exact sum_eq_zero fun b hb => if_neg fun e => h ⟨b, hb, e⟩
    have hsplit : ∑ b ∈ D, T b = ∑ a ∈ range (n + 1), if a ∈ D then T a else 0 := by
      rw [← sum_filter]
      refine sum_congr ?_ fun _ _ => rfl
      ext b
      exact ⟨fun h => mem_filter.2 ⟨mem_range.2 (by have := ((hDmem b).1 h).1; omega), h⟩, fun h => (mem_filter.1 h).2⟩
    -- the sum over the coarse bluespots as a sum over the fine ones
    have hco : (∑ a ∈ range (m + 1), if next' a = some (k : Int) then spill' a else 0) =
        ∑ a ∈ range (n + 1), if Kept m old a ∧ ∃ b : Nat, next a = some (b : Int) ∧ Lands m old next b (some k) then T a else 0 := by
      rw [← sum_filter, ← sum_filter]
      refine sum_bij (fun a _ => old a) ?_ ?_ ?_ ?_
      · intro a ha
        rw [mem_filter, mem_range] at ha ⊢
        have ha1 : 1 ≤ a := by
          rcases Nat.eq_zero_or_pos a with rfl | h
          · rw [hzero] at ha; exact nomatch ha.2
          · exact h
        have ha2 : a ≤ m := by omega
        exact ⟨by have := hold a ha1 ha2; omega, ⟨a, ha1, ha2, rfl⟩, (hnext a ha1 ha2 k h1 h2).1 ha.2⟩
      · intro a ha a' ha' e
        rw [mem_filter, mem_range] at ha ha'
        have ha1 : 1 ≤ a := by
          rcases Nat.eq_zero_or_pos a with rfl | h
          · rw [hzero] at ha; exact nomatch ha.2
          · exact h
        have ha1' : 1 ≤ a' := by
          rcases Nat.eq_zero_or_pos a' with rfl | h
          · rw [hzero] at ha'; exact nomatch ha'.2
          · exact h
        exact hinj a a' ha1 (by omega) ha1' (by omega) e
      · intro b hb
        rw [mem_filter] at hb
        obtain ⟨_, ⟨a, ha1, ha2, rfl⟩, hb⟩ := hb
        exact ⟨a, by rw [mem_filter, mem_range]; exact ⟨by omega, (hnext a ha1 ha2 k h1 h2).2 hb⟩, rfl⟩
      · intro a ha
        rw [mem_filter, mem_range] at ha
        have ha1 : 1 ≤ a := by
          rcases Nat.eq_zero_or_pos a with rfl | h
          · rw [hzero] at ha; exact nomatch ha.2
          · exact h
        exact (hTkept a ha1 (by omega)).symm
    rw [comesTo_sum, hwk, hco]
    -- each term
    have hterm : ∀ a ∈ range (n + 1),
        (if next a = some ((old k : Nat) : Int) then T a else 0) + (if ∃ b ∈ D, next a = some ((b : Nat) : Int) then T a else 0) =
        (if a ∈ D then T a else 0) +
          if Kept m old a ∧ ∃ b : Nat, next a = some (b : Int) ∧ Lands m old next b (some k) then T a else 0 := by
      intro a ha
      have han : a ≤ n := by have := mem_range.1 ha; omega
      rcases hna : next a with _ | d
      · have : a ∉ D := by
          intro h
          obtain ⟨_, h3, h4⟩ := (hDmem a).1 h
          exact nomatch h4.unique hinj (.gone h3 hna)
        simp [this]
      · obtain ⟨b, rfl⟩ := hnat a han d hna
        obtain ⟨hb, _⟩ := hrank a han b hna
        have e1 : (∃ b' ∈ D, some ((b : Nat) : Int) = some ((b' : Nat) : Int)) ↔ b ∈ D := by
          constructor
          · rintro ⟨b', h, e⟩
            simp only [Option.some.injEq, Nat.cast_inj] at e
            exact e ▸ h
          · exact fun h => ⟨b, h, rfl⟩
        have e2 : (∃ b' : Nat, some ((b : Nat) : Int) = some ((b' : Nat) : Int) ∧ Lands m old next b' (some k)) ↔
            Lands m old next b (some k) := by
          constructor
          · rintro ⟨b', e, h⟩
            simp only [Option.some.injEq, Nat.cast_inj] at e
            exact e ▸ h
          · exact fun h => ⟨b, rfl, h⟩
        have e3 : (some ((b : Nat) : Int) = some ((old k : Nat) : Int)) ↔ b = old k := by simp
        simp only [e1, e2, e3]
        -- `b` lands in `k` iff it is `old k` or in `D`
        have hL : Lands m old next b (some k) ↔ b = old k ∨ b ∈ D := by
          rw [hDmem]
          constructor
          · intro h
            by_cases hk : Kept m old b
            · obtain ⟨k', h5, h6, rfl⟩ := hk
              have := h.unique hinj (.kept h5 h6)
              simp only [Option.some.injEq] at this
              exact .inl (by rw [this])
            · exact .inr ⟨hb, hk, h⟩
          · rintro (rfl | ⟨_, _, h⟩)
            · exact .kept h1 h2
            · exact h
        have hnot : old k ∉ D := fun h => ((hDmem _).1 h).2.1 ⟨k, h1, h2, rfl⟩
        have haD : a ∈ D ↔ ¬ Kept m old a ∧ Lands m old next b (some k) := by
          rw [hDmem]
          constructor
          · rintro ⟨_, h3, h4⟩
            refine ⟨h3, ?_⟩
            cases h4 with
            | kept h5 h6 => exact absurd ⟨_, h5, h6, rfl⟩ h3
            | via _ e h5 =>
              rw [hna] at e
              simp only [Option.some.injEq, Nat.cast_inj] at e
              exact e ▸ h5
          · rintro ⟨h3, h4⟩
            exact ⟨han, h3, .via h3 hna h4⟩
        simp only [haD]
        by_cases hk : Kept m old a
        · by_cases hl : Lands m old next b (some k)
          · rcases hL.1 hl with rfl | h
            · simp [hk, hl, hnot]
            · have : b ≠ old k := fun e => hnot (e ▸ h)
              simp [hk, hl, this, h]
          · have h3 : b ≠ old k := fun e => hl (hL.2 (.inl e))
            have h4 : b ∉ D := fun e => hl (hL.2 (.inr e))
            simp [hl, h3, h4]
        · by_cases hl : Lands m old next b (some k)
          · rcases hL.1 hl with rfl | h
            · simp [hk, hl, hnot]
            · have : b ≠ old k := fun e => hnot (e ▸ h)
              simp [hk, hl, this, h]
          · have h3 : b ≠ old k := fun e => hl (hL.2 (.inl e))
            have h4 : b ∉ D := fun e => hl (hL.2 (.inr e))
            simp [hl, h3, h4]
    have htot := sum_congr (rfl : range (n + 1) = range (n + 1)) hterm
    rw [sum_add_distrib, sum_add_distrib] at htot
    rw [hsplit] at hsum
    linarith
  -- spilled water is at most what passes
  have hsp0 : ∀ b ≤ n, 0 ≤ spill b := fun b hb => by rw [(hst b hb).2]; exact le_max_left _ _
  have hle : ∀ N, ∀ b ≤ n, rank b ≤ N → spill b ≤ T b := by
    intro N
    induction N using Nat.strong_induction_on with
    | _ N ih =>
      intro b hb hbN
      have hin : (∑ a ∈ range (n + 1), if next a = some (b : Int) then spill a else 0) ≤
          ∑ a ∈ range (n + 1), if next a = some (b : Int) then T a else 0 := by
        refine sum_le_sum fun a ha => ?_
        have han : a ≤ n := by have := mem_range.1 ha; omega
        by_cases e : next a = some (b : Int)
        · rw [if_pos e, if_pos e]
          have := (hrank a han b e).2
          exact ih (rank a) (by omega) a han le_rfl
        · rw [if_neg e, if_neg e]
      have h0 : 0 ≤ ∑ a ∈ range (n + 1), if next a = some (b : Int) then spill a else 0 := by
        refine sum_nonneg fun a ha => ?_
        split
        · exact hsp0 a (by have := mem_range.1 ha; omega)
        · exact le_rfl
      have hs := (hst b hb).2
      rw [comesTo_sum] at hs
      by_cases hk : Kept m old b
      · obtain ⟨k, h1, h2, rfl⟩ := hk
        rw [hTkept k h1 h2, (hst' k h2).2, hs, hcomes k h1 h2, hcap' k h1 h2]
        exact max_le_max le_rfl (by linarith)
      · rw [hTleft b hk, hs]
        have := hw b hb
        have := hcap b hb
        exact max_le (by linarith) (by linarith)
  intro k h1 h2
  obtain ⟨o1, o2⟩ := hold k h1 h2
  refine ⟨?_, by rw [← hTkept k h1 h2]; exact hle _ _ o2 le_rfl⟩
  rw [(hst _ o2).1, (hst' k h2).1, hcomes k h1 h2, hcap' k h1 h2, comesTo_sum]
  refine min_le_min ?_ le_rfl
  gcongr with a ha
  have han : a ≤ n := by have := mem_range.1 ha; omega
  split
  · exact hle _ a han le_rfl
  · exact le_rfl

end Contract
end Malstroem
