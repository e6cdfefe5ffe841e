import Verif.Model.Approx
import Verif.Spec.Hyps
import Verif.Proofs.Dict
import Mathlib.Algebra.Order.Floor.Ring
import Mathlib.Algebra.Order.BigOperators.Group.List
import Mathlib.Tactic.Ring
import Mathlib.Tactic.Linarith
import Mathlib.Tactic.FieldSimp
import Mathlib.Tactic.LinearCombination
import Mathlib.Tactic.Positivity

set_option linter.unusedSectionVars false

namespace Malstroem
open Spec

variable {K : Type} [Field K] [LinearOrder K] [IsStrictOrderedRing K]

/-! ### Cumulative sums -/

theorem length_npCumsumFrom : ∀ (l : List K) (acc : K), (npCumsumFrom acc l).length = l.length := by
  intro l
  induction l with
  | nil => intro acc; rfl
  | cons x xs ih => intro acc; simp [npCumsumFrom, ih]

theorem getElem?_npCumsumFrom : ∀ (l : List K) (acc : K) (i : Nat), i < l.length →
    (npCumsumFrom acc l)[i]? = some (acc + (l.take (i + 1)).sum) := by
  intro l
  induction l with
  | nil => intro acc i h; simp at h
  | cons x xs ih =>
    intro acc i h
    cases i with
    | zero => simp [npCumsumFrom]
    | succ i =>
      have h' : i < xs.length := by simpa using h
      rw [npCumsumFrom, List.getElem?_cons_succ, ih _ _ h', List.take_succ_cons, List.sum_cons]
      congr 1; ring

theorem length_npCumsum (l : List K) : (npCumsum l).length = l.length := length_npCumsumFrom l 0

theorem getElem?_npCumsum {l : List K} {i : Nat} (h : i < l.length) :
    (npCumsum l)[i]? = some ((l.take (i + 1)).sum) := by
  unfold npCumsum; rw [getElem?_npCumsumFrom l 0 i h, zero_add]

/-! ### Truncation and histogram -/

variable [FloorRing K]

theorem pyTrunc_lt (x : K) : x < pyTrunc x + 1 := by
  unfold pyTrunc
  split
  · exact Int.lt_floor_add_one x
  · have := Int.le_ceil x; linarith

theorem pyTrunc_mono {x y : K} (h : x ≤ y) : pyTrunc x ≤ pyTrunc y := by
  unfold pyTrunc
  split <;> split
  · exact Int.floor_mono h
  · exact absurd (by linarith) (by assumption : ¬ 0 ≤ y)
  · next h1 h2 =>
    have a : ⌈x⌉ ≤ 0 := Int.ceil_le.2 (by push_cast; linarith)
    have b : 0 ≤ ⌊y⌋ := Int.floor_nonneg.2 h2
    omega
  · exact Int.ceil_mono h

theorem pyTrunc_le_iff (x : K) : (pyTrunc x : K) ≤ x ↔ 0 ≤ x ∨ ∃ k : Int, x = k := by
  unfold pyTrunc
  split
  · next h => exact ⟨fun _ => .inl h, fun _ => Int.floor_le x⟩
  · next h =>
    constructor
    · intro h'
      exact .inr ⟨⌈x⌉, le_antisymm (Int.le_ceil x) h'⟩
    · rintro (h' | ⟨k, rfl⟩)
      · exact absurd h' h
      · simp

theorem countIn_add (zs : List K) {a b c : K} (h1 : a ≤ b) (h2 : b ≤ c) :
    countIn zs a b + countIn zs b c = countIn zs a c := by
  induction zs with
  | nil => rfl
  | cons z zs ih =>
    unfold countIn at ih ⊢
    simp only [List.filter_cons]
    rcases lt_or_ge z a with h | h
    · have e1 : ¬ a ≤ z := not_le.2 h
      have e2 : ¬ b ≤ z := by simpa using lt_of_lt_of_le h h1
      simpa [e1, e2] using ih
    · rcases lt_or_ge z b with h' | h'
      · have e2 : z < c := lt_of_lt_of_le h' h2
        have e3 : ¬ b ≤ z := not_le.2 h'
        simp [h, h', e2, e3]; simp at ih; omega
      · have e3 : ¬ z < b := not_lt.2 h'
        by_cases e : z < c
        · simp [h, h', e, e3]; simp at ih; omega
        · simp [e, e3]; simp at ih; omega

theorem npHistogram_spec {zs : List K} {n : Int} {lo res : K} (hn : 1 ≤ n) (hres : 0 < res)
    (hlt : ∀ z ∈ zs, z < lo + (n : K) * res) :
    ∃ counts, npHistogram zs n lo (lo + (n : K) * res) = .ok counts ∧ (counts.length : Int) = n ∧
      IsHistogramAbove res zs counts lo (lo + (n : K) * res) := by
  have hnK : (1 : K) ≤ n := by exact_mod_cast hn
  have hnr : 0 < (n : K) * res := by positivity
  obtain ⟨m, rfl⟩ : ∃ m : Nat, n = m := ⟨n.toNat, by omega⟩
  refine ⟨(List.range m).map fun (i : Nat) => (countIn zs (lo + i * res) (lo + (i + 1) * res) : Int), ?_, by simp, ?_⟩
  · unfold npHistogram
    rw [if_neg (by omega), if_neg (by simp only [not_lt]; linarith), if_neg (by linarith)]
    simp only [Int.toNat_natCast, Except.ok.injEq]
    apply List.map_congr_left
    intro i hi
    rw [List.mem_range] at hi
    unfold countIn
    congr 2
    apply List.filter_congr
    intro z hz
    have hz := hlt z hz
    have e1 : (z - lo) * ((m : Int) : K) / (lo + ((m : Int) : K) * res - lo) = (z - lo) / res := by
      have : ((m : Int) : K) ≠ 0 := by intro h; rw [h] at hnK; linarith
      rw [add_sub_cancel_left]; field_simp
    rw [decide_eq_decide, e1]
    have hlt : (z - lo) / res < (m : K) := by rw [div_lt_iff₀ hres]; push_cast at hz; linarith
    have e2 : min ⌊(z - lo) / res⌋ ((m : Int) - 1) = ⌊(z - lo) / res⌋ := by
      apply min_eq_left
      have : ⌊(z - lo) / res⌋ < (m : Int) := Int.floor_lt.2 (by push_cast; exact hlt)
      omega
    rw [e2]
    rw [Int.floor_eq_iff]
    rw [le_div_iff₀ hres, div_lt_iff₀ hres]
    push_cast at hz ⊢
    constructor
    · rintro ⟨_, _, h3, h4⟩; constructor <;> linarith
    · rintro ⟨h3, h4⟩
      have : 0 ≤ (i : K) * res := by positivity
      refine ⟨by linarith, hz.le, by linarith, by linarith⟩
  · refine ⟨by simp; omega, by simp, by simpa using hlt, fun i hi => ?_⟩
    simp only [List.length_map, List.length_range] at hi
    rw [List.getElem?_map, List.getElem?_range hi]; rfl

theorem sum_take_counts {res : K} {zs : List K} {counts : List Int} {lo hi : K} (hres : 0 < res)
    (h : IsHistogramAbove res zs counts lo hi) : ∀ i ≤ counts.length,
    (counts.take i).sum = (countIn zs lo (lo + i * res) : Int) := by
  intro i
  induction i with
  | zero =>
    intro _
    simp only [List.take_zero, List.sum_nil, Nat.cast_zero, zero_mul, add_zero, countIn]
    rw [List.filter_eq_nil_iff.2]; · rfl
    intro z _; simp
  | succ i ih =>
    intro hi
    have hc := h.count i (by omega)
    have ih := ih (by omega)
    have hl : i < counts.length := by omega
    rw [List.take_add_one, hc, Option.toList_some, List.sum_append, ih, List.sum_singleton]
    have := countIn_add zs (a := lo) (b := lo + i * res) (c := lo + (i + 1) * res)
      (by have : 0 ≤ (i : K) * res := by positivity
          linarith) (by linarith)
    push_cast
    omega

theorem sum_counts {res : K} {zs : List K} {counts : List Int} {lo hi : K} (hres : 0 < res)
    (h : IsHistogramAbove res zs counts lo hi) : counts.sum = ((zs.filter fun z => lo ≤ z).length : Int) := by
  have := sum_take_counts hres h counts.length le_rfl
  rw [List.take_length] at this
  rw [this]
  unfold countIn
  congr 2
  apply List.filter_congr
  intro z hz
  have := h.upper_lt z hz
  rw [h.upper_eq] at this
  simp [this]

theorem histogramBins_bounds (zmin zmax res : K) :
    (Hyps.histogramBins zmin zmax res).upper_bound = (Hyps.histogramBins zmin zmax res).lower_bound +
      ((Hyps.histogramBins zmin zmax res).num_bins : K) * (Hyps.histogramBins zmin zmax res).resolution := rfl

theorem histogramBins_pos {zmin zmax res : K} (hres : 0 < res) (h : zmin ≤ zmax) :
    1 ≤ (Hyps.histogramBins zmin zmax res).num_bins := by
  have : pyTrunc (zmin * (1 / res)) ≤ pyTrunc (zmax * (1 / res)) := by
    apply pyTrunc_mono
    exact mul_le_mul_of_nonneg_right h (by positivity)
  show 1 ≤ pyTrunc (zmax * (1 / res)) - pyTrunc (zmin * (1 / res)) + 1
  omega

theorem histogramBins_upper {zmin zmax res : K} (hres : 0 < res) :
    (Hyps.histogramBins zmin zmax res).upper_bound - res ≤ zmax ∧ 0 ≤ zmax ∨
    zmax < 0 := by
  rcases le_or_gt 0 zmax with h | h
  · left
    refine ⟨?_, h⟩
    have h1 : ((pyTrunc (zmax * (1 / res)) : Int) : K) ≤ zmax * (1 / res) :=
      (pyTrunc_le_iff _).2 (.inl (by positivity))
    show ((pyTrunc (zmin * (1 / res)) : Int) : K) * res +
      ((pyTrunc (zmax * (1 / res)) - pyTrunc (zmin * (1 / res)) + 1 : Int) : K) * res - res ≤ zmax
    have h2 := mul_le_mul_of_nonneg_right h1 hres.le
    have h3 : zmax * (1 / res) * res = zmax := by field_simp
    push_cast
    linarith
  · exact .inr h

theorem histogramBins_lt {zmin zmax res : K} (hres : 0 < res) :
    zmax < (Hyps.histogramBins zmin zmax res).upper_bound := by
  have h1 := pyTrunc_lt (zmax * (1 / res))
  show zmax < ((pyTrunc (zmin * (1 / res)) : Int) : K) * res +
      ((pyTrunc (zmax * (1 / res)) - pyTrunc (zmin * (1 / res)) + 1 : Int) : K) * res
  have h2 := mul_lt_mul_of_pos_right h1 hres
  have h3 : zmax * (1 / res) * res = zmax := by field_simp
  push_cast
  linarith

theorem histogramBins_lower {zmin zmax res : K} (hres : 0 < res) :
    (Hyps.histogramBins zmin zmax res).lower_bound ≤ zmin ↔ 0 ≤ zmin ∨ ∃ k : Int, zmin = k * res := by
  show ((pyTrunc (zmin * (1 / res)) : Int) : K) * res ≤ zmin ↔ _
  have h3 : zmin = zmin * (1 / res) * res := by field_simp
  have : ((pyTrunc (zmin * (1 / res)) : Int) : K) * res ≤ zmin ↔
      ((pyTrunc (zmin * (1 / res)) : Int) : K) ≤ zmin * (1 / res) := by
    conv_lhs => rhs; rw [h3]
    exact mul_le_mul_iff_left₀ hres
  rw [this, pyTrunc_le_iff]
  constructor
  · rintro (h | ⟨k, hk⟩)
    · left; rw [h3]; positivity
    · right; exact ⟨k, by rw [← hk]; exact h3⟩
  · rintro (h | ⟨k, hk⟩)
    · left; positivity
    · right; refine ⟨k, ?_⟩; rw [hk]; field_simp

theorem histogramBins_first {zmin zmax res : K} (hres : 0 < res) :
    zmin < (Hyps.histogramBins zmin zmax res).lower_bound + res := by
  have h1 := pyTrunc_lt (zmin * (1 / res))
  show zmin < ((pyTrunc (zmin * (1 / res)) : Int) : K) * res + res
  have h2 := mul_lt_mul_of_pos_right h1 hres
  have h3 : zmin * (1 / res) * res = zmin := by field_simp
  linarith

end Malstroem
