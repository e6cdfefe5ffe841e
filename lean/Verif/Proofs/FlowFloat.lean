/-
Flow directions with rounded arithmetic: when all drops around a cell are whole multiples of one power of two, up to
2^24 of it, rounding does not change which neighbour is steepest.
-/
import Verif.Proofs.CompleteFloat
import Verif.Proofs.FlowDir
import Verif.Model.FlowCython
import Verif.Model.Safe
import Mathlib.Analysis.Real.Sqrt
import Mathlib.NumberTheory.Real.Irrational

set_option linter.unusedSectionVars false

namespace Malstroem
open Spec

namespace Flow

/-- The chosen direction depends only on which drops are positive and how those compare. -/
theorem best_congr {γ γ' : Type*} [LinearOrder γ] [Zero γ] [LinearOrder γ'] [Zero γ'] (s : Nat → γ) (s' : Nat → γ')
    (hpos : ∀ k < 8, 0 < s k ↔ 0 < s' k)
    (hlt : ∀ i < 8, ∀ j < 8, 0 < s i → 0 < s j → (s i < s j ↔ s' i < s' j)) :
    (best s 8).1 = (best s' 8).1 := by
  rcases best_spec s 8 le_rfl with ⟨h1, _, h3⟩ | ⟨h1, _, h3, h4, h5⟩ <;>
    rcases best_spec s' 8 le_rfl with ⟨g1, _, g3⟩ | ⟨g1, _, g3, g4, g5⟩
  · rw [h1, g1]
  · exact absurd ((hpos _ g1).2 g3) (not_lt.2 (h3 _ g1))
  · exact absurd ((hpos _ h1).1 h3) (not_lt.2 (g3 _ h1))
  · rcases lt_trichotomy (best s 8).1 (best s' 8).1 with h | h | h
    · have := (hlt _ h1 _ g1 h3 ((hpos _ g1).2 g3)).2 (g5 _ h)
      exact absurd this (not_lt.2 (h4 _ g1))
    · exact h
    · have := (hlt _ g1 _ h1 ((hpos _ g1).2 g3) h3).1 (h5 _ h)
      exact absurd this (not_lt.2 (g4 _ h1))

/-- The drop to neighbour `i` is less steep than that to `j`, for drops of `m` units: diagonal drops (odd directions)
count `1 / sqrt 2` times. -/
def Flatter (m : Nat → Int) (i j : Nat) : Prop :=
  if i % 2 = j % 2 then m i < m j
  else if i % 2 = 0 then 2 * m i ^ 2 < m j ^ 2
  else m i ^ 2 < 2 * m j ^ 2

/-- Drops that compare as those of `m` units do. -/
structure Ranks {γ : Type*} [LinearOrder γ] [Zero γ] (m : Nat → Int) (s : Nat → γ) : Prop where
  pos : ∀ k < 8, 0 < s k ↔ 0 < m k
  lt : ∀ i < 8, ∀ j < 8, 0 < m i → 0 < m j → (s i < s j ↔ Flatter m i j)

theorem Ranks.best_eq {γ γ' : Type*} [LinearOrder γ] [Zero γ] [LinearOrder γ'] [Zero γ'] {m : Nat → Int} {s : Nat → γ}
    {s' : Nat → γ'} (h : Ranks m s) (h' : Ranks m s') : (best s 8).1 = (best s' 8).1 :=
  best_congr s s' (fun k hk => (h.pos k hk).trans (h'.pos k hk).symm) fun i hi j hj h1 h2 =>
    (h.lt i hi j hj ((h.pos i hi).1 h1) ((h.pos j hj).1 h2)).trans
      (h'.lt i hi j hj ((h.pos i hi).1 h1) ((h.pos j hj).1 h2)).symm

theorem sq_ne_two_sq {m n : Int} (hn : 0 < n) : m ^ 2 ≠ 2 * n ^ 2 := by
  intro h
  have hirr := irrational_sqrt_two
  apply hirr
  refine ⟨|(m : ℚ)| / n, ?_⟩
  have hn' : (0 : ℝ) < n := by exact_mod_cast hn
  have h' : ((m : ℝ)) ^ 2 = 2 * (n : ℝ) ^ 2 := by exact_mod_cast h
  symm
  rw [Real.sqrt_eq_iff_mul_self_eq (by norm_num) (by push_cast; positivity)]
  push_cast
  rw [div_mul_div_comm, abs_mul_abs_self, ← sq, ← sq, h']
  field_simp

/-- Exact drops. -/
theorem ranks_real {u : ℝ} (hu : 0 < u) (m : Nat → Int) :
    Ranks m fun k => if k % 2 = 0 then (m k : ℝ) * u else (m k : ℝ) * u / Real.sqrt 2 := by
  have hs : (0 : ℝ) < Real.sqrt 2 := by positivity
  have hsq : Real.sqrt 2 ^ 2 = 2 := Real.sq_sqrt (by norm_num)
  refine ⟨fun k _ => ?_, fun i _ j _ hi hj => ?_⟩
  · split_ifs
    · rw [mul_pos_iff_of_pos_right hu]; exact Int.cast_pos
    · rw [div_pos_iff_of_pos_right hs, mul_pos_iff_of_pos_right hu]; exact Int.cast_pos
  · have hi' : (0 : ℝ) < m i := by exact_mod_cast hi
    have hj' : (0 : ℝ) < m j := by exact_mod_cast hj
    unfold Flatter
    by_cases h1 : i % 2 = 0 <;> by_cases h2 : j % 2 = 0
    · simp only [h1, h2, if_true]
      rw [mul_lt_mul_iff_left₀ hu]; exact Int.cast_lt
    · rw [if_neg (by omega : ¬ i % 2 = j % 2)]
      simp only [h1, h2, if_true, if_false]
      rw [lt_div_iff₀ hs, mul_right_comm, mul_lt_mul_iff_left₀ hu,
        ← pow_lt_pow_iff_left₀ (by positivity) hj'.le (two_ne_zero), mul_pow, hsq, mul_comm]
      exact_mod_cast Iff.rfl
    · rw [if_neg (by omega : ¬ i % 2 = j % 2)]
      simp only [h1, h2, if_true, if_false]
      rw [div_lt_iff₀ hs, mul_right_comm, mul_lt_mul_iff_left₀ hu,
        ← pow_lt_pow_iff_left₀ hi'.le (by positivity) (two_ne_zero), mul_pow, hsq, mul_comm]
      exact_mod_cast Iff.rfl
    · rw [if_pos (by omega : i % 2 = j % 2)]
      simp only [h1, h2, if_false]
      rw [div_lt_div_iff_of_pos_right hs, mul_lt_mul_iff_left₀ hu]; exact Int.cast_lt

end Flow

namespace Float
variable {fl : Rat → Rat}

/-- A factor for diagonal drops: `1 / SQRT2` or `INV_SQRT2`. -/
def IsDiagFactor (κ : Rat) : Prop := 7 / 10 < κ ∧ κ < 71 / 100 ∧ |2 * κ ^ 2 - 1| ≤ 1 / 2 ^ 52

theorem python_factor : IsDiagFactor (1 / Fill.sqrt2) := by
  unfold IsDiagFactor Fill.sqrt2
  refine ⟨by norm_num, by norm_num, ?_⟩
  rw [abs_le]; constructor <;> norm_num

theorem compiled_factor : IsDiagFactor FlowCython.invSqrt2 := by
  unfold IsDiagFactor FlowCython.invSqrt2
  refine ⟨by norm_num, by norm_num, ?_⟩
  rw [abs_le]; constructor <;> norm_num

/-- Rounded diagonal drop of `m` units. -/
theorem diag_bounds (h : IsRounding 53 (-1074) fl) {κ : Rat} (hκ : IsDiagFactor κ) {e : Int} (he : -1000 ≤ e) {m : Int}
    (hm : 0 < m) : (m : Rat) * κ * (1 - 1 / 2 ^ 53) * 2 ^ e ≤ fl (m * 2 ^ e * κ) ∧
      fl (m * 2 ^ e * κ) ≤ (m : Rat) * κ * (1 + 1 / 2 ^ 53) * 2 ^ e := by
  have hm1 : (1 : Rat) ≤ m := by exact_mod_cast hm
  have hu := two_pos e
  have hx : (2 : Rat) ^ (e - 1) ≤ m * 2 ^ e * κ := by
    have he2 : (2 : Rat) ^ e = 2 ^ (e - 1) * 2 := by rw [zpow_sub_one₀ (by norm_num)]; ring
    have h1 := two_pos (e - 1)
    have h2 : (2 : Rat) ^ e * (7 / 10) ≤ m * 2 ^ e * κ := by
      have := hκ.1
      have h3 : (2 : Rat) ^ e ≤ m * 2 ^ e := by nlinarith
      have h4 : (2 : Rat) ^ e * (7 / 10) ≤ 2 ^ e * κ := by nlinarith
      nlinarith
    have h5 : (2 : Rat) ^ (e - 1) ≤ 2 ^ e * (7 / 10) := by rw [he2]; linarith
    linarith
  have hx0 : (0 : Rat) < m * 2 ^ e * κ := (two_pos _).trans_le hx
  have hr := fl_relative_normal h (by norm_num) (x := m * 2 ^ e * κ) (by
    rw [abs_of_pos hx0]
    refine le_trans (two_le.2 ?_) hx
    norm_num; omega)
  rw [abs_of_pos hx0, abs_le] at hr
  constructor
  · have := hr.1
    linarith
  · have := hr.2
    linarith

theorem lt_of_sq {m n κ η : Rat} (hm : 0 ≤ m) (hn : 0 < n) (hn2 : n ≤ 2 ^ 24) (hκ : IsDiagFactor κ) (hη : η = 1 / 2 ^ 53)
    (h : m ^ 2 + 1 ≤ 2 * n ^ 2) : m * κ * (1 + η) < n := by
  obtain ⟨k1, k2, k3⟩ := hκ
  have k3 := (abs_le.1 k3).2
  have hη0 : 0 ≤ η := by rw [hη]; positivity
  have hκ0 : 0 < κ := by linarith
  refine lt_of_pow_lt_pow_left₀ 2 hn.le ?_
  have e1 : (m * κ * (1 + η)) ^ 2 = m ^ 2 * (κ ^ 2 * (1 + η) ^ 2) := by ring
  rw [e1]
  have hκ2 : (49 : Rat) / 100 < κ ^ 2 := by nlinarith
  have hg : κ ^ 2 * (1 + η) ^ 2 ≤ 1 / 2 + 1 / 2 ^ 51 := by
    have a1 : κ ^ 2 ≤ 1 / 2 + 1 / 2 ^ 53 := by linarith
    have a2 : (1 + η) ^ 2 ≤ 1 + 5 / 2 * (1 / 2 ^ 53) := by rw [hη]; norm_num
    calc κ ^ 2 * (1 + η) ^ 2 ≤ (1 / 2 + 1 / 2 ^ 53) * (1 + 5 / 2 * (1 / 2 ^ 53)) :=
          mul_le_mul a1 a2 (by positivity) (by norm_num)
      _ ≤ _ := by norm_num
  have hlow : (49 : Rat) / 100 ≤ κ ^ 2 * (1 + η) ^ 2 := by
    have : (1 : Rat) ≤ (1 + η) ^ 2 := one_le_pow₀ (by linarith)
    nlinarith
  have hn2' : n ^ 2 ≤ 2 ^ 48 := by
    calc n ^ 2 ≤ (2 ^ 24) ^ 2 := pow_le_pow_left₀ hn.le hn2 2
      _ = _ := by norm_num
  have hG : 0 < κ ^ 2 * (1 + η) ^ 2 := by positivity
  calc m ^ 2 * (κ ^ 2 * (1 + η) ^ 2) ≤ (2 * n ^ 2 - 1) * (κ ^ 2 * (1 + η) ^ 2) :=
        mul_le_mul_of_nonneg_right (by linarith) hG.le
    _ = n ^ 2 * (2 * (κ ^ 2 * (1 + η) ^ 2)) - κ ^ 2 * (1 + η) ^ 2 := by ring
    _ ≤ n ^ 2 * (1 + 1 / 2 ^ 50) - 49 / 100 := by
        have : n ^ 2 * (2 * (κ ^ 2 * (1 + η) ^ 2)) ≤ n ^ 2 * (1 + 1 / 2 ^ 50) :=
          mul_le_mul_of_nonneg_left (by linarith) (by positivity)
        linarith
    _ < n ^ 2 := by
        have : n ^ 2 * (1 / 2 ^ 50) ≤ 2 ^ 48 * (1 / 2 ^ 50) := mul_le_mul_of_nonneg_right hn2' (by norm_num)
        norm_num at this ⊢
        linarith

theorem gt_of_sq {m n κ η : Rat} (hm : 0 < m) (hm2 : m ≤ 2 ^ 24) (hn : 0 < n) (hκ : IsDiagFactor κ) (hη : η = 1 / 2 ^ 53)
    (h : 2 * n ^ 2 + 1 ≤ m ^ 2) : n < m * κ * (1 - η) := by
  obtain ⟨k1, k2, k3⟩ := hκ
  have k3 := (abs_le.1 k3).1
  have hη0 : 0 ≤ η := by rw [hη]; positivity
  have hη1 : η ≤ 1 / 2 := by rw [hη]; norm_num
  have hκ0 : 0 < κ := by linarith
  refine lt_of_pow_lt_pow_left₀ 2 (by have : 0 < 1 - η := by linarith
                                      positivity) ?_
  have e1 : (m * κ * (1 - η)) ^ 2 = m ^ 2 * (κ ^ 2 * (1 - η) ^ 2) := by ring
  rw [e1]
  have hg : 1 / 2 - 1 / 2 ^ 51 ≤ κ ^ 2 * (1 - η) ^ 2 := by
    have a1 : 1 / 2 - 1 / 2 ^ 53 ≤ κ ^ 2 := by linarith
    have a2 : 1 - 2 * (1 / 2 ^ 53) ≤ (1 - η) ^ 2 := by rw [hη]; norm_num
    calc _ ≤ (1 / 2 - 1 / 2 ^ 53) * (1 - 2 * (1 / 2 ^ 53) : Rat) := by norm_num
      _ ≤ κ ^ 2 * (1 - η) ^ 2 := mul_le_mul a1 a2 (by norm_num) (by positivity)
  have hm2' : m ^ 2 ≤ 2 ^ 48 := by
    calc m ^ 2 ≤ (2 ^ 24) ^ 2 := pow_le_pow_left₀ hm.le hm2 2
      _ = _ := by norm_num
  have h1 : m ^ 2 * (1 / 2 - 1 / 2 ^ 51) ≤ m ^ 2 * (κ ^ 2 * (1 - η) ^ 2) :=
    mul_le_mul_of_nonneg_left hg (by positivity)
  have h2 : m ^ 2 * (1 / 2 ^ 51) ≤ 2 ^ 48 * (1 / 2 ^ 51) := mul_le_mul_of_nonneg_right hm2' (by norm_num)
  norm_num at h1 h2 ⊢
  linarith

/-- Rounded drops of up to 2^24 units compare as the exact ones. -/
theorem ranks_float (h : IsRounding 53 (-1074) fl) {κ : Rat} (hκ : IsDiagFactor κ) {e : Int} (he : -1000 ≤ e)
    (m : Nat → Int) (hm : ∀ k < 8, |m k| ≤ 2 ^ 24) :
    Flow.Ranks m fun k => if k % 2 = 0 then fl (m k * 2 ^ e) else fl (fl (m k * 2 ^ e) * κ) := by
  have hu := two_pos e
  have hex : ∀ k < 8, fl (m k * 2 ^ e) = m k * 2 ^ e := fun k hk =>
    fl_exact h (isFloat_multiple (by omega) (by norm_num) ((hm k hk).trans (by norm_num)))
  have hfloat : ∀ k < 8, IsF64 ((m k : Rat) * 2 ^ e) := fun k hk =>
    isFloat_multiple (by omega) (by norm_num) ((hm k hk).trans (by norm_num))
  have hle : ∀ k < 8, (m k : Rat) ≤ 2 ^ 24 := fun k hk => by
    have := (le_abs_self _).trans (hm k hk)
    exact_mod_cast this
  refine ⟨fun k hk => ?_, fun i hi j hj mi mj => ?_⟩
  · beta_reduce
    rw [hex k hk]
    split_ifs
    · rw [mul_pos_iff_of_pos_right hu]; exact Int.cast_pos
    · rw [fl_scale_pos h (by norm_num) (by have := hκ.1; linarith) (hfloat k hk), mul_pos_iff_of_pos_right hu]
      exact Int.cast_pos
  · have mi' : (0 : Rat) < m i := by exact_mod_cast mi
    have mj' : (0 : Rat) < m j := by exact_mod_cast mj
    beta_reduce
    rw [hex i hi, hex j hj]
    unfold Flow.Flatter
    obtain ⟨bi1, bi2⟩ := diag_bounds h hκ he mi
    obtain ⟨bj1, bj2⟩ := diag_bounds h hκ he mj
    by_cases h1 : i % 2 = 0 <;> by_cases h2 : j % 2 = 0
    · simp only [h1, h2, if_true]
      rw [mul_lt_mul_iff_left₀ hu]; exact Int.cast_lt
    · rw [if_neg (by omega : ¬ i % 2 = j % 2)]
      simp only [h1, h2, if_true, if_false]
      constructor
      · intro hlt
        by_contra hc
        have hc' : m j ^ 2 + 1 ≤ 2 * m i ^ 2 := by
          have := Flow.sq_ne_two_sq (m := m j) mi
          omega
        have := lt_of_sq mj'.le mi' (hle i hi) hκ rfl (by exact_mod_cast hc')
        have := mul_lt_mul_of_pos_right this hu
        linarith
      · intro hlt
        have := gt_of_sq mj' (hle j hj) mi' hκ rfl (by exact_mod_cast hlt)
        have := mul_lt_mul_of_pos_right this hu
        linarith
    · rw [if_neg (by omega : ¬ i % 2 = j % 2)]
      simp only [h1, h2, if_true, if_false]
      constructor
      · intro hlt
        by_contra hc
        have hc' : 2 * m j ^ 2 + 1 ≤ m i ^ 2 := by
          have := Flow.sq_ne_two_sq (m := m i) mj
          omega
        have := gt_of_sq mi' (hle i hi) mj' hκ rfl (by exact_mod_cast hc')
        have := mul_lt_mul_of_pos_right this hu
        linarith
      · intro hlt
        have := lt_of_sq mi'.le mj' (hle j hj) hκ rfl (by exact_mod_cast hlt)
        have := mul_lt_mul_of_pos_right this hu
        linarith
    · rw [if_pos (by omega : i % 2 = j % 2)]
      simp only [h1, h2, if_false]
      constructor
      · intro hlt
        by_contra hc
        have hc' : (m j : Rat) ≤ m i := by exact_mod_cast not_lt.1 hc
        have := fl_mono h (show (m j : Rat) * 2 ^ e * κ ≤ m i * 2 ^ e * κ from
          mul_le_mul_of_nonneg_right (mul_le_mul_of_nonneg_right hc' hu.le) (by have := hκ.1; linarith))
        exact absurd hlt (not_lt.2 this)
      · intro hlt
        have hlt' : (m i : Rat) + 1 ≤ m j := by exact_mod_cast hlt
        have hκ0 : 0 < κ := by have := hκ.1; linarith
        have key : (m i : Rat) * (1 + 1 / 2 ^ 53) < m j * (1 - 1 / 2 ^ 53) := by
          have := hle i hi
          have := hle j hj
          norm_num at *
          linarith
        have key2 : (m i : Rat) * κ * (1 + 1 / 2 ^ 53) * 2 ^ e < m j * κ * (1 - 1 / 2 ^ 53) * 2 ^ e := by
          have := mul_lt_mul_of_pos_right (mul_lt_mul_of_pos_right key hκ0) hu
          linarith
        linarith

end Float
end Malstroem
