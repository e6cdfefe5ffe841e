/-
Floating point numbers: gaps, rounding.
-/
import Verif.Spec.Float
import Mathlib.Data.Int.Log
import Mathlib.Algebra.Order.Round
import Mathlib.Data.Rat.Floor
import Mathlib.Tactic.Linarith
import Mathlib.Tactic.Ring
import Mathlib.Tactic.FieldSimp
import Mathlib.Tactic.NormNum
import Mathlib.Tactic.Positivity

set_option linter.unusedSectionVars false

namespace Malstroem
namespace Float
open Spec

variable {p : Nat} {emin : Int}

/-- The exponent of the spacing of the floating point numbers around `x`. -/
def IsGap (p : Nat) (emin e : Int) (x : Rat) : Prop :=
  emin ≤ e ∧ |x| < 2 ^ (e + p) ∧ (e = emin ∨ 2 ^ (e + p - 1) ≤ |x|)

theorem two_pos (e : Int) : (0 : Rat) < 2 ^ e := zpow_pos (by norm_num) e

theorem two_le {a b : Int} : (2 : Rat) ^ a ≤ 2 ^ b ↔ a ≤ b := zpow_le_zpow_iff_right₀ (by norm_num)
theorem two_lt {a b : Int} : (2 : Rat) ^ a < 2 ^ b ↔ a < b := zpow_lt_zpow_iff_right₀ (by norm_num)

theorem exists_gap (p : Nat) (emin : Int) (x : Rat) : ∃ e, IsGap p emin e x := by
  by_cases hx : x = 0
  · exact ⟨emin, le_refl _, by rw [hx, abs_zero]; exact two_pos _, .inl rfl⟩
  have h0 : 0 < |x| := abs_pos.2 hx
  have h1 := Int.zpow_log_le_self (b := 2) (by norm_num) h0
  have h2 := Int.lt_zpow_succ_log_self (b := 2) (by norm_num) |x|
  push_cast at h1 h2
  rcases le_total emin (Int.log 2 |x| + 1 - p) with h | h
  · exact ⟨Int.log 2 |x| + 1 - p, h, by rw [sub_add_cancel]; exact h2, .inr (by
      rw [show Int.log 2 |x| + 1 - p + p - 1 = Int.log 2 |x| by ring]; exact h1)⟩
  · exact ⟨emin, le_refl _, lt_of_lt_of_le h2 (two_le.2 (by omega)), .inl rfl⟩

/-- A floating point number is a multiple of the spacing. -/
theorem IsGap.multiple {e : Int} {x : Rat} (h : IsGap p emin e x) (hx : IsFloat p emin x) :
    ∃ a : Int, x = a * 2 ^ e ∧ |a| < 2 ^ p := by
  obtain ⟨h1, h2, h3⟩ := h
  obtain ⟨m, i, hm, hi, rfl⟩ := hx
  have habs : |(m : Rat) * 2 ^ i| = |(m : Rat)| * 2 ^ i := by rw [abs_mul, abs_of_pos (two_pos i)]
  have hm' : |(m : Rat)| < 2 ^ p := by rw [← Int.cast_abs]; exact_mod_cast hm
  rcases le_or_gt e i with hei | hei
  · obtain ⟨k, rfl⟩ : ∃ k : Nat, i = e + k := ⟨(i - e).toNat, by omega⟩
    have heq : (m : Rat) * 2 ^ (e + k : Int) = ((m * 2 ^ k : Int) : Rat) * 2 ^ e := by
      push_cast
      rw [zpow_add₀ (by norm_num), zpow_natCast]
      ring
    refine ⟨m * 2 ^ k, heq, ?_⟩
    rw [heq, abs_mul, abs_of_pos (two_pos e), zpow_add₀ (by norm_num), mul_comm, zpow_natCast,
      mul_lt_mul_iff_of_pos_left (two_pos e), ← Int.cast_abs] at h2
    exact_mod_cast h2
  · exfalso
    rcases h3 with h3 | h3
    · omega
    rw [habs] at h3
    have : |(m : Rat)| * 2 ^ i < 2 ^ (i + p : Int) := by
      rw [zpow_add₀ (by norm_num), mul_comm, zpow_natCast]
      exact mul_lt_mul_of_pos_left hm' (two_pos i)
    have := two_lt.1 (h3.trans_lt this)
    omega

/-- Multiples of the spacing are floating point numbers. -/
theorem isFloat_multiple {e a : Int} (he : emin ≤ e) (hp : 1 ≤ p) (ha : |a| ≤ 2 ^ p) : IsFloat p emin (a * 2 ^ e) := by
  rcases ha.lt_or_eq with ha | ha
  · exact ⟨a, e, ha, he, rfl⟩
  · obtain ⟨q, rfl⟩ : ∃ q, p = q + 1 := ⟨p - 1, by omega⟩
    have h2 : (0 : Int) < 2 ^ q := by positivity
    rcases abs_eq (show (0 : Int) ≤ 2 ^ (q + 1) by positivity) |>.1 ha with rfl | rfl
    · refine ⟨2 ^ q, e + 1, ?_, by omega, ?_⟩
      · rw [abs_of_pos h2, pow_succ]; omega
      · push_cast; rw [zpow_add_one₀ (by norm_num), pow_succ]; ring
    · refine ⟨-2 ^ q, e + 1, ?_, by omega, ?_⟩
      · rw [abs_neg, abs_of_pos h2, pow_succ]; omega
      · push_cast; rw [zpow_add_one₀ (by norm_num), pow_succ]; ring

theorem isFloat_pow {e : Int} (he : emin ≤ e) (hp : 1 ≤ p) : IsFloat p emin (2 ^ e) := by
  have := isFloat_multiple (a := 1) he hp (by rw [abs_one]; exact one_le_pow₀ (by norm_num))
  simpa using this

theorem isFloat_zero : IsFloat p emin 0 := ⟨0, emin, by simp, le_refl _, by simp⟩

theorem isFloat_neg {x : Rat} (h : IsFloat p emin x) : IsFloat p emin (-x) := by
  obtain ⟨m, e, h1, h2, rfl⟩ := h
  exact ⟨-m, e, by rwa [abs_neg], h2, by push_cast; ring⟩

theorem isFloat_abs {x : Rat} (h : IsFloat p emin x) : IsFloat p emin |x| := by
  rcases abs_choice x with e | e <;> rw [e]
  · exact h
  · exact isFloat_neg h

/-- A float32 is a float64. -/
theorem f64_of_f32 {x : Rat} (h : IsF32 x) : IsF64 x := by
  obtain ⟨m, e, h1, h2, h3⟩ := h
  exact ⟨m, e, lt_trans h1 (by norm_num), by omega, h3⟩

/-- The next number above is at most one spacing away, and exactly that for numbers that are not negative. -/
theorem IsGap.next {e : Int} {x : Rat} (h : IsGap p emin e x) (hp : 1 ≤ p) (hx : IsFloat p emin x) :
    IsFloat p emin (x + 2 ^ e) := by
  obtain ⟨a, rfl, ha⟩ := h.multiple hx
  have := isFloat_multiple (a := a + 1) h.1 hp (by
    rw [abs_lt] at ha; rw [abs_le]; omega)
  push_cast at this
  rwa [add_mul, one_mul] at this

theorem IsGap.least {e : Int} {x : Rat} (h : IsGap p emin e x) (hx : IsFloat p emin x) (h0 : 0 ≤ x) {z : Rat}
    (hz : IsFloat p emin z) (hlt : x < z) : x + 2 ^ e ≤ z := by
  obtain ⟨a, rfl, ha⟩ := h.multiple hx
  obtain ⟨m, i, hm, hi, rfl⟩ := hz
  rcases le_or_gt e i with hei | hei
  · obtain ⟨k, rfl⟩ : ∃ k : Nat, i = e + k := ⟨(i - e).toNat, by omega⟩
    have heq : (m : Rat) * 2 ^ (e + k : Int) = ((m * 2 ^ k : Int) : Rat) * 2 ^ e := by
      push_cast
      rw [zpow_add₀ (by norm_num), zpow_natCast]
      ring
    rw [heq] at hlt ⊢
    have := lt_of_mul_lt_mul_right hlt (two_pos e).le
    have : a < m * 2 ^ k := by exact_mod_cast this
    have : ((a + 1 : Int) : Rat) ≤ ((m * 2 ^ k : Int) : Rat) := by exact_mod_cast this
    have := mul_le_mul_of_nonneg_right this (two_pos e).le
    push_cast at this ⊢
    linarith
  · exfalso
    obtain ⟨h1, h2, h3⟩ := h
    rcases h3 with h3 | h3
    · omega
    rw [abs_of_nonneg h0] at h3
    have hm' : (m : Rat) < 2 ^ p := by exact_mod_cast lt_of_le_of_lt (le_abs_self m) hm
    have : (m : Rat) * 2 ^ i < 2 ^ (i + p : Int) := by
      rw [zpow_add₀ (by norm_num), mul_comm, zpow_natCast]
      exact mul_lt_mul_of_pos_left hm' (two_pos i)
    have := two_lt.1 ((h3.trans hlt.le).trans_lt this)
    omega

/-! ### Rounding -/

variable {fl : Rat → Rat}

theorem fl_exact (h : IsRounding p emin fl) {x : Rat} (hx : IsFloat p emin x) : fl x = x := by
  have := (h x).2 x hx
  rw [sub_self, abs_zero] at this
  have := abs_nonpos_iff.1 this
  linarith

theorem fl_mono (h : IsRounding p emin fl) {x y : Rat} (hxy : x ≤ y) : fl x ≤ fl y := by
  by_contra hlt
  push Not at hlt
  have h1 := (h x).2 (fl y) (h y).1
  have h2 := (h y).2 (fl x) (h x).1
  rcases hxy.lt_or_eq with hxy | rfl
  · have e1 : fl x + fl y ≤ 2 * x := by
      by_contra hc
      push Not at hc
      have : |x - fl y| < |x - fl x| := by
        rw [abs_lt, lt_abs]
        constructor
        · rw [neg_lt, lt_abs]; right; linarith
        · right; linarith
      linarith
    have e2 : 2 * y ≤ fl x + fl y := by
      by_contra hc
      push Not at hc
      have : |y - fl x| < |y - fl y| := by
        rw [abs_lt]
        constructor
        · rw [neg_lt, lt_abs]; left; linarith
        · rw [lt_abs]; left; linarith
      linarith
    linarith
  · exact lt_irrefl _ hlt

theorem fl_zero (h : IsRounding p emin fl) : fl 0 = 0 := fl_exact h isFloat_zero

/-- Adding at least one spacing raises a floating point number. -/
theorem lt_fl_add (h : IsRounding p emin fl) (hp : 1 ≤ p) {e : Int} {x s : Rat} (hg : IsGap p emin e x)
    (hx : IsFloat p emin x) (hs : 2 ^ e ≤ s) : x < fl (x + s) := by
  have h1 := fl_exact h (hg.next hp hx)
  have h2 := fl_mono h (show x + 2 ^ e ≤ x + s by linarith)
  rw [h1] at h2
  have := two_pos e
  linarith

theorem le_fl_add (h : IsRounding p emin fl) {x s : Rat} (hx : IsFloat p emin x) (hs : 0 ≤ s) : x ≤ fl (x + s) := by
  have := fl_mono h (show x ≤ x + s by linarith)
  rwa [fl_exact h hx] at this

theorem fl_add_le (h : IsRounding p emin fl) {x s : Rat} (hx : IsFloat p emin x) (hs : 0 ≤ s) :
    fl (x + s) ≤ x + 2 * s := by
  have := (h (x + s)).2 x hx
  rw [add_sub_cancel_left, abs_of_nonneg hs] at this
  have := (abs_le.1 this).1
  linarith

/-- Rounding keeps the sign of a difference of floating point numbers. -/
theorem fl_sub_pos (h : IsRounding p emin fl) (hp : 1 ≤ p) {a b : Rat} (ha : IsFloat p emin a) (hb : IsFloat p emin b) :
    0 < fl (a - b) ↔ b < a := by
  constructor
  · intro hlt
    by_contra hc
    push Not at hc
    have := fl_mono h (show a - b ≤ 0 by linarith)
    rw [fl_zero h] at this
    linarith
  · intro hlt
    have hmul : ∀ {x}, IsFloat p emin x → ∃ k : Int, x = k * 2 ^ emin := by
      rintro _ ⟨m, e, _, he, rfl⟩
      obtain ⟨k, rfl⟩ : ∃ k : Nat, e = emin + k := ⟨(e - emin).toNat, by omega⟩
      refine ⟨m * 2 ^ k, ?_⟩
      push_cast
      rw [zpow_add₀ (by norm_num), zpow_natCast]
      ring
    obtain ⟨i, rfl⟩ := hmul ha
    obtain ⟨j, rfl⟩ := hmul hb
    have hij : j < i := by exact_mod_cast lt_of_mul_lt_mul_right hlt (two_pos emin).le
    have : ((1 : Int) : Rat) ≤ ((i - j : Int) : Rat) := by exact_mod_cast (by omega : 1 ≤ i - j)
    have := mul_le_mul_of_nonneg_right this (two_pos emin).le
    push_cast at this
    have := fl_mono h (show (2 : Rat) ^ emin ≤ i * 2 ^ emin - j * 2 ^ emin by linarith)
    rw [fl_exact h (isFloat_pow le_rfl hp)] at this
    exact (two_pos emin).trans_le this

theorem fl_sub_self (h : IsRounding p emin fl) (a : Rat) : fl (a - a) = 0 := by rw [sub_self]; exact fl_zero h

/-- Scaling by a factor above a half keeps the sign of a floating point number. -/
theorem fl_scale_pos (h : IsRounding p emin fl) (hp : 1 ≤ p) {k : Rat} (hk : 1 / 2 < k) {x : Rat}
    (hx : IsFloat p emin x) : 0 < fl (x * k) ↔ 0 < x := by
  constructor
  · intro hlt
    by_contra hc
    push Not at hc
    have := fl_mono h (show x * k ≤ 0 from mul_nonpos_of_nonpos_of_nonneg hc (by linarith))
    rw [fl_zero h] at this
    linarith
  · intro hpos
    have h1 : (2 : Rat) ^ emin ≤ x := by
      have := (fl_sub_pos h hp hx isFloat_zero).2 hpos
      obtain ⟨m, e, _, he, rfl⟩ := hx
      have hm : 0 < (m : Rat) := pos_of_mul_pos_left hpos (two_pos e).le
      have hm : (1 : Rat) ≤ m := by exact_mod_cast hm
      calc (2 : Rat) ^ emin ≤ 2 ^ e := two_le.2 he
        _ = 1 * 2 ^ e := by ring
        _ ≤ _ := mul_le_mul_of_nonneg_right hm (two_pos e).le
    have h2 := two_pos emin
    have h3 : 2 ^ emin / 2 < x * k := by nlinarith
    rcases le_total (2 ^ emin) (x * k) with h4 | h4
    · have := fl_mono h h4
      rw [fl_exact h (isFloat_pow le_rfl hp)] at this
      linarith
    · have := (h (x * k)).2 _ (isFloat_pow (p := p) (le_refl emin) hp)
      rw [abs_sub_comm _ ((2 : Rat) ^ emin), abs_of_nonneg (by linarith : (0:Rat) ≤ 2 ^ emin - x * k)] at this
      have := (abs_le.1 this).2
      linarith

/-! ### Existence -/

/-- Rounding to nearest exists. -/
theorem exists_rounding (p : Nat) (hp : 1 ≤ p) (emin : Int) : ∃ fl, IsRounding p emin fl := by
  choose g hg using exists_gap p emin
  refine ⟨fun x => round (x / 2 ^ g x) * 2 ^ g x, fun x => ?_⟩
  obtain ⟨h1, h2, h3⟩ := hg x
  have hpos := two_pos (g x)
  have hkey : ∀ b : Int, |x - round (x / 2 ^ g x) * 2 ^ g x| ≤ |x - b * 2 ^ g x| := by
    intro b
    have := round_le (x / 2 ^ g x) b
    have := mul_le_mul_of_nonneg_right this hpos.le
    rw [← abs_of_pos hpos, ← abs_mul, ← abs_mul, sub_mul, sub_mul, abs_of_pos hpos, div_mul_cancel₀ _ hpos.ne'] at this
    exact this
  have hsm : |x / 2 ^ g x| < 2 ^ p := by
    rw [abs_div, abs_of_pos hpos, div_lt_iff₀ hpos, ← zpow_natCast, ← zpow_add₀ (by norm_num), add_comm]
    exact h2
  refine ⟨isFloat_multiple h1 hp ?_, fun z hz => ?_⟩
  · have hr := abs_sub_round (x / 2 ^ g x)
    have h4 : |((round (x / 2 ^ g x) : Int) : Rat)| < 2 ^ p + 1 := by
      have h5 := abs_sub_abs_le_abs_sub ((round (x / 2 ^ g x) : Int) : Rat) (x / 2 ^ g x)
      rw [abs_sub_comm] at h5
      linarith
    rw [← Int.cast_abs] at h4
    have : |round (x / 2 ^ g x)| < 2 ^ p + 1 := by exact_mod_cast h4
    omega
  · obtain ⟨m, i, hm, hi, rfl⟩ := hz
    rcases le_or_gt (g x) i with hei | hei
    · obtain ⟨k, rfl⟩ : ∃ k : Nat, i = g x + k := ⟨(i - g x).toNat, by omega⟩
      have heq : (m : Rat) * 2 ^ (g x + k : Int) = ((m * 2 ^ k : Int) : Rat) * 2 ^ g x := by
        push_cast
        rw [zpow_add₀ (by norm_num), zpow_natCast]
        ring
      rw [heq]
      exact hkey _
    · rcases h3 with h3 | h3
      · omega
      have hm' : |(m : Rat)| < 2 ^ p := by rw [← Int.cast_abs]; exact_mod_cast hm
      have hz : |(m : Rat) * 2 ^ i| < 2 ^ (g x + p - 1) := by
        rw [abs_mul, abs_of_pos (two_pos i)]
        refine lt_of_lt_of_le (mul_lt_mul_of_pos_right hm' (two_pos i)) ?_
        rw [← zpow_natCast, ← zpow_add₀ (by norm_num)]
        exact two_le.2 (by omega)
      obtain ⟨q, hq⟩ : ∃ q : Nat, p = q + 1 := ⟨p - 1, by omega⟩
      have hw : (2 : Rat) ^ (g x + p - 1) = ((2 ^ q : Int) : Rat) * 2 ^ g x := by
        push_cast
        rw [← zpow_natCast, ← zpow_add₀ (by norm_num)]
        congr 1
        push_cast [hq]
        ring
      rw [abs_lt] at hz
      rcases le_total 0 x with h0 | h0
      · rw [abs_of_nonneg h0] at h3
        refine (hkey (2 ^ q)).trans ?_
        rw [← hw, abs_of_nonneg (by linarith), abs_of_nonneg (by linarith)]
        linarith
      · rw [abs_of_nonpos h0] at h3
        refine (hkey (-2 ^ q)).trans ?_
        have hw' : ((-2 ^ q : Int) : Rat) * 2 ^ g x = -2 ^ (g x + p - 1) := by rw [hw]; push_cast; ring
        rw [hw', abs_of_nonpos (by linarith), abs_of_nonpos (by linarith)]
        linarith

end Float
end Malstroem
