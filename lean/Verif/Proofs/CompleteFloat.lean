/-
Error bounds for the numbers of the complete command in floating point arithmetic.
-/
import Verif.Proofs.NetworkFloat
import Verif.Spec.CompleteFloat

set_option linter.unusedSectionVars false

namespace Malstroem
open Spec

namespace Float
variable {p : Nat} {emin : Int} {fl : Rat → Rat}

/-- On numbers that are not tiny the rounding error is relative. -/
theorem fl_relative_normal (h : IsRounding p emin fl) (hp : 1 ≤ p) {x : Rat} (hx : 2 ^ (emin + p - 1) ≤ |x|) :
    |fl x - x| ≤ (1 / 2 ^ p) * |x| := by
  obtain ⟨e, hg⟩ := exists_gap p emin x
  rw [abs_sub_comm]
  refine le_trans (fl_error h hp hg) ?_
  rw [one_div, inv_mul_eq_div, le_div_iff₀ (by positivity)]
  have key : (2 : Rat) ^ (e - 1) * 2 ^ p = 2 ^ (e + p - 1) := by
    rw [← zpow_natCast, ← zpow_add₀ (by norm_num)]; congr 1; ring
  rw [key]
  rcases hg.2.2 with rfl | h3
  · exact hx
  · exact h3

/-- Rounding does not fall below a power of two. -/
theorem pow_le_fl (h : IsRounding p emin fl) (hp : 1 ≤ p) {e : Int} (he : emin ≤ e) {x : Rat} (hx : 2 ^ e ≤ x) : 2 ^ e ≤ fl x := by
  have := fl_mono h hx
  rwa [fl_exact h (isFloat_pow he hp)] at this

end Float

namespace Network
open Malstroem.Float

theorem near_iff {k : Nat} {x y : Rat} : Rounded k x y ↔ Near (1 / 2 ^ 53) k x y := Iff.rfl

theorem Near.refl {u : Rat} {x : Rat} : Near u 0 x x := by simp [Near]

theorem Near.zero {u : Rat} {k : Nat} : Near u k 0 0 := by simp [Near]

theorem Near.abs_le {u : Rat} {k : Nat} {x y : Rat} (h : Near u k x y) (hy : 0 ≤ y) : |x| ≤ (1 + u) ^ k * y := by
  have h1 := abs_sub_abs_le_abs_sub x y
  rw [abs_of_nonneg hy] at h1
  unfold Near at h
  linarith

theorem Near.mul {u : Rat} (hu : 0 ≤ u) {j k : Nat} {x y x' y' : Rat} (h : Near u j x y) (h' : Near u k x' y') (hy : 0 ≤ y)
    (hy' : 0 ≤ y') : Near u (j + k) (x * x') (y * y') := by
  have h1 := h'.abs_le hy'
  unfold Near at *
  have e : x * x' - y * y' = x' * (x - y) + y * (x' - y') := by ring
  rw [e]
  refine le_trans (abs_add_le _ _) ?_
  rw [abs_mul, abs_mul, abs_of_nonneg hy]
  have hj := one_le_grow hu j
  have hk := one_le_grow hu k
  have h2 : |x'| * |x - y| ≤ ((1 + u) ^ k * y') * (((1 + u) ^ j - 1) * y) :=
    mul_le_mul h1 h (abs_nonneg _) (mul_nonneg (by linarith) hy')
  have h3 : y * |x' - y'| ≤ y * (((1 + u) ^ k - 1) * y') := mul_le_mul_of_nonneg_left h' hy
  rw [pow_add]
  calc _ ≤ ((1 + u) ^ k * y') * (((1 + u) ^ j - 1) * y) + y * (((1 + u) ^ k - 1) * y') := add_le_add h2 h3
    _ = ((1 + u) ^ j * (1 + u) ^ k - 1) * (y * y') := by ring

theorem Near.trans {u : Rat} (hu : 0 ≤ u) {j k : Nat} {x y z : Rat} (h : Near u j x y) (h' : Near u k y z) :
    Near u (j + k) x z := by
  have h1 := h'.le
  have hj := one_le_grow hu j
  unfold Near at *
  refine le_trans (abs_sub_le x y z) ?_
  have h2 : ((1 + u) ^ j - 1) * y ≤ ((1 + u) ^ j - 1) * ((1 + u) ^ k * z) := mul_le_mul_of_nonneg_left h1 (by linarith)
  rw [pow_add]
  calc _ ≤ ((1 + u) ^ j - 1) * ((1 + u) ^ k * z) + ((1 + u) ^ k - 1) * z := add_le_add (h.trans h2) h'
    _ = ((1 + u) ^ j * (1 + u) ^ k - 1) * z := by ring

theorem Near.sum {u : Rat} {k : Nat} {ι : Type} (f g : ι → Rat) (l : List ι) (h : ∀ i ∈ l, Near u k (f i) (g i)) :
    Near u k (l.map f).sum (l.map g).sum := by
  induction l with
  | nil => simp [Near]
  | cons a l ih =>
    have h1 := h a (by simp)
    have h2 := ih fun i hi => h i (by simp [hi])
    unfold Near at *
    rw [List.map_cons, List.map_cons, List.sum_cons, List.sum_cons]
    have e : f a + (l.map f).sum - (g a + (l.map g).sum) = (f a - g a) + ((l.map f).sum - (l.map g).sum) := by ring
    rw [e, mul_add]
    exact le_trans (abs_add_le _ _) (add_le_add h1 h2)

variable {fl : Rat → Rat}

/-- One rounding of a product that is zero or not tiny. -/
theorem Near.fl_mul (h : IsRounding 53 (-1074) fl) {k : Nat} {x y : Rat} (hn : Near (1 / 2 ^ 53) k x y)
    (hx : x = 0 ∨ 2 ^ (-1022 : Int) ≤ x) : Near (1 / 2 ^ 53) (k + 1) (fl x) y := by
  rcases hx with rfl | hx
  · rw [fl_zero h]
    refine Near.round (by norm_num) hn (by simp)
  · refine Near.round (by norm_num) hn ?_
    have h0 : 0 ≤ x := le_trans (two_pos _).le hx
    have := fl_relative_normal h (by norm_num) (x := x) (by rw [abs_of_nonneg h0]; exact hx)
    rwa [abs_of_nonneg h0] at this

/-- A sum of numbers that are zero or at least 2^-149. -/
theorem sumFl_zero_or (h : IsRounding 53 (-1074) fl) (l : List Rat) (hl : ∀ x ∈ l, x = 0 ∨ 2 ^ (-149 : Int) ≤ x) :
    (sumFl fl l = 0 ∧ l.sum = 0) ∨ 2 ^ (-149 : Int) ≤ sumFl fl l := by
  unfold sumFl
  induction l using List.reverseRecOn with
  | nil => exact .inl ⟨rfl, rfl⟩
  | append_singleton l a ih =>
    have ih := ih fun x hx => hl x (List.mem_append_left _ hx)
    have ha := hl a (by simp)
    rw [List.foldl_append, List.sum_append]
    simp only [List.foldl_cons, List.foldl_nil, List.sum_cons, List.sum_nil, add_zero]
    have h0 := two_pos (-149)
    rcases ih with ⟨e1, e2⟩ | ih
    · rw [e1, e2]
      rcases ha with rfl | ha
      · left; simp [fl_zero h]
      · right; rw [zero_add]; exact pow_le_fl h (by norm_num) (by norm_num) ha
    · right
      refine pow_le_fl h (by norm_num) (by norm_num) ?_
      rcases ha with rfl | ha <;> linarith

/-- A float32 number that is not negative is zero or at least 2^-149. -/
theorem f32_zero_or {x : Rat} (hx : IsF32 x) (h0 : 0 ≤ x) : x = 0 ∨ 2 ^ (-149 : Int) ≤ x := by
  obtain ⟨m, e, -, he, rfl⟩ := hx
  have hp := two_pos e
  have hm : 0 ≤ m := by
    by_contra hc
    push Not at hc
    have : (m : Rat) < 0 := by exact_mod_cast hc
    nlinarith
  rcases hm.eq_or_lt with rfl | hm
  · left; simp
  · right
    have h1 : (1 : Rat) ≤ m := by exact_mod_cast hm
    have h2 := two_le.2 he
    nlinarith

section Site
variable {gt : GeoTransform Rat} {mm : Rat}

theorem thousandth (h : IsRounding 53 (-1074) fl) :
    Near (1 / 2 ^ 53) 1 (fl (1 / 1000)) (1 / 1000) ∧ 2 ^ (-10 : Int) ≤ fl (1 / 1000) := by
  constructor
  · refine Near.fl_mul h (k := 0) Near.refl (.inr ?_)
    have : (2 : Rat) ^ (-1022 : Int) ≤ 2 ^ (-10 : Int) := two_le.2 (by norm_num)
    refine this.trans (by norm_num)
  · have := fl_mono h (show (2 : Rat) ^ (-10 : Int) ≤ 1 / 1000 by norm_num)
    rwa [fl_exact h (isFloat_pow (by norm_num) (by norm_num))] at this

/-- The area of a cell. -/
theorem area_spec (h : IsRounding 53 (-1074) fl) (hw : 2 ^ (-300 : Int) ≤ |gt.t1|) (hh : 2 ^ (-300 : Int) ≤ |gt.t5|) :
    Near (1 / 2 ^ 53) 1 (fl (|gt.t1| * |gt.t5|)) (|gt.t1| * |gt.t5|) ∧ 2 ^ (-600 : Int) ≤ fl (|gt.t1| * |gt.t5|) := by
  have hp : (2 : Rat) ^ (-600 : Int) ≤ |gt.t1| * |gt.t5| := by
    have := mul_le_mul hw hh (two_pos _).le (abs_nonneg _)
    rwa [← zpow_add₀ (by norm_num)] at this
  exact ⟨Near.fl_mul h (k := 0) Near.refl (.inr ((two_le.2 (by norm_num)).trans hp)), pow_le_fl h (by norm_num) (by norm_num) hp⟩

/-- The area of a number of cells: zero or not tiny. -/
theorem count_spec (h : IsRounding 53 (-1074) fl) {n : Nat} (hn : n ≤ 2 ^ 53) {a A : Rat} (hA : Near (1 / 2 ^ 53) 1 a A)
    (h0 : 0 ≤ A) (ha : 2 ^ (-600 : Int) ≤ a) :
    Near (1 / 2 ^ 53) 2 (fl (fl (n : Rat) * a)) (n * A) ∧
      (n = 0 ∧ fl (fl (n : Rat) * a) = 0 ∨ 2 ^ (-600 : Int) ≤ fl (fl (n : Rat) * a)) := by
  have hf : fl (n : Rat) = n := by
    have : IsF64 ((n : Int) * 2 ^ (0 : Int)) := isFloat_multiple (by norm_num) (by norm_num) (by
      rw [abs_of_nonneg (by omega)]; exact_mod_cast hn)
    rw [zpow_zero, mul_one] at this
    exact fl_exact h (by exact_mod_cast this)
  rw [hf]
  have hbig : n ≠ 0 → (2 : Rat) ^ (-600 : Int) ≤ n * a := by
    intro hne
    have h1 : (1 : Rat) ≤ n := by exact_mod_cast Nat.one_le_iff_ne_zero.2 hne
    have := two_pos (-600)
    nlinarith
  constructor
  · have h1 := Near.mul (u := 1 / 2 ^ 53) (by norm_num) (Near.refl (x := (n : Rat))) hA (by positivity) h0
    rw [zero_add] at h1
    refine Near.fl_mul h h1 ?_
    by_cases hne : n = 0
    · left; simp [hne]
    · exact .inr ((two_le.2 (by norm_num)).trans (hbig hne))
  · by_cases hne : n = 0
    · left; exact ⟨hne, by simp [hne, fl_zero h]⟩
    · exact .inr (pow_le_fl h (by norm_num) (by norm_num) (hbig hne))

/-- The rain on an area. -/
theorem rain_spec (h : IsRounding 53 (-1074) fl) (hmm : mm = 0 ∨ 2 ^ (-300 : Int) ≤ mm) {k : Nat} {a A : Rat}
    (hA : Near (1 / 2 ^ 53) k a A) (h0 : 0 ≤ A) (ha : a = 0 ∨ 2 ^ (-600 : Int) ≤ a) :
    Near (1 / 2 ^ 53) (k + 3) (fl (fl (a * mm) * fl (1 / 1000))) (mm / 1000 * A) ∧ 0 ≤ fl (fl (a * mm) * fl (1 / 1000)) := by
  have hm0 : 0 ≤ mm := by
    rcases hmm with rfl | hmm
    · exact le_refl _
    · exact (two_pos _).le.trans hmm
  have hx : a * mm = 0 ∨ 2 ^ (-900 : Int) ≤ a * mm := by
    rcases hmm with rfl | hmm
    · left; simp
    · rcases ha with rfl | ha
      · left; simp
      · right
        have := mul_le_mul ha hmm (two_pos _).le ((two_pos _).le.trans ha)
        rwa [← zpow_add₀ (by norm_num)] at this
  have h1 := Near.mul (u := 1 / 2 ^ 53) (by norm_num) hA (Near.refl (x := mm)) h0 hm0
  have h2 := Near.fl_mul h h1 (hx.imp id (two_le.2 (by norm_num)).trans)
  obtain ⟨t1, t2⟩ := thousandth h
  have h3 := Near.mul (u := 1 / 2 ^ 53) (by norm_num) h2 t1 (mul_nonneg h0 hm0) (by norm_num)
  have hy : fl (a * mm) = 0 ∨ 2 ^ (-900 : Int) ≤ fl (a * mm) := by
    rcases hx with hx | hx
    · left; rw [hx, fl_zero h]
    · right; exact pow_le_fl h (by norm_num) (by norm_num) hx
  have hz : fl (a * mm) * fl (1 / 1000) = 0 ∨ 2 ^ (-910 : Int) ≤ fl (a * mm) * fl (1 / 1000) := by
    rcases hy with hy | hy
    · left; rw [hy, zero_mul]
    · right
      have := mul_le_mul hy t2 (two_pos _).le ((two_pos _).le.trans hy)
      rwa [← zpow_add₀ (by norm_num)] at this
  constructor
  · have h4 := Near.fl_mul h h3 (hz.imp id (two_le.2 (by norm_num)).trans)
    have e : mm / 1000 * A = A * mm * (1 / 1000) := by ring
    rw [e]
    exact h4
  · refine fl_nonneg h ?_
    rcases hz with hz | hz
    · exact hz.ge
    · exact (two_pos _).le.trans hz

/-- The volume of a bluespot. -/
theorem volume_spec (h : IsRounding 53 (-1074) fl) {depths : List Rat} (hd : ∀ x ∈ depths, 0 ≤ x ∧ IsF32 x) {a A : Rat}
    (hA : Near (1 / 2 ^ 53) 1 a A) (h0 : 0 ≤ A) (ha : 2 ^ (-600 : Int) ≤ a) :
    Near (1 / 2 ^ 53) (depths.length + 2) (fl (sumFl fl depths * a)) (depths.sum * A) ∧ 0 ≤ fl (sumFl fl depths * a) := by
  obtain ⟨s1, s2, s3, s4⟩ := sumFl_spec h (by norm_num) depths fun x hx => ⟨(hd x hx).1, .of_float (f64_of_f32 (hd x hx).2)⟩
  have hz := sumFl_zero_or h depths fun x hx => f32_zero_or (hd x hx).2 (hd x hx).1
  refine ⟨Near.fl_mul h (Near.mul (by norm_num) s4 hA s3 h0) ?_, fl_nonneg h (mul_nonneg s1 ((two_pos _).le.trans ha))⟩
  rcases hz with ⟨e, -⟩ | hz
  · left; rw [e, zero_mul]
  · right
    have := mul_le_mul hz ha (two_pos _).le s1
    rw [← zpow_add₀ (by norm_num)] at this
    exact (two_le.2 (by norm_num)).trans this

end Site

end Network
end Malstroem
