/-
Hypsometry statistics in floating point arithmetic.
-/
import Verif.Proofs.CompleteFloat
import Verif.Proofs.HypsRun
import Verif.Spec.HypsFloat

set_option linter.unusedSectionVars false

namespace Malstroem
open Spec

namespace Float
variable {fl : Rat → Rat}

/-- The relative error of rounding a number that is zero or not tiny. -/
theorem fl_between (h : IsRounding 53 (-1074) fl) {x : Rat} (hx : x = 0 ∨ 2 ^ (-1022 : Int) ≤ x) :
    (1 - 1 / 2 ^ 53) * x ≤ fl x ∧ fl x ≤ (1 + 1 / 2 ^ 53) * x := by
  rcases hx with rfl | hx
  · rw [fl_zero h]; simp
  · have h0 : 0 ≤ x := le_trans (two_pos _).le hx
    have := fl_relative_normal h (by norm_num) (x := x) (by rw [abs_of_nonneg h0]; exact hx)
    rw [abs_of_nonneg h0] at this
    have := abs_le.1 this
    constructor <;> linarith [this.1, this.2]

/-- Rounding to float32 does not move a number above a float32 number that is at least as large up to 2^-30. -/
theorem fl32_le (h : IsRounding 24 (-149) fl) {x z : Rat} (hz : IsF32 z) (h0 : 0 ≤ z) (hx : x ≤ z * (1 + 1 / 2 ^ 30)) : fl x ≤ z := by
  refine (fl_mono h hx).trans ?_
  by_contra hc
  push Not at hc
  obtain ⟨e, hg⟩ := exists_gap 24 (-149) z
  have h1 := hg.least hz h0 (h _).1 hc
  have h2 := (h (z * (1 + 1 / 2 ^ 30))).2 z hz
  have h3 := hg.2.1
  rw [abs_of_nonneg h0, show (e + (24 : Nat) : Int) = e + 24 from rfl, zpow_add₀ (by norm_num)] at h3
  have h4 : z * (1 + 1 / 2 ^ 30) - z = z / 2 ^ 30 := by ring
  rw [h4, abs_of_nonneg (show (0 : Rat) ≤ z / 2 ^ 30 by positivity)] at h2
  have h5 := (abs_le.1 h2).1
  have := two_pos e
  norm_num at h3
  linarith

/-- Rounding to float32 does not move a number below a float32 number that is at most as large up to 2^-30. -/
theorem le_fl32 (h : IsRounding 24 (-149) fl) {x z : Rat} (hz : IsF32 z) (h0 : 0 ≤ z) (hx : z * (1 - 1 / 2 ^ 30) ≤ x) : z ≤ fl x := by
  refine le_trans ?_ (fl_mono h hx)
  by_contra hc
  push Not at hc
  set y := fl (z * (1 - 1 / 2 ^ 30)) with hy
  have hy0 : 0 ≤ y := fl_nonneg h (mul_nonneg h0 (by norm_num))
  obtain ⟨e, hg⟩ := exists_gap 24 (-149) y
  have h1 := hg.least (h _).1 hy0 hz hc
  have h2 := (h (z * (1 - 1 / 2 ^ 30))).2 z hz
  rw [← hy] at h2
  have h3 := hg.2.1
  rw [abs_of_nonneg hy0, show (e + (24 : Nat) : Int) = e + 24 from rfl, zpow_add₀ (by norm_num)] at h3
  have h4 : z * (1 - 1 / 2 ^ 30) - z = -(z / 2 ^ 30) := by ring
  rw [h4, abs_neg, abs_of_nonneg (show (0 : Rat) ≤ z / 2 ^ 30 by positivity)] at h2
  have h5 := (abs_le.1 h2).2
  have := two_pos e
  norm_num at h3
  linarith

end Float

namespace Hyps
open Malstroem.Float
variable {fl : Rat → Rat}

theorem trunc_bounds {a : Rat} (h : 0 ≤ a) : 0 ≤ pyTrunc a ∧ (pyTrunc a : Rat) ≤ a ∧ a < pyTrunc a + 1 := by
  unfold pyTrunc
  rw [if_pos h]
  exact ⟨Int.floor_nonneg.2 h, Int.floor_le a, Int.lt_floor_add_one a⟩

/-- Scaling an elevation. -/
theorem scaled_spec (h : IsRounding 53 (-1074) fl) {res z : Rat} (hr1 : 2 ^ (-100 : Int) ≤ res) (hr2 : res ≤ 2 ^ 100)
    (hz : z = 0 ∨ 2 ^ (-149 : Int) ≤ z) :
    0 ≤ fl (z * fl (1 / res)) ∧ (1 - 1 / 2 ^ 53) ^ 2 * z ≤ fl (z * fl (1 / res)) * res ∧
      fl (z * fl (1 / res)) * res ≤ (1 + 1 / 2 ^ 53) ^ 2 * z := by
  have hres : 0 < res := lt_of_lt_of_le (two_pos _) hr1
  have hz0 : 0 ≤ z := by
    rcases hz with rfl | hz
    · exact le_refl _
    · exact (two_pos _).le.trans hz
  have hinv : (2 : Rat) ^ (-100 : Int) ≤ 1 / res := by
    rw [le_div_iff₀ hres, zpow_neg, inv_mul_le_iff₀ (by positivity), mul_one]
    exact_mod_cast hr2
  have hs := fl_between h (x := 1 / res) (.inr (le_trans (two_le.2 (by norm_num)) hinv))
  have hs2 := pow_le_fl h (by norm_num) (e := -100) (by norm_num) hinv
  set s := fl (1 / res)
  have hs0 : 0 < s := lt_of_lt_of_le (two_pos _) hs2
  have ha := fl_between h (x := z * s) (by
    rcases hz with rfl | hz
    · left; simp
    · right
      refine le_trans (two_le.2 (show (-1022 : Int) ≤ -149 + -100 by norm_num)) ?_
      rw [zpow_add₀ (by norm_num)]
      exact mul_le_mul hz hs2 (two_pos _).le hz0)
  have h1 : (1 - 1 / 2 ^ 53) * z ≤ z * s * res := by
    have : (1 - 1 / 2 ^ 53) * (1 / res) * res ≤ s * res := mul_le_mul_of_nonneg_right hs.1 hres.le
    rw [mul_assoc, one_div_mul_cancel hres.ne', mul_one] at this
    nlinarith
  have h2 : z * s * res ≤ (1 + 1 / 2 ^ 53) * z := by
    have : s * res ≤ (1 + 1 / 2 ^ 53) * (1 / res) * res := mul_le_mul_of_nonneg_right hs.2 hres.le
    rw [mul_assoc, one_div_mul_cancel hres.ne', mul_one] at this
    nlinarith
  refine ⟨fl_nonneg h (mul_nonneg hz0 hs0.le), ?_, ?_⟩
  · have := mul_le_mul_of_nonneg_right ha.1 hres.le
    refine le_trans ?_ this
    linarith
  · have := mul_le_mul_of_nonneg_right ha.2 hres.le
    refine this.trans ?_
    linarith

/-- A whole number of steps. -/
theorem steps_spec (h : IsRounding 53 (-1074) fl) {res : Rat} (hr1 : 2 ^ (-100 : Int) ≤ res) {k : Int} (hk : 0 ≤ k) :
    (1 - 1 / 2 ^ 53) ^ 2 * (k * res) ≤ fl (fl (k : Rat) * res) ∧ fl (fl (k : Rat) * res) ≤ (1 + 1 / 2 ^ 53) ^ 2 * (k * res) ∧
      (1 ≤ k → 2 ^ (-100 : Int) ≤ fl (fl (k : Rat) * res)) := by
  have hres : 0 < res := lt_of_lt_of_le (two_pos _) hr1
  rcases hk.eq_or_lt with rfl | hk
  · simp [fl_zero h]
  have h1 : (1 : Rat) ≤ k := by exact_mod_cast hk
  have ha := fl_between h (x := (k : Rat)) (.inr (le_trans (le_trans (two_le.2 (show (-1022 : Int) ≤ 0 by norm_num)) (by norm_num)) h1))
  have hb := pow_le_fl h (by norm_num) (e := 0) (by norm_num) (x := (k : Rat)) (by simpa using h1)
  rw [zpow_zero] at hb
  have hc : (2 : Rat) ^ (-100 : Int) ≤ fl (k : Rat) * res := by
    refine hr1.trans ?_
    nlinarith
  have hd := fl_between h (x := fl (k : Rat) * res) (.inr (le_trans (two_le.2 (by norm_num)) hc))
  have e1 := mul_le_mul_of_nonneg_right ha.1 hres.le
  have e2 := mul_le_mul_of_nonneg_right ha.2 hres.le
  refine ⟨le_trans ?_ hd.1, hd.2.trans ?_, fun _ => pow_le_fl h (by norm_num) (by norm_num) hc⟩ <;> linarith

/-- The bounds of the histogram. -/
theorem bins_spec (h : IsRounding 53 (-1074) fl) {res zmin zmax : Rat} (hr1 : 2 ^ (-100 : Int) ≤ res) (hr2 : res ≤ 2 ^ 100)
    (hz1 : zmin = 0 ∨ 2 ^ (-149 : Int) ≤ zmin) (hz2 : zmax = 0 ∨ 2 ^ (-149 : Int) ≤ zmax) (hz : zmin ≤ zmax) (hlim : zmax ≤ 2 ^ 20 * res)
    {b : BinsInfo Rat} (hb : histogramBinsFl fl zmin zmax res = b) :
    1 ≤ b.num_bins ∧ 0 ≤ b.lower_bound ∧ b.lower_bound < b.upper_bound ∧ 2 ^ (-120 : Int) ≤ b.upper_bound ∧
      b.upper_bound * b.num_bins ≤ 2 ^ 21 * (b.upper_bound - b.lower_bound) ∧
      b.lower_bound ≤ zmin * (1 + 1 / 2 ^ 50) ∧ zmin * (1 - 1 / 2 ^ 50) - res ≤ b.lower_bound ∧
      zmax * (1 - 1 / 2 ^ 50) ≤ b.upper_bound ∧ b.upper_bound ≤ (zmax + res) * (1 + 1 / 2 ^ 50) ∧
      |b.upper_bound - b.lower_bound - b.num_bins * res| ≤ (zmax + res) / 2 ^ 50 := by
  have hres : 0 < res := lt_of_lt_of_le (two_pos _) hr1
  obtain ⟨a0, a1, a2⟩ := scaled_spec h hr1 hr2 hz1
  obtain ⟨c0, c1, c2⟩ := scaled_spec h hr1 hr2 hz2
  have hmono : fl (zmin * fl (1 / res)) ≤ fl (zmax * fl (1 / res)) :=
    fl_mono h (mul_le_mul_of_nonneg_right hz (fl_nonneg h (by positivity)))
  have hm := pyTrunc_mono hmono
  obtain ⟨m0, m1, m2⟩ := trunc_bounds a0
  obtain ⟨M0, M1, M2⟩ := trunc_bounds c0
  subst hb
  unfold histogramBinsFl
  simp only
  set a := fl (zmin * fl (1 / res))
  set c := fl (zmax * fl (1 / res))
  generalize pyTrunc a = m at *
  generalize pyTrunc c = M at *
  obtain ⟨l1, l2, -⟩ := steps_spec h hr1 m0
  obtain ⟨w1, w2, w3⟩ := steps_spec h hr1 (show 0 ≤ M - m + 1 by omega)
  have w3 := w3 (by omega)
  set lo := fl (fl (m : Rat) * res)
  set w := fl (fl ((M - m + 1 : Int) : Rat) * res)
  have hlo0 : 0 ≤ lo := fl_nonneg h (mul_nonneg (fl_nonneg h (by exact_mod_cast m0)) hres.le)
  have hx : (2 : Rat) ^ (-100 : Int) ≤ lo + w := by linarith
  have hu := fl_between h (x := lo + w) (.inr (le_trans (two_le.2 (by norm_num)) hx))
  have hu2 := pow_le_fl h (by norm_num) (e := -100) (by norm_num) hx
  set hi := fl (lo + w)
  have hN : (1 : Rat) ≤ ((M - m + 1 : Int) : Rat) := by exact_mod_cast (show 1 ≤ M - m + 1 by omega)
  have hNeq : ((M - m + 1 : Int) : Rat) * res = M * res - m * res + res := by push_cast; ring
  have hNr : res ≤ ((M - m + 1 : Int) : Rat) * res := by nlinarith
  have m1' := mul_le_mul_of_nonneg_right m1 hres.le
  have m2' := mul_lt_mul_of_pos_right m2 hres
  have M1' := mul_le_mul_of_nonneg_right M1 hres.le
  have M2' := mul_lt_mul_of_pos_right M2 hres
  rw [add_mul, one_mul] at m2' M2'
  have hmr : 0 ≤ (m : Rat) * res := mul_nonneg (by exact_mod_cast m0) hres.le
  have hzm0 : 0 ≤ zmin := by
    rcases hz1 with rfl | h1
    · exact le_refl _
    · exact (two_pos _).le.trans h1
  norm_num only at a1 a2 c1 c2 l1 l2 w1 w2 hu hlim
  have hgap : 7 / 8 * (((M - m + 1 : Int) : Rat) * res) ≤ hi - lo := by linarith [hu.1]
  have htop : hi ≤ 3 / 2 * 2 ^ 20 * res := by
    norm_num only
    linarith [hu.2]
  refine ⟨by omega, hlo0, by linarith, le_trans (two_le.2 (by norm_num)) hu2, ?_, ?_, ?_, ?_, ?_, ?_⟩
  · have := mul_le_mul_of_nonneg_right htop (show (0 : Rat) ≤ ((M - m + 1 : Int) : Rat) by linarith)
    refine this.trans ?_
    norm_num only at hgap ⊢
    nlinarith
  · norm_num only; linarith
  · norm_num only; linarith
  · norm_num only; linarith [hu.1]
  · norm_num only; linarith [hu.2]
  · rw [abs_le]
    norm_num only
    constructor <;> linarith [hu.1, hu.2]

/-- Which elevations a record counts: the kept ones altogether, and up to a level. -/
def Counted (conv : Rat → Rat) (res : Rat) (zs : List Rat) (zmax : Rat) (s : Stats Rat) : Prop :=
  s.zhistogram.counts.sum = countOf zs (fun z => conv s.zhistogram.bins.lower_bound ≤ z ∧ z ≤ conv s.zhistogram.bins.upper_bound) ∧
  ∀ i ≤ s.zhistogram.counts.length,
    countOf zs (fun z => conv s.zhistogram.bins.lower_bound ≤ z ∧ z ≤ conv s.zhistogram.bins.upper_bound ∧
      z < s.zhistogram.bins.lower_bound + i * res - (zmax + res) / 2 ^ 22) ≤ (s.zhistogram.counts.take i).sum ∧
    (s.zhistogram.counts.take i).sum ≤ countOf zs fun z => conv s.zhistogram.bins.lower_bound ≤ z ∧ z ≤ conv s.zhistogram.bins.upper_bound ∧
      z ≤ s.zhistogram.bins.lower_bound + i * res + (zmax + res) / 2 ^ 22

theorem countOf_mono {zs : List Rat} {p q : Rat → Prop} [DecidablePred p] [DecidablePred q] (h : ∀ z ∈ zs, p z → q z) :
    countOf zs p ≤ countOf zs q := by
  unfold countOf
  rw [← List.countP_eq_length_filter, ← List.countP_eq_length_filter]
  exact_mod_cast List.countP_mono_left fun z hz hp => by simpa using h z hz (by simpa using hp)

theorem countOf_all {zs : List Rat} {p : Rat → Prop} [DecidablePred p] (h : ∀ z ∈ zs, p z) : countOf zs p = zs.length := by
  unfold countOf
  rw [List.filter_eq_self.2 fun z hz => by simpa using h z hz]

theorem labelHypsometryFl_spec (hfl : IsRounding 53 (-1074) fl) {conv : Rat → Rat}
    {histogram : List Rat → Int → Rat → Rat → Except PyErr (List Int)} (hh : HistogramCounts conv histogram) {res zmin zmax : Rat}
    {zs : List Rat} {background label : Int} {st : Label.Stat Rat} (hl : label ≠ background) (hmin : IsMin zs zmin) (hmax : IsMax zs zmax)
    (h1 : st.min = zmin) (h2 : st.max = zmax) (hE : FloatElevations res zs) :
    ∃ s, labelHypsometryFl fl histogram res background label st zs = .ok s ∧ BinsAround res zmin zmax s ∧ Counted conv res zs zmax s := by
  obtain ⟨b1, b2, b3, b4, b5, b6, b7, b8, b9, b10⟩ := bins_spec hfl hE.res_lower hE.res_upper (hE.elevation _ hmin.1).1
    (hE.elevation _ hmax.1).1 (hmin.2 _ hmax.1) (hE.elevation _ hmax.1).2 rfl
  have hres : 0 < res := lt_of_lt_of_le (two_pos _) hE.res_lower
  generalize hb : histogramBinsFl fl zmin zmax res = b at *
  have hbr : b.resolution = res := by rw [← hb]; rfl
  obtain ⟨N, hN⟩ : ∃ N : Nat, b.num_bins = N := ⟨b.num_bins.toNat, by omega⟩
  rw [hN, Int.cast_natCast] at b5 b10
  have hN1 : 1 ≤ N := by omega
  obtain ⟨counts, c1, c2, c3, c4, c5⟩ := hh zs N b.lower_bound b.upper_bound hN1 b2 b3 b4 b5
  rw [← hN] at c1
  refine ⟨⟨⟨counts, b⟩, st.min, st.max⟩, ?_, ⟨h1, h2, hbr, by rw [hN, ← c2], c3, b2, b6, b7, b8, b9, by
    show |b.upper_bound - b.lower_bound - (counts.length : Rat) * res| ≤ _
    rw [c2]; exact b10⟩, c4, ?_⟩
  · unfold labelHypsometryFl
    rw [if_neg hl, h1, h2]
    show (do let counts ← histogram zs (histogramBinsFl fl zmin zmax res).num_bins (histogramBinsFl fl zmin zmax res).lower_bound
                (histogramBinsFl fl zmin zmax res).upper_bound
             pure _ : Except PyErr (Stats Rat)) = _
    rw [hb]
    exact (congrArg (· >>= _) c1).trans rfl
  · intro i hi
    have hi : i ≤ N := by rw [← c2]; exact hi
    obtain ⟨e1, e2⟩ := c5 i hi
    have hNpos : (0 : Rat) < N := by exact_mod_cast hN1
    have hiN : (i : Rat) / N ≤ 1 := by rw [div_le_one hNpos]; exact_mod_cast hi
    have hi0 : (0 : Rat) ≤ i / N := by positivity
    have hkey : |(i : Rat) * ((b.upper_bound - b.lower_bound) / N) - i * res| ≤ (zmax + res) / 2 ^ 50 := by
      have : (i : Rat) * ((b.upper_bound - b.lower_bound) / N) - i * res = i / N * (b.upper_bound - b.lower_bound - N * res) := by
        field_simp
      rw [this, abs_mul, abs_of_nonneg hi0]
      calc _ ≤ 1 * |b.upper_bound - b.lower_bound - N * res| := mul_le_mul_of_nonneg_right hiN (abs_nonneg _)
        _ ≤ _ := by rw [one_mul]; exact b10
    have hz0 : 0 ≤ zmax := by
      rcases (hE.elevation _ hmax.1).1 with h | h
      · exact h.ge
      · exact (two_pos _).le.trans h
    have hkey := abs_le.1 hkey
    have htol : b.upper_bound / 2 ^ 23 + (zmax + res) / 2 ^ 50 ≤ (zmax + res) / 2 ^ 22 := by
      norm_num only at b9 ⊢
      linarith
    refine ⟨le_trans (countOf_mono ?_) e1, e2.trans (countOf_mono ?_)⟩
    · rintro z hz ⟨g1, g2, g3⟩
      refine ⟨g1, g2, ?_⟩
      simp only at g3
      linarith [hkey.1]
    · rintro z hz ⟨g1, g2, g3⟩
      refine ⟨g1, g2, ?_⟩
      simp only
      linarith [hkey.2]

/-! ### A function that meets the assumption -/

/-- Counts by exact division into bins. -/
def exactCounts (conv : Rat → Rat) (data : List Rat) (bins : Int) (lo hi : Rat) : Except PyErr (List Int) :=
  .ok ((List.range bins.toNat).map fun j => countOf data fun z => conv lo ≤ z ∧ z ≤ conv hi ∧
    min (⌊(z - lo) / ((hi - lo) / bins)⌋.toNat) (bins.toNat - 1) = j)

theorem sum_range_countOf (data : List Rat) (keep : Rat → Prop) [DecidablePred keep] (f : Rat → Nat) (n : Nat) :
    ((List.range n).map fun j => countOf data fun z => keep z ∧ f z = j).sum = countOf data fun z => keep z ∧ f z < n := by
  induction n with
  | zero =>
    simp [countOf]
  | succ n ih =>
    rw [List.range_succ, List.map_append, List.sum_append, ih]
    simp only [List.map_cons, List.map_nil, List.sum_cons, List.sum_nil, add_zero]
    unfold countOf
    clear ih
    induction data with
    | nil => rfl
    | cons z data ih =>
      simp only [List.filter_cons]
      by_cases hk : keep z
      · rcases lt_trichotomy (f z) n with h1 | h1 | h1
        · have h2 : f z ≠ n := by omega
          have h3 : f z < n + 1 := by omega
          simp [hk, h1, h2, h3] at ih ⊢
          linarith
        · simp [hk, h1] at ih ⊢
          linarith
        · have h2 : f z ≠ n := by omega
          have h3 : ¬ f z < n + 1 := by omega
          have h4 : ¬ f z < n := by omega
          simpa [hk, h2, h3, h4] using ih
      · simpa [hk] using ih

theorem take_range_map {α : Type} (f : Nat → α) {i n : Nat} (h : i ≤ n) :
    ((List.range n).map f).take i = (List.range i).map f := by
  rw [← List.map_take, List.take_range, min_eq_left h]

theorem exactCounts_spec {conv : Rat → Rat} (hc : ∀ lo hi : Rat, 0 ≤ lo → lo ≤ hi → 2 ^ (-120 : Int) ≤ hi → |conv lo - lo| ≤ hi / 2 ^ 23) :
    HistogramCounts conv (exactCounts conv) := by
  intro data bins lo hi hb h0 hlt hbig _
  refine ⟨_, rfl, by simp, fun c hc' => ?_, ?_, fun i hi' => ?_⟩
  · obtain ⟨j, -, rfl⟩ := List.mem_map.1 hc'
    exact Int.natCast_nonneg _
  · have := sum_range_countOf data (fun z => conv lo ≤ z ∧ z ≤ conv hi)
      (fun z => min (⌊(z - lo) / ((hi - lo) / ((bins : Int) : Rat))⌋.toNat) ((bins : Int).toNat - 1)) bins
    simp only [and_assoc] at this
    simp only [Int.toNat_natCast] at this ⊢
    rw [this]
    apply le_antisymm
    · exact countOf_mono fun z _ h => ⟨h.1, h.2.1⟩
    · exact countOf_mono fun z _ h => ⟨h.1, h.2, lt_of_le_of_lt (min_le_right _ _) (by omega)⟩
  · simp only [Int.toNat_natCast]
    rw [take_range_map _ hi']
    have := sum_range_countOf data (fun z => conv lo ≤ z ∧ z ≤ conv hi)
      (fun z => min (⌊(z - lo) / ((hi - lo) / ((bins : Int) : Rat))⌋.toNat) (bins - 1)) i
    simp only [and_assoc] at this
    rw [this]
    have hw : 0 < (hi - lo) / ((bins : Int) : Rat) := by
      have : (0 : Rat) < ((bins : Int) : Rat) := by exact_mod_cast hb
      exact div_pos (by linarith) this
    have hi0 : 0 ≤ hi / 2 ^ 23 := by
      have := (two_pos (-120)).trans_le hbig
      positivity
    have hclo := abs_le.1 (hc lo hi h0 hlt.le hbig)
    have hchi := abs_le.1 (hc hi hi (h0.trans hlt.le) le_rfl hbig)
    constructor
    · refine countOf_mono fun z _ ⟨g1, g2, g3⟩ => ⟨g1, g2, lt_of_le_of_lt (min_le_left _ _) ?_⟩
      have hz : z < lo + i * ((hi - lo) / ((bins : Int) : Rat)) := by
        have : ((bins : Int) : Rat) = (bins : Rat) := by simp
        rw [this]; linarith
      have hi1 : i ≠ 0 := by
        rintro rfl
        simp only [Nat.cast_zero, zero_mul, add_zero] at g3
        linarith [hclo.1]
      have : ⌊(z - lo) / ((hi - lo) / ((bins : Int) : Rat))⌋ < (i : Int) := by
        rw [Int.floor_lt, div_lt_iff₀ hw]
        push_cast at hz ⊢
        linarith
      omega
    · refine countOf_mono fun z _ ⟨g1, g2, g3⟩ => ⟨g1, g2, ?_⟩
      rcases hi'.eq_or_lt with rfl | hib
      · have : (i : Rat) ≠ 0 := by
          have : (i : Rat) ≥ 1 := by exact_mod_cast hb
          linarith
        rw [mul_div_cancel₀ _ this]
        linarith [hchi.2]
      · have h1 : ⌊(z - lo) / ((hi - lo) / ((bins : Int) : Rat))⌋ < (i : Int) := by
          rcases min_lt_iff.1 g3 with h | h
          · have := Int.self_le_toNat ⌊(z - lo) / ((hi - lo) / ((bins : Int) : Rat))⌋
            omega
          · omega
        rw [Int.floor_lt, div_lt_iff₀ hw] at h1
        push_cast at h1
        linarith

end Hyps
end Malstroem
