import Verif.Model.ApproxFloat
import Verif.Spec.ApproxFloat
import Verif.Proofs.HypsFloat
import Verif.Proofs.Level

set_option linter.unusedSectionVars false

namespace Malstroem
open Spec
open Malstroem.Float

namespace Float
variable {fl fl32 : Rat → Rat}

/-- Rounding up is by a small relative error or a tiny amount. -/
theorem fl_le (h : IsRounding 53 (-1074) fl) {x : Rat} (hx : 0 ≤ x) : fl x ≤ (1 + 1 / 2 ^ 53) * x + 2 ^ (-1021 : Int) := by
  rcases le_or_gt (2 ^ (-1022 : Int)) x with h1 | h1
  · have := (fl_between h (.inr h1)).2
    have := two_pos (-1021)
    linarith
  · have := fl_add_le h (x := 0) isFloat_zero hx
    rw [zero_add, zero_add] at this
    have e : (2 : Rat) ^ (-1021 : Int) = 2 * 2 ^ (-1022 : Int) := by rw [← zpow_one_add₀ (by norm_num)]; norm_num
    have : 0 ≤ (1 + 1 / 2 ^ 53) * x := by positivity
    linarith

/-- The threshold for a full bluespot is less than one. -/
theorem threshold_lt (h : IsRounding 53 (-1074) fl) : fl (9999 / 10000) < 1 := by
  have := (fl_between h (x := 9999 / 10000) (.inr (le_trans (b := 2 ^ (-1 : Int)) (two_le.2 (by norm_num)) (by norm_num)))).2
  refine lt_of_le_of_lt this ?_
  norm_num

theorem not_full (h : IsRounding 53 (-1074) fl) {v m : Rat} (hm : 0 ≤ m) (hf : ¬ (m = 0 ∨ fl (v / m) > fl (9999 / 10000))) : v < m := by
  push Not at hf
  obtain ⟨h0, h1⟩ := hf
  by_contra hc
  push Not at hc
  have hm : 0 < m := lt_of_le_of_ne hm (Ne.symm h0)
  have h2 : 1 ≤ v / m := by rwa [le_div_iff₀ hm, one_mul]
  have h3 := fl_mono h h2
  have h4 : fl 1 = 1 := fl_exact h ⟨1, 0, by norm_num, by norm_num, by norm_num⟩
  have := threshold_lt h
  linarith

/-- Subtracting in floating point arithmetic keeps room for the numbers between. -/
theorem sub_le_fl_sub {p : Nat} {emin : Int} (hp : 1 ≤ p) (h : IsRounding p emin fl) {m z s : Rat} (hm : IsFloat p emin m) (hz : IsFloat p emin z)
    (hs : IsFloat p emin s) (h0 : 0 ≤ m) (hmz : m ≤ z) (hzs : z < s) : z - m ≤ fl (s - m) := by
  obtain ⟨e, hg⟩ := exists_gap p emin z
  obtain ⟨a, ha, hab⟩ := hg.multiple hz
  have he := two_pos e
  have h1 := hg.least hz (h0.trans hmz) hs hzs
  set k := ⌈(z - m) / 2 ^ e⌉ with hk
  have k1 : z - m ≤ k * 2 ^ e := by
    have := Int.le_ceil ((z - m) / 2 ^ e)
    rwa [div_le_iff₀ he] at this
  have k2 : k * 2 ^ e ≤ s - m := by
    have := Int.ceil_lt_add_one ((z - m) / 2 ^ e)
    have h2 : (k : Rat) * 2 ^ e < z - m + 2 ^ e := by
      calc (k : Rat) * 2 ^ e < ((z - m) / 2 ^ e + 1) * 2 ^ e := mul_lt_mul_of_pos_right this he
        _ = z - m + 2 ^ e := by field_simp
    linarith
  have ka : k ≤ a := by
    rw [hk]
    apply Int.ceil_le.2
    rw [div_le_iff₀ he, ← ha]
    linarith
  have k0 : 0 ≤ k := Int.ceil_nonneg (div_nonneg (by linarith) he.le)
  have hf : IsFloat p emin (k * 2 ^ e) := isFloat_multiple hg.1 hp (by
    rw [abs_of_nonneg k0]
    exact ka.trans ((le_abs_self a).trans hab.le))
  have := fl_mono h k2
  rw [fl_exact h hf] at this
  linarith

end Float

namespace Approx
open Hyps
variable {fl : Rat → Rat}

theorem cumsum_sorted (h : IsRounding 53 (-1074) fl) (l : List Rat) (hl : ∀ x ∈ l, 0 ≤ x) (acc : Rat) (ha : IsF64 acc) :
    (npCumsumFromFl fl acc l).Pairwise (· ≤ ·) ∧ ∀ x ∈ npCumsumFromFl fl acc l, acc ≤ x := by
  induction l generalizing acc with
  | nil => exact ⟨List.Pairwise.nil, by simp [npCumsumFromFl]⟩
  | cons x xs ih =>
    obtain ⟨h1, h2⟩ := ih (fun y hy => hl y (List.mem_cons_of_mem _ hy)) (fl (acc + x)) (h _).1
    have h3 : acc ≤ fl (acc + x) := le_fl_add h ha (hl x (by simp))
    refine ⟨List.pairwise_cons.2 ⟨h2, h1⟩, fun y hy => ?_⟩
    rcases List.mem_cons.1 hy with rfl | hy
    · exact h3
    · exact h3.trans (h2 y hy)

theorem cumsum_length (l : List Rat) (acc : Rat) : (npCumsumFromFl fl acc l).length = l.length := by
  induction l generalizing acc with
  | nil => rfl
  | cons x xs ih => simp [npCumsumFromFl, ih]

theorem cumulative_sorted (h : IsRounding 53 (-1074) fl) {hi : Histogram Rat} (hc : ∀ c ∈ hi.counts, 0 ≤ c) (hr : 0 ≤ hi.bins.resolution)
    {area : Rat} (ha : 0 ≤ area) :
    (0 :: inner (cumulativeVolumeFl fl hi area)).Pairwise (· ≤ ·) := by
  unfold cumulativeVolumeFl
  have h1 := (cumsum_sorted h (hi.counts.map fun (n : Int) => fl (n : Rat)) (fun x hx => by
    obtain ⟨n, hn, rfl⟩ := List.mem_map.1 hx
    exact fl_nonneg h (by exact_mod_cast hc n hn)) 0 isFloat_zero).2
  have h2 := cumsum_sorted h ((0 :: (npCumsumFromFl fl 0 (hi.counts.map fun (n : Int) => fl (n : Rat))).dropLast).map fun x =>
    fl (fl (area * hi.bins.resolution) * x)) (fun x hx => by
    obtain ⟨y, hy, rfl⟩ := List.mem_map.1 hx
    refine fl_nonneg h (mul_nonneg (fl_nonneg h (mul_nonneg ha hr)) ?_)
    rcases List.mem_cons.1 hy with rfl | hy
    · exact le_rfl
    · exact h1 y (List.mem_of_mem_dropLast hy)) 0 isFloat_zero
  have hsub : ∀ l : List Rat, (inner l).Sublist l := fun l => (List.dropLast_sublist _).trans (List.drop_sublist _ _)
  exact List.pairwise_cons.2 ⟨fun x hx => h2.2 x ((hsub _).subset hx), h2.1.sublist (hsub _)⟩

theorem cumulative_length (hi : Histogram Rat) (area : Rat) : (inner (cumulativeVolumeFl fl hi area)).length = hi.counts.length - 2 := by
  unfold inner cumulativeVolumeFl
  simp only [List.length_dropLast, List.length_drop, cumsum_length, List.length_map, List.length_cons]
  omega

/-- The centre of a bin. -/
def centre (fl : Rat → Rat) (b : BinsInfo Rat) (i : Nat) : Rat :=
  fl (fl (fl (fl (i : Rat) * b.resolution) + b.lower_bound) + fl (b.resolution * (1 / 2)))

theorem centre_mono (h : IsRounding 53 (-1074) fl) {b : BinsInfo Rat} (hr : 0 ≤ b.resolution) {i j : Nat} (hij : i ≤ j) :
    centre fl b i ≤ centre fl b j := by
  have hij : (i : Rat) ≤ j := by exact_mod_cast hij
  refine fl_mono h (add_le_add_left (fl_mono h (add_le_add_left (fl_mono h (mul_le_mul_of_nonneg_right (fl_mono h hij) hr)) _)) _)

variable {res zmin zmax : Rat} {s : Hyps.Stats Rat}

theorem centre_between (h : IsRounding 53 (-1074) fl) (hb : BinsAround res zmin zmax s) (hr1 : 2 ^ (-100 : Int) ≤ res)
    (h0 : 0 ≤ zmin) (hz : zmin ≤ zmax) (hlim : zmax ≤ 2 ^ 20 * res) {i : Nat} (h1 : 1 ≤ i) (h2 : i + 2 ≤ s.zhistogram.counts.length) :
    zmin ≤ centre fl s.zhistogram.bins i ∧ 2 ^ (-149 : Int) ≤ centre fl s.zhistogram.bins i ∧ centre fl s.zhistogram.bins i ≤ zmax := by
  have hres : 0 < res := lt_of_lt_of_le (two_pos _) hr1
  obtain ⟨a1, a2, a3⟩ := steps_spec h hr1 (k := (i : Int)) (by omega)
  have a3 := a3 (by omega)
  rw [Int.cast_natCast] at a1 a2 a3
  unfold centre
  rw [hb.resolution]
  generalize fl (fl (i : Rat) * res) = A at *
  have hl0 := hb.lower_nonneg
  have hw := abs_le.1 hb.width
  have l1 := hb.lower_ge
  have l2 := hb.upper_le
  generalize s.zhistogram.bins.lower_bound = lo at *
  generalize s.zhistogram.bins.upper_bound = up at *
  have hp100 := two_pos (-100)
  have n1 : (2 : Rat) ^ (-1022 : Int) ≤ 2 ^ (-100 : Int) := two_le.2 (by norm_num)
  have n2 : (2 : Rat) ^ (-1022 : Int) ≤ res * (1 / 2) := by
    have : (2 : Rat) ^ (-1022 : Int) ≤ 2 ^ (-101 : Int) := two_le.2 (by norm_num)
    have e : (2 : Rat) ^ (-100 : Int) = 2 * 2 ^ (-101 : Int) := by norm_num
    linarith
  obtain ⟨b1, b2⟩ := fl_between h (x := A + lo) (.inr (by linarith))
  obtain ⟨c1, c2⟩ := fl_between h (x := res * (1 / 2)) (.inr n2)
  have hB : 2 ^ (-100 : Int) ≤ fl (A + lo) := pow_le_fl h (by norm_num) (by norm_num) (by linarith)
  have hH : 0 ≤ fl (res * (1 / 2)) := fl_nonneg h (by linarith)
  generalize fl (A + lo) = B at *
  generalize fl (res * (1 / 2)) = H at *
  obtain ⟨d1, d2⟩ := fl_between h (x := B + H) (.inr (by linarith))
  have hC : 2 ^ (-100 : Int) ≤ fl (B + H) := pow_le_fl h (by norm_num) (by norm_num) (by linarith)
  generalize fl (B + H) = C at *
  have i1 : res ≤ i * res := by
    have : (1 : Rat) ≤ i := by exact_mod_cast h1
    nlinarith
  have i2 : (i : Rat) * res + 2 * res ≤ s.zhistogram.counts.length * res := by
    have : (i : Rat) + 2 ≤ s.zhistogram.counts.length := by exact_mod_cast h2
    nlinarith
  generalize (i : Rat) * res = R at *
  generalize (s.zhistogram.counts.length : Rat) * res = W at *
  refine ⟨?_, le_trans (two_le.2 (by norm_num)) hC, ?_⟩
  · norm_num only at a1 b1 c1 d1 l1 hlim ⊢
    linarith
  · norm_num only at a2 b2 c2 d2 l2 hw hlim ⊢
    linarith [hw.1, hw.2]

/-- The elevations between which is interpolated. -/
theorem nodes (h : IsRounding 53 (-1074) fl) (hb : BinsAround res zmin zmax s) (hr1 : 2 ^ (-100 : Int) ≤ res)
    (hmin : zmin = 0 ∨ 2 ^ (-149 : Int) ≤ zmin) (hmax : zmax = 0 ∨ 2 ^ (-149 : Int) ≤ zmax) (hz : zmin ≤ zmax) (hlim : zmax ≤ 2 ^ 20 * res)
    (f1 : IsF64 zmin) (f2 : IsF64 zmax) :
    (zmin :: (inner (binWaterlevelZFl fl s.zhistogram.bins) ++ [zmax])).length = s.zhistogram.counts.length - 2 + 2 ∧
    (zmin :: (inner (binWaterlevelZFl fl s.zhistogram.bins) ++ [zmax])).Pairwise (· ≤ ·) ∧
    ∀ z ∈ zmin :: (inner (binWaterlevelZFl fl s.zhistogram.bins) ++ [zmax]),
      IsF64 z ∧ zmin ≤ z ∧ z ≤ zmax ∧ (z = 0 ∨ 2 ^ (-149 : Int) ≤ z) := by
  have hres : 0 < res := lt_of_lt_of_le (two_pos _) hr1
  have h0 : 0 ≤ zmin := by
    rcases hmin with h | h
    · exact h.ge
    · exact (two_pos _).le.trans h
  have e2 := inner_eq (l := binWaterlevelZFl fl s.zhistogram.bins) (n := s.zhistogram.counts.length)
    (g := fun i => centre fl s.zhistogram.bins i)
    (by unfold binWaterlevelZFl; rw [hb.num_bins]; simp) fun i hi => by
      unfold binWaterlevelZFl
      rw [hb.num_bins, List.getElem?_map, List.getElem?_range (by simpa using hi)]; rfl
  rw [e2]
  have hm : ∀ z ∈ (List.range (s.zhistogram.counts.length - 2)).map (fun (i : Nat) => centre fl s.zhistogram.bins (i + 1)),
      IsF64 z ∧ zmin ≤ z ∧ z ≤ zmax ∧ (z = 0 ∨ 2 ^ (-149 : Int) ≤ z) := by
    intro z hz'
    obtain ⟨i, hi, rfl⟩ := List.mem_map.1 hz'
    have hi := List.mem_range.1 hi
    obtain ⟨c1, c2, c3⟩ := centre_between h hb hr1 h0 hz hlim (i := i + 1) (by omega) (by omega)
    exact ⟨(h _).1, c1, c3, .inr c2⟩
  have hall : ∀ z ∈ zmin :: ((List.range (s.zhistogram.counts.length - 2)).map (fun (i : Nat) => centre fl s.zhistogram.bins (i + 1)) ++ [zmax]),
      IsF64 z ∧ zmin ≤ z ∧ z ≤ zmax ∧ (z = 0 ∨ 2 ^ (-149 : Int) ≤ z) := by
    intro z hz'
    rcases List.mem_cons.1 hz' with rfl | hz'
    · exact ⟨f1, le_rfl, hz, hmin⟩
    rcases List.mem_append.1 hz' with hz' | hz'
    · exact hm z hz'
    · rw [List.mem_singleton.1 hz']
      exact ⟨f2, hz, le_rfl, hmax⟩
  refine ⟨by simp, List.pairwise_cons.2 ⟨fun z hz' => (hall z (List.mem_cons_of_mem _ hz')).2.1, List.pairwise_append.2 ⟨?_, List.pairwise_singleton _ _, ?_⟩⟩, hall⟩
  · refine List.pairwise_map.2 (List.pairwise_lt_range.imp fun {i j} hij => centre_mono h ?_ (by omega))
    rw [hb.resolution]; exact hres.le
  · intro z hz' y hy
    rw [List.mem_singleton.1 hy]
    exact (hm z hz').2.2.1

/-- A straight line in floating point arithmetic. -/
def line (fl prod : Rat → Rat) (a b f g x : Rat) : Rat := fl (prod (fl (fl (g - f) / fl (b - a)) * fl (x - a)) + f)

variable {prod : Rat → Rat} {a b f g x y : Rat}

theorem prod_mono (h : IsRounding 53 (-1074) fl) (hp : prod = fl ∨ prod = id) (hxy : x ≤ y) : prod x ≤ prod y := by
  rcases hp with rfl | rfl
  · exact fl_mono h hxy
  · exact hxy

theorem prod_zero (h : IsRounding 53 (-1074) fl) (hp : prod = fl ∨ prod = id) : prod 0 = 0 := by
  rcases hp with rfl | rfl
  · exact fl_zero h
  · rfl

theorem slope_nonneg (h : IsRounding 53 (-1074) fl) (hfg : f ≤ g) (hab : a < b) : 0 ≤ fl (fl (g - f) / fl (b - a)) :=
  fl_nonneg h (div_nonneg (fl_nonneg h (by linarith)) (fl_nonneg h (by linarith)))

theorem line_mono (h : IsRounding 53 (-1074) fl) (hp : prod = fl ∨ prod = id) (hfg : f ≤ g) (hab : a < b) (hxy : x ≤ y) :
    line fl prod a b f g x ≤ line fl prod a b f g y := by
  unfold line
  refine fl_mono h (add_le_add_left (prod_mono h hp (mul_le_mul_of_nonneg_left (fl_mono h (by linarith)) (slope_nonneg h hfg hab))) _)

theorem line_left (h : IsRounding 53 (-1074) fl) (hp : prod = fl ∨ prod = id) (hf : IsF64 f) : line fl prod a b f g a = f := by
  unfold line
  rw [fl_sub_self h, mul_zero, prod_zero h hp, zero_add, fl_exact h hf]

theorem line_le (h : IsRounding 53 (-1074) fl) (hp : prod = fl ∨ prod = id) (h0 : 0 ≤ f) (hfg : f ≤ g) (hg : g = 0 ∨ 2 ^ (-149 : Int) ≤ g)
    (ha : 0 ≤ a) (hax : a ≤ x) (hxb : x < b) (hx : x ≤ 2 ^ 500) : line fl prod a b f g x ≤ g * (1 + 1 / 2 ^ 50) := by
  rcases hg with rfl | hg
  · obtain rfl : f = 0 := le_antisymm hfg h0
    unfold line
    rw [sub_zero, fl_zero h, zero_div, fl_zero h, zero_mul, prod_zero h hp, zero_add, fl_zero h]
    simp
  have hfg0 : 0 ≤ g - f := by linarith
  have d0 : 0 ≤ fl (x - a) := fl_nonneg h (by linarith)
  have d1 : fl (x - a) ≤ fl (b - a) := fl_mono h (by linarith)
  have d2 : fl (x - a) ≤ 2 ^ 500 := by
    have e := fl_mono h (show x - a ≤ 2 ^ (500 : Int) by rw [show (500 : Int) = ((500 : Nat) : Int) from rfl, zpow_natCast]; linarith)
    rw [fl_exact h (isFloat_pow (by norm_num) (by norm_num))] at e
    rwa [show (500 : Int) = ((500 : Nat) : Int) from rfl, zpow_natCast] at e
  have D1 := fl_le h hfg0
  have D0 := fl_nonneg h hfg0
  unfold line
  generalize fl (g - f) = D at *
  generalize fl (b - a) = W at *
  generalize fl (x - a) = d at *
  have q0 : 0 ≤ D / W := div_nonneg D0 (d0.trans d1)
  have s1 := fl_le h q0
  have s0 := fl_nonneg h q0
  generalize hs : fl (D / W) = sl at *
  have hqd : D / W * d ≤ D := by
    rcases (d0.trans d1).eq_or_lt with hW | hW
    · rw [← hW, div_zero, zero_mul]; exact D0
    · rw [div_mul_eq_mul_div, div_le_iff₀ hW]
      exact mul_le_mul_of_nonneg_left d1 D0
  have t : (0 : Rat) < 2 ^ (-1021 : Int) := two_pos _
  have hsd : sl * d ≤ (1 + 1 / 2 ^ 53) * D + 2 ^ (-1021 : Int) * 2 ^ 500 := by
    calc sl * d ≤ ((1 + 1 / 2 ^ 53) * (D / W) + 2 ^ (-1021 : Int)) * d := mul_le_mul_of_nonneg_right s1 d0
      _ = (1 + 1 / 2 ^ 53) * (D / W * d) + 2 ^ (-1021 : Int) * d := by ring
      _ ≤ _ := add_le_add (mul_le_mul_of_nonneg_left hqd (by norm_num)) (mul_le_mul_of_nonneg_left d2 t.le)
  have hsd0 : 0 ≤ sl * d := mul_nonneg s0 d0
  have m0 : 0 ≤ prod (sl * d) := by
    have := prod_mono h hp hsd0
    rwa [prod_zero h hp] at this
  have m1 : prod (sl * d) ≤ (1 + 1 / 2 ^ 53) * (sl * d) + 2 ^ (-1021 : Int) := by
    rcases hp with rfl | rfl
    · exact fl_le h hsd0
    · show sl * d ≤ _
      have : 0 ≤ 1 / 2 ^ 53 * (sl * d) := by positivity
      linarith
  generalize prod (sl * d) = m at *
  have z1 := fl_le h (show 0 ≤ m + f by linarith)
  generalize fl (m + f) = z at *
  generalize sl * d = e at *
  have u1 : (2 : Rat) ^ (-1021 : Int) * 2 ^ 500 = 2 ^ (-521 : Int) := by
    rw [← zpow_natCast, ← zpow_add₀ (by norm_num)]; norm_num
  have u2 : (2 : Rat) ^ (-1021 : Int) ≤ 2 ^ (-521 : Int) := two_le.2 (by norm_num)
  have u3 : (2 : Rat) ^ (-521 : Int) * 2 ^ 100 ≤ g := by
    refine le_trans ?_ hg
    rw [← zpow_natCast, ← zpow_add₀ (by norm_num)]
    exact two_le.2 (by norm_num)
  rw [u1] at hsd
  generalize (2 : Rat) ^ (-1021 : Int) = t1 at *
  generalize (2 : Rat) ^ (-521 : Int) = t2 at *
  clear u1 hg hs hp hx d2
  norm_num only at *
  linarith

/-- What interpolation gives for a volume below the last node. -/
theorem interp_line {interp : Rat → List Rat → List Rat → Except PyErr Rat} (h : IsRounding 53 (-1074) fl) (hp : prod = fl ∨ prod = id)
    (hi : ∀ (x : Rat) (xp fp : List Rat), xp.length = fp.length → xp ≠ [] → ∃ z, interp x xp fp = .ok z ∧
      ((∃ a f : Rat, xp[0]? = some a ∧ fp[0]? = some f ∧ x < a ∧ z = f) ∨
       ∃ (j : Nat) (a f : Rat), xp[j]? = some a ∧ fp[j]? = some f ∧ a ≤ x ∧ (∀ b, xp[j + 1]? = some b → x < b) ∧
        ((j + 1 = xp.length ∨ x = a) ∧ z = f ∨
         ∃ b g : Rat, xp[j + 1]? = some b ∧ fp[j + 1]? = some g ∧
           z = fl (prod (fl (fl (g - f) / fl (b - a)) * fl (x - a)) + f))))
    {xs fp : List Rat} {mv : Rat} (hl : xs.length + 2 = fp.length) (hf : ∀ f ∈ fp, IsF64 f) (h0 : 0 ≤ x) (hx : x < mv) :
    ∃ (j : Nat) (a b f g : Rat), j < (0 :: xs).length ∧ (0 :: xs)[j]? = some a ∧ (0 :: (xs ++ [mv]))[j + 1]? = some b ∧ fp[j]? = some f ∧
      fp[j + 1]? = some g ∧ a ≤ x ∧ x < b ∧ interp x (0 :: (xs ++ [mv])) fp = .ok (line fl prod a b f g x) := by
  obtain ⟨z, hz, hc⟩ := hi x (0 :: (xs ++ [mv])) fp (by simp; omega) (by simp)
  rcases hc with ⟨a, f, e1, e2, e3, -⟩ | ⟨j, a, f, e1, e2, e3, e4, e5⟩
  · simp only [List.getElem?_cons_zero, Option.some.injEq] at e1
    linarith
  have hj1 : j < (0 :: (xs ++ [mv])).length := by
    by_contra hc
    rw [List.getElem?_eq_none (by omega)] at e1
    cases e1
  have hj : j < (0 :: xs).length := by
    by_contra hc
    simp only [List.length_cons, List.length_append, List.length_nil] at hc hj1
    obtain rfl : j = xs.length + 1 := by omega
    simp only [List.getElem?_cons_succ, List.getElem?_concat_length, Option.some.injEq] at e1
    linarith
  have e1' : (0 :: xs)[j]? = some a := by
    rw [← e1, ← List.cons_append, List.getElem?_append_left hj]
  have hj2 : j + 1 < (0 :: (xs ++ [mv])).length := by
    simp only [List.length_cons, List.length_append, List.length_nil] at hj ⊢
    omega
  have hj3 : j + 1 < fp.length := by
    simp only [List.length_cons] at hj
    omega
  have hb := e4 _ (List.getElem?_eq_getElem hj2)
  refine ⟨j, a, _, f, _, hj, e1', List.getElem?_eq_getElem hj2, e2, List.getElem?_eq_getElem hj3, e3, hb, ?_⟩
  rcases e5 with ⟨e5, rfl⟩ | ⟨b, g, e5, e6, rfl⟩
  · rcases e5 with e5 | rfl
    · omega
    · rw [hz, line_left h hp (hf _ (List.mem_of_getElem? e2))]
  · rw [List.getElem?_eq_getElem hj2, Option.some.injEq] at e5
    rw [List.getElem?_eq_getElem hj3, Option.some.injEq] at e6
    rw [hz, e5, e6]
    rfl

theorem sorted_get {l : List Rat} (hl : l.Pairwise (· ≤ ·)) {i j : Nat} (hij : i ≤ j) (hi : l[i]? = some a) (hj : l[j]? = some b) : a ≤ b := by
  rcases hij.eq_or_lt with rfl | hij
  · rw [hi] at hj; exact (Option.some.inj hj).le
  · obtain ⟨h1, rfl⟩ := List.getElem?_eq_some_iff.1 hi
    obtain ⟨h2, rfl⟩ := List.getElem?_eq_some_iff.1 hj
    exact List.pairwise_iff_getElem.1 hl i j h1 h2 hij

/-- What is used of the record of a bluespot. -/
structure LevelRecord (res zmin zmax : Rat) (s : Stats Rat) : Prop where
  bins : BinsAround res zmin zmax s
  res_lower : 2 ^ (-100 : Int) ≤ res
  min_size : zmin = 0 ∨ 2 ^ (-149 : Int) ≤ zmin
  max_size : zmax = 0 ∨ 2 ^ (-149 : Int) ≤ zmax
  le : zmin ≤ zmax
  limit : zmax ≤ 2 ^ 20 * res
  min_float : IsF64 zmin
  max_float : IsF64 zmax

variable {interp : Rat → List Rat → List Rat → Except PyErr Rat}

theorem LevelRecord.nonneg (r : LevelRecord res zmin zmax s) : 0 ≤ zmin := by
  rcases r.min_size with h | h
  · exact h.ge
  · exact (two_pos _).le.trans h

/-- The water level of a bluespot that is not full. -/
theorem level_partial_fill (h : IsRounding 53 (-1074) fl) (hi : Interpolates fl interp) (r : LevelRecord res zmin zmax s) {area : Rat} (ha : 0 ≤ area)
    (d : WithBot Rat) {mv : Rat} (hm : 0 ≤ mv) :
    ∃ lev : Rat → Rat, (∀ v, 0 ≤ v → v ≤ 2 ^ 500 → ¬ (mv = 0 ∨ fl (v / mv) > fl (9999 / 10000)) →
        waterLevelFl fl interp s area d mv v = .ok (.num (lev v)) ∧ IsF64 (lev v) ∧ zmin ≤ lev v ∧ lev v ≤ zmax * (1 + 1 / 2 ^ 50)) ∧
      ∀ v w, 0 ≤ v → v ≤ w → w ≤ 2 ^ 500 → ¬ (mv = 0 ∨ fl (v / mv) > fl (9999 / 10000)) → ¬ (mv = 0 ∨ fl (w / mv) > fl (9999 / 10000)) →
        lev v ≤ lev w * (1 + 1 / 2 ^ 50) := by
  obtain ⟨prod, hp, hi⟩ := hi
  obtain ⟨n1, n2, n3⟩ := nodes h r.bins r.res_lower r.min_size r.max_size r.le r.limit r.min_float r.max_float
  have hres : 0 < res := lt_of_lt_of_le (two_pos _) r.res_lower
  have hcum := cumulative_sorted h r.bins.nonneg (by rw [r.bins.resolution]; exact hres.le) ha
  have hlen := cumulative_length (fl := fl) s.zhistogram area
  have hw : ∀ v, ¬ (mv = 0 ∨ fl (v / mv) > fl (9999 / 10000)) → waterLevelFl fl interp s area d mv v =
      (interp v (0 :: (inner (cumulativeVolumeFl fl s.zhistogram area) ++ [mv]))
        (zmin :: (inner (binWaterlevelZFl fl s.zhistogram.bins) ++ [zmax]))).map .num := by
    intro v hv
    unfold waterLevelFl
    rw [if_neg hv, r.bins.zmin_eq, r.bins.zmax_eq]
  generalize zmin :: (inner (binWaterlevelZFl fl s.zhistogram.bins) ++ [zmax]) = fp at *
  generalize inner (cumulativeVolumeFl fl s.zhistogram area) = xs at *
  have key : ∀ v, ∃ (j : Nat) (a b f g : Rat), 0 ≤ v → ¬ (mv = 0 ∨ fl (v / mv) > fl (9999 / 10000)) →
      j < (0 :: xs).length ∧ (0 :: xs)[j]? = some a ∧ (0 :: (xs ++ [mv]))[j + 1]? = some b ∧ fp[j]? = some f ∧
      fp[j + 1]? = some g ∧ a ≤ v ∧ v < b ∧ interp v (0 :: (xs ++ [mv])) fp = .ok (line fl prod a b f g v) := by
    intro v
    by_cases hv : 0 ≤ v ∧ ¬ (mv = 0 ∨ fl (v / mv) > fl (9999 / 10000))
    · obtain ⟨j, a, b, f, g, e⟩ := interp_line h hp hi (xs := xs) (fp := fp) (mv := mv) (by omega) (fun f hf => (n3 f hf).1) hv.1 (not_full h hm hv.2)
      exact ⟨j, a, b, f, g, fun _ _ => e⟩
    · exact ⟨0, 0, 0, 0, 0, fun e1 e2 => absurd ⟨e1, e2⟩ hv⟩
  choose j a b f g key using key
  have hf0 : ∀ z ∈ fp, 0 ≤ z := fun z hz => r.nonneg.trans (n3 z hz).2.1
  have ge : ∀ v, 0 ≤ v → ¬ (mv = 0 ∨ fl (v / mv) > fl (9999 / 10000)) → f v ≤ line fl prod (a v) (b v) (f v) (g v) v := by
    intro v h1 h3
    obtain ⟨k1, k2, k3, k4, k5, k6, k7, k8⟩ := key v h1 h3
    have := line_mono h hp (sorted_get n2 (Nat.le_succ _) k4 k5) (k6.trans_lt k7) k6
    rwa [line_left h hp (n3 _ (List.mem_of_getElem? k4)).1] at this
  have le : ∀ v, 0 ≤ v → v ≤ 2 ^ 500 → ¬ (mv = 0 ∨ fl (v / mv) > fl (9999 / 10000)) →
      line fl prod (a v) (b v) (f v) (g v) v ≤ g v * (1 + 1 / 2 ^ 50) := by
    intro v h1 h2 h3
    obtain ⟨k1, k2, k3, k4, k5, k6, k7, k8⟩ := key v h1 h3
    have ha0 : 0 ≤ a v := sorted_get hcum (Nat.zero_le _) (by simp) k2
    exact line_le h hp (hf0 _ (List.mem_of_getElem? k4)) (sorted_get n2 (Nat.le_succ _) k4 k5) (n3 _ (List.mem_of_getElem? k5)).2.2.2 ha0 k6 k7 h2
  refine ⟨fun v => line fl prod (a v) (b v) (f v) (g v) v, fun v h1 h2 h3 => ?_, fun v w h1 h2 h3 h4 h5 => ?_⟩
  · obtain ⟨k1, k2, k3, k4, k5, k6, k7, k8⟩ := key v h1 h3
    refine ⟨by rw [hw v h3, k8]; rfl, (h _).1, (n3 _ (List.mem_of_getElem? k4)).2.1.trans (ge v h1 h3), (le v h1 h2 h3).trans ?_⟩
    exact mul_le_mul_of_nonneg_right (n3 _ (List.mem_of_getElem? k5)).2.2.1 (by norm_num)
  · obtain ⟨k1, k2, k3, k4, k5, k6, k7, k8⟩ := key v h1 h4
    obtain ⟨l1, l2, l3, l4, l5, l6, l7, l8⟩ := key w (h1.trans h2) h5
    have hge := ge w (h1.trans h2) h5
    have hjj : j v ≤ j w := by
      by_contra hc
      push Not at hc
      have e : (0 :: xs)[j w + 1]? = some (b w) := by
        rw [← l3, ← List.cons_append, List.getElem?_append_left (by omega)]
      have := sorted_get hcum hc e k2
      linarith
    rcases hjj.eq_or_lt with he | hlt
    · rw [he] at k2 k3 k4 k5
      rw [k2] at l2; rw [k3] at l3; rw [k4] at l4; rw [k5] at l5
      obtain ⟨l2, l3, l4, l5⟩ := And.intro (Option.some.inj l2) (And.intro (Option.some.inj l3) (And.intro (Option.some.inj l4) (Option.some.inj l5)))
      have hm := line_mono h hp (sorted_get n2 (Nat.le_succ _) k4 k5) (k6.trans_lt k7) h2
      show line fl prod (a v) (b v) (f v) (g v) v ≤ line fl prod (a w) (b w) (f w) (g w) w * _
      rw [← l2, ← l3, ← l4, ← l5] at hge ⊢
      have h0 : 0 ≤ line fl prod (a v) (b v) (f v) (g v) w := (hf0 _ (List.mem_of_getElem? k4)).trans hge
      have : 0 ≤ line fl prod (a v) (b v) (f v) (g v) w * (1 / 2 ^ 50) := by positivity
      linarith
    · refine (le v h1 (h2.trans h3) h4).trans (mul_le_mul_of_nonneg_right ?_ (by norm_num))
      exact (sorted_get n2 hlt k5 l4).trans hge

end Approx
end Malstroem
