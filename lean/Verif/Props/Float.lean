/-
Property C57: `minimum_safe_short_and_diag`, and the DEM tool and the whole chain in floating point arithmetic.
-/
import Verif.Proofs.Float
import Verif.Model.Safe
import Verif.Props.Complete

set_option linter.unusedSectionVars false

namespace Malstroem
open Spec
namespace Float

variable {fl nextafter : Rat → Rat}

theorem foldl_max_spec (l : List Rat) (x : Rat) : (l.foldl max x = x ∨ l.foldl max x ∈ l) ∧ x ≤ l.foldl max x ∧
    ∀ y ∈ l, y ≤ l.foldl max x := by
  induction l generalizing x with
  | nil => simp
  | cons a l ih =>
    rw [List.foldl_cons]
    obtain ⟨h1, h2, h3⟩ := ih (max x a)
    refine ⟨?_, le_trans (le_max_left _ _) h2, fun y hy => ?_⟩
    · rcases h1 with h1 | h1
      · rcases max_choice x a with e | e <;> rw [e] at h1 ⊢ <;> simp [h1]
      · exact .inr (List.mem_cons_of_mem _ h1)
    · rcases List.mem_cons.1 hy with rfl | hy
      · exact le_trans (le_max_right _ _) h2
      · exact h3 y hy

theorem foldl_min_spec (l : List Rat) (x : Rat) : (l.foldl min x = x ∨ l.foldl min x ∈ l) ∧ l.foldl min x ≤ x ∧
    ∀ y ∈ l, l.foldl min x ≤ y := by
  induction l generalizing x with
  | nil => simp
  | cons a l ih =>
    rw [List.foldl_cons]
    obtain ⟨h1, h2, h3⟩ := ih (min x a)
    refine ⟨?_, le_trans h2 (min_le_left _ _), fun y hy => ?_⟩
    · rcases h1 with h1 | h1
      · rcases min_choice x a with e | e <;> rw [e] at h1 ⊢ <;> simp [h1]
      · exact .inr (List.mem_cons_of_mem _ h1)
    · rcases List.mem_cons.1 hy with rfl | hy
      · exact le_trans h2 (min_le_right _ _)
      · exact h3 y hy

theorem extremes (dem : Raster Rat) (hr : 1 ≤ dem.rows) (hc : 1 ≤ dem.cols) :
    ∃ hi lo, Fill.amax dem = .ok hi ∧ Fill.amin dem = .ok lo ∧ (∃ c, dem.Has c ∧ dem.get c = hi) ∧
      (∃ c, dem.Has c ∧ dem.get c = lo) ∧ ∀ c, dem.Has c → lo ≤ dem.get c ∧ dem.get c ≤ hi := by
  have hmem : ∀ v, v ∈ dem.cells.map dem.get ↔ ∃ c, dem.Has c ∧ dem.get c = v := by
    intro v
    rw [List.mem_map]
    exact ⟨fun ⟨c, hc, e⟩ => ⟨c, Flow.mem_cellList.1 hc, e⟩, fun ⟨c, hc, e⟩ => ⟨c, Flow.mem_cellList.2 hc, e⟩⟩
  unfold Fill.amax Fill.amin
  rcases hl : dem.cells.map dem.get with _ | ⟨x, l⟩
  · exfalso
    have := (hmem (dem.get (0, 0))).2 ⟨(0, 0), by simp only [Raster.Has, InGrid]; omega, rfl⟩
    rw [hl] at this
    cases this
  · obtain ⟨a1, a2, a3⟩ := foldl_max_spec l x
    obtain ⟨b1, b2, b3⟩ := foldl_min_spec l x
    refine ⟨_, _, rfl, rfl, (hmem _).1 ?_, (hmem _).1 ?_, fun c hcc => ?_⟩
    · rw [hl, List.mem_cons]; exact a1
    · rw [hl, List.mem_cons]; exact b1
    · have := (hmem _).2 ⟨c, hcc, rfl⟩
      rw [hl, List.mem_cons] at this
      rcases this with e | e
      · rw [e]; exact ⟨b2, a2⟩
      · exact ⟨b3 _ e, a3 _ e⟩

/-- The constants are a power of two and 1.41 times it, related to the spacing at the largest elevation. -/
theorem safe_spec' (hfl : IsRounding 53 (-1074) fl) (hnext : IsNextAfter nextafter) (dem : Raster Rat) (hr : 1 ≤ dem.rows)
    (hc : 1 ≤ dem.cols) (hdem : ∀ c, dem.Has c → IsF64 (dem.get c)) :
    ∃ (j : Int) (diag : Rat), -1074 ≤ j ∧ Fill.minimumSafeShortAndDiag fl nextafter dem = .ok (2 ^ (j + 10), diag) ∧
      IsF64 diag ∧ 2 ^ (j + 10) < diag ∧ diag ≤ 2 * 2 ^ (j + 10) ∧ (∀ c, dem.Has c → |dem.get c| < 2 ^ (j + 53)) ∧
      (j = -1074 ∨ ∃ c, dem.Has c ∧ 2 ^ (j + 52) ≤ |dem.get c|) := by
  obtain ⟨hi, lo, h1, h2, ⟨ch, hch, ech⟩, ⟨cl, hcl, ecl⟩, h3⟩ := extremes dem hr hc
  set M := max |hi| |lo| with hM
  have hM64 : IsF64 M := by
    rcases max_choice |hi| |lo| with e | e <;> rw [hM, e]
    · exact isFloat_abs (ech ▸ hdem ch hch)
    · exact isFloat_abs (ecl ▸ hdem cl hcl)
  have hM0 : 0 ≤ M := le_trans (abs_nonneg _) (le_max_left _ _)
  have hflM : fl M = M := fl_exact hfl hM64
  obtain ⟨j, hj⟩ := exists_gap 53 (-1074) M
  have hn : nextafter M = M + 2 ^ j := by
    have hl := hnext M hM0 hM64
    have h2 := two_pos j
    refine le_antisymm (hl.2 ⟨hj.next (by norm_num) hM64, by linarith⟩) (hj.least hM64 hM0 hl.1.1 hl.1.2)
  have hd : fl (M + 2 ^ j - M) = 2 ^ j := by
    rw [add_sub_cancel_left]; exact fl_exact hfl (isFloat_pow hj.1 (by norm_num))
  have h10 : (2 : Rat) ^ (j + 10) = 2 ^ j * 1024 := by
    rw [zpow_add₀ (by norm_num)]; norm_num
  have hs : fl (2 ^ j * 1024) = 2 ^ (j + 10) := by
    rw [← h10]; exact fl_exact hfl (isFloat_pow (by have := hj.1; omega) (by norm_num))
  refine ⟨j, fl (2 ^ (j + 10) * Fill.sqrt2), hj.1, ?_, (hfl _).1, ?_, ?_, fun c hcc => ?_, ?_⟩
  · unfold Fill.minimumSafeShortAndDiag
    simp only [h1, h2, bind, Except.bind, pure, Except.pure, ← hM, hflM, hn, hd, hs]
  · have hf : IsF64 (((5 : Int) : Rat) * 2 ^ (j + 8)) := isFloat_multiple (by have := hj.1; omega) (by norm_num) (by norm_num)
    have h8 : ((5 : Int) : Rat) * 2 ^ (j + 8) = 2 ^ (j + 10) * (5 / 4) := by
      rw [show j + 10 = (j + 8) + 2 by ring, zpow_add₀ (by norm_num : (2 : Rat) ≠ 0) (j + 8)]; norm_num; ring
    have := fl_mono hfl (show ((5 : Int) : Rat) * 2 ^ (j + 8) ≤ 2 ^ (j + 10) * Fill.sqrt2 by
      rw [h8]; exact mul_le_mul_of_nonneg_left (by norm_num [Fill.sqrt2]) (two_pos _).le)
    rw [fl_exact hfl hf, h8] at this
    have := two_pos (j + 10)
    linarith
  · have hf : IsF64 (2 ^ (j + 11)) := isFloat_pow (by have := hj.1; omega) (by norm_num)
    have h11 : (2 : Rat) ^ (j + 11) = 2 ^ (j + 10) * 2 := by
      rw [show j + 11 = (j + 10) + 1 by ring, zpow_add_one₀ (by norm_num)]
    have := fl_mono hfl (show 2 ^ (j + 10) * Fill.sqrt2 ≤ 2 ^ (j + 11) by
      rw [h11]; exact mul_le_mul_of_nonneg_left (by norm_num [Fill.sqrt2]) (two_pos _).le)
    rw [fl_exact hfl hf, h11] at this
    linarith
  · have : |dem.get c| ≤ M := by
      obtain ⟨a, b⟩ := h3 c hcc
      rw [abs_le]
      constructor
      · have := neg_abs_le lo
        have := le_max_right |hi| |lo|
        linarith
      · exact le_trans b (le_trans (le_abs_self _) (le_max_left _ _))
    refine lt_of_le_of_lt this ?_
    have := hj.2.1
    rwa [abs_of_nonneg hM0] at this
  · refine hj.2.2.imp id fun h => ?_
    rw [abs_of_nonneg hM0, show j + ((53 : Nat) : Int) - 1 = j + 52 by push_cast; ring] at h
    rcases max_choice |hi| |lo| with e | e <;> rw [hM, e] at h
    · exact ⟨ch, hch, by rw [ech]; exact h⟩
    · exact ⟨cl, hcl, by rw [ecl]; exact h⟩

theorem safe_spec (hfl : IsRounding 53 (-1074) fl) (hnext : IsNextAfter nextafter) (dem : Raster Rat) (hr : 1 ≤ dem.rows)
    (hc : 1 ≤ dem.cols) (hdem : ∀ c, dem.Has c → IsF64 (dem.get c)) :
    ∃ (j : Int) (diag : Rat), -1074 ≤ j ∧ Fill.minimumSafeShortAndDiag fl nextafter dem = .ok (2 ^ (j + 10), diag) ∧
      IsF64 diag ∧ 2 ^ (j + 10) < diag ∧ diag ≤ 2 * 2 ^ (j + 10) ∧ ∀ c, dem.Has c → |dem.get c| < 2 ^ (j + 53) := by
  obtain ⟨j, diag, h1, h2, h3, h4, h5, h6, _⟩ := safe_spec' hfl hnext dem hr hc hdem
  exact ⟨j, diag, h1, h2, h3, h4, h5, h6⟩

/-- Raising a number whose spacing is at most `short`. -/
theorem lt_add_of_small (hfl : IsRounding 53 (-1074) fl) {j : Int} (hj : -1074 ≤ j) {x s : Rat} (hx : IsF64 x)
    (hsmall : |x| < 2 ^ (j + 63)) (hs : 2 ^ (j + 10) ≤ s) : x < fl (x + s) := by
  obtain ⟨e, he⟩ := exists_gap 53 (-1074) x
  refine lt_fl_add hfl (by norm_num) he hx (le_trans (two_le.2 ?_) hs)
  rcases he.2.2 with h | h
  · omega
  · have := two_lt.1 (h.trans_lt hsmall)
    push_cast at this
    omega

/-- C57: for every DEM of float64 (in particular float32) elevations with at least one cell the constants are float64
numbers with `0 < short < diag`, and adding either of them in float64 strictly raises every float64 number whose
magnitude is at most 1024 times that of some elevation. -/
theorem C57_safe (hfl : IsRounding 53 (-1074) fl) (hnext : IsNextAfter nextafter) (dem : Raster Rat) (hr : 1 ≤ dem.rows)
    (hc : 1 ≤ dem.cols) (hdem : ∀ c, dem.Has c → IsF64 (dem.get c)) :
    ∃ short diag, Fill.minimumSafeShortAndDiag fl nextafter dem = .ok (short, diag) ∧ IsF64 short ∧ IsF64 diag ∧
      0 < short ∧ short < diag ∧
      ∀ x c, IsF64 x → dem.Has c → |x| ≤ 1024 * |dem.get c| → x < fl (x + short) ∧ x < fl (x + diag) := by
  obtain ⟨j, diag, hj, h1, h2, h3, h4, h5⟩ := safe_spec hfl hnext dem hr hc hdem
  refine ⟨_, diag, h1, isFloat_pow (by omega) (by norm_num), h2, two_pos _, h3, fun x c hx hcc hxc => ?_⟩
  have hsmall : |x| < 2 ^ (j + 63) := by
    have h63 : (2 : Rat) ^ (j + 63) = 1024 * 2 ^ (j + 53) := by
      rw [show j + 63 = (j + 53) + 10 by ring, zpow_add₀ (by norm_num : (2 : Rat) ≠ 0) (j + 53)]; norm_num; ring
    rw [h63]
    have := h5 c hcc
    linarith
  exact ⟨lt_add_of_small hfl hj hx hsmall le_rfl, lt_add_of_small hfl hj hx hsmall h3.le⟩

/-! ### The tools in floating point -/

/-- float64 numbers. -/
abbrev F64 := {x : Rat // IsF64 x}

/-- `x + s` in float64; infinity stays infinity. -/
def fadd (hfl : IsRounding 53 (-1074) fl) (s : Rat) : WithTop F64 → WithTop F64 :=
  WithTop.map fun x => ⟨fl (x.1 + s), (hfl _).1⟩

/-- The number (0 for infinity). -/
def num (x : WithTop F64) : Rat := (x.untopD ⟨0, isFloat_zero⟩).1

/-- The two additions with the constants computed by `minimum_safe_short_and_diag`. -/
def fsafe (hfl : IsRounding 53 (-1074) fl) (nextafter : Rat → Rat) (dem : Raster (WithTop F64)) :
    (WithTop F64 → WithTop F64) × (WithTop F64 → WithTop F64) :=
  match Fill.minimumSafeShortAndDiag fl nextafter ⟨dem.rows, dem.cols, fun c => num (dem.get c)⟩ with
  | .ok (short, diag) => (fadd hfl short, fadd hfl diag)
  | .error _ => (id, id)

/-- `a - b` rounded. -/
def fsub (fl : Rat → Rat) (a b : WithTop F64) : Rat := fl (num a - num b)

/-- A DEM with float32 elevations. -/
structure IsDem32 (dem : Raster (WithTop F64)) : Prop where
  rows : 2 ≤ dem.rows
  cols : 2 ≤ dem.cols
  f32 : ∀ c, dem.Has c → ∃ v : F64, dem.get c = v ∧ IsF32 v.1

theorem fadd_good (hfl : IsRounding 53 (-1074) fl) {s : Rat} (hs : 0 ≤ s) : Monotone (fadd hfl s) ∧
    (∀ x, x ≤ fadd hfl s x) ∧ ∀ x, x < ⊤ → fadd hfl s x < ⊤ := by
  refine ⟨?_, fun x => ?_, fun x hx => ?_⟩
  · apply Monotone.withTop_map
    intro a b hab
    exact fl_mono hfl (add_le_add_left (show a.1 ≤ b.1 from hab) s)
  · cases x with
    | top => exact le_refl _
    | coe x =>
      show (x : WithTop F64) ≤ ((⟨fl (x.1 + s), (hfl _).1⟩ : F64) : WithTop F64)
      rw [WithTop.coe_le_coe]
      exact le_fl_add hfl x.2 hs
  · lift x to F64 using hx.ne
    exact WithTop.coe_lt_top _

/-- A way straight up to the first row. -/
theorem exists_escape_up {rows cols : Nat} (n : Nat) (c : Cell) (hc : InGrid rows cols c) (hn : c.1 = n) :
    ∃ p, IsEscape rows cols c p := by
  induction n generalizing c with
  | zero =>
    exact ⟨[c], ⟨rfl, List.isChain_singleton _, by simpa using hc, c, rfl, hc, .inl (by simpa using hn)⟩⟩
  | succ n ih =>
    have hb : InGrid rows cols (c.1 - 1, c.2) := by
      simp only [InGrid] at hc ⊢; omega
    obtain ⟨p, hp⟩ := ih (c.1 - 1, c.2) hb (by simp only; omega)
    refine ⟨c :: p, hp.cons hc ?_⟩
    refine ⟨?_, ?_, ?_⟩
    · intro h
      have := congrArg Prod.fst h
      simp only at this
      omega
    · simp only; rw [abs_le]; omega
    · simp

/-- What is needed of the arithmetic holds in floating point: elevations float32, the surface without flats, the constants
and the slopes float64, depths float32; for every DEM with at least 2x2 and at most 2^50 cells. `k` is the factor of a
diagonal drop, as an exact rational: `1 / SQRT2` or `INV_SQRT2`. -/
theorem float_sound {fl32 : Rat → Rat} (hfl : IsRounding 53 (-1074) fl) (hfl32 : IsRounding 24 (-149) fl32)
    (hnext : IsNextAfter nextafter) {dem : Raster (WithTop F64)} (hdem : IsDem32 dem) (hsize : dem.rows * dem.cols ≤ 2 ^ 50) {k : Rat}
    (hk : 1 / 2 < k) :
    SoundTerrain (fsub fl) (fsub fl32) (fun x => fl (x * k)) (fsafe hfl nextafter) dem := by
  have h64 : ∀ c, dem.Has c → IsF64 (num (dem.get c)) := fun c _ => Subtype.property _
  obtain ⟨j, diag, hj, h1, h2, h3, h4, h5⟩ := safe_spec hfl hnext ⟨dem.rows, dem.cols, fun c => num (dem.get c)⟩
    (by have := hdem.rows; simp only; omega) (by have := hdem.cols; simp only; omega) h64
  have hsafe : fsafe hfl nextafter dem = (fadd hfl (2 ^ (j + 10)), fadd hfl diag) := by
    unfold fsafe; rw [h1]
  have hs := two_pos (j + 10)
  obtain ⟨s1, s2, s3⟩ := fadd_good hfl hs.le
  obtain ⟨d1, d2, d3⟩ := fadd_good hfl (show (0 : Rat) ≤ diag by linarith)
  have hfin : ∀ c, dem.Has c → dem.get c < ⊤ := by
    intro c hc
    obtain ⟨v, hv, _⟩ := hdem.f32 c hc
    rw [hv]; exact WithTop.coe_lt_top _
  refine ⟨hdem.rows, hdem.cols, ?_, ?_, ?_, ?_, hfin, ?_, ?_, ?_, ?_⟩
  · intro a b ha hb
    lift a to F64 using ha.ne
    lift b to F64 using hb.ne
    rw [WithTop.coe_lt_coe]
    exact fl_sub_pos hfl (by norm_num) a.2 b.2
  · intro a b ha hb
    obtain ⟨va, ea, ha⟩ := hdem.f32 a ha
    obtain ⟨vb, eb, hb⟩ := hdem.f32 b hb
    rw [ea, eb, WithTop.coe_lt_coe]
    exact fl_sub_pos hfl32 (by norm_num) ha hb
  · intro a _
    exact fl_sub_self hfl32 _
  · intro a b
    exact fl_scale_pos hfl (by norm_num) hk (hfl _).1
  · rw [hsafe]; exact ⟨s1, d1⟩
  · rw [hsafe]; exact fun x => ⟨s2 x, d2 x⟩
  · rw [hsafe]; exact fun x hx => ⟨s3 x hx, d3 x hx⟩
  · rw [hsafe]
    intro nf hnf c hc
    have hgood := Fill.sd_good s1 d1 s2 d2
    -- an upper bound for the level
    have hbound : ∀ c p, IsEscape dem.rows dem.cols c p →
        ∃ v : F64, Fill.climbS (Fill.stepSD (fadd hfl (2 ^ (j + 10))) (fadd hfl diag)) dem.get p = v ∧
          v.1 ≤ 2 ^ (j + 53) + (p.length : Rat) * (4 * 2 ^ (j + 10)) := by
      intro c p hp
      refine IsEscape.rec' (motive := fun c p =>
        ∃ v : F64, Fill.climbS (Fill.stepSD (fadd hfl (2 ^ (j + 10))) (fadd hfl diag)) dem.get p = v ∧
          v.1 ≤ 2 ^ (j + 53) + (p.length : Rat) * (4 * 2 ^ (j + 10))) ?_ ?_ hp
      · intro e he
        obtain ⟨v, hv, _⟩ := hdem.f32 e he.1
        refine ⟨v, hv, ?_⟩
        have := h5 e he.1
        simp only [num, hv, WithTop.untopD_coe] at this
        have := le_abs_self v.1
        simp only [List.length_singleton, Nat.cast_one]
        linarith
      · rintro a b q ha _ _ ⟨v, hv, hvb⟩
        rw [Fill.climbS_cons a rfl, hv]
        obtain ⟨w, hw, _⟩ := hdem.f32 a ha
        have hstep : ∃ u : F64, Fill.stepSD (fadd hfl (2 ^ (j + 10))) (fadd hfl diag) a b v = u ∧
            u.1 ≤ v.1 + 4 * 2 ^ (j + 10) := by
          unfold Fill.stepSD
          split_ifs
          · exact ⟨⟨fl (v.1 + 2 ^ (j + 10)), (hfl _).1⟩, rfl, by
              have := fl_add_le hfl v.2 hs.le; simp only; linarith⟩
          · exact ⟨⟨fl (v.1 + diag), (hfl _).1⟩, rfl, by
              have := fl_add_le hfl v.2 (show (0 : Rat) ≤ diag by linarith); simp only; linarith⟩
        obtain ⟨u, hu, hub⟩ := hstep
        rw [hu, hw, ← WithTop.coe_max]
        refine ⟨_, rfl, ?_⟩
        have hw' := h5 a ha
        simp only [num, hw, WithTop.untopD_coe] at hw'
        have hw'' := le_abs_self w.1
        have hmax : (max w u).1 ≤ max w.1 u.1 := by
          rcases max_choice w u with e | e <;> rw [e]
          · exact le_max_left _ _
          · exact le_max_right _ _
        refine hmax.trans (max_le ?_ ?_)
        · have : (0 : Rat) ≤ ((a :: b :: q).length : Rat) * (4 * 2 ^ (j + 10)) := by positivity
          linarith
        · simp only [List.length_cons, Nat.cast_add, Nat.cast_one] at hvb ⊢
          linarith
    obtain ⟨hI, hlt⟩ : Fill.Inv (Fill.stepSD (fadd hfl (2 ^ (j + 10))) (fadd hfl diag)) dem nf ∧ nf.get c < ⊤ := by
      rcases hnf with hnf | hnf
      · obtain ⟨hI, hF⟩ := Fill.inv_of_returns_nf s1 d1 s2 d2 hnf
        obtain ⟨p, hp⟩ := exists_escape_up c.1.toNat c hc (by have := hc.1; omega)
        obtain ⟨v, hv, _⟩ := hbound c p hp
        exact ⟨hI, (Fill.fix_le_climb hgood hI hF hp).trans_lt (by rw [hv]; exact WithTop.coe_lt_top _)⟩
      · obtain ⟨hI, hF⟩ := FillCython.noFlats_of_returns s1 d1 s2 d2 hnf
        exact ⟨hI, hF hfin s3 d3 c hc⟩
    obtain ⟨p, hp, hnd, hcl, _⟩ := (hI.wit c hc).resolve_left hlt.ne
    obtain ⟨v, hv, hvb⟩ := hbound c p hp
    have hle : nf.get c ≤ v := by rw [← hcl, hv]
    obtain ⟨x, hx⟩ : ∃ x : F64, nf.get c = x := ⟨(nf.get c).untop hlt.ne, (WithTop.coe_untop _ _).symm⟩
    obtain ⟨w, hw, _⟩ := hdem.f32 c hc
    have hge := hI.ge c hc
    have hw' := h5 c hc
    simp only [num, hw, WithTop.untopD_coe] at hw'
    rw [hx] at hle
    rw [hx, hw] at hge
    have hle : x.1 ≤ v.1 := show x ≤ v from WithTop.coe_le_coe.1 hle
    have hge : w.1 ≤ x.1 := show w ≤ x from WithTop.coe_le_coe.1 hge
    have hsmall : |x.1| < 2 ^ (j + 63) := by
      have e53 : (2 : Rat) ^ (j + 53) = 2 ^ 43 * 2 ^ (j + 10) := by
        rw [show j + 53 = (j + 10) + 43 by ring, zpow_add₀ (by norm_num : (2 : Rat) ≠ 0) (j + 10), mul_comm]; norm_num
      have e63 : (2 : Rat) ^ (j + 63) = 2 ^ 53 * 2 ^ (j + 10) := by
        rw [show j + 63 = (j + 10) + 53 by ring, zpow_add₀ (by norm_num : (2 : Rat) ≠ 0) (j + 10), mul_comm]; norm_num
      have hlen : (p.length : Rat) ≤ 2 ^ 50 := by
        have : p.length ≤ dem.rows * dem.cols := by
          rw [← Flow.length_cellList]
          exact (List.subperm_of_subset hnd fun x hx => Flow.mem_cellList.2 (hp.inside x hx)).length_le
        exact_mod_cast this.trans hsize
      have : (p.length : Rat) * (4 * 2 ^ (j + 10)) ≤ 2 ^ 50 * (4 * 2 ^ (j + 10)) :=
        mul_le_mul_of_nonneg_right hlen (by positivity)
      rw [e53] at hvb hw'
      rw [e63, abs_lt]
      have := abs_lt.1 hw'
      constructor <;> linarith
    rw [hx]
    constructor
    · exact WithTop.coe_lt_coe.2 (show x.1 < fl (x.1 + 2 ^ (j + 10)) from lt_add_of_small hfl hj x.2 hsmall le_rfl)
    · exact WithTop.coe_lt_coe.2 (show x.1 < fl (x.1 + diag) from lt_add_of_small hfl hj x.2 hsmall h3.le)

/-- A way that falls by rounded steps, in numbers. -/
theorem rounded_chain (hfl : IsRounding 53 (-1074) fl) {short diag : Rat} {rows cols : Nat} {z : Cell → WithTop F64} {c : Cell}
    {p : List Cell} (hp : IsEscape rows cols c p) (hz : ∀ a, InGrid rows cols a → z a < ⊤)
    (hch : p.IsChain fun a b => z b < z a ∧ (Orth a b → fadd hfl short (z b) ≤ z a) ∧
      (¬ Orth a b → fadd hfl diag (z b) ≤ z a)) :
    p.IsChain fun a b => z b < z a ∧ (Orth a b → fl (num (z b) + short) ≤ num (z a)) ∧
      (¬ Orth a b → fl (num (z b) + diag) ≤ num (z a)) := by
  have hnum : ∀ (x y : WithTop F64) (s : Rat), x < ⊤ → y < ⊤ → fadd hfl s y ≤ x → fl (num y + s) ≤ num x := by
    intro x y s hx hy hle
    lift x to F64 using hx.ne
    lift y to F64 using hy.ne
    have hle : (⟨fl (y.1 + s), (hfl _).1⟩ : F64) ≤ x := WithTop.coe_le_coe.1 hle
    exact hle
  have hin : ∀ a ∈ p, z a < ⊤ := fun a ha => hz a (hp.inside a ha)
  rw [List.isChain_iff_getElem] at hch ⊢
  intro i hi
  obtain ⟨a1, a2, a3⟩ := hch i hi
  have b1 := hin _ (List.getElem_mem (by omega : i < p.length))
  have b2 := hin _ (List.getElem_mem hi)
  exact ⟨a1, fun ho => hnum _ _ _ b1 b2 (a2 ho), fun ho => hnum _ _ _ b1 b2 (a3 ho)⟩

/-- C57, the consequence: with these constants the no-flats fill of a float32 DEM, in float64 arithmetic, returns a finite
surface on which from every cell a way leads to the edge that falls at every step, by at least `short` or `diag`. -/
theorem C57_no_flats (hfl : IsRounding 53 (-1074) fl) (hnext : IsNextAfter nextafter) {dem : Raster (WithTop F64)}
    (hdem : IsDem32 dem) (hsize : dem.rows * dem.cols ≤ 2 ^ 50) :
    ∃ short diag nf, Fill.minimumSafeShortAndDiag fl nextafter ⟨dem.rows, dem.cols, fun c => num (dem.get c)⟩ =
        .ok (short, diag) ∧ 0 < short ∧ 0 < diag ∧
      Returns (Fill.fillTerrainNoFlats (fadd hfl short) (fadd hfl diag) dem) (.ok nf) ∧
      ∀ c, dem.Has c → nf.get c < ⊤ ∧ ∃ p, IsEscape dem.rows dem.cols c p ∧
        p.IsChain (fun a b => nf.get b < nf.get a ∧ (Orth a b → fl (num (nf.get b) + short) ≤ num (nf.get a)) ∧
          (¬ Orth a b → fl (num (nf.get b) + diag) ≤ num (nf.get a))) := by
  obtain ⟨fl32, hfl32⟩ := exists_rounding 24 (by norm_num) (-149)
  have h := float_sound hfl hfl32 hnext hdem hsize (k := 1) (by norm_num)
  obtain ⟨short, diag, h1, _, _, h2, h3, _⟩ := C57_safe hfl hnext ⟨dem.rows, dem.cols, fun c => num (dem.get c)⟩
    (by have := hdem.rows; simp only; omega) (by have := hdem.cols; simp only; omega) (fun c _ => Subtype.property _)
  have hsafe : fsafe hfl nextafter dem = (fadd hfl short, fadd hfl diag) := by
    unfold fsafe; rw [h1]
  obtain ⟨nf, hnf, _⟩ := C06_noflats_returns_bracketed _ _ h.mono.1 h.mono.2 (fun x => (h.ge x).1) (fun x => (h.ge x).2) dem
    h.rows h.cols
  have h7 := C07_noflats_strictly_downslope _ _ h.mono.1 h.mono.2 (fun x => (h.ge x).1) (fun x => (h.ge x).2) dem
    nf h.finite (fun x hx => (h.keep x hx).1) (fun x hx => (h.keep x hx).2) hnf (fun c hc _ => h.strict nf (.inl hnf) c hc)
  simp only [hsafe] at hnf h7
  exact ⟨short, diag, nf, h1, h2, h2.trans h3, hnf, fun c hc => ⟨(h7 c hc).1, (h7 c hc).2.imp fun p hp =>
    ⟨hp.1, rounded_chain hfl hp.1 (fun a ha => (h7 a ha).1) hp.2⟩⟩⟩

/-- C62 in floating point: float32 elevations and depths, float64 surface and slopes. -/
theorem C62_float {fl32 : Rat → Rat} (hfl : IsRounding 53 (-1074) fl) (hfl32 : IsRounding 24 (-149) fl32)
    (hnext : IsNextAfter nextafter) {dem : Raster (WithTop F64)} (hdem : IsDem32 dem) (hsize : dem.rows * dem.cols ≤ 2 ^ 50)
    (want : Bool) :
    ∃ out, Returns (Dem.process (Dem.python (fsub fl) fun x => fl (x * (1 / Fill.sqrt2))) (fsub fl32)
        (fsafe hfl nextafter) true want dem) (.ok out) ∧
      (∀ c, dem.Has c → IsSpillLevel dem.rows dem.cols dem.get c (out.filled.get c) ∧
        out.depths.get c = fl32 (num (out.filled.get c) - num (dem.get c)) ∧ 0 ≤ out.depths.get c ∧
        (0 < out.depths.get c ↔ dem.get c < out.filled.get c)) ∧
      (∀ c, OnEdge dem.rows dem.cols c → out.depths.get c = 0) ∧
      (∃ s : Cell → WithTop F64, (∀ c, dem.Has c → out.filled.get c ≤ s c) ∧
        DrainsDownhill dem.rows dem.cols s out.flowdir) ∧
      (want = true → ∃ a, out.accum = some a ∧ Returns (Flow.accumulatedFlow out.flowdir) (.ok a)) ∧
      (want = false → out.accum = none) := by
  obtain ⟨out, h0, _, _, _, h⟩ := C62_dem_outputs (float_sound hfl hfl32 hnext hdem hsize (k := 1 / Fill.sqrt2)
    (by norm_num [Fill.sqrt2])) want
  exact ⟨out, h0, h⟩

/-- C56 with floating point elevations; the volumes are exact. -/
theorem C56_float {fl32 : Rat → Rat} (hfl : IsRounding 53 (-1074) fl) (hfl32 : IsRounding 24 (-149) fl32)
    (hnext : IsNextAfter nextafter) {dem : Raster (WithTop F64)} (hdem : IsDem32 dem) (hsize : dem.rows * dem.cols ≤ 2 ^ 50)
    {cc : Raster Bool → Raster Int × Nat} (hcc : LabelContract cc) {gt : GeoTransform Rat} (hsq : SquareCells gt)
    (want : Bool) (f : Bluespots.StatUnits Rat → Bool) (mm : Rat) :
    ∃ out, (Complete.processAll cc (Dem.python (fsub fl) fun x => fl (x * (1 / Fill.sqrt2))) Bluespots.python (fsub fl32)
        (fsafe hfl nextafter) gt dem want (some f) mm).Yields (.ok out) ∧
      ∃ vs ss, List.Forall₂ (fun f x => HasNumber f "v" x) out.final vs ∧
        List.Forall₂ (fun f x => HasNumber f "spillv" x) (out.final.filter fun f => IsRoot f) ss ∧
        mm / 1000 * ((dem.rows * dem.cols : Nat) * cellArea gt) = vs.sum + ss.sum := by
  obtain ⟨out, h1, _, _, _, h2, _⟩ := C56_complete_conserves (float_sound hfl hfl32 hnext hdem hsize (k := 1 / Fill.sqrt2)
    (by norm_num [Fill.sqrt2])) hcc hsq want f mm
  exact ⟨out, h1, h2⟩

/-- C57 for the compiled fill. -/
theorem C57_no_flats_compiled (hfl : IsRounding 53 (-1074) fl) (hnext : IsNextAfter nextafter) {dem : Raster (WithTop F64)}
    (hdem : IsDem32 dem) (hr3 : dem.rows ≠ 3) (hc3 : dem.cols ≠ 3) (hsize : dem.rows * dem.cols ≤ 2 ^ 50) :
    ∃ short diag nf, Fill.minimumSafeShortAndDiag fl nextafter ⟨dem.rows, dem.cols, fun c => num (dem.get c)⟩ =
        .ok (short, diag) ∧ 0 < short ∧ 0 < diag ∧
      Returns (FillCython.fillTerrainNoFlats (fadd hfl short) (fadd hfl diag) dem) (.ok nf) ∧
      ∀ c, dem.Has c → nf.get c < ⊤ ∧ ∃ p, IsEscape dem.rows dem.cols c p ∧
        p.IsChain (fun a b => nf.get b < nf.get a ∧ (Orth a b → fl (num (nf.get b) + short) ≤ num (nf.get a)) ∧
          (¬ Orth a b → fl (num (nf.get b) + diag) ≤ num (nf.get a))) := by
  obtain ⟨fl32, hfl32⟩ := exists_rounding 24 (by norm_num) (-149)
  have h := float_sound hfl hfl32 hnext hdem hsize (k := 1) (by norm_num)
  obtain ⟨short, diag, h1, _, _, h2, h3, _⟩ := C57_safe hfl hnext ⟨dem.rows, dem.cols, fun c => num (dem.get c)⟩
    (by have := hdem.rows; simp only; omega) (by have := hdem.cols; simp only; omega) (fun c _ => Subtype.property _)
  have hsafe : fsafe hfl nextafter dem = (fadd hfl short, fadd hfl diag) := by
    unfold fsafe; rw [h1]
  obtain ⟨nf, hnf, _, _, _, _, _, hfin, hdown⟩ := C11_compiled_noflats_valid _ _ h.mono.1 h.mono.2 (fun x => (h.ge x).1)
    (fun x => (h.ge x).2) dem ⟨h.rows, hr3⟩ ⟨h.cols, hc3⟩ h.finite (fun x hx => (h.keep x hx).1)
    (fun x hx => (h.keep x hx).2)
  have h7 := hdown fun c hc _ => h.strict nf (.inr hnf) c hc
  simp only [hsafe] at hnf h7
  exact ⟨short, diag, nf, h1, h2, h2.trans h3, hnf, fun c hc => ⟨hfin c hc, (h7 c hc).imp fun p hp =>
    ⟨hp.1, rounded_chain hfl hp.1 hfin hp.2⟩⟩⟩

/-- C62 in floating point with the compiled functions; the diagonal factor is `INV_SQRT2`. -/
theorem C62_compiled_float {fl32 : Rat → Rat} (junk : Int × Int) (hfl : IsRounding 53 (-1074) fl)
    (hfl32 : IsRounding 24 (-149) fl32) (hnext : IsNextAfter nextafter) {dem : Raster (WithTop F64)} (hdem : IsDem32 dem)
    (hr3 : dem.rows ≠ 3) (hc3 : dem.cols ≠ 3) (hsize : dem.rows * dem.cols ≤ 2 ^ 50) (want : Bool) :
    ∃ out, Returns (Dem.process (Dem.compiled junk (fsub fl) fun x => fl (x * FlowCython.invSqrt2)) (fsub fl32)
        (fsafe hfl nextafter) true want dem) (.ok out) ∧
      Depressionless dem.rows dem.cols out.filled.get ∧
      (∀ c, dem.Has c → (∃ z, IsSpillLevel dem.rows dem.cols dem.get c z ∧ z ≤ out.filled.get c) ∧
        out.depths.get c = fl32 (num (out.filled.get c) - num (dem.get c)) ∧ 0 ≤ out.depths.get c ∧
        (0 < out.depths.get c ↔ dem.get c < out.filled.get c)) ∧
      (∀ c, OnEdge dem.rows dem.cols c → out.depths.get c = 0) ∧
      (∃ s : Cell → WithTop F64, (∀ c, dem.Has c → dem.get c ≤ s c) ∧ DrainsDownhill dem.rows dem.cols s out.flowdir) ∧
      (want = true → ∃ a A, out.accum = some a ∧ Returns (Flow.accumulatedFlow out.flowdir) (.ok A) ∧ a.Same A) ∧
      (want = false → out.accum = none) := by
  obtain ⟨out, h0, _, _, _, h⟩ := C62_dem_outputs_compiled junk (float_sound hfl hfl32 hnext hdem hsize
    (k := FlowCython.invSqrt2) (by norm_num [FlowCython.invSqrt2])) hr3 hc3 want
  exact ⟨out, h0, h⟩

/-- C56 with floating point elevations and the compiled functions; the volumes are exact. -/
theorem C56_compiled_float {fl32 : Rat → Rat} (junk : Int × Int) (hfl : IsRounding 53 (-1074) fl)
    (hfl32 : IsRounding 24 (-149) fl32) (hnext : IsNextAfter nextafter) {dem : Raster (WithTop F64)} (hdem : IsDem32 dem)
    (hr3 : dem.rows ≠ 3) (hc3 : dem.cols ≠ 3) (hsize : dem.rows * dem.cols ≤ 2 ^ 50)
    {cc : Raster Bool → Raster Int × Nat} (hcc : LabelContract cc) {gt : GeoTransform Rat} (hsq : SquareCells gt)
    (want : Bool) (f : Bluespots.StatUnits Rat → Bool) (mm : Rat) :
    ∃ out, (Complete.processAll cc (Dem.compiled junk (fsub fl) fun x => fl (x * FlowCython.invSqrt2))
        (Bluespots.compiled junk) (fsub fl32) (fsafe hfl nextafter) gt dem want (some f) mm).Yields (.ok out) ∧
      ∃ vs ss, List.Forall₂ (fun f x => HasNumber f "v" x) out.final vs ∧
        List.Forall₂ (fun f x => HasNumber f "spillv" x) (out.final.filter fun f => IsRoot f) ss ∧
        mm / 1000 * ((dem.rows * dem.cols : Nat) * cellArea gt) = vs.sum + ss.sum := by
  obtain ⟨out, h1, _, _, _, h2, _⟩ := C56_compiled_conserves junk (float_sound hfl hfl32 hnext hdem hsize
    (k := FlowCython.invSqrt2) (by norm_num [FlowCython.invSqrt2])) hr3 hc3 hcc hsq want f mm
  exact ⟨out, h1, h2⟩

/-! ### The hypotheses can be met -/

theorem exists_nextAfter : ∃ next, IsNextAfter next := by
  choose g hg using exists_gap 53 (-1074)
  refine ⟨fun x => x + 2 ^ g x, fun x hx hf => ⟨⟨(hg x).next (by norm_num) hf, ?_⟩, ?_⟩⟩
  · have := two_pos (g x)
    linarith
  · rintro z ⟨hz, hlt⟩
    exact (hg x).least hf hx hz hlt

/-- A 4x4 DEM with the elevation 0.5 in one cell and 10 around. -/
def demo : Raster (WithTop F64) :=
  ⟨4, 4, fun c => if c = (1, 1) then ((⟨1 / 2, 1, -1, by norm_num, by norm_num, by norm_num⟩ : F64) : WithTop F64) else
    ((⟨10, 10, 0, by norm_num, by norm_num, by norm_num⟩ : F64) : WithTop F64)⟩

theorem demo_dem32 : IsDem32 demo where
  rows := by decide
  cols := by decide
  f32 := by
    intro c _
    unfold demo
    simp only
    split_ifs
    · exact ⟨_, rfl, 1, -1, by norm_num, by norm_num, by norm_num⟩
    · exact ⟨_, rfl, 10, 0, by norm_num, by norm_num, by norm_num⟩

example : ∃ fl fl32 next, IsRounding 53 (-1074) fl ∧ IsRounding 24 (-149) fl32 ∧ IsNextAfter next ∧ IsDem32 demo ∧
    demo.rows ≠ 3 ∧ demo.cols ≠ 3 ∧ demo.rows * demo.cols ≤ 2 ^ 50 := by
  obtain ⟨fl, h1⟩ := exists_rounding 53 (by norm_num) (-1074)
  obtain ⟨fl32, h2⟩ := exists_rounding 24 (by norm_num) (-149)
  obtain ⟨next, h3⟩ := exists_nextAfter
  exact ⟨fl, fl32, next, h1, h2, h3, demo_dem32, by decide, by decide, by decide⟩

end Float
end Malstroem
