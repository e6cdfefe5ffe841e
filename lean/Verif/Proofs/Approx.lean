import Verif.Proofs.Hyps

set_option linter.unusedSectionVars false

namespace Malstroem
open Spec

variable {K : Type} [Field K] [LinearOrder K] [IsStrictOrderedRing K]

/-! ### Water volumes -/

theorem waterVolume_step {area : K} (ha : 0 ≤ area) {lo a b : K} (hab : a ≤ b) : ∀ {zs : List K}, (∀ z ∈ zs, lo ≤ z) →
    area * (b - a) * (countIn zs lo a : K) ≤ waterVolume area zs b - waterVolume area zs a ∧
    waterVolume area zs b - waterVolume area zs a ≤ area * (b - a) * (countIn zs lo b : K) := by
  intro zs
  induction zs with
  | nil => intro _; simp [waterVolume, countIn]
  | cons z zs ih =>
    intro h
    have ih := ih fun y hy => h y (by simp [hy])
    have hz := h z (by simp)
    have e1 : ∀ x, waterVolume area (z :: zs) x = area * max 0 (x - z) + waterVolume area zs x := by
      intro x; simp [waterVolume]
    have e2 : ∀ x, (countIn (z :: zs) lo x : K) = (if z < x then 1 else 0) + (countIn zs lo x : K) := by
      intro x
      unfold countIn
      by_cases hx : z < x
      · simp [hz, hx, add_comm]
      · simp [hx]
    rw [e1, e1, e2, e2]
    have m1 : (b - a) * (if z < a then 1 else 0) ≤ max 0 (b - z) - max 0 (a - z) := by
      split
      · rw [max_eq_right (by linarith), max_eq_right (by linarith)]; linarith
      · next h => rw [max_eq_left (by linarith : a - z ≤ 0)]; simp
    have m2 : max 0 (b - z) - max 0 (a - z) ≤ (b - a) * (if z < b then 1 else 0) := by
      split
      · rw [max_eq_right (by linarith : (0 : K) ≤ b - z)]
        have := le_max_right 0 (a - z); linarith
      · next h => rw [max_eq_left (by linarith : b - z ≤ 0)]; simp
    have m1' := mul_le_mul_of_nonneg_left m1 ha
    have m2' := mul_le_mul_of_nonneg_left m2 ha
    constructor <;> linarith [ih.1, ih.2]

theorem waterVolume_mono {area : K} (ha : 0 ≤ area) {a b : K} (hab : a ≤ b) (zs : List K) :
    waterVolume area zs a ≤ waterVolume area zs b := by
  unfold waterVolume
  apply List.sum_le_sum
  intro z _
  exact mul_le_mul_of_nonneg_left (max_le_max le_rfl (by linarith)) ha

theorem waterVolume_zero {area a : K} {zs : List K} (h : ∀ z ∈ zs, a ≤ z) : waterVolume area zs a = 0 := by
  unfold waterVolume
  rw [List.sum_eq_zero]
  intro x hx
  rw [List.mem_map] at hx
  obtain ⟨z, hz, rfl⟩ := hx
  rw [max_eq_left (by linarith [h z hz]), mul_zero]

theorem waterVolume_lt {area : K} (ha : 0 < area) {a b : K} (hab : a < b) {zs : List K} (h : ∃ z ∈ zs, z < b) :
    waterVolume area zs a < waterVolume area zs b := by
  unfold waterVolume
  obtain ⟨z, hz, hzb⟩ := h
  apply List.sum_lt_sum
  · intro y _; exact mul_le_mul_of_nonneg_left (max_le_max le_rfl (by linarith)) ha.le
  · refine ⟨z, hz, mul_lt_mul_of_pos_left ?_ ha⟩
    rw [max_eq_right (by linarith : (0 : K) ≤ b - z)]
    exact max_lt (by linarith) (by linarith)

/-! ### Cumulative volumes -/

/-- The sum over the lower bins. -/
def binSum (counts : List Int) (i : Nat) : K :=
  ((List.range i).map fun (k : Nat) => ((counts.getD k 0 : Int) : K) * ((i : K) - (k : K))).sum

theorem sum_take_range (counts : List Int) : ∀ i : Nat,
    (((counts.take i).sum : Int) : K) = ((List.range i).map fun (k : Nat) => ((counts.getD k 0 : Int) : K)).sum := by
  intro i
  induction i with
  | zero => simp
  | succ i ih =>
    rw [List.take_add_one, List.sum_append, List.range_succ, List.map_append, List.sum_append, ← ih, Int.cast_add]
    congr 1
    rw [List.map_singleton, List.sum_singleton, List.getD_eq_getElem?_getD]
    cases counts[i]? <;> simp

theorem binSum_succ (counts : List Int) (i : Nat) :
    (binSum counts (i + 1) : K) = binSum counts i + (((counts.take (i + 1)).sum : Int) : K) := by
  rw [sum_take_range]
  unfold binSum
  rw [List.range_succ, List.map_append, List.sum_append, List.map_append, List.sum_append]
  have : ((List.range i).map fun (k : Nat) => ((counts.getD k 0 : Int) : K) * (((i + 1 : Nat) : K) - (k : K))).sum =
      ((List.range i).map fun (k : Nat) => ((counts.getD k 0 : Int) : K) * ((i : K) - (k : K))).sum +
      ((List.range i).map fun (k : Nat) => ((counts.getD k 0 : Int) : K)).sum := by
    rw [← List.sum_map_add]
    congr 1
    apply List.map_congr_left
    intro k _
    push_cast; ring
  rw [this]
  simp only [List.map_singleton, List.sum_singleton]
  push_cast
  ring

theorem cumulative_below_get (counts : List Int) (i : Nat) (h : i < max 1 counts.length) :
    (0 :: (npCumsum (counts.map fun (n : Int) => (n : K))).dropLast)[i]? =
      some (((counts.take i).sum : Int) : K) := by
  cases i with
  | zero => simp
  | succ i =>
    have hi : i + 1 < counts.length := by omega
    rw [List.getElem?_cons_succ, List.getElem?_dropLast, length_npCumsum, List.length_map, if_pos (by omega),
      getElem?_npCumsum (by simp; omega), ← List.map_take, Option.some.injEq]
    exact (map_list_sum (Int.castRingHom K) _).symm

theorem length_cumulativeVolume (h : Hyps.Histogram K) (area : K) :
    (Approx.cumulativeVolume h area).length = max 1 h.counts.length := by
  unfold Approx.cumulativeVolume
  rw [length_npCumsum, List.length_map, List.length_cons, List.length_dropLast, length_npCumsum, List.length_map]
  omega

theorem cumulativeVolume_get (h : Hyps.Histogram K) (area : K) : ∀ (i : Nat), i < max 1 h.counts.length →
    (Approx.cumulativeVolume h area)[i]? = some (area * h.bins.resolution * binSum h.counts i) := by
  intro i hi
  unfold Approx.cumulativeVolume
  have hlen : ∀ f : K → K, ((0 :: (npCumsum (h.counts.map fun (n : Int) => (n : K))).dropLast).map f).length =
      max 1 h.counts.length := by
    intro f
    rw [List.length_map, List.length_cons, List.length_dropLast, length_npCumsum, List.length_map]; omega
  rw [getElem?_npCumsum (by rw [hlen]; exact hi), Option.some.injEq]
  induction i with
  | zero => simp [binSum]
  | succ i ih =>
    rw [List.take_add_one, List.sum_append, ih (by omega), List.getElem?_map, cumulative_below_get _ _ hi, binSum_succ]
    simp; ring

theorem binSum_nonneg_step {counts : List Int} (h : ∀ c ∈ counts, 0 ≤ c) (i : Nat) :
    (0 : K) ≤ (((counts.take i).sum : Int) : K) := by
  exact_mod_cast List.sum_nonneg fun c hc => h c (List.mem_of_mem_take hc)

theorem binSum_mono {counts : List Int} (h : ∀ c ∈ counts, 0 ≤ c) {i j : Nat} (hij : i ≤ j) :
    (binSum counts i : K) ≤ binSum counts j := by
  induction j with
  | zero => simp_all
  | succ j ih =>
    rcases Nat.lt_or_ge i (j + 1) with hlt | hge
    · rw [binSum_succ]
      have := ih (by omega)
      have := binSum_nonneg_step (K := K) h (j + 1)
      linarith
    · rw [show i = j + 1 by omega]

section Bounds
variable {res area lo hi : K} {zs : List K} {counts : List Int}

/-- Between the volume below the bottom of bin `i` and the volume below its top. -/
theorem binSum_bounds [FloorRing K] (hres : 0 < res) (ha : 0 ≤ area) (h : IsHistogram res zs counts lo hi) :
    ∀ i ≤ counts.length,
    waterVolume area zs (lo + i * res) ≤ area * res * binSum counts i ∧
    area * res * binSum counts i ≤ waterVolume area zs (lo + (i + 1) * res) := by
  intro i
  induction i with
  | zero =>
    intro _
    have e : waterVolume area zs lo = 0 := waterVolume_zero h.lower_le
    simp only [binSum, List.range_zero, List.map_nil, List.sum_nil, mul_zero, Nat.cast_zero, zero_mul, add_zero, e,
      le_refl, true_and]
    have := waterVolume_mono ha (show lo ≤ lo + (0 + 1) * res by linarith) zs
    rwa [e] at this
  | succ i ih =>
    intro hi
    have ih := ih (by omega)
    have hc := sum_take_counts hres h.toIsHistogramAbove (i + 1) hi
    have s1 := (waterVolume_step (lo := lo) (a := lo + i * res) (b := lo + (i + 1) * res) ha
      (by linarith) h.lower_le).2
    have s2 := (waterVolume_step (lo := lo) (a := lo + (i + 1) * res) (b := lo + (i + 1 + 1) * res) ha
      (by linarith) h.lower_le).1
    rw [binSum_succ, hc]
    push_cast
    have e1 : lo + ((i : K) + 1) * res - (lo + i * res) = res := by ring
    have e2 : lo + ((i : K) + 1 + 1) * res - (lo + (i + 1) * res) = res := by ring
    rw [e1] at s1
    rw [e2] at s2
    constructor
    · linarith [ih.1]
    · linarith [ih.2]

theorem binSum_lt [FloorRing K] (hres : 0 < res) (h : IsHistogram res zs counts lo hi) {i j : Nat} (hij : i < j)
    (hj : j ≤ counts.length) : (binSum counts i : K) < binSum counts j := by
  have hpos : ∀ i, i + 1 ≤ counts.length → (binSum counts i : K) < binSum counts (i + 1) := by
    intro i hi
    have hc := sum_take_counts hres h.toIsHistogramAbove (i + 1) hi
    rw [binSum_succ, hc]
    have : 0 < countIn zs lo (lo + ((i + 1 : Nat) : K) * res) := by
      unfold countIn
      obtain ⟨z, hz, hlt⟩ := h.first
      apply List.length_pos_of_mem (a := z)
      rw [List.mem_filter]
      refine ⟨hz, ?_⟩
      have : 0 ≤ (i : K) * res := by positivity
      simp only [Nat.cast_add, Nat.cast_one, decide_eq_true_eq]
      exact ⟨h.lower_le z hz, by linarith⟩
    have : (0 : K) < (countIn zs lo (lo + ((i + 1 : Nat) : K) * res) : K) := by exact_mod_cast this
    simp only [Int.cast_natCast]
    linarith
  induction j with
  | zero => omega
  | succ j ih =>
    rcases Nat.lt_or_ge i j with hlt | hge
    · exact lt_trans (ih hlt (by omega)) (hpos j hj)
    · rw [show i = j by omega]; exact hpos j hj

end Bounds

/-! ### Interpolation -/

/-- Interpolation nodes: strictly increasing abscissae, non-decreasing ordinates. -/
def Increasing (l : List (K × K)) : Prop := l.Pairwise fun p q => p.1 < q.1 ∧ p.2 ≤ q.2

theorem interp_ok (x : K) : ∀ {l : List (K × K)}, l ≠ [] → ∃ y, Approx.npInterpPairs x l = .ok y := by
  intro l
  induction l with
  | nil => intro h; exact absurd rfl h
  | cons p l ih =>
    intro _
    obtain ⟨a, f⟩ := p
    cases l with
    | nil => exact ⟨f, rfl⟩
    | cons q l =>
      obtain ⟨b, g⟩ := q
      obtain ⟨y, hy⟩ := ih (by simp)
      rw [Approx.npInterpPairs]
      split
      · exact ⟨_, rfl⟩
      · split
        · exact ⟨_, rfl⟩
        · exact ⟨y, hy⟩

theorem lin_bounds {a b f g x : K} (hab : a < b) (hfg : f ≤ g) (h1 : a ≤ x) (h2 : x ≤ b) :
    f ≤ (g - f) / (b - a) * (x - a) + f ∧ (g - f) / (b - a) * (x - a) + f ≤ g := by
  have hs : 0 ≤ (g - f) / (b - a) := div_nonneg (by linarith) (by linarith)
  have hm : (g - f) / (b - a) * (b - a) = g - f := div_mul_cancel₀ _ (by linarith)
  have h3 : 0 ≤ (g - f) / (b - a) * (x - a) := mul_nonneg hs (by linarith)
  have h4 : (g - f) / (b - a) * (x - a) ≤ (g - f) / (b - a) * (b - a) := mul_le_mul_of_nonneg_left (by linarith) hs
  constructor <;> linarith

/-- The result is at least the ordinate of the first node and of every node to the left. -/
theorem interp_ge {x y : K} : ∀ {l : List (K × K)}, Increasing l → Approx.npInterpPairs x l = .ok y →
    (∀ p, l.head? = some p → p.2 ≤ y) ∧ ∀ p ∈ l, p.1 ≤ x → p.2 ≤ y := by
  intro l
  induction l with
  | nil => intro _ h; cases h
  | cons p l ih =>
    intro hl h
    obtain ⟨a, f⟩ := p
    cases l with
    | nil =>
      cases h
      simp
    | cons q l =>
      obtain ⟨b, g⟩ := q
      rw [Increasing, List.pairwise_cons] at hl
      obtain ⟨hl1, hl2⟩ := hl
      have hbg := hl1 (b, g) (by simp)
      rw [Approx.npInterpPairs] at h
      split at h
      · next hx =>
        cases h
        refine ⟨by simp, fun p hp hpx => ?_⟩
        rcases List.mem_cons.1 hp with rfl | hp
        · exact le_rfl
        · have := (hl1 p hp).1
          exact absurd (lt_trans this (lt_of_le_of_lt hpx hx)) (lt_irrefl _)
      · next hx =>
        split at h
        · next hx2 =>
          cases h
          have hb := (lin_bounds hbg.1 hbg.2 (not_lt.1 hx) hx2.le).1
          refine ⟨by simpa using hb, fun p hp hpx => ?_⟩
          rcases List.mem_cons.1 hp with rfl | hp
          · exact hb
          · rcases List.mem_cons.1 hp with rfl | hp
            · exact absurd (lt_of_le_of_lt hpx hx2) (lt_irrefl _)
            · have := ((List.pairwise_cons.1 hl2).1 p hp).1
              exact absurd (lt_trans this (lt_of_le_of_lt hpx hx2)) (lt_irrefl _)
        · have ih := ih hl2 h
          have := ih.1 (b, g) rfl
          refine ⟨fun p hp => ?_, fun p hp hpx => ?_⟩
          · cases hp; exact le_trans hbg.2 this
          · rcases List.mem_cons.1 hp with rfl | hp
            · exact le_trans hbg.2 this
            · exact ih.2 p hp hpx

/-- The result is at most the ordinate of the last node and of every node to the right. -/
theorem interp_le {x y : K} : ∀ {l : List (K × K)}, Increasing l → Approx.npInterpPairs x l = .ok y →
    (∀ p, l.getLast? = some p → y ≤ p.2) ∧ ∀ p ∈ l, x ≤ p.1 → y ≤ p.2 := by
  intro l
  induction l with
  | nil => intro _ h; cases h
  | cons p l ih =>
    intro hl h
    obtain ⟨a, f⟩ := p
    cases l with
    | nil =>
      cases h
      simp
    | cons q l =>
      obtain ⟨b, g⟩ := q
      rw [Increasing, List.pairwise_cons] at hl
      obtain ⟨hl1, hl2⟩ := hl
      have hbg := hl1 (b, g) (by simp)
      have hall : ∀ p ∈ (b, g) :: l, g ≤ p.2 := by
        intro p hp
        rcases List.mem_cons.1 hp with rfl | hp
        · exact le_rfl
        · exact ((List.pairwise_cons.1 hl2).1 p hp).2
      rw [Approx.npInterpPairs] at h
      split at h
      · next hx =>
        cases h
        refine ⟨fun p hp => ?_, fun p hp hpx => ?_⟩
        · have hp := List.mem_of_getLast? hp
          rcases List.mem_cons.1 hp with rfl | hp
          · exact le_rfl
          · exact (hl1 p hp).2
        · rcases List.mem_cons.1 hp with rfl | hp
          · exact le_rfl
          · exact (hl1 p hp).2
      · next hx =>
        split at h
        · next hx2 =>
          cases h
          have hb := (lin_bounds hbg.1 hbg.2 (not_lt.1 hx) hx2.le).2
          refine ⟨fun p hp => ?_, fun p hp hpx => ?_⟩
          · rw [List.getLast?_cons_cons] at hp
            exact le_trans hb (hall p (List.mem_of_getLast? hp))
          · rcases List.mem_cons.1 hp with rfl | hp
            · have : x = a := le_antisymm hpx (not_lt.1 hx)
              subst this; simp
            · exact le_trans hb (hall p hp)
        · next hx2 =>
          have ih := ih hl2 h
          refine ⟨fun p hp => ?_, fun p hp hpx => ?_⟩
          · rw [List.getLast?_cons_cons] at hp
            exact ih.1 p hp
          · rcases List.mem_cons.1 hp with rfl | hp
            · exact absurd (lt_of_lt_of_le hbg.1 (le_trans (not_lt.1 hx2) hpx)) (lt_irrefl _)
            · exact ih.2 p hp hpx

theorem interp_mono {x x' y y' : K} (hxx : x ≤ x') : ∀ {l : List (K × K)}, Increasing l →
    Approx.npInterpPairs x l = .ok y → Approx.npInterpPairs x' l = .ok y' → y ≤ y' := by
  intro l
  induction l with
  | nil => intro _ h; cases h
  | cons p l ih =>
    intro hl h h'
    obtain ⟨a, f⟩ := p
    cases l with
    | nil => cases h; cases h'; exact le_rfl
    | cons q l =>
      obtain ⟨b, g⟩ := q
      have hge := (interp_ge hl h').1 (a, f) rfl
      have hge' := (interp_ge hl h').2 (b, g) (by simp)
      rw [Increasing, List.pairwise_cons] at hl
      obtain ⟨hl1, hl2⟩ := hl
      have hbg := hl1 (b, g) (by simp)
      rw [Approx.npInterpPairs] at h
      split at h
      · cases h; exact hge
      · next hx =>
        split at h
        · next hx2 =>
          cases h
          have hb := (lin_bounds hbg.1 hbg.2 (not_lt.1 hx) hx2.le).2
          rcases lt_or_ge x' b with hx3 | hx3
          · rw [Approx.npInterpPairs, if_neg (by simp only [not_lt] at hx ⊢; linarith), if_pos hx3] at h'
            cases h'
            have hs : 0 ≤ (g - f) / (b - a) := div_nonneg (by linarith [hbg.2]) (by linarith [hbg.1])
            have := mul_le_mul_of_nonneg_left (show x - a ≤ x' - a by linarith) hs
            linarith
          · exact le_trans hb (hge' hx3)
        · next hx2 =>
          rw [Approx.npInterpPairs, if_neg (by simp only [not_lt] at hx ⊢; linarith),
            if_neg (by simp only [not_lt] at hx2 ⊢; linarith)] at h'
          exact ih hl2 h h'

end Malstroem
