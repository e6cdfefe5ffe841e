import Verif.Proofs.Approx
import Verif.Proofs.Flatdict

set_option linter.unusedSectionVars false

namespace Malstroem
open Spec

variable {K : Type} [Field K] [LinearOrder K]

variable [IsStrictOrderedRing K] [FloorRing K]

theorem inner_get {α : Type} (l : List α) (i : Nat) :
    (Approx.inner l)[i]? = if i + 2 < l.length then l[i + 1]? else none := by
  unfold Approx.inner
  rw [List.getElem?_dropLast, List.length_drop, List.getElem?_drop]
  by_cases h : i + 2 < l.length
  · rw [if_pos h, if_pos (by omega)]; congr 1; omega
  · rw [if_neg h, if_neg (by omega)]

theorem inner_eq {α : Type} {l : List α} {n : Nat} {g : Nat → α} (hl : l.length = n)
    (hg : ∀ i < n, l[i]? = some (g i)) : Approx.inner l = (List.range (n - 2)).map fun (i : Nat) => g (i + 1) := by
  apply List.ext_getElem?
  intro i
  rw [inner_get, hl]
  by_cases h : i + 2 < n
  · rw [if_pos h, hg _ (by omega), List.getElem?_map, List.getElem?_range (by omega)]; rfl
  · rw [if_neg h, List.getElem?_eq_none (by simp; omega)]

variable {res area spill zmin zmax : K} {zs : List K} {s : Hyps.Stats K}

/-- The interpolation nodes. -/
def levelNodes (area vol zmin zmax : K) (s : Hyps.Stats K) : List (K × K) :=
  (0, zmin) :: (((List.range (s.zhistogram.counts.length - 2)).map fun (i : Nat) =>
    (area * s.zhistogram.bins.resolution * (binSum s.zhistogram.counts (i + 1) : K),
      ((i + 1 : Nat) : K) * s.zhistogram.bins.resolution + s.zhistogram.bins.lower_bound +
        s.zhistogram.bins.resolution * (1 / 2))) ++ [(vol, zmax)])

theorem waterLevel_interp (d : Hyps.Describes res zs zmin zmax s) (area vol v : K) (dmax : WithBot K)
    (h : ¬ (vol = 0 ∨ v / vol > 9999 / 10000)) :
    Approx.waterLevel s area dmax vol v = (Approx.npInterpPairs v (levelNodes area vol zmin zmax s)).map .num := by
  unfold Approx.waterLevel
  rw [if_neg h, d.zmin_eq, d.zmax_eq]
  have hne : 0 < s.zhistogram.counts.length := List.length_pos_iff.2 d.hist.nonempty
  have e1 := inner_eq (l := Approx.cumulativeVolume s.zhistogram area) (n := s.zhistogram.counts.length)
    (g := fun i => area * s.zhistogram.bins.resolution * (binSum s.zhistogram.counts i : K))
    (by rw [length_cumulativeVolume]; omega) fun i hi => cumulativeVolume_get s.zhistogram area i (by omega)
  have e2 := inner_eq (l := Approx.binWaterlevelZ s.zhistogram.bins) (n := s.zhistogram.counts.length)
    (g := fun i => (i : K) * s.zhistogram.bins.resolution + s.zhistogram.bins.lower_bound +
        s.zhistogram.bins.resolution * (1 / 2))
    (by unfold Approx.binWaterlevelZ; rw [d.num_bins]; simp) fun i hi => by
      unfold Approx.binWaterlevelZ
      rw [d.num_bins, List.getElem?_map, List.getElem?_range (by simpa using hi)]; rfl
  show (Approx.npInterp v _ _).map Val.num = _
  rw [e1, e2]
  unfold Approx.npInterp
  rw [if_neg (by simp)]
  congr 2
  unfold levelNodes
  rw [List.zip_cons_cons, List.zip_append (by simp), List.zip_map', List.zip_cons_cons, List.zip_nil_left]

theorem levelNodes_increasing (hres : 0 < res) (ha : 0 < area) (d : Hyps.Describes res zs zmin zmax s)
    (hs : ∀ z ∈ zs, z < spill) : Increasing (levelNodes area (waterVolume area zs spill) zmin zmax s) := by
  have hne : 0 < s.zhistogram.counts.length := List.length_pos_iff.2 d.hist.nonempty
  have hzz : zmin ≤ zmax := d.min.2 _ d.max.1
  have hzs : zmin < spill := hs _ d.min.1
  have hvol : 0 < waterVolume area zs spill := by
    rw [← waterVolume_zero (area := area) d.min.2]
    exact waterVolume_lt ha hzs ⟨zmin, d.min.1, hzs⟩
  have hfirst : zmin < s.zhistogram.bins.lower_bound + res := by
    obtain ⟨z, hz, h⟩ := d.hist.first
    exact lt_of_le_of_lt (d.min.2 z hz) h
  have hlast : s.zhistogram.bins.lower_bound + (s.zhistogram.counts.length : K) * res - res ≤ zmax := by
    obtain ⟨z, hz, h⟩ := d.hist.last
    rw [d.hist.upper_eq] at h
    exact le_trans h (d.max.2 z hz)
  have har : 0 < area * res := by positivity
  unfold levelNodes Increasing
  rw [d.resolution]
  rw [List.pairwise_cons, List.pairwise_append, List.pairwise_map]
  refine ⟨fun p hp => ?_, ?_, by simp, fun p hp q hq => ?_⟩
  · rcases List.mem_append.1 hp with hp | hp
    · rw [List.mem_map] at hp
      obtain ⟨i, hi, rfl⟩ := hp
      rw [List.mem_range] at hi
      refine ⟨?_, ?_⟩
      · have := binSum_lt (K := K) hres d.hist (i := 0) (j := i + 1) (by omega) (by omega)
        simp only [binSum, List.range_zero, List.map_nil, List.sum_nil] at this ⊢
        exact mul_pos har this
      · have : 0 ≤ (i : K) * res := by positivity
        push_cast
        linarith
    · simp only [List.mem_singleton] at hp
      subst hp
      exact ⟨hvol, hzz⟩
  · refine List.Pairwise.imp_of_mem (fun {a b} ha hb hlt => ?_) List.pairwise_lt_range
    rw [List.mem_range] at ha hb
    refine ⟨mul_lt_mul_of_pos_left (binSum_lt hres d.hist (by omega) (by omega)) har, ?_⟩
    have : ((a + 1 : Nat) : K) ≤ ((b + 1 : Nat) : K) := by exact_mod_cast (by omega)
    have := mul_le_mul_of_nonneg_right this hres.le
    linarith
  · rw [List.mem_map] at hp
    obtain ⟨i, hi, rfl⟩ := hp
    rw [List.mem_range] at hi
    simp only [List.mem_singleton] at hq
    subst hq
    have hi2 : ((i + 1 + 1 + 1 : Nat) : K) ≤ (s.zhistogram.counts.length : K) := by exact_mod_cast (by omega)
    have hi3 := mul_le_mul_of_nonneg_right hi2 hres.le
    push_cast at hi3
    refine ⟨?_, ?_⟩
    · have hb := (binSum_bounds hres ha.le d.hist (i + 1) (by omega)).2
      refine lt_of_le_of_lt hb ?_
      refine waterVolume_lt ha (lt_of_le_of_lt ?_ (hs _ d.max.1)) ⟨zmin, d.min.1, hzs⟩
      push_cast
      linarith
    · push_cast
      linarith

/-- Everything about the level as a function of the volume. -/
theorem waterLevel_spec (hres : 0 < res) (ha : 0 < area) (d : Hyps.Describes res zs zmin zmax s)
    (hs : ∀ z ∈ zs, z < spill) :
    ∃ level : K → K,
      (∀ v, Approx.waterLevel s area ((spill - zmin : K) : WithBot K) (waterVolume area zs spill) v =
        .ok (.num (level v))) ∧
      Monotone level ∧ (∀ v, zmin ≤ level v ∧ level v ≤ spill) ∧ (∀ v ≤ 0, level v = zmin) ∧
      (∀ v, 9999 / 10000 * waterVolume area zs spill < v → level v = spill) ∧
      (∀ v, v ≤ 9999 / 10000 * waterVolume area zs spill → level v ≤ zmax) ∧
      (∀ v L, waterVolume area zs L = v → v ≤ 9999 / 10000 * waterVolume area zs spill → zmin ≤ L →
        L ≤ zmax - 2 * res → |level v - L| ≤ 2 * res) := by
  have hinc := levelNodes_increasing hres ha d hs
  set vol := waterVolume area zs spill with hv
  have hzs : zmin < spill := hs _ d.min.1
  have hvol : 0 < vol := by
    rw [hv, ← waterVolume_zero (area := area) d.min.2]
    exact waterVolume_lt ha hzs ⟨zmin, d.min.1, hzs⟩
  have hin : ∀ v, ∃ y, Approx.npInterpPairs v (levelNodes area vol zmin zmax s) = .ok y := fun v =>
    interp_ok v (by unfold levelNodes; simp)
  choose f hf using hin
  have hcond : ∀ v, (vol = 0 ∨ v / vol > 9999 / 10000) ↔ 9999 / 10000 * vol < v := by
    intro v
    rw [gt_iff_lt, lt_div_iff₀ hvol]
    constructor
    · rintro (h | h)
      · exact absurd h hvol.ne'
      · exact h
    · exact .inr
  have hlo : ∀ v, zmin ≤ f v := fun v => (interp_ge hinc (hf v)).1 (0, zmin) rfl
  have hhi : ∀ v, f v ≤ zmax := fun v => (interp_le hinc (hf v)).1 (vol, zmax) (by
    unfold levelNodes; rw [← List.cons_append]; exact List.getLast?_concat)
  have hmax : zmax < spill := hs _ d.max.1
  refine ⟨fun v => if 9999 / 10000 * vol < v then spill else f v, fun v => ?_, fun v w hvw => ?_, fun v => ?_,
    fun v hv0 => ?_, fun v h => if_pos h, fun v h => ?_, ?_⟩
  · dsimp only
    by_cases h : 9999 / 10000 * vol < v
    · unfold Approx.waterLevel
      rw [if_pos ((hcond v).2 h), if_pos h, d.zmin_eq]
      show Except.ok (Val.num (zmin + (spill - zmin))) = _
      rw [add_sub_cancel]
    · rw [waterLevel_interp d area vol v _ (fun hc => h ((hcond v).1 hc)), hf, if_neg h]; rfl
  · dsimp only
    by_cases h : 9999 / 10000 * vol < v
    · rw [if_pos h, if_pos (lt_of_lt_of_le h hvw)]
    · rw [if_neg h]
      split
      · exact le_trans (hhi v) hmax.le
      · exact interp_mono hvw hinc (hf v) (hf w)
  · dsimp only
    split
    · exact ⟨hzs.le, le_rfl⟩
    · exact ⟨hlo v, le_trans (hhi v) hmax.le⟩
  · dsimp only
    have h9 : (0 : K) < 9999 / 10000 := by norm_num
    rw [if_neg (not_lt.2 (le_trans hv0 (mul_pos h9 hvol).le))]
    exact le_antisymm ((interp_le hinc (hf v)).2 (0, zmin) (by simp [levelNodes]) hv0) (hlo v)
  · dsimp only
    rw [if_neg (not_lt.2 h)]
    exact hhi v
  · intro v L hL hfull hzL hLz
    dsimp only
    rw [if_neg (not_lt.2 hfull)]
    have hupper : zmax < s.zhistogram.bins.upper_bound := d.hist.upper_lt _ d.max.1
    have hlow : s.zhistogram.bins.lower_bound ≤ zmin := d.hist.lower_le _ d.min.1
    rw [d.hist.upper_eq] at hupper
    set lo := s.zhistogram.bins.lower_bound with hlo'
    obtain ⟨i, hi⟩ : ∃ i : Nat, ⌊(L - lo) / res⌋ = i :=
      ⟨⌊(L - lo) / res⌋.toNat, (Int.toNat_of_nonneg (Int.floor_nonneg.2 (div_nonneg (by linarith) hres.le))).symm⟩
    rw [Int.floor_eq_iff, le_div_iff₀ hres, div_lt_iff₀ hres] at hi
    push_cast at hi
    obtain ⟨hi1, hi2⟩ := hi
    have hin : i + 2 < s.zhistogram.counts.length := by
      have : ((i : K) + 2) * res < (s.zhistogram.counts.length : K) * res := by linarith
      have := lt_of_mul_lt_mul_right this hres.le
      exact_mod_cast this
    have hup : f v ≤ lo + (i + 1) * res + res * (1 / 2) := by
      refine le_trans ((interp_le hinc (hf v)).2 (area * s.zhistogram.bins.resolution * (binSum s.zhistogram.counts (i + 1) : K),
        ((i + 1 : Nat) : K) * s.zhistogram.bins.resolution + s.zhistogram.bins.lower_bound +
          s.zhistogram.bins.resolution * (1 / 2)) ?_ ?_) ?_
      · unfold levelNodes
        refine List.mem_cons_of_mem _ (List.mem_append_left _ (List.mem_map.2 ⟨i, List.mem_range.2 (by omega), rfl⟩))
      · rw [d.resolution]
        refine le_trans ?_ (binSum_bounds hres ha.le d.hist (i + 1) (by omega)).1
        rw [← hL]
        exact waterVolume_mono ha.le (by push_cast; linarith) zs
      · rw [d.resolution]; push_cast; linarith
    have hdown : L - 2 * res ≤ f v := by
      rcases Nat.lt_or_ge i 2 with h2 | h2
      · have : (i : K) ≤ 1 := by exact_mod_cast (by omega : i ≤ 1)
        have := mul_le_mul_of_nonneg_right this hres.le
        linarith [hlo v]
      · obtain ⟨j, rfl⟩ : ∃ j, i = j + 2 := ⟨i - 2, by omega⟩
        refine le_trans ?_ ((interp_ge hinc (hf v)).2 (area * s.zhistogram.bins.resolution *
          (binSum s.zhistogram.counts (j + 1) : K),
          ((j + 1 : Nat) : K) * s.zhistogram.bins.resolution + s.zhistogram.bins.lower_bound +
            s.zhistogram.bins.resolution * (1 / 2)) ?_ ?_)
        · rw [d.resolution]; push_cast at hi2 ⊢; linarith
        · unfold levelNodes
          refine List.mem_cons_of_mem _ (List.mem_append_left _ (List.mem_map.2 ⟨j, List.mem_range.2 (by omega), rfl⟩))
        · rw [d.resolution]
          refine le_trans (binSum_bounds hres ha.le d.hist (j + 1) (by omega)).2 ?_
          rw [← hL]
          exact waterVolume_mono ha.le (by push_cast at hi1 ⊢; linarith) zs
    rw [abs_le]
    constructor
    · linarith
    · linarith

end Malstroem
