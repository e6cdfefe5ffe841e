/-
Properties C41-C44: hypsometry statistics of bluespots.
-/
import Verif.Proofs.HypsIo
import Mathlib.Data.Rat.Floor

set_option linter.unusedSectionVars false

namespace Malstroem
open Spec

variable {K : Type} [Field K] [LinearOrder K] [IsStrictOrderedRing K] [FloorRing K]

/-! ### C41 -/

/-- The labelling and the DEM fit together: same shape, labels 0..n, and every label other than the background occurs. -/
structure HypsInput (lab : Raster Int) (dem : Raster K) (labels_max : Option Int) (background : Int) (n : Nat) : Prop where
  shape : dem.rows = lab.rows ∧ dem.cols = lab.cols
  top : TopLabel lab.rows lab.cols lab.get labels_max n
  range : LabelsIn lab.rows lab.cols lab.get n
  used : ∀ l : Nat, l ≤ n → (l : Int) ≠ background → ∃ c, InGrid lab.rows lab.cols c ∧ lab.get c = l

/-- C41, what holds: `bluespot_hypsometry_stats` returns the labels 0..n in order; the record of a label other than the
background has the minimum and maximum elevation of the label's cells, and if no elevation is negative its histogram
counts every cell: the bounds contain all elevations, each bin holds the number of elevations in its interval, and the
counts add up to the number of cells. Missing: negative elevations, for which the property is false
(`C41_false`). -/
theorem C41_histogram_partial {lab : Raster Int} {dem : Raster K} {res : K} {labels_max : Option Int} {background : Int}
    {n : Nat} (hres : 0 < res) (h : HypsInput lab dem labels_max background n) :
    ∃ out, Hyps.hypsometryStats lab dem res labels_max background = .ok out ∧
      out.map (·.1) = ((List.range (n + 1)).map fun (l : Nat) => (l : Int)) ∧
      ∀ (l : Nat) (cs : List Cell), l ≤ n → (l : Int) ≠ background → CellsOf lab.rows lab.cols lab.get l cs →
        (∀ c ∈ cs, 0 ≤ dem.get c) →
        ∃ s zmin zmax, out[l]? = some ((l : Int), s) ∧ s.zmin = ((zmin : K) : WithTop K) ∧
          s.zmax = ((zmax : K) : WithBot K) ∧ IsMin (cs.map dem.get) zmin ∧ IsMax (cs.map dem.get) zmax ∧
          s.zhistogram.bins.resolution = res ∧
          IsHistogram res (cs.map dem.get) s.zhistogram.counts s.zhistogram.bins.lower_bound
            s.zhistogram.bins.upper_bound ∧
          s.zhistogram.bins.lower_bound ≤ zmin ∧ zmax < s.zhistogram.bins.upper_bound ∧
          s.zhistogram.counts.sum = cs.length := by
  obtain ⟨out, h1, h2, h3⟩ := hypsometryStats_ok hres h.shape h.top h.range h.used
  refine ⟨out, h1, h2, fun l cs hl hb hcs h0 => ?_⟩
  obtain ⟨s, h4, _, h5⟩ := h3 l cs hl hcs
  have hne : cs ≠ [] := by
    obtain ⟨c, hc1, hc2⟩ := h.used l hl hb
    exact List.ne_nil_of_mem ((hcs.2 c).2 ⟨hc1, hc2⟩)
  obtain ⟨zmin, zmax, hmin, hmax⟩ := minmax_exists dem hne
  have hz0 : 0 ≤ zmin := by
    obtain ⟨c, hc, rfl⟩ := List.mem_map.1 hmin.1
    exact h0 c hc
  obtain ⟨_, hd⟩ := h5 hb zmin zmax hmin hmax
  have hd := hd hz0
  refine ⟨s, zmin, zmax, h4, hd.zmin_eq, hd.zmax_eq, hmin, hmax, hd.resolution, hd.hist, hd.hist.lower_le _ hmin.1,
    hd.hist.upper_lt _ hmax.1, ?_⟩
  rw [sum_counts hres hd.hist.toIsHistogramAbove, List.filter_eq_self.2 (by simpa using hd.hist.lower_le)]
  simp

/-- C41 for elevations of any sign: minimum and maximum are right, no cell is above the histogram, the histogram counts
exactly the cells that are not below its lower bound, and the lower bound is not above the lowest cell iff that cell is
not negative or lies exactly at a multiple of the resolution. -/
theorem C41_histogram_any_sign {lab : Raster Int} {dem : Raster K} {res : K} {labels_max : Option Int}
    {background : Int} {n : Nat} (hres : 0 < res) (h : HypsInput lab dem labels_max background n) :
    ∃ out, Hyps.hypsometryStats lab dem res labels_max background = .ok out ∧
      ∀ (l : Nat) (cs : List Cell), l ≤ n → (l : Int) ≠ background → CellsOf lab.rows lab.cols lab.get l cs →
        ∀ zmin zmax, IsMin (cs.map dem.get) zmin → IsMax (cs.map dem.get) zmax →
        ∃ s, out[l]? = some ((l : Int), s) ∧ Hyps.Roughly res (cs.map dem.get) zmin zmax s ∧
          s.zhistogram.counts.sum = (((cs.map dem.get).filter fun z => s.zhistogram.bins.lower_bound ≤ z).length : Int) := by
  obtain ⟨out, h1, _, h3⟩ := hypsometryStats_ok hres h.shape h.top h.range h.used
  refine ⟨out, h1, fun l cs hl hb hcs zmin zmax hmin hmax => ?_⟩
  obtain ⟨s, h4, _, h5⟩ := h3 l cs hl hcs
  have hr := (h5 hb zmin zmax hmin hmax).1
  exact ⟨s, h4, hr, sum_counts hres hr.above⟩

/-- A DEM with one bluespot below sea level and one above. -/
def hypsDem : Raster ℚ := Raster.ofRows [[1, -11/20, 3/2], [2, -1/2, 7/4], [2, 31/10, 2]]
def hypsLab : Raster Int := Raster.ofRows [[0, 1, 2], [0, 1, 2], [0, 2, 2]]

theorem hypsDem_input : HypsInput hypsLab hypsDem none 0 2 := by
  have key : ∀ c ∈ Raster.cellList 3 3, 0 ≤ hypsLab.get c ∧ hypsLab.get c ≤ 2 := by decide +kernel
  refine ⟨⟨rfl, rfl⟩, .inr ⟨.inl rfl, ⟨(0, 2), by decide, by decide⟩, ?_⟩, fun c hc => key c (Flow.mem_cellList.2 hc), ?_⟩
  · rintro l ⟨c, hc, rfl⟩
    exact (key c (Flow.mem_cellList.2 hc)).2
  · intro l hl hb
    have : l = 1 ∨ l = 2 := by omega
    rcases this with rfl | rfl
    · exact ⟨(0, 1), by decide, by decide⟩
    · exact ⟨(0, 2), by decide, by decide⟩

/-- C41 is false: with resolution 0.1 the lowest cell (-0.55) of a bluespot of two cells is not counted, and the lower
bound of its histogram (-0.5) is above it. -/
theorem C41_false : ∃ (lab : Raster Int) (dem : Raster ℚ) (res : ℚ), 0 < res ∧ HypsInput lab dem none 0 2 ∧
    CellsOf lab.rows lab.cols lab.get 1 [(0, 1), (1, 1)] ∧
    ∃ (out : List (Int × Hyps.Stats ℚ)) (s : Hyps.Stats ℚ), Hyps.hypsometryStats lab dem res none 0 = .ok out ∧ out[1]? = some (1, s) ∧
      s.zmin = ((-11/20 : ℚ) : WithTop ℚ) ∧ s.zhistogram.bins.lower_bound = (-1/2 : ℚ) ∧ s.zhistogram.counts.sum = 1 := by
  refine ⟨hypsLab, hypsDem, 1/10, by norm_num, hypsDem_input, by rw [cellsOf_iff]; decide +kernel, ?_⟩
  have h : ((Hyps.hypsometryStats hypsLab hypsDem (1/10) none 0).toOption.bind fun out => (out[1]?).map fun x =>
      (x.1, x.2.zmin, x.2.zhistogram.bins.lower_bound, x.2.zhistogram.counts.sum)) =
      some ((1 : Int), ((-11/20 : ℚ) : WithTop ℚ), (-1/2 : ℚ), (1 : Int)) := by decide +kernel
  cases hr : Hyps.hypsometryStats hypsLab hypsDem (1/10) none 0 with
  | error e => rw [hr] at h; simp [Except.toOption] at h
  | ok out =>
    rw [hr] at h
    simp only [Except.toOption, Option.bind_some, Option.map_eq_some_iff] at h
    obtain ⟨⟨i, s⟩, h1, h2⟩ := h
    simp only [Prod.mk.injEq] at h2
    obtain ⟨rfl, h3, h4, h5⟩ := h2
    exact ⟨out, s, rfl, h1, h3, h4, h5⟩

/-- Non-vacuity for C41: the second bluespot (elevations 1.5, 1.75, 3.1, 2; resolution 0.5). -/
example : CellsOf hypsLab.rows hypsLab.cols hypsLab.get 2 [(0, 2), (1, 2), (2, 1), (2, 2)] := by
  rw [cellsOf_iff]; decide +kernel
example : ((Hyps.hypsometryStats hypsLab hypsDem (1/2) none 0).toOption.bind fun out => out[2]?) =
    some (2, ⟨⟨[2, 1, 0, 1], ⟨4, 3/2, 7/2, 1/2⟩⟩, ((3/2 : ℚ) : WithTop ℚ), ((31/10 : ℚ) : WithBot ℚ)⟩) := by
  decide +kernel

/-! ### C42 -/

/-- C42: at least one bin, and bounds that fit the number of bins. -/
theorem C42_bins {zmin zmax res : K} (hres : 0 < res) (h : zmin ≤ zmax) :
    1 ≤ (Hyps.histogramBins zmin zmax res).num_bins ∧ (Hyps.histogramBins zmin zmax res).resolution = res ∧
    (Hyps.histogramBins zmin zmax res).upper_bound - (Hyps.histogramBins zmin zmax res).lower_bound =
      ((Hyps.histogramBins zmin zmax res).num_bins : K) * res ∧ zmax < (Hyps.histogramBins zmin zmax res).upper_bound ∧
    (Hyps.histogramBins zmin zmax res).lower_bound < (Hyps.histogramBins zmin zmax res).upper_bound := by
  have h1 := histogramBins_pos hres h
  have h2 : (Hyps.histogramBins zmin zmax res).upper_bound - (Hyps.histogramBins zmin zmax res).lower_bound =
      ((Hyps.histogramBins zmin zmax res).num_bins : K) * res := by
    rw [histogramBins_bounds]; exact add_sub_cancel_left _ _
  refine ⟨h1, rfl, h2, histogramBins_lt hres, ?_⟩
  have h3 : (1 : K) ≤ ((Hyps.histogramBins zmin zmax res).num_bins : K) := by exact_mod_cast h1
  have : 0 < ((Hyps.histogramBins zmin zmax res).num_bins : K) * res := by positivity
  linarith

/-- C42: every record returned by `bluespot_hypsometry_stats` passes `assert_hypsometrystats_valid`, also the record of
the background. -/
theorem C42_stats_valid {lab : Raster Int} {dem : Raster K} {res : K} {labels_max : Option Int} {background : Int}
    {n : Nat} (hres : 0 < res) (h : HypsInput lab dem labels_max background n) :
    ∃ out, Hyps.hypsometryStats lab dem res labels_max background = .ok out ∧ out.length = n + 1 ∧
      ∀ x ∈ out, Hyps.assertValid x.2 = .ok () := by
  obtain ⟨out, h1, h2, h3⟩ := hypsometryStats_ok hres h.shape h.top h.range h.used
  have hlen : out.length = n + 1 := by simpa using congrArg List.length h2
  refine ⟨out, h1, hlen, fun x hx => ?_⟩
  obtain ⟨l, hl⟩ := List.mem_iff_getElem?.1 hx
  have hln : l ≤ n := by have := (List.getElem?_eq_some_iff.1 hl).1; omega
  have hcs : CellsOf lab.rows lab.cols lab.get l _ := lists_filter lab.rows lab.cols fun c => lab.get c = (l : Int)
  obtain ⟨s, h4, h5, h6⟩ := h3 l _ hln hcs
  rw [hl] at h4; cases h4
  by_cases hb : (l : Int) = background
  · exact background_valid (h5 hb)
  · obtain ⟨c, hc1, hc2⟩ := h.used l hln hb
    have hne := List.ne_nil_of_mem ((hcs.2 c).2 ⟨hc1, hc2⟩)
    obtain ⟨zmin, zmax, a, b⟩ := minmax_exists dem hne
    exact roughly_valid hres (h6 hb zmin zmax a b).1

/-- Non-vacuity for C42: records that fail the check exist. -/
example : (Hyps.assertValid (K := ℚ) ⟨⟨[1, 2], ⟨3, 0, 3/2, 1/2⟩⟩, ((0 : ℚ) : WithTop ℚ), ((1 : ℚ) : WithBot ℚ)⟩).toOption =
    none := by decide +kernel
example : (Hyps.assertValid (K := ℚ) ⟨⟨[1, 2, 0], ⟨3, 0, 2, 1/2⟩⟩, ((0 : ℚ) : WithTop ℚ), ((1 : ℚ) : WithBot ℚ)⟩).toOption =
    none := by decide +kernel
example : Hyps.histogramBins (1/4 : ℚ) (31/10) (1/2) = ⟨7, 0, 7/2, 1/2⟩ := by decide +kernel

/-! ### C43 -/

/-- C43: flattening to attributes and reading back returns the same record, for any number of bins, any counts and any
bounds, with finite or infinite minimum and maximum. -/
theorem C43_roundtrip (h : Hyps.Stats K) (hlen : (h.zhistogram.counts.length : Int) = h.zhistogram.bins.num_bins) :
    Hyps.fromFlatdict (Hyps.toFlatdict h) = .ok h := by
  have hnd : ((Hyps.toFlatdict h).map (·.1)).Nodup := by rw [toFlatdict_keys]; decide
  exact fromFlatdict_of_get hlen fun kv hkv => Dict.get?_of_mem hnd (show (kv.1, kv.2) ∈ _ from hkv)

/-- C43 for the attributes of a feature: whatever other attributes the feature has (also old hypsometry attributes), what
`bluespot_hypsometry_io` adds is read back as the same record. -/
theorem C43_roundtrip_feature (h : Hyps.Stats K) (area : K) (pp : Feature K) (i : Int) (d : Dict Int (Feature K))
    (hlen : (h.zhistogram.counts.length : Int) = h.zhistogram.bins.num_bins) (hpp : d.get? i = some pp) :
    ∃ d' pp', Hyps.addHypsometry area d (i, h) = .ok d' ∧ d'.get? i = some pp' ∧ IsHypsFeature area h pp pp' ∧
      ∀ j, j ≠ i → d'.get? j = d.get? j := by
  refine ⟨Dict.set d i (addProps area h pp), addProps area h pp, ?_, ?_, ?_, ?_⟩
  · unfold Hyps.addHypsometry
    simp only [Dict.getItem_ok.2 hpp, bind, Except.bind]; rfl
  · rw [Dict.get?_set, if_pos rfl]
  · obtain ⟨h1, h2, h3, h4, h5⟩ := addProps_spec area h pp hlen
    exact ⟨h1, h2, h3, h4, h5⟩
  · intro j hj
    rw [Dict.get?_set, if_neg (Ne.symm hj)]

/-- Non-vacuity for C43: the attributes of a record. -/
example : (Hyps.toFlatdict (K := ℚ) ⟨⟨[12, 0, 305, 7], ⟨4, 3/2, 7/2, 1/2⟩⟩, ((3/2 : ℚ) : WithTop ℚ), ⊥⟩).take 2 =
    [("hist_counts", .str "12|0|305|7"), ("hist_num_bins", .int 4)] := by decide +kernel
example : (Hyps.fromFlatdict (K := ℚ) [("hist_num_bins", .int 0), ("hist_lower_bound", .num 0), ("hist_upper_bound", .num 0),
    ("hist_resolution", .num (-1)), ("hist_counts", .str ""), ("zmin", .inf), ("zmax", .ninf)]).toOption =
    some ⟨⟨[], ⟨0, 0, 0, -1⟩⟩, ⊤, ⊥⟩ := by decide +kernel
/-- If the number of bins does not match, the record is not read back: one empty count is not a number. -/
example : (Hyps.fromFlatdict (K := ℚ) (Hyps.toFlatdict ⟨⟨[], ⟨1, 0, 1, 1⟩⟩, ⊤, ⊥⟩)).toOption = none := by decide +kernel

/-! ### C44 -/

/-- C44: the cumulative volumes. Entry `i` is area * resolution * sum over the lower bins `k` of `counts[k] * (i - k)`;
the first is 0 and they never decrease if no count is negative. -/
theorem C44_cumulative (h : Hyps.Histogram K) (area : K) :
    (h.counts ≠ [] → (Approx.cumulativeVolume h area).length = h.counts.length) ∧
    (∀ i, i < h.counts.length → (Approx.cumulativeVolume h area)[i]? = some (area * h.bins.resolution *
      ((List.range i).map fun (k : Nat) => ((h.counts.getD k 0 : Int) : K) * ((i : K) - (k : K))).sum)) ∧
    (Approx.cumulativeVolume h area)[0]? = some 0 ∧
    (0 ≤ area → 0 ≤ h.bins.resolution → (∀ c ∈ h.counts, 0 ≤ c) → (Approx.cumulativeVolume h area).Pairwise (· ≤ ·)) := by
  refine ⟨fun hne => ?_, fun i hi => cumulativeVolume_get h area i (by omega), ?_, fun ha hr hc => ?_⟩
  · rw [length_cumulativeVolume]
    have := List.length_pos_iff.2 hne
    omega
  · rw [cumulativeVolume_get h area 0 (by omega)]; simp [binSum]
  · rw [List.pairwise_iff_getElem]
    intro i j hi hj hij
    rw [length_cumulativeVolume] at hi hj
    have e1 := cumulativeVolume_get h area i hi
    have e2 := cumulativeVolume_get h area j hj
    rw [List.getElem?_eq_some_iff] at e1 e2
    obtain ⟨_, e1⟩ := e1
    obtain ⟨_, e2⟩ := e2
    rw [e1, e2]
    exact mul_le_mul_of_nonneg_left (binSum_mono hc hij.le) (mul_nonneg ha hr)

/-- C44: for the histogram of ground elevations the reported volume of bin `i` lies between the true volumes below the
lower bound of bin `i` and below the lower bound of bin `i + 1`. -/
theorem C44_true_volume {h : Hyps.Histogram K} {area : K} {zs : List K} (ha : 0 ≤ area) (hres : 0 < h.bins.resolution)
    (hh : IsHistogram h.bins.resolution zs h.counts h.bins.lower_bound h.bins.upper_bound) (i : Nat)
    (hi : i < h.counts.length) :
    ∃ v, (Approx.cumulativeVolume h area)[i]? = some v ∧
      waterVolume area zs (h.bins.lower_bound + i * h.bins.resolution) ≤ v ∧
      v ≤ waterVolume area zs (h.bins.lower_bound + (i + 1) * h.bins.resolution) :=
  ⟨_, cumulativeVolume_get h area i (by omega), binSum_bounds hres ha hh i (by omega)⟩

/-- C44 for `hyps.cumulative_volume`, which leaves out the first bin: entry `i` is area * resolution * sum over the bins
`k` with `1 ≤ k ≤ i` of `counts[k] * (i + 1 - k)`; an empty histogram raises IndexError. -/
theorem C44_hyps_cumulative (h : Hyps.Histogram K) (area : K) :
    (h.counts = [] → Hyps.cumulativeVolume h area = .error .indexError) ∧
    (h.counts ≠ [] → ∃ vols, Hyps.cumulativeVolume h area = .ok vols ∧ vols.length = h.counts.length ∧
      ∀ i, i < h.counts.length → vols[i]? = some (area * h.bins.resolution *
        ((List.range i).map fun (k : Nat) => ((h.counts.getD (k + 1) 0 : Int) : K) * ((i : K) - (k : K))).sum)) := by
  constructor
  · intro he
    unfold Hyps.cumulativeVolume; rw [he]; rfl
  · intro hne
    obtain ⟨c, cs, hc⟩ := List.exists_cons_of_ne_nil hne
    set step := (npCumsum (h.counts.map fun (n : Int) => (n : K))).map fun x => area * h.bins.resolution * x with hstep
    have hlen : step.length = h.counts.length := by simp [hstep, length_npCumsum]
    have hget : ∀ i, i < h.counts.length → step[i]? =
        some (area * h.bins.resolution * (((h.counts.take (i + 1)).sum : Int) : K)) := by
      intro i hi
      rw [hstep, List.getElem?_map, getElem?_npCumsum (by simpa using hi), ← List.map_take, Option.map_some]
      congr 2
      exact (map_list_sum (Int.castRingHom K) _).symm
    have hpos : 0 < h.counts.length := List.length_pos_iff.2 hne
    obtain ⟨first, rest, hfr⟩ : ∃ first rest, step = first :: rest :=
      List.exists_cons_of_ne_nil (List.length_pos_iff.1 (by omega))
    have hfirst : first = area * h.bins.resolution * (c : K) := by
      have := hget 0 hpos
      rw [hfr, hc] at this
      simpa using this
    refine ⟨npCumsum (step.map (· - first)), ?_, by rw [length_npCumsum, List.length_map, hlen], fun i hi => ?_⟩
    · unfold Hyps.cumulativeVolume
      simp only [← hstep]
      rw [hfr]
    · rw [getElem?_npCumsum (by simpa [hlen] using hi), Option.some.injEq]
      have htail : ∀ i, ((List.range i).map fun (k : Nat) => ((h.counts.getD (k + 1) 0 : Int) : K) *
          ((i : K) - (k : K))).sum = (binSum cs i : K) := by
        intro i; rw [hc]; rfl
      rw [htail]
      induction i with
      | zero =>
        have h0 := hget 0 hpos
        rw [hfr] at h0 ⊢
        simp [binSum]
      | succ i ih =>
        rw [List.take_add_one, List.sum_append, ih (by omega), List.getElem?_map, hget _ hi, binSum_succ, hfirst, hc]
        simp
        ring

/-- Non-vacuity for C44. -/
example : Approx.cumulativeVolume (K := ℚ) ⟨[2, 1, 0, 1], ⟨4, 3/2, 7/2, 1/2⟩⟩ 4 = [0, 4, 10, 16] := by decide +kernel
example : (Hyps.cumulativeVolume (K := ℚ) ⟨[2, 1, 0, 1], ⟨4, 3/2, 7/2, 1/2⟩⟩ 4).toOption = some [0, 2, 4, 8] := by
  decide +kernel
example : waterVolume (4 : ℚ) [3/2, 7/4, 31/10, 2] (5/2) = 9 ∧ waterVolume (4 : ℚ) [3/2, 7/4, 31/10, 2] 3 = 15 := by
  decide +kernel
example : IsHistogram (1/2 : ℚ) [3/2, 7/4, 31/10, 2] [2, 1, 0, 1] (3/2) (7/2) := by
  refine ⟨⟨by decide, by norm_num, by decide +kernel, fun i hi => ?_⟩, by decide +kernel, by decide +kernel, by decide +kernel⟩
  have hi : i < 4 := hi
  interval_cases i <;> decide +kernel

end Malstroem
