/-
Property C79: hypsometry statistics in floating point arithmetic. All arithmetic of `bluespot_hypsometry_stats` is rounded to float64 by `fl`
(any rounding to nearest), `histogram` stands for `np.histogram`, of which `HistogramCounts` is assumed.
-/
import Verif.Proofs.HypsFloat
import Verif.Props.Hyps

set_option linter.unusedSectionVars false

namespace Malstroem
open Spec
open Malstroem.Float

namespace Float
variable {fl fl32 : Rat → Rat} {histogram : List Rat → Int → Rat → Rat → Except PyErr (List Int)}

/-- The elevations of the cells that are not background are such that float32 or float64 numbers in practice meet. -/
def ElevationsFit (lab : Raster Int) (dem : Raster Rat) (res : Rat) (background : Int) : Prop :=
  2 ^ (-100 : Int) ≤ res ∧ res ≤ 2 ^ 100 ∧
    ∀ c, InGrid lab.rows lab.cols c → lab.get c ≠ background → (dem.get c = 0 ∨ 2 ^ (-149 : Int) ≤ dem.get c) ∧ dem.get c ≤ 2 ^ 20 * res

theorem ElevationsFit.cells {lab : Raster Int} {dem : Raster Rat} {res : Rat} {background : Int} (h : ElevationsFit lab dem res background)
    {l : Nat} {cs : List Cell} (hcs : CellsOf lab.rows lab.cols lab.get l cs) (hb : (l : Int) ≠ background) :
    FloatElevations res (cs.map dem.get) where
  res_lower := h.1
  res_upper := h.2.1
  elevation z hz := by
    obtain ⟨c, hc, rfl⟩ := List.mem_map.1 hz
    obtain ⟨h1, h2⟩ := (hcs.2 c).1 hc
    exact h.2.2 c h1 (by rw [h2]; exact hb)

theorem stats_run (hfl : IsRounding 53 (-1074) fl) {conv : Rat → Rat} (hh : HistogramCounts conv histogram)
    {lab : Raster Int} {dem : Raster Rat} {res : Rat} {labels_max : Option Int} {background : Int} {n : Nat}
    (h : HypsInput lab dem labels_max background n) (hz : ElevationsFit lab dem res background) :
    ∃ out, Hyps.hypsometryStatsFl fl histogram lab dem res labels_max background = .ok out ∧
      out.map (·.1) = ((List.range (n + 1)).map fun (l : Nat) => (l : Int)) ∧
      ∀ (l : Nat) (cs : List Cell), l ≤ n → (l : Int) ≠ background → CellsOf lab.rows lab.cols lab.get l cs →
        ∃ s zmin zmax, out[l]? = some ((l : Int), s) ∧ IsMin (cs.map dem.get) zmin ∧ IsMax (cs.map dem.get) zmax ∧
          BinsAround res zmin zmax s ∧ Hyps.Counted conv res (cs.map dem.get) zmax s := by
  obtain ⟨out, h1, h2, h3⟩ := hypsometryStatsFl_ok (fl := fl) (histogram := histogram) (res := res) h.shape h.top h.range h.used
    (fun zs zmin zmax s => BinsAround res zmin zmax s ∧ Hyps.Counted conv res zs zmax s)
    fun l cs hl hb hcs zmin zmax st g1 g2 g3 g4 => Hyps.labelHypsometryFl_spec hfl hh hb g1 g2 g3 g4 (hz.cells hcs hb)
  refine ⟨out, h1, h2, fun l cs hl hb hcs => ?_⟩
  obtain ⟨s, h4, _, h5⟩ := h3 l cs hl hcs
  have hne : cs ≠ [] := by
    obtain ⟨c, hc1, hc2⟩ := h.used l hl hb
    exact List.ne_nil_of_mem ((hcs.2 c).2 ⟨hc1, hc2⟩)
  obtain ⟨zmin, zmax, hmin, hmax⟩ := minmax_exists dem hne
  obtain ⟨h6, h7⟩ := h5 hb zmin zmax hmin hmax
  exact ⟨s, zmin, zmax, h4, hmin, hmax, h6, h7⟩

/-- C79, what holds: for a float32 DEM (whose histograms are computed after conversion of the bounds to float32) the histogram of every bluespot
counts every cell although its bounds are rounded; the bounds enclose the elevations up to a relative error of 2^-50 and are at most one step
of the resolution away from them; and the number of cells counted in the first `i` bins is the number of cells below the upper edge of bin
`i`, up to cells within 2^-22 of the highest elevation (plus one step) from that edge.
Missing: float64 DEMs, for which the property is false (`C79_false`). -/
theorem C79_counts_partial (hfl : IsRounding 53 (-1074) fl) (hfl32 : IsRounding 24 (-149) fl32) (hh : HistogramCounts fl32 histogram)
    {lab : Raster Int} {dem : Raster Rat} {res : Rat} {labels_max : Option Int} {background : Int} {n : Nat}
    (h : HypsInput lab dem labels_max background n) (hz : ElevationsFit lab dem res background)
    (h32 : ∀ c, InGrid lab.rows lab.cols c → IsF32 (dem.get c)) :
    ∃ out, Hyps.hypsometryStatsFl fl histogram lab dem res labels_max background = .ok out ∧
      out.map (·.1) = ((List.range (n + 1)).map fun (l : Nat) => (l : Int)) ∧
      ∀ (l : Nat) (cs : List Cell), l ≤ n → (l : Int) ≠ background → CellsOf lab.rows lab.cols lab.get l cs →
        ∃ s zmin zmax, out[l]? = some ((l : Int), s) ∧ IsMin (cs.map dem.get) zmin ∧ IsMax (cs.map dem.get) zmax ∧
          BinsAround res zmin zmax s ∧ s.zhistogram.counts.sum = cs.length ∧
          ∀ i ≤ s.zhistogram.counts.length,
            countOf (cs.map dem.get) (fun z => z < s.zhistogram.bins.lower_bound + i * res - (zmax + res) / 2 ^ 22)
              ≤ (s.zhistogram.counts.take i).sum ∧
            (s.zhistogram.counts.take i).sum
              ≤ countOf (cs.map dem.get) fun z => z ≤ s.zhistogram.bins.lower_bound + i * res + (zmax + res) / 2 ^ 22 := by
  obtain ⟨out, h1, h2, h3⟩ := stats_run hfl hh h hz
  refine ⟨out, h1, h2, fun l cs hl hb hcs => ?_⟩
  obtain ⟨s, zmin, zmax, h4, hmin, hmax, h5, h6, h7⟩ := h3 l cs hl hb hcs
  have hE := hz.cells hcs hb
  have hF : ∀ z ∈ cs.map dem.get, IsF32 z ∧ 0 ≤ z := by
    intro z hz
    refine ⟨?_, ?_⟩
    · obtain ⟨c, hc, rfl⟩ := List.mem_map.1 hz
      exact h32 c ((hcs.2 c).1 hc).1
    · rcases (hE.elevation z hz).1 with h | h
      · exact h.ge
      · exact (two_pos _).le.trans h
  have hkeep : ∀ z ∈ cs.map dem.get, fl32 s.zhistogram.bins.lower_bound ≤ z ∧ z ≤ fl32 s.zhistogram.bins.upper_bound := by
    intro z hz
    obtain ⟨e1, e2⟩ := hF _ hmin.1
    obtain ⟨e3, e4⟩ := hF _ hmax.1
    refine ⟨le_trans (fl32_le hfl32 e1 e2 (h5.lower_le.trans ?_)) (hmin.2 z hz), (hmax.2 z hz).trans (le_fl32 hfl32 e3 e4 (le_trans ?_ h5.upper_ge))⟩
    · exact mul_le_mul_of_nonneg_left (by norm_num) e2
    · exact mul_le_mul_of_nonneg_left (by norm_num) e4
  refine ⟨s, zmin, zmax, h4, hmin, hmax, h5, ?_, fun i hi => ?_⟩
  · rw [h6, Hyps.countOf_all hkeep, List.length_map]
  · obtain ⟨e1, e2⟩ := h7 i hi
    exact ⟨le_trans (Hyps.countOf_mono fun z hz hp => ⟨(hkeep z hz).1, (hkeep z hz).2, hp⟩) e1,
      e2.trans (Hyps.countOf_mono fun z hz hp => hp.2.2)⟩

/-- C79 for a float64 DEM: the cells that may be missing from the histogram are within a relative distance of 2^-50 from the lowest or the
highest elevation of the bluespot. -/
theorem C79_close (hfl : IsRounding 53 (-1074) fl) (hh : HistogramCounts id histogram)
    {lab : Raster Int} {dem : Raster Rat} {res : Rat} {labels_max : Option Int} {background : Int} {n : Nat}
    (h : HypsInput lab dem labels_max background n) (hz : ElevationsFit lab dem res background) :
    ∃ out, Hyps.hypsometryStatsFl fl histogram lab dem res labels_max background = .ok out ∧
      out.map (·.1) = ((List.range (n + 1)).map fun (l : Nat) => (l : Int)) ∧
      ∀ (l : Nat) (cs : List Cell), l ≤ n → (l : Int) ≠ background → CellsOf lab.rows lab.cols lab.get l cs →
        ∃ s zmin zmax, out[l]? = some ((l : Int), s) ∧ IsMin (cs.map dem.get) zmin ∧ IsMax (cs.map dem.get) zmax ∧
          BinsAround res zmin zmax s ∧ s.zhistogram.counts.sum ≤ cs.length ∧
          countOf (cs.map dem.get) (fun z => zmin * (1 + 1 / 2 ^ 50) ≤ z ∧ z ≤ zmax * (1 - 1 / 2 ^ 50)) ≤ s.zhistogram.counts.sum := by
  obtain ⟨out, h1, h2, h3⟩ := stats_run hfl hh h hz
  refine ⟨out, h1, h2, fun l cs hl hb hcs => ?_⟩
  obtain ⟨s, zmin, zmax, h4, hmin, hmax, h5, h6, h7⟩ := h3 l cs hl hb hcs
  refine ⟨s, zmin, zmax, h4, hmin, hmax, h5, ?_, ?_⟩
  · rw [h6]
    unfold countOf
    have := List.length_filter_le (fun z => decide (id s.zhistogram.bins.lower_bound ≤ z ∧ z ≤ id s.zhistogram.bins.upper_bound)) (cs.map dem.get)
    rw [List.length_map] at this
    exact_mod_cast this
  · rw [h6]
    exact Hyps.countOf_mono fun z _ hp => ⟨h5.lower_le.trans hp.1, hp.2.trans h5.upper_ge⟩

/-- The float64 number nearest to 51.3. -/
def z513 : Rat := 7219833152628326 * 2 ^ (-47 : Int)

/-- The float64 number nearest to 0.1. -/
def tenth : Rat := 3602879701896397 * 2 ^ (-55 : Int)

/-- They are what their names say. -/
theorem nearest_513 : IsF64 z513 ∧ |z513 - 51.3| < 1 / 2 ^ 48 ∧ IsF64 tenth ∧ |tenth - 0.1| < 1 / 2 ^ 56 := by
  refine ⟨⟨7219833152628326, -47, by norm_num, by norm_num, rfl⟩, by unfold z513; norm_num [abs_lt],
    ⟨3602879701896397, -55, by norm_num, by norm_num, rfl⟩, by unfold tenth; norm_num [abs_lt]⟩

/-- The histogram of a bluespot whose lowest elevation is 51.3 starts above 51.3 at resolution 0.1. -/
theorem lower_above (hfl : IsRounding 53 (-1074) fl) (zmax : Rat) : z513 < (Hyps.histogramBinsFl fl z513 zmax tenth).lower_bound := by
  have h1 : fl (1 / tenth) = 10 := by
    apply le_antisymm
    · have ha : IsF64 10 := ⟨10, 0, by norm_num, by norm_num, by norm_num⟩
      have hg : IsGap 53 (-1074) (-49) 10 := ⟨by norm_num, by norm_num [abs_lt], .inr (by norm_num [le_abs])⟩
      exact fl_down hfl hg ha (by norm_num) (by unfold tenth; norm_num)
    · have ha : IsF64 (10 - 2 ^ (-49 : Int)) := ⟨5629499534213119, -49, by norm_num, by norm_num, by norm_num⟩
      have hg : IsGap 53 (-1074) (-49) (10 - 2 ^ (-49 : Int)) := ⟨by norm_num, by norm_num [abs_lt], .inr (by norm_num [le_abs])⟩
      have := fl_up hfl (by norm_num) hg ha (by norm_num) (x := 1 / tenth) (by unfold tenth; norm_num)
      linarith
  have h2 : fl (z513 * 10) = 513 := by
    apply le_antisymm
    · have ha : IsF64 513 := ⟨513, 0, by norm_num, by norm_num, by norm_num⟩
      have hg : IsGap 53 (-1074) (-43) 513 := ⟨by norm_num, by norm_num [abs_lt], .inr (by norm_num [le_abs])⟩
      exact fl_down hfl hg ha (by norm_num) (by unfold z513; norm_num)
    · have ha : IsF64 (513 - 2 ^ (-43 : Int)) := ⟨4512395720392703, -43, by norm_num, by norm_num, by norm_num⟩
      have hg : IsGap 53 (-1074) (-43) (513 - 2 ^ (-43 : Int)) := ⟨by norm_num, by norm_num [abs_lt], .inr (by norm_num [le_abs])⟩
      have := fl_up hfl (by norm_num) hg ha (by norm_num) (x := z513 * 10) (by unfold z513; norm_num)
      linarith
  have h3 : pyTrunc (513 : Rat) = 513 := by
    unfold pyTrunc
    rw [if_pos (by norm_num)]
    norm_num
  have h4 : fl ((513 : Int) : Rat) = 513 := by
    have : IsF64 513 := ⟨513, 0, by norm_num, by norm_num, by norm_num⟩
    exact fl_exact hfl (by exact_mod_cast this)
  have ha : IsF64 z513 := ⟨7219833152628326, -47, by norm_num, by norm_num, rfl⟩
  have hg : IsGap 53 (-1074) (-47) z513 := ⟨by norm_num, by unfold z513; norm_num [abs_lt], .inr (by unfold z513; norm_num [le_abs])⟩
  have := fl_up hfl (by norm_num) hg ha (by unfold z513; norm_num) (x := 513 * tenth) (by unfold z513 tenth; norm_num)
  unfold Hyps.histogramBinsFl
  simp only [h1, h2, h3, h4]
  have := two_pos (-47)
  linarith

/-- The label raster with the single cell 1 and a DEM of elevation 51.3. -/
def oneLabel : Raster Int := ⟨1, 1, fun _ => 1⟩
def oneDem : Raster Rat := ⟨1, 1, fun _ => z513⟩

theorem oneLabel_input : HypsInput oneLabel oneDem (some 1) 0 1 where
  shape := ⟨rfl, rfl⟩
  top := .inl ⟨rfl, by decide⟩
  range := fun c _ => ⟨by show (0 : Int) ≤ 1; decide, by show (1 : Int) ≤ 1; decide⟩
  used := by
    intro l hl hb
    refine ⟨(0, 0), ⟨by decide, by decide, by decide, by decide⟩, ?_⟩
    show (1 : Int) = l
    omega

theorem oneLabel_fit : ElevationsFit oneLabel oneDem tenth 0 := by
  refine ⟨?_, ?_, fun c _ _ => ⟨.inr ?_, ?_⟩⟩
  · unfold tenth; norm_num
  · unfold tenth; norm_num
  · show _ ≤ z513
    unfold z513; norm_num
  · show z513 ≤ _
    unfold z513 tenth; norm_num

/-- C79 is false for float64 DEMs: a bluespot consisting of one cell at 51.3 (the float64 number nearest to it) has an empty histogram at
resolution 0.1, whichever way ties are rounded. -/
theorem C79_false (hfl : IsRounding 53 (-1074) fl) (hh : HistogramCounts id histogram) :
    ∃ s, (Hyps.hypsometryStatsFl fl histogram oneLabel oneDem tenth (some 1) 0).map (·[1]?) = .ok (some ((1 : Int), s)) ∧
      CellsOf oneLabel.rows oneLabel.cols oneLabel.get 1 [(0, 0)] ∧ IsMin [z513] z513 ∧ s.zmin = ((z513 : Rat) : WithTop Rat) ∧ s.zmax = ((z513 : Rat) : WithBot Rat) ∧
      s.zhistogram.counts.sum = 0 := by
  obtain ⟨out, h1, h2, h3⟩ := hypsometryStatsFl_ok (fl := fl) (histogram := histogram) (res := tenth) oneLabel_input.shape
    oneLabel_input.top oneLabel_input.range oneLabel_input.used
    (fun zs zmin zmax s => BinsAround tenth zmin zmax s ∧ Hyps.Counted id tenth zs zmax s ∧
      s.zhistogram.bins = Hyps.histogramBinsFl fl zmin zmax tenth)
    fun l cs hl hb hcs zmin zmax st g1 g2 g3 g4 => by
      obtain ⟨s, e1, e2, e3⟩ := Hyps.labelHypsometryFl_spec hfl hh hb g1 g2 g3 g4 (oneLabel_fit.cells hcs hb)
      refine ⟨s, e1, e2, e3, ?_⟩
      unfold Hyps.labelHypsometryFl at e1
      rw [if_neg hb, g3, g4] at e1
      simp only [bind, Except.bind, pure, Except.pure] at e1
      split at e1
      · cases e1
      · cases e1; rfl
  have hcs : CellsOf oneLabel.rows oneLabel.cols oneLabel.get ((1 : Nat) : Int) [(0, 0)] := by
    refine ⟨by simp, fun c => ?_⟩
    constructor
    · intro hc
      rw [List.mem_singleton.1 hc]
      exact ⟨⟨by decide, by decide, by decide, by decide⟩, rfl⟩
    · rintro ⟨⟨a, b, c', d⟩, -⟩
      rw [List.mem_singleton]
      have b : c.1 < 1 := b
      have d : c.2 < 1 := d
      ext <;> simp <;> omega
  obtain ⟨s, h4, -, h5⟩ := h3 1 _ le_rfl hcs
  have hmin : IsMin [z513] z513 := ⟨by simp, by simp⟩
  obtain ⟨h6, ⟨h7, -⟩, h8⟩ := h5 (by decide) z513 z513 hmin ⟨by simp [oneDem], by simp [oneDem]⟩
  refine ⟨s, by rw [h1]; show Except.ok out[1]? = _; rw [h4]; rfl, hcs, hmin, h6.zmin_eq, h6.zmax_eq, ?_⟩
  rw [h7, h8]
  unfold countOf
  have hl := lower_above hfl z513
  rw [List.filter_eq_nil_iff.2]
  · rfl
  · intro z hz
    have hz : z = z513 := by simpa [oneDem] using hz
    subst hz
    simp [not_le.2 hl]

/-- The assumption of `C79_false` and `C79_close` can be met. -/
example : HistogramCounts id (Hyps.exactCounts id) := Hyps.exactCounts_spec fun lo hi h0 h1 h2 => by
  have := (two_pos (-120)).trans_le h2
  simp only [id, sub_self, abs_zero]
  positivity

/-- The assumption of `C79_counts_partial` can be met. -/
theorem counts32 (h : IsRounding 24 (-149) fl32) : HistogramCounts fl32 (Hyps.exactCounts fl32) := Hyps.exactCounts_spec fun lo hi h0 h1 h2 => by
  obtain ⟨e, hg⟩ := exists_gap 24 (-149) lo
  rw [abs_sub_comm]
  refine (fl_error h (by norm_num) hg).trans ?_
  have hp := (two_pos (-120)).trans_le h2
  rw [le_div_iff₀ (by positivity)]
  rcases hg.2.2 with rfl | h3
  · refine le_trans ?_ h2
    norm_num
  · rw [abs_of_nonneg h0] at h3
    refine le_trans (le_trans ?_ h3) h1
    rw [← zpow_natCast, ← zpow_add₀ (by norm_num), two_le]
    push_cast
    omega

/-- A bluespot with elevations 51.25, 51.5 and 0.1 resolution in a float32 DEM meets the hypotheses of `C79_counts_partial`. -/
example : ∃ fl fl32 : Rat → Rat, IsRounding 53 (-1074) fl ∧ IsRounding 24 (-149) fl32 ∧
    HistogramCounts fl32 (Hyps.exactCounts fl32) ∧
    HypsInput (⟨1, 2, fun _ => 1⟩ : Raster Int) ⟨1, 2, fun c => if c.2 = 0 then 51.25 else 51.5⟩ none 0 1 ∧
    ElevationsFit (⟨1, 2, fun _ => 1⟩ : Raster Int) ⟨1, 2, fun c => if c.2 = 0 then 51.25 else 51.5⟩ tenth 0 ∧
    (∀ c, InGrid 1 2 c → IsF32 (if c.2 = 0 then 51.25 else 51.5)) := by
  obtain ⟨fl, h1⟩ := exists_rounding 53 (by norm_num) (-1074)
  obtain ⟨fl32, h2⟩ := exists_rounding 24 (by norm_num) (-149)
  refine ⟨fl, fl32, h1, h2, counts32 h2, ⟨⟨rfl, rfl⟩, .inr ⟨.inl rfl, ⟨?_, ?_⟩⟩, ?_, ?_⟩, ⟨?_, ?_, ?_⟩, ?_⟩
  · exact ⟨(0, 0), ⟨by decide, by decide, by decide, by decide⟩, rfl⟩
  · rintro x ⟨c, -, rfl⟩
    exact le_refl _
  · exact fun c _ => ⟨by show (0 : Int) ≤ 1; decide, by show (1 : Int) ≤ 1; decide⟩
  · intro l hl hb
    refine ⟨(0, 0), ⟨by decide, by decide, by decide, by decide⟩, ?_⟩
    show (1 : Int) = l
    omega
  · unfold tenth; norm_num
  · unfold tenth; norm_num
  · intro c _ _
    show ((if c.2 = 0 then 51.25 else 51.5 : Rat) = 0 ∨ _ ≤ (if c.2 = 0 then 51.25 else 51.5 : Rat)) ∧ (if c.2 = 0 then 51.25 else 51.5 : Rat) ≤ _
    unfold tenth
    split <;> norm_num
  · intro c _
    split
    · exact ⟨205, -2, by norm_num, by norm_num, by norm_num⟩
    · exact ⟨103, -1, by norm_num, by norm_num, by norm_num⟩

end Float
end Malstroem
