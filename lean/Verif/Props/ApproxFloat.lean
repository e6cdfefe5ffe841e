/-
Property C123: water levels and flooded areas in floating point arithmetic. All arithmetic of `approx_water_level_io` and
`approx_bluespots` is rounded to float64 by `fl` (any rounding to nearest), depths of the filled DEM are rounded to float32 by `fl32`;
`interp` stands for `np.interp`, of which `Interpolates` is assumed, `histogram` for `np.histogram`, of which `HistogramCounts` is assumed.
-/
import Verif.Proofs.ApproxFloat
import Verif.Props.HypsFloat
import Verif.Props.Approx

set_option linter.unusedSectionVars false
set_option exponentiation.threshold 600

namespace Malstroem
open Spec
open Malstroem.Float

namespace Float
variable {fl fl32 : Rat → Rat} {histogram : List Rat → Int → Rat → Rat → Except PyErr (List Int)}
  {interp : Rat → List Rat → List Rat → Except PyErr Rat}

theorem fl_sub_neg {p : Nat} {emin : Int} (h : IsRounding p emin fl) (hp : 1 ≤ p) {a b : Rat} (ha : IsFloat p emin a) (hb : IsFloat p emin b) :
    fl (a - b) < 0 ↔ a < b := by
  have h' : IsRounding p emin fun x => - fl (-x) := by
    intro x
    obtain ⟨h1, h2⟩ := h (-x)
    refine ⟨isFloat_neg h1, fun z hz => ?_⟩
    have := h2 _ (isFloat_neg hz)
    rw [← abs_neg, show -(x - -fl (-x)) = -x - fl (-x) by ring, ← abs_neg (x - z), show -(x - z) = -x - -z by ring]
    exact this
  have := fl_sub_pos h' hp hb ha
  rw [neg_sub] at this
  rw [← this, neg_pos]

/-- The depth of the deepest cell. -/
theorem deepest (h32 : IsRounding 24 (-149) fl32) {zs : List Rat} {zmin spill d : Rat} (hmin : IsMin zs zmin)
    (hd : IsMax (zs.map fun z => fl32 (spill - z)) d) : d = fl32 (spill - zmin) := by
  apply le_antisymm
  · obtain ⟨z, hz, rfl⟩ := List.mem_map.1 hd.1
    exact fl_mono h32 (by linarith [hmin.2 z hz])
  · exact hd.2 _ (List.mem_map.2 ⟨zmin, hmin.1, rfl⟩)

/-- The level of a full bluespot. -/
theorem full_level (hfl : IsRounding 53 (-1074) fl) (h32 : IsRounding 24 (-149) fl32) {zs : List Rat} {zmin spill d : Rat} (hmin : IsMin zs zmin)
    (h0 : 0 ≤ zmin) (hzs : ∀ z ∈ zs, IsF32 z) (hs : IsF32 spill) (hlt : ∀ z ∈ zs, z < spill)
    (hd : IsMax (zs.map fun z => fl32 (spill - z)) d) :
    (∀ z ∈ zs, z ≤ fl (zmin + d)) ∧ fl (zmin + d) ≤ spill * (1 + 1 / 2 ^ 22) := by
  rw [deepest h32 hmin hd]
  refine ⟨fun z hz => ?_, ?_⟩
  · have h1 := sub_le_fl_sub (by norm_num) h32 (hzs _ hmin.1) (hzs z hz) hs h0 (hmin.2 z hz) (hlt z hz)
    have h2 := fl_mono hfl (show z ≤ zmin + fl32 (spill - zmin) by linarith)
    rwa [fl_exact hfl (f64_of_f32 (hzs z hz))] at h2
  · have hpos := hlt _ hmin.1
    have h1 := fl_relative h32 (by norm_num) ((OnGrid.of_float hs).sub (OnGrid.of_float (hzs _ hmin.1)))
    rw [abs_of_nonneg (show 0 ≤ spill - zmin by linarith)] at h1
    have h1 := (abs_le.1 h1).2
    have hd0 : 0 ≤ fl32 (spill - zmin) := fl_nonneg h32 (by linarith)
    generalize fl32 (spill - zmin) = d' at *
    have h2 := fl_le hfl (show 0 ≤ zmin + d' by linarith)
    have hsp : 2 ^ (-149 : Int) ≤ spill := by
      obtain ⟨k, rfl⟩ := OnGrid.of_float hs
      have : (0 : Rat) < k * 2 ^ (-149 : Int) := by linarith
      have : (0 : Rat) < k := pos_of_mul_pos_left this (two_pos _).le
      have : (0 : Int) < k := by exact_mod_cast this
      have : (1 : Rat) ≤ k := by exact_mod_cast this
      have := mul_le_mul_of_nonneg_right this (two_pos (-149)).le
      linarith
    have ht : (2 : Rat) ^ (-1021 : Int) * 2 ^ 100 ≤ spill := by
      refine le_trans ?_ hsp
      rw [← zpow_natCast, ← zpow_add₀ (by norm_num)]
      exact two_le.2 (by norm_num)
    generalize fl (zmin + d') = L at *
    generalize (2 : Rat) ^ (-1021 : Int) = t at *
    clear hsp
    norm_num only at h1 h2 ht ⊢
    linarith

/-- C123, levels: for a float32 DEM, hypsometry statistics are written for every bluespot such that, whatever the volume `max_vol` that is
given for the bluespot, the water level for a volume `v` is a number which is not below the lowest ground and, up to rounding, not above the
level at which water spills; if the bluespot is full then the level is not below any of its ground; as long as it is not nearly full the level
is, up to rounding, not above its highest ground; and more water gives, up to rounding, no lower level. -/
theorem C123_level (hfl : IsRounding 53 (-1074) fl) (hfl32 : IsRounding 24 (-149) fl32) (hi : Interpolates fl interp) {conv : Rat → Rat}
    (hh : HistogramCounts conv histogram)
    {lab : Raster Int} {dem : Raster Rat} {res : Rat} {labels_max : Option Int} {background : Int} {n : Nat}
    (h : HypsInput lab dem labels_max background n) (hz : ElevationsFit lab dem res background)
    (h32 : ∀ c, InGrid lab.rows lab.cols c → IsF32 (dem.get c)) {area : Rat} (ha : 0 ≤ area) :
    ∃ out, Hyps.hypsometryStatsFl fl histogram lab dem res labels_max background = .ok out ∧
      ∀ (l : Nat) (cs : List Cell), l ≤ n → (l : Int) ≠ background → CellsOf lab.rows lab.cols lab.get l cs →
        ∃ s zmin zmax, out[l]? = some ((l : Int), s) ∧ IsMin (cs.map dem.get) zmin ∧ IsMax (cs.map dem.get) zmax ∧
        ∀ spill d : Rat, IsF32 spill → (∀ z ∈ cs.map dem.get, z < spill) → IsMax ((cs.map dem.get).map fun z => fl32 (spill - z)) d →
        ∀ max_vol : Rat, 0 ≤ max_vol →
        ∃ level : Rat → Rat,
          (∀ v, 0 ≤ v → v ≤ 2 ^ 500 →
            Approx.waterLevelFl fl interp s area d max_vol v = .ok (.num (level v)) ∧ IsF64 (level v) ∧
            zmin ≤ level v ∧ level v ≤ spill * (1 + 1 / 2 ^ 22) ∧
            (max_vol ≤ v → ∀ z ∈ cs.map dem.get, z ≤ level v) ∧
            (v < max_vol * (9998 / 10000) → level v ≤ zmax * (1 + 1 / 2 ^ 50))) ∧
          ∀ v w, 0 ≤ v → v ≤ w → w ≤ 2 ^ 500 → level v ≤ level w * (1 + 1 / 2 ^ 50) := by
  obtain ⟨out, h1, h2, h3⟩ := stats_run hfl hh h hz
  refine ⟨out, h1, fun l cs hl hb hcs => ?_⟩
  obtain ⟨s, zmin, zmax, h4, hmin, hmax, h5, -⟩ := h3 l cs hl hb hcs
  refine ⟨s, zmin, zmax, h4, hmin, hmax, fun spill d hs hlt hd max_vol hm => ?_⟩
  have hE := hz.cells hcs hb
  have hF : ∀ z ∈ cs.map dem.get, IsF32 z := by
    intro z hz
    obtain ⟨c, hc, rfl⟩ := List.mem_map.1 hz
    exact h32 c ((hcs.2 c).1 hc).1
  have r : Approx.LevelRecord res zmin zmax s := ⟨h5, hE.res_lower, (hE.elevation _ hmin.1).1, (hE.elevation _ hmax.1).1, hmin.2 _ hmax.1,
    (hE.elevation _ hmax.1).2, f64_of_f32 (hF _ hmin.1), f64_of_f32 (hF _ hmax.1)⟩
  have h0 := r.nonneg
  obtain ⟨f1, f2⟩ := full_level hfl hfl32 hmin h0 hF hs hlt hd
  obtain ⟨lev, p1, p2⟩ := Approx.level_partial_fill hfl hi r ha (d : WithBot Rat) hm
  have hzs := hlt _ hmax.1
  refine ⟨fun v => if max_vol = 0 ∨ fl (v / max_vol) > fl (9999 / 10000) then fl (zmin + d) else lev v, fun v v0 v1 => ?_, fun v w v0 hvw w1 => ?_⟩
  · by_cases hv : max_vol = 0 ∨ fl (v / max_vol) > fl (9999 / 10000)
    · simp only [if_pos hv]
      refine ⟨?_, (hfl _).1, f1 _ hmin.1, f2, fun _ => f1, fun hlt' => ?_⟩
      · unfold Approx.waterLevelFl
        rw [if_pos hv, h5.zmin_eq]
      · exfalso
        rcases hv with rfl | hv
        · linarith
        · have hmp : 0 < max_vol := by
            rcases hm.eq_or_lt with rfl | h
            · linarith
            · exact h
          have : v / max_vol ≤ 9999 / 10000 := by
            rw [div_le_iff₀ hmp]; linarith
          exact absurd (fl_mono hfl this) (not_le.2 hv)
    · simp only [if_neg hv]
      obtain ⟨q1, q2, q3, q4⟩ := p1 v v0 v1 hv
      refine ⟨q1, q2, q3, q4.trans ?_, fun hfull => absurd (not_full hfl hm hv) (not_lt.2 hfull), fun _ => q4⟩
      have hm0 : 0 ≤ zmax := h0.trans r.le
      norm_num only at *
      linarith
  · by_cases hv : max_vol = 0 ∨ fl (v / max_vol) > fl (9999 / 10000)
    · have hw : max_vol = 0 ∨ fl (w / max_vol) > fl (9999 / 10000) := by
        rcases hv with hv | hv
        · exact .inl hv
        · exact .inr (lt_of_lt_of_le hv (fl_mono hfl (div_le_div_of_nonneg_right hvw hm)))
      simp only [if_pos hv, if_pos hw]
      have := h0.trans (f1 _ hmin.1)
      norm_num only at *
      linarith
    · simp only [if_neg hv]
      by_cases hw : max_vol = 0 ∨ fl (w / max_vol) > fl (9999 / 10000)
      · simp only [if_pos hw]
        exact (p1 v v0 (hvw.trans w1) hv).2.2.2.trans (mul_le_mul_of_nonneg_right (f1 _ hmax.1) (by norm_num))
      · simp only [if_neg hw]
        exact p2 v w v0 hvw w1 hv hw

theorem setLabel_values {lab : Raster Int} {values : List Rat} {wl : Raster Rat} {m : Nat} (hr : LabelsIn lab.rows lab.cols lab.get m)
    (hlen : values.length = m + 1) (h : @Label.setLabelToValue Rat ⟨0⟩ lab values = .ok wl) {c : Cell} (hc : InGrid lab.rows lab.cols c) :
    wl.get c ∈ values := by
  obtain ⟨h0, h1⟩ := hr c hc
  unfold Label.setLabelToValue at h
  split at h
  · cases h
    have hidx : pyIdx values.length (lab.get c) = some (lab.get c).toNat := pyIdx_of_range h0 (by omega)
    simp only [hidx, Option.bind_some]
    have : (lab.get c).toNat < values.length := by omega
    rw [List.getElem?_eq_getElem this, Option.getD_some]
    exact List.getElem_mem this
  · cases h

/-- C123, flooded areas: for water levels and a DEM in floating point numbers the extent is exactly that of the cells at or below the level of
their bluespot, and each depth is the exact depth of the water, rounded once; it is positive if and only if the cell is under water. -/
theorem C123_flooded (hfl : IsRounding 53 (-1074) fl) {lab : Raster Int} {dem : Raster Rat} {levels : Dict Int Rat} {background : Int} {m : Nat}
    (hc : Covers levels background m) (hr : LabelsIn lab.rows lab.cols lab.get m) (hl : ∀ l z, levels.get? l = some z → IsF64 z)
    (hd : ∀ c, InGrid lab.rows lab.cols c → IsF64 (dem.get c)) :
    ∃ extent depths exact, Approx.approxBluespotsFl fl lab levels dem background = .ok (extent, depths) ∧
      IsFlooded lab dem background (fun l => (levels.get? l).getD 0) extent exact ∧
      depths.rows = exact.rows ∧ depths.cols = exact.cols ∧
      ∀ c, InGrid lab.rows lab.cols c → depths.get c = fl (exact.get c) ∧ (0 < depths.get c ↔ 0 < exact.get c) := by
  obtain ⟨values, h1, h2, h3⟩ := labelvaluedict_ok hc (-999 : Rat)
  obtain ⟨wl, h4, h5⟩ := flood_ok (dem := dem) (background := background)
    (level := fun l => (levels.get? l).getD 0) hr h2 fun i hi => ⟨(h3 i hi).1, fun hb => by
      obtain ⟨z, hz⟩ := hc.has i hi hb
      rw [(h3 i hi).2 hb, hz]; rfl⟩
  have hval : ∀ x ∈ values, IsF64 x := by
    intro x hx
    obtain ⟨i, hi, rfl⟩ := List.getElem_of_mem hx
    obtain ⟨e1, e2⟩ := h3 i (by omega)
    by_cases hb : (i : Int) = background
    · have := e1 hb
      rw [List.getElem?_eq_getElem hi, Option.some.injEq] at this
      rw [this]
      exact ⟨-999, 0, by norm_num, by norm_num, by norm_num⟩
    · have := e2 hb
      rw [List.getElem?_eq_getElem hi] at this
      exact hl _ _ this.symm
  have hneg : ∀ c, InGrid lab.rows lab.cols c → (fl (wl.get c - dem.get c) < 0 ↔ wl.get c - dem.get c < 0) := fun c hc => by
    rw [fl_sub_neg hfl (by norm_num) (hval _ (setLabel_values hr h2 h4 hc)) (hd c hc), sub_neg]
  have hpos : ∀ c, InGrid lab.rows lab.cols c → (0 < fl (wl.get c - dem.get c) ↔ 0 < wl.get c - dem.get c) := fun c hc => by
    rw [fl_sub_pos hfl (by norm_num) (hval _ (setLabel_values hr h2 h4 hc)) (hd c hc), sub_pos]
  have hext : ∀ c, InGrid lab.rows lab.cols c → (Approx.maskLabels lab (Approx.depthsAndBelowFl fl wl dem).2 background).get c =
      (Approx.maskLabels lab (Approx.depthsAndBelow wl dem).2 background).get c := fun c hc => by
    simp only [Approx.maskLabels, Approx.depthsAndBelowFl, Approx.depthsAndBelow, hneg c hc]
  refine ⟨Approx.maskLabels lab (Approx.depthsAndBelowFl fl wl dem).2 background, (Approx.depthsAndBelowFl fl wl dem).1,
    (Approx.depthsAndBelow wl dem).1, ?_, ⟨h5.shape, fun c hc hb => ?_, h5.depth, fun c hc hb => ?_, h5.dry⟩, rfl, rfl, fun c hc => ?_⟩
  · unfold Approx.approxBluespotsFl
    rw [h1]
    simp only [bind, Except.bind]
    rw [h4]; rfl
  · rw [hext c hc, h5.wet c hc hb]
  · rw [hext c hc, h5.outside c hc hb]
  · simp only [Approx.depthsAndBelowFl, Approx.depthsAndBelow, decide_eq_true_eq, hneg c hc]
    split
    · exact ⟨(fl_zero hfl).symm, Iff.rfl⟩
    · exact ⟨rfl, hpos c hc⟩

/-- C123, both: the map drawn for a full bluespot covers all its cells. -/
theorem C123_full_covered (hfl : IsRounding 53 (-1074) fl) {lab : Raster Int} {dem : Raster Rat} {levels : Dict Int Rat} {background : Int} {m : Nat}
    (hc : Covers levels background m) (hr : LabelsIn lab.rows lab.cols lab.get m) (hl : ∀ l z, levels.get? l = some z → IsF64 z)
    (hd : ∀ c, InGrid lab.rows lab.cols c → IsF64 (dem.get c)) {l : Nat} {cs : List Cell} {level : Rat} (hb : (l : Int) ≠ background)
    (hcs : CellsOf lab.rows lab.cols lab.get l cs) (hlev : levels.get? (l : Int) = some level) (hfull : ∀ z ∈ cs.map dem.get, z ≤ level) :
    ∃ extent depths, Approx.approxBluespotsFl fl lab levels dem background = .ok (extent, depths) ∧ ∀ c ∈ cs, extent.get c = l := by
  obtain ⟨extent, depths, exact', h1, h2, -⟩ := C123_flooded hfl hc hr hl hd
  refine ⟨extent, depths, h1, fun c hc => ?_⟩
  obtain ⟨e1, e2⟩ := (hcs.2 c).1 hc
  rw [h2.wet c e1 (by rw [e2]; exact hb), e2, hlev, if_pos]
  exact hfull _ (List.mem_map.2 ⟨c, hc, rfl⟩)

/-- A search from the left that computes as assumed. -/
def interpPairs (fl : Rat → Rat) (x : Rat) : List (Rat × Rat) → Except PyErr Rat
  | [] => .error .valueError
  | [(_, f)] => .ok f
  | (a, f) :: (b, g) :: rest =>
    if x < a then .ok f
    else if x < b then .ok (fl (fl (fl (fl (g - f) / fl (b - a)) * fl (x - a)) + f))
    else interpPairs fl x ((b, g) :: rest)

theorem interpPairs_spec (x : Rat) (l : List (Rat × Rat)) (hl : l ≠ []) : ∃ z, interpPairs fl x l = .ok z ∧
    ((∃ p : Rat × Rat, l[0]? = some p ∧ x < p.1 ∧ z = p.2) ∨
     ∃ (j : Nat) (p : Rat × Rat), l[j]? = some p ∧ p.1 ≤ x ∧ (∀ q : Rat × Rat, l[j + 1]? = some q → x < q.1) ∧
      ((j + 1 = l.length ∨ x = p.1) ∧ z = p.2 ∨
       ∃ q : Rat × Rat, l[j + 1]? = some q ∧ z = fl (fl (fl (fl (q.2 - p.2) / fl (q.1 - p.1)) * fl (x - p.1)) + p.2))) := by
  induction l with
  | nil => exact absurd rfl hl
  | cons p rest ih =>
    obtain ⟨a, f⟩ := p
    cases rest with
    | nil =>
      refine ⟨f, rfl, ?_⟩
      rcases lt_or_ge x a with h | h
      · exact .inl ⟨(a, f), rfl, h, rfl⟩
      · exact .inr ⟨0, (a, f), rfl, h, by simp, .inl ⟨.inl rfl, rfl⟩⟩
    | cons q rest =>
      obtain ⟨b, g⟩ := q
      unfold interpPairs
      by_cases h1 : x < a
      · rw [if_pos h1]
        exact ⟨_, rfl, .inl ⟨(a, f), rfl, h1, rfl⟩⟩
      rw [if_neg h1]
      by_cases h2 : x < b
      · rw [if_pos h2]
        refine ⟨_, rfl, .inr ⟨0, (a, f), rfl, not_lt.1 h1, ?_, .inr ⟨(b, g), rfl, rfl⟩⟩⟩
        intro q hq
        simp at hq
        rw [← hq]; exact h2
      rw [if_neg h2]
      obtain ⟨z, h3, h4⟩ := ih (by simp)
      refine ⟨z, h3, .inr ?_⟩
      rcases h4 with ⟨p, e1, e2, -⟩ | ⟨j, p, e1, e2, e3, e4⟩
      · simp at e1
        rw [← e1] at e2
        exact absurd e2 h2
      · refine ⟨j + 1, p, e1, e2, e3, ?_⟩
        rcases e4 with ⟨e4 | e4, e5⟩ | e4
        · exact .inl ⟨.inl (by rw [List.length_cons, ← e4]), e5⟩
        · exact .inl ⟨.inr e4, e5⟩
        · exact .inr e4

/-- The assumption on `np.interp` can be met. -/
theorem interp_exists (fl : Rat → Rat) : Interpolates fl fun x xp fp => interpPairs fl x (xp.zip fp) := by
  refine ⟨fl, .inl rfl, fun x xp fp hlen hne => ?_⟩
  have hz : ∀ {i : Nat} {p : Rat × Rat}, (xp.zip fp)[i]? = some p → xp[i]? = some p.1 ∧ fp[i]? = some p.2 := by
    intro i p h
    rw [List.getElem?_zip_eq_some] at h
    exact h
  have hz' : ∀ {i : Nat} {b : Rat}, xp[i]? = some b → ∃ g, (xp.zip fp)[i]? = some (b, g) := by
    intro i b h
    obtain ⟨hi, rfl⟩ := List.getElem?_eq_some_iff.1 h
    exact ⟨fp[i], List.getElem?_zip_eq_some.2 ⟨h, List.getElem?_eq_getElem _⟩⟩
  have hl : (xp.zip fp).length = xp.length := by rw [List.length_zip, hlen, min_self]
  obtain ⟨z, h1, h2⟩ := interpPairs_spec (fl := fl) x (xp.zip fp) (by
    intro hc
    rw [hc] at hl
    exact hne (List.eq_nil_of_length_eq_zero hl.symm))
  refine ⟨z, h1, ?_⟩
  rcases h2 with ⟨p, e1, e2, e3⟩ | ⟨j, p, e1, e2, e3, e4⟩
  · exact .inl ⟨p.1, p.2, (hz e1).1, (hz e1).2, e2, e3⟩
  · refine .inr ⟨j, p.1, p.2, (hz e1).1, (hz e1).2, e2, fun b hb => ?_, ?_⟩
    · obtain ⟨g, hg⟩ := hz' hb
      exact e3 _ hg
    · rcases e4 with ⟨e4, e5⟩ | ⟨q, e4, e5⟩
      · rw [hl] at e4
        exact .inl ⟨e4, e5⟩
      · exact .inr ⟨q.1, q.2, (hz e4).1, (hz e4).2, e5⟩

/-- Non-vacuity for `C123_level`: a bluespot with elevations 51.25, 51.5 that spills at 51.75. -/
example : ∃ fl fl32 : Rat → Rat, IsRounding 53 (-1074) fl ∧ IsRounding 24 (-149) fl32 ∧
    (Interpolates fl fun x xp fp => interpPairs fl x (xp.zip fp)) ∧ HistogramCounts fl32 (Hyps.exactCounts fl32) ∧
    HypsInput (⟨1, 2, fun _ => 1⟩ : Raster Int) ⟨1, 2, fun c => if c.2 = 0 then 51.25 else 51.5⟩ none 0 1 ∧
    ElevationsFit (⟨1, 2, fun _ => 1⟩ : Raster Int) ⟨1, 2, fun c => if c.2 = 0 then 51.25 else 51.5⟩ tenth 0 ∧
    (∀ c, InGrid 1 2 c → IsF32 (if c.2 = 0 then 51.25 else 51.5)) ∧
    IsF32 51.75 ∧ (∀ z ∈ [(51.25 : Rat), 51.5], z < 51.75) ∧ IsMax ([(51.25 : Rat), 51.5].map fun z => fl32 (51.75 - z)) 0.5 := by
  obtain ⟨fl, h1⟩ := exists_rounding 53 (by norm_num) (-1074)
  obtain ⟨fl32, h2⟩ := exists_rounding 24 (by norm_num) (-149)
  have e1 : fl32 (51.75 - 51.25) = 0.5 := by
    have : IsF32 (51.75 - 51.25) := ⟨1, -1, by norm_num, by norm_num, by norm_num⟩
    rw [fl_exact h2 this]; norm_num
  have e2 : fl32 (51.75 - 51.5) = 0.25 := by
    have : IsF32 (51.75 - 51.5) := ⟨1, -2, by norm_num, by norm_num, by norm_num⟩
    rw [fl_exact h2 this]; norm_num
  refine ⟨fl, fl32, h1, h2, interp_exists fl, counts32 h2, ⟨⟨rfl, rfl⟩, .inr ⟨.inl rfl, ⟨?_, ?_⟩⟩, ?_, ?_⟩, ⟨?_, ?_, ?_⟩, ?_, ?_, ?_, ?_, ?_⟩
  · exact ⟨(0, 0), ⟨by decide, by decide, by decide, by decide⟩, rfl⟩
  · rintro x ⟨c, -, rfl⟩
    exact le_refl _
  · exact fun c _ => ⟨by show (0 : Int) ≤ 1; decide, by show (1 : Int) ≤ 1; decide⟩
  · intro l hl hb
    refine ⟨(0, 0), ⟨by decide, by decide, by decide, by decide⟩, ?_⟩
    show (1 : Int) = l
    omega
  · unfold tenth; norm_num
  · unfold tenth; norm_num
  · intro c _ _
    show ((if c.2 = 0 then 51.25 else 51.5 : Rat) = 0 ∨ _ ≤ (if c.2 = 0 then 51.25 else 51.5 : Rat)) ∧ (if c.2 = 0 then 51.25 else 51.5 : Rat) ≤ _
    unfold tenth
    split <;> norm_num
  · intro c _
    split
    · exact ⟨205, -2, by norm_num, by norm_num, by norm_num⟩
    · exact ⟨103, -1, by norm_num, by norm_num, by norm_num⟩
  · exact ⟨207, -2, by norm_num, by norm_num, by norm_num⟩
  · intro z hz
    simp only [List.mem_cons, List.not_mem_nil, or_false] at hz
    rcases hz with rfl | rfl <;> norm_num
  · simp only [List.map_cons, List.map_nil, e1, e2]
    exact List.mem_cons_self
  · simp only [List.map_cons, List.map_nil, e1, e2]
    refine fun z hz => ?_
    simp only [List.mem_cons, List.not_mem_nil, or_false] at hz
    rcases hz with rfl | rfl <;> norm_num

/-- Non-vacuity for `C123_flooded`. -/
example : Covers [((1 : Int), (51.375 : Rat))] 0 1 ∧ LabelsIn 1 2 (fun _ => 1) 1 ∧
    (∀ l z, Dict.get? [((1 : Int), (51.375 : Rat))] l = some z → IsF64 z) ∧
    (∀ c, InGrid 1 2 c → IsF64 (if c.2 = 0 then 51.25 else 51.5)) := by
  refine ⟨⟨by simp, ?_, ?_⟩, fun c _ => ⟨by show (0 : Int) ≤ 1; decide, by show (1 : Int) ≤ 1; decide⟩, ?_, ?_⟩
  · intro k hk
    simp at hk
    omega
  · intro l hl hb
    obtain rfl : l = 1 := by omega
    exact ⟨_, rfl⟩
  · intro l z hz
    simp only [Dict.get?] at hz
    split at hz
    · cases hz
      exact ⟨411, -3, by norm_num, by norm_num, by norm_num⟩
    · cases hz
  · intro c _
    split
    · exact ⟨205, -2, by norm_num, by norm_num, by norm_num⟩
    · exact ⟨103, -1, by norm_num, by norm_num, by norm_num⟩

end Float
end Malstroem
