/-
C92: the volume of water in the written final depths.
-/
import Verif.Props.Levels
import Mathlib.Data.List.Sublists
import Mathlib.Tactic.Linarith
import Mathlib.Tactic.Ring
import Mathlib.Tactic.FieldSimp
import Mathlib.Tactic.Positivity

set_option linter.unusedSectionVars false

namespace Malstroem
open Spec

section Volume
variable {K : Type} [Field K] [LinearOrder K] [IsStrictOrderedRing K]

theorem sublist_le {e : K} {zs S : List K} (h : S.Sublist zs) :
    (S.length : K) * e - S.sum ≤ (zs.map fun z => max 0 (e - z)).sum := by
  induction h with
  | slnil => simp
  | cons z _ ih =>
    rw [List.map_cons, List.sum_cons]
    have := le_max_left 0 (e - z)
    linarith
  | cons_cons z _ ih =>
    rw [List.map_cons, List.sum_cons, List.sum_cons, List.length_cons]
    have := le_max_right 0 (e - z)
    push_cast
    linarith

theorem below_sublist (e : K) (zs : List K) :
    (zs.map fun z => max 0 (e - z)).sum = ((zs.filter fun z => z < e).length : K) * e - (zs.filter fun z => z < e).sum := by
  induction zs with
  | nil => simp
  | cons z zs ih =>
    rw [List.map_cons, List.sum_cons, ih]
    by_cases h : z < e
    · rw [List.filter_cons_of_pos (by simpa using h), List.length_cons, List.sum_cons, max_eq_right (by linarith)]
      push_cast
      ring
    · rw [List.filter_cons_of_neg (by simpa using h), max_eq_left (by linarith)]
      ring

/-- Every volume is held by a horizontal surface at some level that is not below the lowest ground. -/
theorem exists_level {area : K} (ha : 0 < area) {zs : List K} {zmin : K} (hmin : IsMin zs zmin) {v : K} (hv : 0 ≤ v) :
    ∃ e, zmin ≤ e ∧ waterVolume area zs e = v := by
  rcases hv.eq_or_lt with rfl | hv
  · exact ⟨zmin, le_rfl, waterVolume_zero hmin.2⟩
  have hne : (zs.sublists.filter fun S => S ≠ []).toFinset.Nonempty :=
    ⟨zs, by rw [List.mem_toFinset, List.mem_filter, List.mem_sublists]; exact ⟨List.Sublist.refl _, by
      simpa using List.ne_nil_of_mem hmin.1⟩⟩
  obtain ⟨S, hS, hS'⟩ := Finset.exists_min_image _ (fun S : List K => (v / area + S.sum) / (S.length : K)) hne
  have hmem : ∀ T : List K, T ∈ (zs.sublists.filter fun S => S ≠ []).toFinset ↔ T.Sublist zs ∧ T ≠ [] := by
    intro T
    rw [List.mem_toFinset, List.mem_filter, List.mem_sublists]
    simp
  obtain ⟨hS1, hS2⟩ := (hmem S).1 hS
  have hpos : ∀ T : List K, T ≠ [] → (0 : K) < T.length := fun T hT => by
    exact_mod_cast List.length_pos_iff.2 hT
  set e := (v / area + S.sum) / (S.length : K) with he
  have hsum : (zs.map fun z => max 0 (e - z)).sum = v / area := by
    apply le_antisymm
    · rw [below_sublist]
      by_cases h0 : (zs.filter fun z => z < e) = []
      · rw [h0]; simp; positivity
      · have := hS' _ ((hmem _).2 ⟨List.filter_sublist, h0⟩)
        rw [le_div_iff₀ (hpos _ h0)] at this
        linarith
    · have := sublist_le (e := e) hS1
      have h2 : e * S.length = v / area + S.sum := by rw [he]; exact div_mul_cancel₀ _ (hpos S hS2).ne'
      linarith
  have hvol : waterVolume area zs e = v := by
    unfold waterVolume
    rw [List.sum_map_mul_left, hsum]
    field_simp
  refine ⟨e, ?_, hvol⟩
  by_contra hlt
  have : waterVolume area zs e = 0 := waterVolume_zero fun z hz => le_trans (not_le.1 hlt).le (hmin.2 z hz)
  linarith

theorem waterVolume_le_add {area : K} (ha : 0 ≤ area) {a b : K} (hab : a ≤ b) (zs : List K) :
    waterVolume area zs b ≤ waterVolume area zs a + area * zs.length * (b - a) := by
  unfold waterVolume
  induction zs with
  | nil => simp
  | cons z zs ih =>
    rw [List.map_cons, List.sum_cons, List.map_cons, List.sum_cons, List.length_cons]
    have h1 : max 0 (b - z) ≤ max 0 (a - z) + (b - a) := by
      refine max_le ?_ ?_
      · have := le_max_left 0 (a - z); linarith
      · have := le_max_right 0 (a - z); linarith
    have := mul_le_mul_of_nonneg_left h1 ha
    push_cast
    linarith

theorem waterVolume_dist {area : K} (ha : 0 ≤ area) {a b d : K} (h : |a - b| ≤ d) (zs : List K) :
    |waterVolume area zs a - waterVolume area zs b| ≤ d * (area * zs.length) := by
  have hn : (0 : K) ≤ area * zs.length := mul_nonneg ha (Nat.cast_nonneg _)
  have hm := mul_le_mul_of_nonneg_right h hn
  rcases le_total a b with hab | hab
  · have h1 := waterVolume_mono ha hab zs
    have h2 := waterVolume_le_add ha hab zs
    rw [abs_of_nonpos (by linarith)] at hm ⊢
    linarith
  · have h1 := waterVolume_mono ha hab zs
    have h2 := waterVolume_le_add ha hab zs
    rw [abs_of_nonneg (by linarith)] at hm ⊢
    linarith

/-- The volume below an approximate level. -/
theorem volume_of_level {area res : K} {zs : List K} {zmin zmax spill v level : K} (ha : 0 < area)
    (hmin : IsMin zs zmin) (hv : 0 ≤ v) (h : IsApproxLevel area res zs zmin zmax spill v level)
    (hfull : v ≤ 9999 / 10000 * waterVolume area zs spill) :
    |waterVolume area zs level - min v (waterVolume area zs zmax)| ≤ 4 * res * (area * zs.length) := by
  obtain ⟨e, he, hev⟩ := exists_level ha hmin hv
  have hm : min v (waterVolume area zs zmax) = waterVolume area zs (min e zmax) := by
    rw [← hev]
    exact (Monotone.map_min (f := waterVolume area zs) fun a b hab => waterVolume_mono ha.le hab zs).symm
  rw [hm]
  exact waterVolume_dist ha.le (h.near e hev hfull he) zs

end Volume

section Complete
variable {K : Type} [Field K] [LinearOrder K] [IsStrictOrderedRing K] [FloorRing K]

theorem shown_eq {gt : GeoTransform K} {lab : Raster Int} {dem depths : Raster K} {extent : Raster Int} {level : Int → K}
    (hf : IsFlooded lab dem 0 level extent depths) {l : Nat} (hl : 1 ≤ l) {cs : List Cell}
    (hcs : CellsOf lab.rows lab.cols lab.get l cs) :
    cellArea gt * (cs.map depths.get).sum = waterVolume (cellArea gt) (cs.map dem.get) (level l) := by
  unfold waterVolume
  rw [List.sum_map_mul_left, List.map_map]
  congr 2
  refine List.map_congr_left fun c hc => ?_
  have hc' := (hcs.2 c).1 hc
  have hcl : lab.get c = (l : Int) := hc'.2
  rw [hf.depth c hc'.1 (by rw [hcl]; omega), hcl]
  rfl

/-- C92 (partial): the volume of the water in the final depths that `complete` writes, in exact arithmetic. For each
bluespot let `v` be its final volume, `cap` its capacity (`bspot_vol`) and `ground` the volume that a surface at the height
of its highest cell holds. The depths show at most `cap`. If the bluespot is more than 99.99 % full they show exactly
`cap`. Otherwise they show `v`, or `ground` if that is less, with an error of at most four bins times the area of the
bluespot. Missing, and false (`C92_false`): the water above `ground` of a bluespot that is not full is not shown. -/
theorem C92_depths_partial {cc : Raster Bool → Raster Int × Nat} (hcc : LabelContract cc) {gt : GeoTransform K}
    (hsq : SquareCells gt) (dem : Raster K) (hr : 2 ≤ dem.rows) (hc : 2 ≤ dem.cols) {short diag k : K} (hs : 0 < short)
    (hd : 0 < diag) (hk : 0 < k) (want : Bool) (f : Bluespots.StatUnits K → Bool) {mm : K} (hmm : 0 ≤ mm) {res : K}
    (hres : 0 < res)
    (hnn : ∀ c z, dem.Has c → IsSpillLevel dem.rows dem.cols dem.get c z → dem.get c < z → 0 ≤ dem.get c) :
    ∃ out lv depths, (Complete.processWithLevels (·.untopD 0) cc (Dem.python exactSub (· * k)) Bluespots.python
        exactSub (exactSafe short diag) gt (finiteDem dem) want (some f) mm res).Yields (.ok (out, lv)) ∧
      lv.depths = some depths ∧
      ∀ (l : Nat) (cs : List Cell), 1 ≤ l → l ≤ out.bluespots.nlabels →
        CellsOf dem.rows dem.cols out.bluespots.labeled.get l cs →
        ∃ f ∈ out.final, ∃ v cap zmax, f.properties.get? "nodetype" = some (.str "pourpoint") ∧
          f.properties.get? "bspot_id" = some (.int l) ∧ HasNumber f "v" v ∧ HasNumber f "bspot_vol" cap ∧
          IsMax (cs.map dem.get) zmax ∧
          cellArea gt * (cs.map depths.get).sum ≤ cap ∧
          (9999 / 10000 * cap < v → cellArea gt * (cs.map depths.get).sum = cap) ∧
          (v ≤ 9999 / 10000 * cap →
            |cellArea gt * (cs.map depths.get).sum - min v (waterVolume (cellArea gt) (cs.map dem.get) zmax)| ≤
              4 * res * (cellArea gt * cs.length)) ∧
          (v ≤ 0 → ∀ c ∈ cs, depths.get c = 0) := by
  obtain ⟨out, lv, depths, extent, h1, h2, _, _, level, h5, h6, _, hsh⟩ :=
    complete_levels hcc hsq dem hr hc hs hd hk want f mm hres hnn
  refine ⟨out, lv, depths, h1, h2, fun l cs hl1 hl2 hcs => ?_⟩
  obtain ⟨zmin, zmax, spill, a1, a2, a3, f, hf, g, hg, v, b1, b2, b3, b4, b5, _, b6⟩ := h5 l cs hl1 hl2 hcs
  have hcs' : CellsOf out.bluespots.labeled.rows out.bluespots.labeled.cols out.bluespots.labeled.get l cs := by
    rw [hsh.1, hsh.2]; exact hcs
  have hsq' := square_nonzero hsq
  have ha : 0 < cellArea gt := mul_pos (abs_pos.2 hsq'.1) (abs_pos.2 hsq'.2)
  have e := shown_eq (gt := gt) h6 hl1 hcs'
  refine ⟨f, hf, v, _, zmax, b1, b4, b5, b2, a2, ?_, fun hv => ?_, fun hv => ?_, fun hv c hc => ?_⟩
  · rw [e]
    exact waterVolume_mono ha.le b6.bounds.2 _
  · rw [e, b6.full hv]
  · rw [e]
    have := volume_of_level ha a1 (b3 hmm).1 b6 hv
    rwa [List.length_map] at this
  · have hc' := (hcs'.2 c).1 hc
    have hcl : out.bluespots.labeled.get c = (l : Int) := hc'.2
    rw [h6.depth c hc'.1 (by rw [hcl]; omega), hcl, b6.empty hv]
    exact max_eq_left (sub_nonpos.2 (a1.2 _ (List.mem_map_of_mem hc)))

/-- A bluespot with a level floor is shown without any water until it is 99.99 % full. -/
theorem C92_level_floor_false {cc : Raster Bool → Raster Int × Nat} (hcc : LabelContract cc) {gt : GeoTransform K}
    (hsq : SquareCells gt) (dem : Raster K) (hr : 2 ≤ dem.rows) (hc : 2 ≤ dem.cols) {short diag k : K} (hs : 0 < short)
    (hd : 0 < diag) (hk : 0 < k) (want : Bool) (f : Bluespots.StatUnits K → Bool) (mm : K) {res : K} (hres : 0 < res)
    (hnn : ∀ c z, dem.Has c → IsSpillLevel dem.rows dem.cols dem.get c z → dem.get c < z → 0 ≤ dem.get c) :
    ∃ out lv depths, (Complete.processWithLevels (·.untopD 0) cc (Dem.python exactSub (· * k)) Bluespots.python
        exactSub (exactSafe short diag) gt (finiteDem dem) want (some f) mm res).Yields (.ok (out, lv)) ∧
      lv.depths = some depths ∧
      ∀ (l : Nat) (cs : List Cell) (floor : K), 1 ≤ l → l ≤ out.bluespots.nlabels →
        CellsOf dem.rows dem.cols out.bluespots.labeled.get l cs → (∀ c ∈ cs, dem.get c = floor) →
        ∃ f ∈ out.final, ∃ v cap, f.properties.get? "nodetype" = some (.str "pourpoint") ∧
          f.properties.get? "bspot_id" = some (.int l) ∧ HasNumber f "v" v ∧ HasNumber f "bspot_vol" cap ∧
          (v ≤ 9999 / 10000 * cap → ∀ c ∈ cs, depths.get c = 0) := by
  obtain ⟨out, lv, depths, extent, h1, h2, _, _, level, h5, h6, _, hsh⟩ :=
    complete_levels hcc hsq dem hr hc hs hd hk want f mm hres hnn
  refine ⟨out, lv, depths, h1, h2, fun l cs floor hl1 hl2 hcs hfl => ?_⟩
  obtain ⟨zmin, zmax, spill, a1, a2, a3, f, hf, g, hg, v, b1, b2, b3, b4, b5, _, b6⟩ := h5 l cs hl1 hl2 hcs
  refine ⟨f, hf, v, _, b1, b4, b5, b2, fun hv c hc => ?_⟩
  have hc' := (hcs.2 c).1 hc
  have hcl : out.bluespots.labeled.get c = (l : Int) := hc'.2
  have hmax : zmax = floor := by
    obtain ⟨x, hx, e⟩ := List.mem_map.1 a2.1
    rw [← e]; exact hfl x hx
  rw [h6.depth c (by rw [hsh.1, hsh.2]; exact hc'.1) (by rw [hcl]; omega), hcl, hfl c hc]
  exact max_eq_left (sub_nonpos.2 (by rw [← hmax]; exact b6.below hv))

end Complete

/-- The hypotheses are met by the valley of C56. -/
example : ∃ cc, LabelContract cc ∧ SquareCells (⟨0, 2, 0, 0, 0, -2⟩ : GeoTransform Rat) ∧
    2 ≤ demoValley.rows ∧ 2 ≤ demoValley.cols ∧
    ∀ c z, demoValley.Has c → IsSpillLevel demoValley.rows demoValley.cols demoValley.get c z → demoValley.get c < z →
      0 ≤ demoValley.get c := by
  obtain ⟨cc, h⟩ := exists_labelContract
  refine ⟨cc, h, by unfold SquareCells; norm_num, by decide, by decide, fun c z hc _ _ => ?_⟩
  have key : ∀ c ∈ Raster.cellList 4 5, 0 ≤ demoValley.get c := by decide +kernel
  exact key c (Flow.mem_cellList.2 hc)

/-- A pit of one cell, 10 m deep, and its labelling. -/
def deepPit : Raster Rat := Raster.ofRows [[10, 10, 10], [10, 0, 10], [10, 10, 10]]
def deepPitCC (_ : Raster Bool) : Raster Int × Nat := (Raster.ofRows [[0, 0, 0], [0, 1, 0], [0, 0, 0]], 1)

set_option synthInstance.maxSize 1000 in
/-- C92 is false: with 5 m of rain the pit, one square metre, holds 5 of its 10 cubic metres, but no depth is above 0. (Bins
of 0.25 m: the error allowed would be 1 cubic metre.) -/
theorem C92_false : ∃ fuel r, (Complete.processWithLevels (·.untopD 0) deepPitCC (Dem.python exactSub (· * (7/10)))
        Bluespots.python exactSub (exactSafe (1/1000) (14/10000)) ⟨0, 1, 0, 0, 0, -1⟩ (finiteDem deepPit) false
        (some fun _ => true) (5000 : Rat) (1/4)) fuel = some (.ok r) ∧
      (r.1.final.map fun f => [Dict.get? f.properties "bspot_id", Dict.get? f.properties "v",
        Dict.get? f.properties "bspot_vol"]) =
        [[some (.int 0), some (.num 0), some (.num 0)], [some (.int 1), some (.num 5), some (.num 10)]] ∧
      r.2.depths.map (·.toRows) = some [[0, 0, 0], [0, 0, 0], [0, 0, 0]] := by
  have h : Option.map (fun r : Except PyErr _ => r.toOption.map fun o =>
          ((o.1.final.map fun f => [Dict.get? f.properties "bspot_id", Dict.get? f.properties "v",
            Dict.get? f.properties "bspot_vol"]), o.2.depths.map (·.toRows)))
        ((Complete.processWithLevels (·.untopD 0) deepPitCC (Dem.python exactSub (· * (7/10)))
        Bluespots.python exactSub (exactSafe (1/1000) (14/10000)) ⟨0, 1, 0, 0, 0, -1⟩ (finiteDem deepPit) false
        (some fun _ => true) (5000 : Rat) (1/4)) 40) =
      some (some ([[some (.int 0), some (.num 0), some (.num 0)], [some (.int 1), some (.num 5), some (.num 10)]],
        some [[0, 0, 0], [0, 0, 0], [0, 0, 0]])) := by decide +kernel
  obtain ⟨r, h1, h2⟩ := Option.map_eq_some_iff.1 h
  cases r with
  | error e => simp [Except.toOption] at h2
  | ok o =>
    simp only [Except.toOption, Option.map_some, Option.some.injEq, Prod.mk.injEq] at h2
    exact ⟨40, o, h1, h2.1, h2.2⟩

end Malstroem
