/-
Initial water volumes (malstroem/rain.py): C39 and C40. All arithmetic is exact.
-/
import Verif.Spec.Rain
import Verif.Spec.Bluespots
import Verif.Props.Label
import Verif.Props.Network

set_option linter.unusedSectionVars false

namespace Malstroem
open Spec
variable {K : Type} [Field K] [LinearOrder K]

/-! ## C39 -/

theorem simpleVolumeFl_ok {fl : K → K} {attr : String} {mm : K} {f : Feature K} {a : K} (h : HasNumber f "wshed_area" a) :
    ∃ g, Rain.simpleVolumeFl fl attr mm f = .ok g ∧ WithNumber attr (fl (fl (a * mm) * fl (1 / 1000))) f g := by
  obtain ⟨y, h1, h2⟩ := h
  refine ⟨{ f with properties := Dict.set f.properties attr (.num (fl (fl (a * mm) * fl (1 / 1000)))) }, ?_, rfl, rfl, ?_, ?_⟩
  · unfold Rain.simpleVolumeFl
    rw [Network.number_ok h1 h2]
    rfl
  · intro key hk
    simp only [Dict.get?_set, if_neg (Ne.symm hk)]
  · exact ⟨.num (fl (fl (a * mm) * fl (1 / 1000))), by simp only [Dict.get?_set, if_pos], rfl⟩

theorem simpleVolume_ok {attr : String} {mm : K} {f : Feature K} {a : K} (h : HasNumber f "wshed_area" a) :
    ∃ g, Rain.simpleVolume attr mm f = .ok g ∧ WithNumber attr (a * mm * (1 / 1000)) f g := simpleVolumeFl_ok h

/-- C39: SimpleVolumeTool writes the features in order. The feature with watershed area `a` gets `a * mm / 1000` and is
otherwise unchanged. -/
theorem C39_simple_volumes {attr : String} {mm : K} {fs : List (Feature K)} {areas : List K}
    (h : List.Forall₂ (fun f a => HasNumber f "wshed_area" a) fs areas) :
    ∃ out, Rain.simpleVolumes fs attr mm = .ok out ∧ out.length = fs.length ∧
      ∀ (i : Nat) f a, fs[i]? = some f → areas[i]? = some a →
        ∃ g, out[i]? = some g ∧ WithNumber attr (a * mm / 1000) f g := by
  unfold Rain.simpleVolumes Rain.simpleVolumesFl
  induction h with
  | nil => exact ⟨[], rfl, rfl, by simp⟩
  | cons hab _ ih =>
    rename_i f0 a0 fs areas _
    obtain ⟨out, h1, h2, h3⟩ := ih
    obtain ⟨g, hg1, hg2⟩ := simpleVolume_ok (attr := attr) (mm := mm) hab
    refine ⟨g :: out, ?_, by simp [h2], ?_⟩
    · rw [List.mapM_cons, show Rain.simpleVolumeFl id attr mm f0 = _ from hg1, h1]; rfl
    · rintro (_ | i) f a hf ha
      · simp only [List.getElem?_cons_zero, Option.some.injEq] at hf ha
        subst hf ha
        exact ⟨g, rfl, by rw [div_eq_mul_one_div]; exact hg2⟩
      · simp only [List.getElem?_cons_succ] at hf ha ⊢
        exact h3 i f a hf ha

/-- C39: the volumes written add up to the rain on the total watershed area. -/
theorem C39_total {attr : String} {mm : K} {fs out : List (Feature K)} {areas vols : List K}
    (h : List.Forall₂ (fun f a => HasNumber f "wshed_area" a) fs areas) (ho : Rain.simpleVolumes fs attr mm = .ok out)
    (hv : List.Forall₂ (fun g x => HasNumber g attr x) out vols) : vols.sum = mm / 1000 * areas.sum := by
  unfold Rain.simpleVolumes Rain.simpleVolumesFl at ho
  induction h generalizing out vols with
  | nil => cases ho; cases hv; simp
  | cons hab _ ih =>
    rename_i f0 a0 fs areas _
    obtain ⟨g, hg1, hg2⟩ := simpleVolume_ok (attr := attr) (mm := mm) hab
    rw [List.mapM_cons, show Rain.simpleVolumeFl id attr mm f0 = _ from hg1] at ho
    cases hrest : List.mapM (Rain.simpleVolumeFl id attr mm) fs with
    | error e => rw [hrest] at ho; cases ho
    | ok rest =>
      rw [hrest] at ho
      cases ho
      cases hv with
      | @cons _ x _ vols hx hv =>
        rw [List.sum_cons, List.sum_cons, ih hrest hv]
        obtain ⟨y, hy1, hy2⟩ := hg2.value
        obtain ⟨z, hz1, hz2⟩ := hx
        rw [hy1] at hz1
        injection hz1 with hz1
        subst hz1
        rw [hy2] at hz2
        injection hz2 with hz2
        rw [← hz2]
        ring

/-! ## C40 -/

/-- The volume a node gets: the precipitation on the cells carrying its id as label, times the unit factor; nothing if its
id exceeds every label. `n` is the highest label. -/
def rasterShare (lab : Raster Int) (water : Raster K) (factor : K) (n : Nat) (id : Int) : K :=
  if id ≤ n then ((lab.cells.filter fun c => lab.get c = id).map water.get).sum * factor else 0

theorem rasterVolumes_ok {lab : Raster Int} {water : Raster K} {gt : GeoTransform K} {unit : Rain.Unit} {factor : K}
    {attr : String} {n : Nat} (hshape : lab.rows = water.rows ∧ lab.cols = water.cols)
    (hn : TopLabel lab.rows lab.cols lab.get none n) (hr : LabelsIn lab.rows lab.cols lab.get n)
    (hu : unitFactor (|gt.t1| * |gt.t5|) unit = some factor) (fs : List (Feature K)) :
    ∃ vols : List K, vols.length = n + 1 ∧
      (∀ l : Nat, l ≤ n → vols[l]? = some (((lab.cells.filter fun c => lab.get c = (l : Int)).map water.get).sum * factor)) ∧
      Rain.rasterVolumes fs gt lab water unit attr = fs.mapM (Rain.rasterVolume attr vols) := by
  obtain ⟨stats, h1, h2, h3, -⟩ := C24_label_stats water lab none n ⟨hshape.1.symm, hshape.2.symm⟩ hn hr
  have hcf : Rain.conversionFactor (|gt.t1| * |gt.t5|) unit = .ok factor := by
    cases unit <;> simp [unitFactor, Rain.conversionFactorFl] at hu ⊢ <;> (rw [← hu]; try ring)
  refine ⟨stats.map fun s => s.sum * factor, by simp [h2], fun l hl => ?_, ?_⟩
  · obtain ⟨s, hs1, -, hs2, -⟩ := h3 l _ hl (lists_filter lab.rows lab.cols fun c => lab.get c = (l : Int))
    rw [List.getElem?_map, hs1, Option.map_some, hs2, List.sum_eq_foldl]
    rfl
  · unfold Rain.rasterVolumes Rain.rasterVolumesFl
    simp only [hshape.1, hshape.2, h1, hcf, id_eq, and_self, not_true_eq_false, if_false]
    rfl

theorem rasterVolume_ok {attr : String} {vols : List K} {f : Feature K} {id : Int} (hid : f.properties.get? "nodeid" = some (.int id))
    (h0 : 0 ≤ id) {x : K} (hx : if id < vols.length then vols[id.toNat]? = some x else x = 0) :
    ∃ g, Rain.rasterVolume attr vols f = .ok g ∧ WithNumber attr x f g := by
  unfold Rain.rasterVolume
  rw [show f.prop "nodeid" = .ok (.int id) from Dict.getItem_ok.2 hid]
  by_cases hl : id < vols.length
  · rw [if_pos hl] at hx
    have hget : pyGet vols id = .ok x := by
      unfold pyGet pyIdx
      rw [if_pos h0, if_pos hl]
      simp only [hx]
    refine ⟨{ f with properties := Dict.set f.properties attr (.num x) }, ?_, rfl, rfl, ?_, ?_⟩
    · simp only [bind, Except.bind, if_pos (show id ≤ (vols.length : Int) - 1 by omega), hget]
      rfl
    · intro key hk
      simp only [Dict.get?_set, if_neg (Ne.symm hk)]
    · exact ⟨.num x, by simp only [Dict.get?_set, if_pos], rfl⟩
  · rw [if_neg hl] at hx
    refine ⟨{ f with properties := Dict.set f.properties attr (.int 0) }, ?_, rfl, rfl, ?_, ?_⟩
    · simp only [bind, Except.bind, if_neg (show ¬ id ≤ (vols.length : Int) - 1 by omega)]
      rfl
    · intro key hk
      simp only [Dict.get?_set, if_neg (Ne.symm hk)]
    · exact ⟨.int 0, by simp only [Dict.get?_set, if_pos], by subst hx; simp [Val.float]⟩

/-- C40: RasterVolumeTool writes the features in order. The node with id `id` gets the precipitation on the cells
labelled `id` in cubic metres, 0 if `id` is above every label, and is otherwise unchanged. -/
theorem C40_raster_volumes {lab : Raster Int} {water : Raster K} {gt : GeoTransform K} {unit : Rain.Unit} {factor : K}
    {attr : String} {n : Nat} (hshape : lab.rows = water.rows ∧ lab.cols = water.cols)
    (hn : TopLabel lab.rows lab.cols lab.get none n) (hr : LabelsIn lab.rows lab.cols lab.get n)
    (hu : unitFactor (|gt.t1| * |gt.t5|) unit = some factor) {fs : List (Feature K)} {ids : List Int}
    (hf : List.Forall₂ (fun f (i : Int) => f.properties.get? "nodeid" = some (.int i) ∧ 0 ≤ i) fs ids) :
    ∃ out, Rain.rasterVolumes fs gt lab water unit attr = .ok out ∧ out.length = fs.length ∧
      ∀ (k : Nat) f (id : Int), fs[k]? = some f → ids[k]? = some id → ∃ g x, out[k]? = some g ∧ WithNumber attr x f g ∧
        (∀ cs, CellsOf lab.rows lab.cols lab.get id cs → id ≤ n → x = (cs.map water.get).sum * factor) ∧
        ((n : Int) < id → x = 0) := by
  obtain ⟨vols, hv1, hv2, hv3⟩ := rasterVolumes_ok (attr := attr) hshape hn hr hu fs
  rw [hv3]
  clear hv3
  induction hf with
  | nil => exact ⟨[], rfl, rfl, by simp⟩
  | cons hab _ ih =>
    rename_i f0 i0 fs ids _
    obtain ⟨out, h1, h2, h3⟩ := ih
    obtain ⟨g, hg1, hg2⟩ := rasterVolume_ok (attr := attr) (vols := vols) (x := rasterShare lab water factor n i0) hab.1 hab.2 (by
      unfold rasterShare
      split
      · rename_i hl
        rw [hv1] at hl
        rw [if_pos (by omega), hv2 i0.toNat (by omega), Int.toNat_of_nonneg hab.2]
      · rename_i hl
        rw [hv1] at hl
        rw [if_neg (by omega)])
    refine ⟨g :: out, ?_, by simp [h2], ?_⟩
    · rw [List.mapM_cons, hg1, h1]; rfl
    · rintro (_ | k) f i hf hi
      · simp only [List.getElem?_cons_zero, Option.some.injEq] at hf hi
        subst hf hi
        refine ⟨g, _, rfl, hg2, fun cs hcs hle => ?_, fun hlt => ?_⟩
        · unfold rasterShare
          rw [if_pos hle, lists_unique hcs (lists_filter lab.rows lab.cols fun c => lab.get c = i0)]
          rfl
        · unfold rasterShare
          rw [if_neg (by omega)]
      · simp only [List.getElem?_cons_succ] at hf hi ⊢
        exact h3 k f i hf hi

/-- C40: an unknown unit raises NotImplementedError, rasters of different shape an AssertionError. -/
theorem C40_rejects {lab : Raster Int} {water : Raster K} {gt : GeoTransform K} {attr : String} (fs : List (Feature K)) :
    (¬ (lab.rows = water.rows ∧ lab.cols = water.cols) → ∀ unit,
      Rain.rasterVolumes fs gt lab water unit attr = .error .assertionError) ∧
    (∀ n : Nat, lab.rows = water.rows ∧ lab.cols = water.cols → TopLabel lab.rows lab.cols lab.get none n →
      LabelsIn lab.rows lab.cols lab.get n →
      Rain.rasterVolumes fs gt lab water .other attr = .error .notImplemented) := by
  constructor
  · intro h unit
    unfold Rain.rasterVolumes Rain.rasterVolumesFl
    simp only [if_pos h]
  · intro n hs hn hr
    obtain ⟨stats, h1, -⟩ := C24_label_stats water lab none n ⟨hs.1.symm, hs.2.symm⟩ hn hr
    unfold Rain.rasterVolumes Rain.rasterVolumesFl
    simp only [hs.1, hs.2, h1, id_eq, and_self, not_true_eq_false, if_false]
    rfl

theorem sum_shares (lab : Raster Int) (water : Raster K) (factor : K) (n : Nat)
    (hr : LabelsIn lab.rows lab.cols lab.get n) {ids : List Int} (hnd : ids.Nodup) (h0 : ∀ i ∈ ids, 0 ≤ i)
    (hall : ∀ l : Nat, l ≤ n → (l : Int) ∈ ids) :
    (ids.map (rasterShare lab water factor n)).sum = (lab.cells.map water.get).sum * factor := by
  have hperm : (ids.filter fun i : Int => i ≤ (n : Int)).Perm ((List.range (n + 1)).map fun (l : Nat) => (l : Int)) := by
    rw [List.perm_ext_iff_of_nodup (hnd.filter _) (List.nodup_range.map fun a b h => by simpa using h)]
    intro i
    simp only [List.mem_filter, decide_eq_true_eq, List.mem_map, List.mem_range]
    constructor
    · rintro ⟨hi, hle⟩
      exact ⟨i.toNat, by have := h0 i hi; omega, by have := h0 i hi; omega⟩
    · rintro ⟨l, hl, rfl⟩
      exact ⟨hall l (by omega), by omega⟩
  have hsplit : ∀ l : List Int, (l.map (rasterShare lab water factor n)).sum =
      ((l.filter fun i : Int => i ≤ (n : Int)).map (rasterShare lab water factor n)).sum := by
    intro l
    induction l with
    | nil => rfl
    | cons i l ih =>
      rw [List.filter_cons]
      split
      · simp [ih]
      · rename_i hi
        rw [List.map_cons, List.sum_cons, ih]
        have : rasterShare lab water factor n i = 0 := by
          unfold rasterShare; rw [if_neg (by simpa using hi)]
        rw [this, zero_add]
  rw [hsplit, (hperm.map _).sum_eq, List.map_map]
  have := sum_over_labels lab.get water.get n lab.cells fun c hc => hr c (Flow.mem_cellList.1 hc)
  rw [← this, ← List.sum_map_mul_right]
  congr 1
  apply List.map_congr_left
  intro l hl
  rw [List.mem_range] at hl
  simp only [Function.comp, rasterShare]
  rw [if_pos (by omega)]

/-- C40: if ids are distinct and every label up to the highest one has its node, the volumes written add up to the whole
precipitation raster times the unit factor. -/
theorem C40_total {lab : Raster Int} {water : Raster K} {gt : GeoTransform K} {unit : Rain.Unit} {factor : K}
    {attr : String} {n : Nat} (hshape : lab.rows = water.rows ∧ lab.cols = water.cols)
    (hn : TopLabel lab.rows lab.cols lab.get none n) (hr : LabelsIn lab.rows lab.cols lab.get n)
    (hu : unitFactor (|gt.t1| * |gt.t5|) unit = some factor) {fs out : List (Feature K)} {ids : List Int} {vols cells : List K}
    (hf : List.Forall₂ (fun f (i : Int) => f.properties.get? "nodeid" = some (.int i) ∧ 0 ≤ i) fs ids)
    (hnd : ids.Nodup) (hall : ∀ l : Nat, l ≤ n → (l : Int) ∈ ids)
    (ho : Rain.rasterVolumes fs gt lab water unit attr = .ok out)
    (hv : List.Forall₂ (fun g x => HasNumber g attr x) out vols)
    (hc : cells = (Raster.cellList water.rows water.cols).map water.get) : vols.sum = cells.sum * factor := by
  obtain ⟨out', h1, h2, h3⟩ := C40_raster_volumes (attr := attr) hshape hn hr hu hf
  rw [ho] at h1
  injection h1 with h1
  subst h1
  have h0 : ∀ i ∈ ids, 0 ≤ i := by
    intro i hi
    obtain ⟨k, hk, rfl⟩ := List.getElem_of_mem hi
    have := (List.forall₂_iff_get.1 hf).2 k (by rw [hf.length_eq]; exact hk) hk
    exact this.2
  have hvols : vols = ids.map (rasterShare lab water factor n) := by
    apply List.ext_getElem
    · rw [List.length_map, ← hv.length_eq, h2, hf.length_eq]
    · intro k hk1 hk2
      rw [List.length_map] at hk2
      have hkf : k < fs.length := by rw [hf.length_eq]; exact hk2
      have hko : k < out.length := by rw [h2]; exact hkf
      obtain ⟨g, x, hg, hw, hx1, hx2⟩ := h3 k fs[k] ids[k] (by simp [hkf]) (by simp [hk2])
      have hgv := (List.forall₂_iff_get.1 hv).2 k hko hk1
      simp only [List.get_eq_getElem] at hgv
      rw [List.getElem?_eq_getElem hko] at hg
      injection hg with hg
      rw [hg] at hgv
      obtain ⟨y, hy1, hy2⟩ := hw.value
      obtain ⟨z, hz1, hz2⟩ := hgv
      rw [hy1] at hz1
      injection hz1 with hz1
      subst hz1
      rw [hy2] at hz2
      injection hz2 with hz2
      rw [← hz2, List.getElem_map]
      unfold rasterShare
      split
      · rename_i hle
        rw [hx1 _ (lists_filter lab.rows lab.cols fun c => lab.get c = ids[k]) hle]
        rfl
      · rename_i hle
        exact hx2 (by omega)
  rw [hvols, sum_shares lab water factor n hr hnd h0 hall, hc]
  unfold Raster.cells
  rw [hshape.1, hshape.2]

/-! ## The hypotheses can be met -/

section Example

/-- Two nodes and a junction. -/
def rainNodes : List (Feature Rat) :=
  [⟨some 0, .none, [("nodeid", .int 0), ("wshed_area", .num 30)]⟩, ⟨some 1, .none, [("nodeid", .int 1), ("wshed_area", .num 12)]⟩,
   ⟨some 2, .none, [("nodeid", .int 2), ("wshed_area", .num 0)]⟩]

example : List.Forall₂ (fun f a => HasNumber f "wshed_area" a) rainNodes [30, 12, 0] :=
  .cons ⟨_, rfl, rfl⟩ (.cons ⟨_, rfl, rfl⟩ (.cons ⟨_, rfl, rfl⟩ .nil))

def rainLab : Raster Int := Raster.ofRows [[0, 1], [1, 0]]
def rainWater : Raster Rat := Raster.ofRows [[5, 10], [20, 1]]

/-- C40: labels 0 and 1 have their nodes; the junction 2 gets nothing. -/
example : TopLabel rainLab.rows rainLab.cols rainLab.get none ((1 : Nat) : Int) ∧
    LabelsIn rainLab.rows rainLab.cols rainLab.get ((1 : Nat) : Int) ∧
    (rainLab.rows = rainWater.rows ∧ rainLab.cols = rainWater.cols) ∧
    unitFactor (K := Rat) (|2| * |-2|) .mm = some (4 / 1000) ∧
    List.Forall₂ (fun f (i : Int) => f.properties.get? "nodeid" = some (.int i) ∧ 0 ≤ i) rainNodes [0, 1, 2] ∧
    ∀ l : Nat, l ≤ 1 → (l : Int) ∈ [(0 : Int), 1, 2] := by
  have h : ∀ c ∈ Raster.cellList rainLab.rows rainLab.cols, 0 ≤ rainLab.get c ∧ rainLab.get c ≤ 1 := by decide +kernel
  refine ⟨.inr ⟨.inl rfl, ⟨(0, 1), by decide, by decide⟩, ?_⟩, fun c hc => h c (Flow.mem_cellList.2 hc), by decide,
    by decide +kernel, .cons ⟨rfl, by decide⟩ (.cons ⟨rfl, by decide⟩ (.cons ⟨rfl, by decide⟩ .nil)), by decide⟩
  rintro l ⟨c, hc, rfl⟩
  exact (h c (Flow.mem_cellList.2 hc)).2

example : ((Rain.rasterVolumes rainNodes ⟨0, 2, 0, 0, 0, -2⟩ rainLab rainWater .mm "v").toOption.map fun l =>
    l.map fun f => f.properties.get? "v") = some [some (.num (24 / 1000)), some (.num (120 / 1000)), some (.int 0)] := by
  decide +kernel

end Example

end Malstroem
