import Verif.Proofs.LevelIo
import Verif.Model.LevelsFloat
import Verif.Spec.Bluespots

set_option linter.unusedSectionVars false

namespace Malstroem
open Spec

variable {K : Type} [Field K] [LinearOrder K] [IsStrictOrderedRing K] [FloorRing K]

theorem hypsometryIoFl_ok {fl : K → K} {histogram : List K → Int → K → K → Except PyErr (List Int)} {lab : Raster Int} {dem : Raster K} {gt gt' : GeoTransform K} {res : K}
    {pourpoints : List (Feature K)} {ids : List Int} {n : Nat} (hres : 0 < res)
    (hshape : lab.rows = dem.rows ∧ lab.cols = dem.cols)
    (hgt : Hyps.almostEqualFl fl |gt.t5| |gt'.t5| = true ∧ Hyps.almostEqualFl fl |gt.t1| |gt'.t1| = true)
    (hn : TopLabel lab.rows lab.cols lab.get none n)
    (hids : List.Forall₂ (fun f i => f.properties.get? "bspot_id" = some (.int i)) pourpoints ids)
    (hnd : ids.Nodup) (hall : ∀ i, i ∈ ids ↔ 0 ≤ i ∧ i ≤ n)
    {items : List (Int × Hyps.Stats K)} (hitems : Hyps.hypsometryStatsFl fl histogram lab dem res (some n) 0 = .ok items)
    (hkeys : items.map (·.1) = (List.range (n + 1)).map fun (l : Nat) => (l : Int))
    (hvalid : ∀ x ∈ items, (x.2.zhistogram.counts.length : Int) = x.2.zhistogram.bins.num_bins) :
    ∃ out, Hyps.hypsometryIoFl fl histogram lab gt dem gt' pourpoints res = .ok out ∧
      List.Forall₂ (fun fi g => ∃ s, Dict.get? items fi.2 = some s ∧ IsHypsFeature (cellAreaFl fl gt) s fi.1 g)
        (pourpoints.zip ids) out := by
  have hmax : Label.npMax lab = .ok (n : Int) := by
    rcases hn with ⟨h, _⟩ | ⟨_, hg⟩
    · cases h
    · exact Label.npMax_spec hg
  have hkey : List.Forall₂ (fun f i => Hyps.intId f = .ok i) pourpoints ids := hids.imp fun f i h => by
    unfold Hyps.intId Feature.prop
    simp only [Dict.getItem_ok.2 h, bind, Except.bind]; rfl
  have hfold := Dict.foldlM_index (key := Hyps.intId) [] hkey (by simpa using hnd)
  rw [List.nil_append] at hfold
  have hzk : (ids.zip pourpoints).map (·.1) = ids := by
    rw [List.map_fst_zip]; rw [hids.length_eq]
  have hzv : (ids.zip pourpoints).map (·.2) = pourpoints := by
    rw [List.map_snd_zip]; rw [hids.length_eq]
  have hmem : ∀ i : Int, i ∈ items.map (·.1) ↔ 0 ≤ i ∧ i ≤ n := by
    intro i
    rw [hkeys, List.mem_map]
    constructor
    · rintro ⟨l, hl, rfl⟩
      rw [List.mem_range] at hl; omega
    · rintro ⟨h1, h2⟩
      exact ⟨i.toNat, List.mem_range.2 (by omega), by omega⟩
  have hitnd : (items.map (·.1)).Nodup := by
    rw [hkeys]
    exact List.nodup_range.map fun a b h => by simpa using h
  have hadd := fold_addHypsometry (fl (|gt.t5| * |gt.t1|)) items (ids.zip pourpoints) (by rw [hzk]; exact hnd) hitnd
    (fun i hi => by rw [hzk, hall, ← hmem]; exact hi)
  refine ⟨Dict.values ((ids.zip pourpoints).map fun kv => (kv.1,
      match Dict.get? items kv.1 with
      | some s => addProps (fl (|gt.t5| * |gt.t1|)) s kv.2
      | none => kv.2)), ?_, ?_⟩
  · unfold Hyps.hypsometryIoFl
    rw [if_neg (by simpa using hres), if_neg (by simpa using hshape), if_neg (by simpa using hgt.1),
      if_neg (by simpa using hgt.2)]
    simp only
    erw [hfold]
    simp only [bind, Except.bind, hmax, Dict.values, hzv, mapM_of_forall₂ hkey,
      pyMax_ok ((hall n).2 ⟨by omega, le_refl _⟩) fun i hi => ((hall i).1 hi).2, hitems, hadd, not_true, if_false]
    rfl
  · rw [Dict.values, List.map_map]
    have hzip : pourpoints.zip ids = (ids.zip pourpoints).map Prod.swap := (List.zip_swap _ _).symm
    rw [hzip, List.forall₂_map_left_iff, List.forall₂_map_right_iff, List.forall₂_same]
    rintro ⟨i, f⟩ hx
    have hi : i ∈ items.map (·.1) := by
      rw [hmem, ← hall, ← hzk]
      exact List.mem_map_of_mem (f := fun (x : Int × Feature K) => x.1) hx
    cases hs : Dict.get? items i with
    | none => exact absurd hi (Dict.get?_eq_none.1 hs)
    | some s =>
      refine ⟨s, hs, ?_⟩
      simp only [Function.comp, hs, Prod.swap]
      obtain ⟨h1, h2, h3, h4, h5⟩ := addProps_spec (fl (|gt.t5| * |gt.t1|)) s f (hvalid _ (Dict.mem_of_get? hs))
      exact ⟨h1, h2, h3, h4, h5.trans (by unfold cellAreaFl; rw [mul_comm])⟩

theorem levelFeatureFl_ok {fl : K → K} {interp : K → List K → List K → Except PyErr K} {idx : Dict Int (Feature K)} {f g : Feature K} {i j : Int} {v area vol : K} {d : WithBot K}
    {s : Hyps.Stats K} {z dv : Val K} (h1 : f.properties.get? "bspot_id" = some (.int i)) (h2 : HasNumber f "v" v)
    (h3 : idx.get? i = some g) (h4 : g.properties.get? "bspot_id" = some (.int j))
    (h5 : Hyps.fromFlatdict g.properties = .ok s) (h6 : g.properties.get? "cell_area" = some (.num area))
    (h7 : g.properties.get? "bspot_dmax" = some dv) (h7' : dv.floatBot = .ok d) (h8 : HasNumber g "bspot_vol" vol)
    (h9 : Approx.waterLevelFl fl interp s area d vol v = .ok z) :
    ∃ g', Approx.levelFeatureFl fl interp idx f = .ok g' ∧ IsLevelFeature z (Approx.approxDmaxFl fl z s.zmin) f g' := by
  obtain ⟨y, hy1, hy2⟩ := h2
  obtain ⟨w, hw1, hw2⟩ := h8
  refine ⟨⟨f.id, f.geometry, Dict.set (Dict.set f.properties "approx_z" z) "approx_dmax"
    (Approx.approxDmaxFl fl z s.zmin)⟩, ?_, rfl, rfl, fun k hk1 hk2 => ?_, ?_, ?_⟩
  · have hfl : (Val.num area : Val K).float = .ok area := rfl
    unfold Approx.levelFeatureFl Approx.bspotId Feature.prop
    simp only [Dict.getItem_ok.2 h1, bind, Except.bind, Val.toInt, Dict.getItem_ok.2 hy1, hy2, Dict.getItem_ok.2 h3,
      Dict.getItem_ok.2 h4, h5, Dict.getItem_ok.2 h6, hfl, Dict.getItem_ok.2 h7, h7', Dict.getItem_ok.2 hw1, hw2,
      h9]
    rfl
  · simp only
    rw [Dict.get?_set, if_neg (Ne.symm hk2), Dict.get?_set, if_neg (Ne.symm hk1)]
  · simp only
    rw [Dict.get?_set, if_neg (by decide), Dict.get?_set, if_pos rfl]
  · simp only
    rw [Dict.get?_set, if_pos rfl]

theorem waterLevelIoFl_ok {fl : K → K} {interp : K → List K → List K → Except PyErr K} {finalvols hyps : List (Feature K)} {ids : List Int}
    (hids : List.Forall₂ (fun g i => g.properties.get? "bspot_id" = some (.int i)) hyps ids) (hnd : ids.Nodup)
    (ht : ∀ f ∈ finalvols, ∃ t, f.properties.get? "nodetype" = some t)
    (hlevel : ∀ f ∈ finalvols, f.properties.get? "nodetype" = some (.str "pourpoint") →
      ∃ i v, f.properties.get? "bspot_id" = some (.int i) ∧ HasNumber f "v" v ∧ ∃ g, (i, g) ∈ ids.zip hyps ∧
        ∃ s area dv d vol z, Hyps.fromFlatdict g.properties = .ok s ∧ g.properties.get? "cell_area" = some (.num area) ∧
          g.properties.get? "bspot_dmax" = some dv ∧ dv.floatBot = .ok d ∧ HasNumber g "bspot_vol" vol ∧
          Approx.waterLevelFl fl interp s area d vol v = .ok z) :
    ∃ out, Approx.waterLevelIoFl fl interp finalvols hyps = .ok out ∧
      List.Forall₂ (fun f f' => ∀ i g, f.properties.get? "bspot_id" = some (.int i) → (i, g) ∈ ids.zip hyps →
        ∃ s z, Hyps.fromFlatdict g.properties = .ok s ∧ IsLevelFeature z (Approx.approxDmaxFl fl z s.zmin) f f' ∧
          ∀ area dv d vol v, g.properties.get? "cell_area" = some (.num area) →
            g.properties.get? "bspot_dmax" = some dv → dv.floatBot = .ok d → HasNumber g "bspot_vol" vol →
            HasNumber f "v" v → Approx.waterLevelFl fl interp s area d vol v = .ok z)
        (finalvols.filter fun f => f.properties.get? "nodetype" = some (.str "pourpoint")) out := by
  have hkey : List.Forall₂ (fun (f : Feature K) i => Approx.bspotId f = .ok i)
      hyps ids := hids.imp fun f i h => by
    unfold Approx.bspotId Feature.prop
    simp only [Dict.getItem_ok.2 h, bind, Except.bind]; rfl
  have hfold := Dict.foldlM_index (key := Approx.bspotId (K := K)) []
    hkey (by simpa using hnd)
  rw [List.nil_append] at hfold
  have hzk : (ids.zip hyps).map (·.1) = ids := by
    rw [List.map_fst_zip]; rw [hids.length_eq]
  have hnum : ∀ {f : Feature K} {a : String} {x y : K}, HasNumber f a x → HasNumber f a y → x = y := by
    rintro f a x y ⟨p, hp1, hp2⟩ ⟨q, hq1, hq2⟩
    rw [hp1] at hq1; cases hq1
    rw [hp2] at hq2; exact Except.ok.inj hq2
  have hgid : ∀ i g, (i, g) ∈ ids.zip hyps → g.properties.get? "bspot_id" = some (.int i) := by
    intro i g hig
    have : List.Forall₂ (fun (i : Int) (g : Feature K) => g.properties.get? "bspot_id" = some (.int i)) ids hyps :=
      hids.flip
    have h := List.forall₂_iff_zip.1 this
    exact h.2 hig
  obtain ⟨out, ho1, ho2⟩ := mapM_exists (f := Approx.levelFeatureFl fl interp (ids.zip hyps))
    (l := finalvols.filter fun f => f.properties.get? "nodetype" = some (.str "pourpoint")) (by
      intro f hf
      rw [List.mem_filter] at hf
      obtain ⟨i, v, h1, h2, g, hg, s, area, dv, d, vol, z, h3, h4, h5, h5', h6, h7⟩ := hlevel f hf.1 (by simpa using hf.2)
      obtain ⟨g', hg', _⟩ := levelFeatureFl_ok h1 h2 (Dict.get?_of_mem (by rw [hzk]; exact hnd) hg) (hgid i g hg) h3 h4 h5
        h5' h6 h7
      exact ⟨g', hg'⟩)
  refine ⟨out, ?_, ?_⟩
  · unfold Approx.waterLevelIoFl
    rw [hfold]
    simp only [bind, Except.bind, pourpointsOf_ok ht, ho1]
  · rw [List.forall₂_iff_zip] at ho2 ⊢
    refine ⟨ho2.1, fun {f f'} hff => ?_⟩
    have hlf := ho2.2 hff
    have hf := (List.mem_filter.1 (List.of_mem_zip hff).1)
    obtain ⟨i, v, h1, h2, g, hg, s, area, dv, d, vol, z, h3, h4, h5, h5', h6, h7⟩ := hlevel f hf.1 (by simpa using hf.2)
    have hgi := Dict.get?_of_mem (by rw [hzk]; exact hnd) hg
    obtain ⟨g', hg', hl⟩ := levelFeatureFl_ok h1 h2 hgi (hgid i g hg) h3 h4 h5 h5' h6 h7
    rw [hlf] at hg'; cases hg'
    intro i' g' hi' hig'
    rw [h1] at hi'; cases hi'
    have hgi' := Dict.get?_of_mem (by rw [hzk]; exact hnd) hig'
    rw [hgi] at hgi'; cases hgi'
    refine ⟨s, z, h3, hl, fun area' dv' d' vol' v' e1 e2 e2' e3 e4 => ?_⟩
    rw [h4] at e1; cases e1
    rw [h5] at e2; cases e2
    rw [h5'] at e2'; cases e2'
    rw [← hnum h6 e3, ← hnum h2 e4]
    exact h7

end Malstroem
