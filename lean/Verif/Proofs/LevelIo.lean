import Verif.Proofs.HypsIo
import Verif.Spec.Rain

set_option linter.unusedSectionVars false

namespace Malstroem
open Spec

variable {K : Type} [Field K] [LinearOrder K] [IsStrictOrderedRing K] [FloorRing K]

theorem levelFeature_ok {idx : Dict Int (Feature K)} {f g : Feature K} {i j : Int} {v area vol : K} {d : WithBot K}
    {s : Hyps.Stats K} {z dv : Val K} (h1 : f.properties.get? "bspot_id" = some (.int i)) (h2 : HasNumber f "v" v)
    (h3 : idx.get? i = some g) (h4 : g.properties.get? "bspot_id" = some (.int j))
    (h5 : Hyps.fromFlatdict g.properties = .ok s) (h6 : g.properties.get? "cell_area" = some (.num area))
    (h7 : g.properties.get? "bspot_dmax" = some dv) (h7' : dv.floatBot = .ok d) (h8 : HasNumber g "bspot_vol" vol)
    (h9 : Approx.waterLevel s area d vol v = .ok z) :
    ∃ g', Approx.levelFeature idx f = .ok g' ∧ IsLevelFeature z (Approx.approxDmax z s.zmin) f g' := by
  obtain ⟨y, hy1, hy2⟩ := h2
  obtain ⟨w, hw1, hw2⟩ := h8
  refine ⟨⟨f.id, f.geometry, Dict.set (Dict.set f.properties "approx_z" z) "approx_dmax"
    (Approx.approxDmax z s.zmin)⟩, ?_, rfl, rfl, fun k hk1 hk2 => ?_, ?_, ?_⟩
  · have hfl : (Val.num area : Val K).float = .ok area := rfl
    unfold Approx.levelFeature Approx.bspotId Feature.prop
    simp only [Dict.getItem_ok.2 h1, bind, Except.bind, Val.toInt, Dict.getItem_ok.2 hy1, hy2, Dict.getItem_ok.2 h3,
      Dict.getItem_ok.2 h4, h5, Dict.getItem_ok.2 h6, hfl, Dict.getItem_ok.2 h7, h7', Dict.getItem_ok.2 hw1, hw2,
      h9]
    rfl
  · simp only
    rw [Dict.get?_set, if_neg (Ne.symm hk2), Dict.get?_set, if_neg (Ne.symm hk1)]
  · simp only
    rw [Dict.get?_set, if_neg (by decide), Dict.get?_set, if_pos rfl]
  · simp only
    rw [Dict.get?_set, if_pos rfl]

theorem pourpointsOf_ok {l : List (Feature K)} (h : ∀ f ∈ l, ∃ t, f.properties.get? "nodetype" = some t) :
    Approx.pourpointsOf l = .ok (l.filter fun f => f.properties.get? "nodetype" = some (.str "pourpoint")) := by
  induction l with
  | nil => rfl
  | cons f l ih =>
    obtain ⟨t, ht⟩ := h f (by simp)
    unfold Approx.pourpointsOf Feature.prop
    simp only [Dict.getItem_ok.2 ht, bind, Except.bind, ih fun g hg => h g (by simp [hg])]
    by_cases hp : t = .str "pourpoint"
    · rw [List.filter_cons_of_pos (by simp [ht, hp]), if_pos hp]; rfl
    · rw [List.filter_cons_of_neg (by simp [ht, hp]), if_neg hp]; rfl

theorem background_level {zs : List K} {s : Hyps.Stats K} (h : Hyps.IsBackground zs s) (area vol v : K) (d : WithBot K)
    (h0 : zs = [] → vol = 0) : ∃ z, Approx.waterLevel s area d vol v = .ok z := by
  unfold Approx.waterLevel
  split
  · cases s.zmin <;> cases d <;> exact ⟨_, rfl⟩
  · next hc =>
    obtain ⟨zmin, zmax, h1, h2, _⟩ := h.2.2 fun he => hc (.inl (h0 he))
    rw [h1, h2, h.1]
    show ∃ z, (Approx.npInterp v [0, vol] [zmin, zmax]).map Val.num = .ok z
    unfold Approx.npInterp
    rw [if_neg (by simp)]
    obtain ⟨y, hy⟩ := interp_ok v (l := [(0, zmin), (vol, zmax)]) (by simp)
    exact ⟨.num y, by show (Approx.npInterpPairs v [(0, zmin), (vol, zmax)]).map Val.num = _; rw [hy]; rfl⟩

/-- The loop over the final state features. -/
theorem waterLevelIo_ok {finalvols hyps : List (Feature K)} {ids : List Int}
    (hids : List.Forall₂ (fun g i => g.properties.get? "bspot_id" = some (.int i)) hyps ids) (hnd : ids.Nodup)
    (ht : ∀ f ∈ finalvols, ∃ t, f.properties.get? "nodetype" = some t)
    (hlevel : ∀ f ∈ finalvols, f.properties.get? "nodetype" = some (.str "pourpoint") →
      ∃ i v, f.properties.get? "bspot_id" = some (.int i) ∧ HasNumber f "v" v ∧ ∃ g, (i, g) ∈ ids.zip hyps ∧
        ∃ s area dv d vol z, Hyps.fromFlatdict g.properties = .ok s ∧ g.properties.get? "cell_area" = some (.num area) ∧
          g.properties.get? "bspot_dmax" = some dv ∧ dv.floatBot = .ok d ∧ HasNumber g "bspot_vol" vol ∧
          Approx.waterLevel s area d vol v = .ok z) :
    ∃ out, Approx.waterLevelIo finalvols hyps = .ok out ∧
      List.Forall₂ (fun f f' => ∀ i g, f.properties.get? "bspot_id" = some (.int i) → (i, g) ∈ ids.zip hyps →
        ∃ s z, Hyps.fromFlatdict g.properties = .ok s ∧ IsLevelFeature z (Approx.approxDmax z s.zmin) f f' ∧
          ∀ area dv d vol v, g.properties.get? "cell_area" = some (.num area) →
            g.properties.get? "bspot_dmax" = some dv → dv.floatBot = .ok d → HasNumber g "bspot_vol" vol →
            HasNumber f "v" v → Approx.waterLevel s area d vol v = .ok z)
        (finalvols.filter fun f => f.properties.get? "nodetype" = some (.str "pourpoint")) out := by
  have hkey : List.Forall₂ (fun (f : Feature K) i => Approx.bspotId f = .ok i)
      hyps ids := hids.imp fun f i h => by
    unfold Approx.bspotId Feature.prop
    simp only [Dict.getItem_ok.2 h, bind, Except.bind]; rfl
  have hfold := Dict.foldlM_index (key := Approx.bspotId (K := K)) []
    hkey (by simpa using hnd)
  rw [List.nil_append] at hfold
  have hzk : (ids.zip hyps).map (·.1) = ids := by
    rw [List.map_fst_zip]; rw [hids.length_eq]
  have hnum : ∀ {f : Feature K} {a : String} {x y : K}, HasNumber f a x → HasNumber f a y → x = y := by
    rintro f a x y ⟨p, hp1, hp2⟩ ⟨q, hq1, hq2⟩
    rw [hp1] at hq1; cases hq1
    rw [hp2] at hq2; exact Except.ok.inj hq2
  have hgid : ∀ i g, (i, g) ∈ ids.zip hyps → g.properties.get? "bspot_id" = some (.int i) := by
    intro i g hig
    have : List.Forall₂ (fun (i : Int) (g : Feature K) => g.properties.get? "bspot_id" = some (.int i)) ids hyps :=
      hids.flip
    have h := List.forall₂_iff_zip.1 this
    exact h.2 hig
  obtain ⟨out, ho1, ho2⟩ := mapM_exists (f := Approx.levelFeature (ids.zip hyps))
    (l := finalvols.filter fun f => f.properties.get? "nodetype" = some (.str "pourpoint")) (by
      intro f hf
      rw [List.mem_filter] at hf
      obtain ⟨i, v, h1, h2, g, hg, s, area, dv, d, vol, z, h3, h4, h5, h5', h6, h7⟩ := hlevel f hf.1 (by simpa using hf.2)
      obtain ⟨g', hg', _⟩ := levelFeature_ok h1 h2 (Dict.get?_of_mem (by rw [hzk]; exact hnd) hg) (hgid i g hg) h3 h4 h5
        h5' h6 h7
      exact ⟨g', hg'⟩)
  refine ⟨out, ?_, ?_⟩
  · unfold Approx.waterLevelIo
    rw [hfold]
    simp only [bind, Except.bind, pourpointsOf_ok ht, ho1]
  · rw [List.forall₂_iff_zip] at ho2 ⊢
    refine ⟨ho2.1, fun {f f'} hff => ?_⟩
    have hlf := ho2.2 hff
    have hf := (List.mem_filter.1 (List.of_mem_zip hff).1)
    obtain ⟨i, v, h1, h2, g, hg, s, area, dv, d, vol, z, h3, h4, h5, h5', h6, h7⟩ := hlevel f hf.1 (by simpa using hf.2)
    have hgi := Dict.get?_of_mem (by rw [hzk]; exact hnd) hg
    obtain ⟨g', hg', hl⟩ := levelFeature_ok h1 h2 hgi (hgid i g hg) h3 h4 h5 h5' h6 h7
    rw [hlf] at hg'; cases hg'
    intro i' g' hi' hig'
    rw [h1] at hi'; cases hi'
    have hgi' := Dict.get?_of_mem (by rw [hzk]; exact hnd) hig'
    rw [hgi] at hgi'; cases hgi'
    refine ⟨s, z, h3, hl, fun area' dv' d' vol' v' e1 e2 e2' e3 e4 => ?_⟩
    rw [h4] at e1; cases e1
    rw [h5] at e2; cases e2
    rw [h5'] at e2'; cases e2'
    rw [← hnum h6 e3, ← hnum h2 e4]
    exact h7

end Malstroem
