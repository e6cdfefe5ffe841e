/-
The sequence of subcommands compared with `complete`, with rounding.
-/
import Verif.Model.ScriptsFloat
import Verif.Proofs.Scripts

set_option linter.unusedSectionVars false

namespace Malstroem
open Spec

namespace Scripts
variable {K : Type} [Field K] [LinearOrder K] [IsStrictOrderedRing K] {β : Type} [LinearOrder β] [OrderTop β]
  {eng : Bluespots.Engine β K} {fl : K → K}

theorem bspotsFl_iff {cc : Raster Bool → Raster Int × Nat} (hcc : LabelContract cc) (hco : CellsOnly cc)
    (heng : Bluespots.IsEngineFl fl eng) {gt : GeoTransform K} {depths : Raster K} (hr : 0 < depths.rows) (hc : 0 < depths.cols)
    {filter : Option (Bluespots.StatUnits K → Bool)} {n : Nat} {L : Raster Int} :
    bspotsFl fl cc eng gt depths filter n = some (.ok L) ↔
      ∃ raw keep, eng.labelStats depths (Bluespots.connectedComponents cc depths).1 none = .ok raw ∧
        Label.keepLabels (Bluespots.connectedComponents cc depths).1
          (Bluespots.filterbluespotsFl fl (filter.getD fun _ => true) (fl (|gt.t1| * |gt.t5|)) raw) 0 = .ok keep ∧ (cc keep).1 = L := by
  cases filter with
  | some f =>
    simp only [bspotsFl, Run.bind_ok, Run.ofExcept_ok, Run.pure_ok, Option.getD_some, exists_and_left]
  | none =>
    simp only [bspotsFl, Run.pure_ok, Option.getD_none]
    obtain ⟨raw, keep, h1, h2, k1, k2, k3, _⟩ := Bluespots.filter_ok hcc heng (fl (|gt.t1| * |gt.t5|)) depths hr hc fun _ => true
    have hsame : cc keep = Bluespots.connectedComponents cc depths := by
      refine hco _ _ ⟨k1, k2, fun c hc => ?_⟩
      have hc' : depths.Has c := by
        show InGrid depths.rows depths.cols c
        rw [← k1, ← k2]; exact hc
      have : keep.get c = true ↔ depths.get c ≠ 0 := by
        rw [k3 c hc']
        refine ⟨fun h => h.1, fun h => ⟨h, ?_⟩⟩
        classical
        refine ⟨_, _, lists_filter _ _ _, Bluespots.stat_isStats fl depths _ ?_, rfl⟩
        refine List.ne_nil_of_mem (a := c) (List.mem_filter.2 ⟨Flow.mem_cellList.2 hc', ?_⟩)
        simpa using ConnectedIn.refl ⟨hc', h⟩
      rw [Bool.eq_iff_iff, this]
      simp
    constructor
    · rintro rfl
      exact ⟨raw, keep, h1, h2, by rw [hsame]⟩
    · rintro ⟨raw', keep', e1, e2, rfl⟩
      rw [h1] at e1; cases e1
      rw [h2] at e2; cases e2
      rw [hsame]

theorem bluespotsFl_iff {cc : Raster Bool → Raster Int × Nat} (hcc : LabelContract cc) (hco : CellsOnly cc)
    (heng : Bluespots.IsEngineFl fl eng) {safe : Raster β → (β → β) × (β → β)} {gt : GeoTransform K} (hsq : SquareCellsFl fl gt)
    {depths : Raster K} {filter : Option (Bluespots.StatUnits K → Bool)} {flowdir : Raster Nat} {acc : Option (Raster Int)}
    {dem : Raster β} {file : ElevFile β} (hdem : acc.isSome ∨ file.read none = dem) {n : Nat} {L W : Raster Int}
    {P : List (Bluespots.PourPoint K)} :
    (∃ b, Bluespots.processFl fl cc eng safe gt depths (some (filter.getD fun _ => true)) flowdir acc (some dem) n =
        some (.ok b) ∧ b.labeled = L ∧ b.watersheds = W ∧ b.pourpoints = P) ↔
      bspotsFl fl cc eng gt depths filter n = some (.ok L) ∧ wsheds eng L flowdir n = some (.ok W) ∧
        pourptsFl fl eng safe gt L depths W (some file) acc n = some (.ok P) := by
  have hshape : ∀ keep : Raster Bool, ∀ raw st f, Label.keepLabels (Bluespots.connectedComponents cc depths).1
      (Bluespots.filterbluespotsFl fl f (fl (|gt.t1| * |gt.t5|)) raw) 0 = .ok keep → eng.labelStats depths (cc keep).1 none = .ok st →
      (0 < depths.rows ∧ 0 < depths.cols) ∧
        Label.resolve (cc keep).1 (some ((cc keep).2 : Int)) = Label.resolve (cc keep).1 none := by
    intro keep raw st f hk hs
    have hpos := stats_resolve heng hs
    obtain ⟨e1, e2, hL⟩ := hcc keep
    have hL' : IsLabelling (cc keep).1.rows (cc keep).1.cols (fun c => keep.get c = true) (cc keep).1.get (cc keep).2 := by
      rw [e1, e2]; exact hL
    refine ⟨?_, by rw [Label.resolve_ok (hL'.topLabel hpos.1 hpos.2), Label.resolve_ok (hL'.topLabel' hpos.1 hpos.2)]⟩
    obtain ⟨c1, c2, _⟩ := hcc { rows := depths.rows, cols := depths.cols, get := fun c => depths.get c ≠ 0 }
    change (Bluespots.connectedComponents cc depths).1.rows = depths.rows at c1
    change (Bluespots.connectedComponents cc depths).1.cols = depths.cols at c2
    have : keep.rows = depths.rows ∧ keep.cols = depths.cols := by
      unfold Label.keepLabels at hk
      split at hk
      · cases hk
      · simp only at hk
        split at hk
        · cases hk; exact ⟨c1, c2⟩
        · cases hk
    omega
  have hpos : bspotsFl fl cc eng gt depths filter n = some (.ok L) → ∀ st, eng.labelStats depths L none = .ok st →
      0 < depths.rows ∧ 0 < depths.cols := by
    intro h st hs
    cases filter with
    | some f =>
      simp only [bspotsFl, Run.bind_ok, Run.ofExcept_ok, Run.pure_ok] at h
      obtain ⟨raw, _, keep, hk, rfl⟩ := h
      exact (hshape keep raw st f hk hs).1
    | none =>
      simp only [bspotsFl, Run.pure_ok] at h
      have := stats_resolve heng hs
      rw [← h] at this
      obtain ⟨c1, c2, _⟩ := hcc { rows := depths.rows, cols := depths.cols, get := fun c => depths.get c ≠ 0 }
      change (Bluespots.connectedComponents cc depths).1.rows = depths.rows at c1
      change (Bluespots.connectedComponents cc depths).1.cols = depths.cols at c2
      omega
  have hsq' := Bluespots.square_assert (fl := fl) hsq
  unfold Bluespots.processFl
  rw [if_neg (by simp)]
  simp only
  rw [if_neg hsq']
  cases acc with
  | some acc =>
    simp only [pourptsFl, wsheds, Run.bind_ok, Run.ofExcept_ok, Run.ofFuel_ok, Run.pure_ok, Option.isNone_some,
      Bool.false_eq_true, false_and, if_false]
    constructor
    · rintro ⟨b, ⟨raw, h1, keep, h2, st, h3, ws, h4, ct, h5, pix, h6, rfl⟩, rfl, rfl, rfl⟩
      obtain ⟨hp, hres⟩ := hshape keep raw st _ h2 h3
      refine ⟨(bspotsFl_iff hcc hco heng hp.1 hp.2).2 ⟨raw, keep, h1, h2, rfl⟩, h4, st, h3, pix, ?_, ct, h5, rfl⟩
      rw [← h6]
      simp only [Label.labelMaxIndex, hres]
    · rintro ⟨h1, h4, st, h3, pix, h6, ct, h5, rfl⟩
      obtain ⟨hr, hc⟩ := hpos h1 st h3
      obtain ⟨raw, keep, hraw, h2, rfl⟩ := (bspotsFl_iff hcc hco heng hr hc).1 h1
      obtain ⟨hp, hres⟩ := hshape keep raw st _ h2 h3
      refine ⟨_, ⟨raw, hraw, keep, h2, st, h3, W, h4, ct, h5, pix, ?_, rfl⟩, rfl, rfl, rfl⟩
      rw [← h6]
      simp only [Label.labelMaxIndex, hres]
  | none =>
    rcases hdem with h | hdem
    · cases h
    simp only [pourptsFl, wsheds, Run.bind_ok, Run.ofExcept_ok, Run.ofFuel_ok, Run.pure_ok, Option.isNone_some,
      Bool.false_eq_true, and_false, if_false, hdem]
    constructor
    · rintro ⟨b, ⟨raw, h1, keep, h2, st, h3, ws, h4, ct, h5, nf, h6, pix, h7, rfl⟩, rfl, rfl, rfl⟩
      obtain ⟨hp, hres⟩ := hshape keep raw st _ h2 h3
      refine ⟨(bspotsFl_iff hcc hco heng hp.1 hp.2).2 ⟨raw, keep, h1, h2, rfl⟩, h4, st, h3, nf, h6, pix, ?_, ct, h5, rfl⟩
      rw [← h7, minIndex_eq heng hres]
    · rintro ⟨h1, h4, st, h3, nf, h6, pix, h7, ct, h5, rfl⟩
      obtain ⟨hr, hc⟩ := hpos h1 st h3
      obtain ⟨raw, keep, hraw, h2, rfl⟩ := (bspotsFl_iff hcc hco heng hr hc).1 h1
      obtain ⟨hp, hres⟩ := hshape keep raw st _ h2 h3
      refine ⟨_, ⟨raw, hraw, keep, h2, st, h3, W, h4, ct, h5, nf, h6, pix, ?_, rfl⟩, rfl, rfl, rfl⟩
      rw [← h7, minIndex_eq heng hres]

theorem sequenceFl_iff [FloorRing K] {histogram : List K → Int → K → K → Except PyErr (List Int)}
    {interp : K → List K → List K → Except PyErr K} {elev : β → K} {cc : Raster Bool → Raster Int × Nat} (hcc : LabelContract cc)
    (hco : CellsOnly cc) {demEngine : Dem.Engine β K} (heng : Bluespots.IsEngineFl fl eng) {sub : β → β → K}
    {safe : Raster β → (β → β) × (β → β)} {subst : β} {near : β → Bool} {gt : GeoTransform K} (hsq : SquareCellsFl fl gt)
    {dem : ElevFile β} {with_accum : Bool} (hdem : with_accum = true ∨ dem.read none = dem.read (some subst))
    {filter : Option (Bluespots.StatUnits K → Bool)} {mm zresolution : K} (hmm : mm ≠ 0)
    (hnear : ∀ n r, demEngine.fillTerrain (dem.read (some subst)) n = some (.ok r) →
      ∀ c, near (r.get c) = true → r.get c = subst) {n : Nat} {files : Files β K} :
    completeFl fl histogram interp elev cc demEngine eng sub safe subst gt dem with_accum filter mm zresolution n = some (.ok files) ↔
      sequenceFl fl histogram interp elev cc demEngine eng sub safe subst near gt dem with_accum filter mm zresolution n = some (.ok files) := by
  have hsq' : Complete.squareCellsFl fl gt = true := by unfold Complete.squareCellsFl; exact decide_eq_true hsq
  have hback : ∀ r, demEngine.fillTerrain (dem.read (some subst)) n = some (.ok r) →
      (⟨r, some near⟩ : ElevFile β).read (some subst) = r := by
    intro r hr
    show ({ r with get := fun c => if near (r.get c) then subst else r.get c } : Raster β) = r
    have : (fun c => if near (r.get c) then subst else r.get c) = r.get := by
      funext c
      split
      · rename_i h; exact (hnear n r hr c h).symm
      · rfl
    rw [this]
  have hvol : ∀ nodes : List (Feature K), initvolumesFl fl nodes (some mm) none .mm none "inputv" =
      Rain.simpleVolumesFl fl nodes "inputv" mm := by
    intro nodes
    simp [initvolumesFl, Option.filter, hmm]
  unfold completeFl sequenceFl Complete.processWithLevelsFl Complete.processAllFl
  simp only [Run.bind_ok, Run.ofFuel_ok, Run.ofExcept_ok, Run.pure_ok, hsq', dem_iff, filled, flowdir, network, hypsFl,
    finalvolumesFl, finallevelsFl, finalbluespotsFl, hvol]
  constructor
  · rintro ⟨_, ⟨_, ⟨d, ⟨filled, nf, h1, h2, acc, h3, rfl⟩, b, h4, s, h5, vol, h6, fin, h7, rfl⟩, hy, h8, lv, h9, fd, h10, rfl⟩,
      rfl⟩
    have hacc : acc.isSome ∨ dem.read none = dem.read (some subst) := by
      rcases hdem with rfl | h
      · simp only [if_true, Run.map_ok] at h3
        obtain ⟨a, _, rfl⟩ := h3
        exact .inl rfl
      · exact .inr h
    obtain ⟨h11, h12, h13⟩ := (bluespotsFl_iff hcc hco heng hsq hacc).1 ⟨b, h4, rfl, rfl, rfl⟩
    refine ⟨_, ⟨filled, h1, rfl⟩, _, ⟨nf, h2, rfl⟩, acc, h3, b.labeled, ?_, b.watersheds, h12, b.pourpoints, ?_, s, h5, hy, h8, vol, h6, fin,
      h7, lv, h9, fd, ?_, ?_⟩
    · simp only [depths, hback filled h1]; exact h11
    · simp only [depths, hback filled h1]; exact h13
    · rw [if_neg (by simp), Run.ofExcept_ok]; exact h10
    · simp only [depths, hback filled h1]
  · rintro ⟨_, ⟨filled, h1, rfl⟩, _, ⟨nf, h2, rfl⟩, acc, h3, L, h11, W, h12, P, h13, s, h5, hy, h8, vol, h6, fin,
      h7, lv, h9, fd, h10, rfl⟩
    have hacc : acc.isSome ∨ dem.read none = dem.read (some subst) := by
      rcases hdem with rfl | h
      · simp only [if_true, Run.map_ok] at h3
        obtain ⟨a, _, rfl⟩ := h3
        exact .inl rfl
      · exact .inr h
    simp only [depths, hback filled h1] at h11 h13 ⊢
    rw [if_neg (by simp), Run.ofExcept_ok] at h10
    obtain ⟨b, h4, rfl, rfl, rfl⟩ := (bluespotsFl_iff hcc hco heng hsq hacc).2 ⟨h11, h12, h13⟩
    exact ⟨_, ⟨_, ⟨_, ⟨filled, nf, h1, h2, acc, h3, rfl⟩, b, h4, s, h5, vol, h6, fin, h7, rfl⟩, hy, h8, lv, h9, fd, h10, rfl⟩, rfl⟩

end Scripts
end Malstroem
