/-
Property C129: with rounding, the subcommands run one after the other write the same files as `complete`, to the last bit.
-/
import Verif.Proofs.ScriptsFloat
import Verif.Props.Scripts
import Verif.Props.LevelsFloat

set_option linter.unusedSectionVars false

namespace Malstroem
open Spec

namespace Scripts
section
variable {K : Type} [Field K] [LinearOrder K] [IsStrictOrderedRing K] [FloorRing K] {β : Type} [LinearOrder β] [OrderTop β]

/-- Without rounding this is `complete` of Scripts.lean. -/
theorem completeFl_id (elev : β → K) (cc : Raster Bool → Raster Int × Nat) (demEngine : Dem.Engine β K)
    (eng : Bluespots.Engine β K) (sub : β → β → K) (safe : Raster β → (β → β) × (β → β)) (subst : β) (gt : GeoTransform K)
    (dem : ElevFile β) (with_accum : Bool) (filter : Option (Bluespots.StatUnits K → Bool)) (mm zresolution : K) :
    completeFl id npHistogram Approx.npInterp elev cc demEngine eng sub safe subst gt dem with_accum filter mm zresolution =
      complete elev cc demEngine eng sub safe subst gt dem with_accum filter mm zresolution := by
  unfold completeFl complete
  rw [Complete.processWithLevelsFl_id]

/-- Without rounding this is `sequence` of Scripts.lean. -/
theorem sequenceFl_id (elev : β → K) (cc : Raster Bool → Raster Int × Nat) (demEngine : Dem.Engine β K)
    (eng : Bluespots.Engine β K) (sub : β → β → K) (safe : Raster β → (β → β) × (β → β)) (subst : β) (near : β → Bool)
    (gt : GeoTransform K) (dem : ElevFile β) (with_accum : Bool) (filter : Option (Bluespots.StatUnits K → Bool)) (mm zresolution : K) :
    sequenceFl id npHistogram Approx.npInterp elev cc demEngine eng sub safe subst near gt dem with_accum filter mm zresolution =
      sequence elev cc demEngine eng sub safe subst near gt dem with_accum filter mm zresolution := by
  have h1 : bspotsFl (β := β) (K := K) id = bspots := rfl
  have h2 : pourptsFl (β := β) (K := K) id = pourpts := rfl
  have h3 : initvolumesFl (K := K) id = initvolumes := rfl
  have h4 : finalvolumesFl (K := K) id = finalvolumes := rfl
  have h5 : hypsFl (β := β) (K := K) id npHistogram elev = hyps elev := by
    funext a b c d e f
    unfold hypsFl hyps
    rw [Hyps.hypsometryIoFl_id]
  have h6 : finallevelsFl (K := K) id Approx.npInterp = finallevels := by
    funext a b
    unfold finallevelsFl finallevels
    rw [Approx.waterLevelIoFl_id]
  have h7 : finalbluespotsFl (β := β) (K := K) id elev = finalbluespots elev := rfl
  unfold sequenceFl sequence
  rw [h1, h2, h3, h4, h5, h6, h7]

/-- C129: with a rounding `fl` after every operation, whatever it is, `complete` returns files if and only if the sequence of
subcommands does, and the files are the same. As in C68: cells are square, the rain is not 0, with the accumulated flow or a DEM
without nodata cells, and no filled elevation is taken for the nodata value -999 without being it. -/
theorem C129_sequence_is_complete (fl : K → K) (histogram : List K → Int → K → K → Except PyErr (List Int))
    (interp : K → List K → List K → Except PyErr K) (elev : β → K) {cc : Raster Bool → Raster Int × Nat} (hcc : LabelContract cc)
    (hco : CellsOnly cc) (demEngine : Dem.Engine β K) {eng : Bluespots.Engine β K} (heng : Bluespots.IsEngineFl fl eng)
    (sub : β → β → K) (safe : Raster β → (β → β) × (β → β)) (subst : β) (near : β → Bool) {gt : GeoTransform K}
    (hsq : SquareCellsFl fl gt) (dem : ElevFile β) (with_accum : Bool)
    (hdem : with_accum = true ∨ dem.read none = dem.read (some subst))
    (filter : Option (Bluespots.StatUnits K → Bool)) {mm : K} (hmm : mm ≠ 0) (zresolution : K)
    (hnear : ∀ n r, demEngine.fillTerrain (dem.read (some subst)) n = some (.ok r) →
      ∀ c, near (r.get c) = true → r.get c = subst) (files : Files β K) :
    (completeFl fl histogram interp elev cc demEngine eng sub safe subst gt dem with_accum filter mm zresolution).Yields (.ok files) ↔
      (sequenceFl fl histogram interp elev cc demEngine eng sub safe subst near gt dem with_accum filter mm zresolution).Yields
        (.ok files) := by
  unfold Run.Yields Returns
  simp only [sequenceFl_iff hcc hco heng hsq hdem hmm hnear]

end
end Scripts

namespace Float
open Malstroem.Network Scripts

/-- C129 for a float32 DEM: the sequence of subcommands ends without an error and writes the files of `complete`. What all nodes
hold and the roots spill is the rain, up to 3 roundings for every node and 5. -/
theorem C129_run {fl fl32 nextafter : Rat → Rat} {interp : Rat → List Rat → List Rat → Except PyErr Rat}
    {histogram : List Rat → Int → Rat → Rat → Except PyErr (List Int)} (hfl : IsRounding 53 (-1074) fl)
    (hfl32 : IsRounding 24 (-149) fl32) (hnext : IsNextAfter nextafter)
    {dem : Raster (WithTop F64)} (hdem : IsDem32 dem) (hsize : dem.rows * dem.cols ≤ 2 ^ 50) {cc : Raster Bool → Raster Int × Nat}
    (hcc : LabelContract cc) (hco : CellsOnly cc) {gt : GeoTransform Rat} {mm : Rat} (hsq : SquareCellsFl fl gt) (hg : FloatRain gt mm)
    (hmm : mm ≠ 0) (hcell : |gt.t1| ≤ 2 ^ 100 ∧ |gt.t5| ≤ 2 ^ 100) (hi : Interpolates fl interp) {conv : Rat → Rat}
    (hh : HistogramCounts conv histogram)
    {res : Rat} (hres : 2 ^ (-100 : Int) ≤ res ∧ res ≤ 2 ^ 100) (hz : ∀ c, dem.Has c → num (dem.get c) ≤ 2 ^ 20 * res)
    (hnn : ∀ c z, dem.Has c → IsSpillLevel dem.rows dem.cols dem.get c z → dem.get c < z → 0 ≤ num (dem.get c))
    (subst : WithTop F64) (near : WithTop F64 → Bool)
    (hnear : ∀ n r, Fill.fillTerrain dem n = some (.ok r) → ∀ c, near (r.get c) = true → r.get c = subst)
    (want : Bool) (filter : Option (Bluespots.StatUnits Rat → Bool)) :
    ∃ files, (completeFl fl histogram interp num cc (Dem.python (fsub fl) fun x => fl (x * (1 / Fill.sqrt2))) (Bluespots.pythonFl fl)
        (fsub fl32) (fsafe hfl nextafter) subst gt ⟨dem, none⟩ want filter mm res).Yields (.ok files) ∧
      (sequenceFl fl histogram interp num cc (Dem.python (fsub fl) fun x => fl (x * (1 / Fill.sqrt2))) (Bluespots.pythonFl fl)
        (fsub fl32) (fsafe hfl nextafter) subst near gt ⟨dem, none⟩ want filter mm res).Yields (.ok files) ∧
      ∃ vs ss, List.Forall₂ (fun f x => HasNumber f "v" x) files.finalvolumes vs ∧
        List.Forall₂ (fun f x => HasNumber f "spillv" x) (files.finalvolumes.filter fun f => IsRoot f) ss ∧
        Rounded (3 * files.finalvolumes.length + 5) (vs.sum + ss.sum) (mm / 1000 * ((dem.rows * dem.cols : Nat) * cellArea gt)) := by
  obtain ⟨out, lv, _, _, _, _, h1, h2, -⟩ := C124_complete hfl hfl32 hnext hdem hsize hcc hsq hg hcell hi hh hres hz hnn want
    (filter.getD fun _ => true)
  obtain ⟨out', h3, hw, -⟩ := C78_balance hfl hfl32 hnext hdem hsize hcc hsq hg want (filter.getD fun _ => true)
  have := Except.ok.inj (Run.Yields.unique h2 h3)
  subst this
  have hc : (completeFl fl histogram interp num cc (Dem.python (fsub fl) fun x => fl (x * (1 / Fill.sqrt2))) (Bluespots.pythonFl fl)
      (fsub fl32) (fsafe hfl nextafter) subst gt ⟨dem, none⟩ want filter mm res).Yields _ :=
    Run.yields_bind h1 (Run.yields_pure _)
  exact ⟨_, hc, (C129_sequence_is_complete fl histogram interp num hcc hco _ (.inl rfl) _ _ subst near hsq ⟨dem, none⟩ want (.inr rfl)
    filter hmm res hnear _).1 hc, hw⟩

/-- The hypotheses of C129 can be met: the DEM, cells, rain and resolution of C124. -/
example : ∃ fl fl32 nextafter cc w interp histogram files, ∃ hfl : IsRounding 53 (-1074) fl, w = fl (16 / 10) ∧
    (sequenceFl fl histogram interp num cc (Dem.python (fsub fl) fun x => fl (x * (1 / Fill.sqrt2))) (Bluespots.pythonFl fl)
        (fsub fl32) (fsafe hfl nextafter) ⊤ (fun x => decide (x = ⊤)) ⟨0, w, 0, 0, 0, -w⟩ ⟨demo, none⟩ true none 10 tenth).Yields (.ok files) := by
  obtain ⟨fl, fl32, next, _, w, h1, h2, h3, h4, h5, _, h7, h8, h9, h10, h11, h12, h13, h14, h15⟩ := demo_levels
  obtain ⟨cc, k1, k2⟩ := exists_labelContract_cellsOnly
  obtain ⟨files, -, h, -⟩ := C129_run h1 h2 h3 h4 h5 k1 k2 h8 h9 (by norm_num) h10 h11 h12 h13 h14 h15 ⊤ (fun x => decide (x = ⊤))
    (fun _ _ _ _ hc => of_decide_eq_true hc) true none
  exact ⟨fl, fl32, next, cc, w, _, _, files, h1, h7, h⟩

end Float
end Malstroem
