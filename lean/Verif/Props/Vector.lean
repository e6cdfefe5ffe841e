/-
Properties C70 (features written to a layer are read back) and C71 (the results of the commands do not depend on their
intermediate vector files).
-/
import Verif.Proofs.Vector
import Verif.Proofs.Stored
import Verif.Props.Scripts

set_option linter.unusedSectionVars false

namespace Malstroem
open Spec Scripts

section
variable {K : Type} [Field K]

/-- C70 for new layers (a writer that is used a second time drops attributes, see `C70_second_write_false`). Features
written to a new layer come back from it, in the same order: `VectorReader.read_geojson_features` returns as many features
as `VectorWriter.write_geojson_features` was given, each with its geometry (as the format gives it back) and all its
attribute values. Attributes that only some of the features have are kept, and are null in the others; an integer comes
back as a real number if the same attribute is a real number in another feature. The other layers of the datasource are
left as they are. -/
theorem C70_written_is_read_partial (text : Val K → Val K) (fid : Nat → Option Int) (shape : Geometry K → Geometry K)
    {ds : Vector.Datasource K} {name : String} (hnew : ds.get? name = none) {fs : List (Feature K)} (hom : Homogeneous fs) :
    ∃ gs, Vector.readGeojsonFeatures fid shape (Vector.writeGeojsonFeatures text (Vector.Writer.init name []) ds fs).2 name = .ok gs ∧
      List.Forall₂ (ReadBack shape fs) fs gs ∧
      ∀ other ≠ name, Vector.readGeojsonFeatures fid shape
          (Vector.writeGeojsonFeatures text (Vector.Writer.init name []) ds fs).2 other =
        Vector.readGeojsonFeatures fid shape ds other := by
  refine ⟨_, Vector.read_write text fid shape hnew fs, ?_, ?_⟩
  · have key : ∀ (l : List (Feature K)) (n : Nat), (∀ f ∈ l, f ∈ fs) →
        List.Forall₂ (ReadBack shape fs) l ((l.zipIdx n).map fun (f, i) => ⟨fid i, shape f.geometry,
          Vector.fieldValues text (Vector.geojsonFields fs) fun n =>
            (Vector.fieldValues text (Vector.geojsonFields fs) fun n => f.properties.get? n).get? n⟩) := by
      intro l
      induction l with
      | nil => intro n _; exact .nil
      | cons f l ih =>
        intro n h
        exact .cons (Vector.readBack text shape hom (h f (by simp)) _) (ih _ fun g hg => h g (by simp [hg]))
    exact key fs 0 fun _ h => h
  · intro other hother
    unfold Vector.readGeojsonFeatures
    rw [Vector.write_others text fs hother hnew]

/-- For the tools the features read back are as good as those written, provided that ids are not real numbers. -/
theorem readBack_same {shape : Geometry K → Geometry K} {fs : List (Feature K)} {ids : List String} (hids : NoReals ids fs)
    {f g : Feature K} (hf : f ∈ fs) (h : ReadBack shape fs f g) : SameAttributes ids f g := by
  intro key
  cases hk : f.properties.get? key with
  | none =>
    by_cases hex : ∃ h ∈ fs, ∃ y, h.properties.get? key = some y
    · exact .inr (h.null key hk hex)
    · refine .inl (h.none key fun g' hg' => ?_)
      cases hg : g'.properties.get? key with
      | none => rfl
      | some y => exact absurd ⟨g', hg', y, hg⟩ hex
  | some x =>
    by_cases hr : ∃ h ∈ fs, ∃ y, h.properties.get? key = some y ∧ IsReal y
    · refine ⟨_, h.real key x hk hr, ?_, fun hi => ?_⟩
      · cases x with
        | int i => exact .inr ⟨i, rfl, rfl⟩
        | _ => exact .inl rfl
      · obtain ⟨g', hg', y, hy, hyr⟩ := hr
        exact absurd hyr (hids g' hg' key hi y hy)
    · exact ⟨x, h.same key x hk hr, .inl rfl, fun _ => rfl⟩

end

section
variable {K : Type} [Field K] [LinearOrder K] [IsStrictOrderedRing K] [FloorRing K] {β : Type} [LinearOrder β] [OrderTop β]

/-- The same rasters, and layers with the same features up to what storing does to integers and missing attributes. -/
structure SameFiles (a b : Files β K) : Prop where
  filled : b.filled = a.filled
  depths : b.depths = a.depths
  flowdir : b.flowdir = a.flowdir
  accum : b.accum = a.accum
  bluespots : b.bluespots = a.bluespots
  watersheds : b.watersheds = a.watersheds
  pourpoints : b.pourpoints = a.pourpoints
  streams : b.streams = a.streams
  nodes : List.Forall₂ (SameAttributes Stored.ids) a.nodes b.nodes
  initvolumes : List.Forall₂ (SameAttributes Stored.ids) a.initvolumes b.initvolumes
  finalvolumes : List.Forall₂ (SameAttributes Stored.ids) a.finalvolumes b.finalvolumes
  hyps : List.Forall₂ (SameAttributes Stored.ids) a.hyps b.hyps
  finallevels : List.Forall₂ (SameAttributes Stored.ids) a.finallevels b.finallevels
  finaldepths : b.finaldepths = a.finaldepths
  finalbluespots : b.finalbluespots = a.finalbluespots

theorem clean_pourpoints (l : List (Bluespots.PourPoint K)) : Stored.Sames (l.map (·.feature)) (l.map (·.feature)) := by
  refine List.forall₂_same.2 fun f hf => Stored.props_refl ?_
  obtain ⟨p, _, rfl⟩ := List.mem_map.1 hf
  refine Stored.clean_of_forall fun kv hkv => ?_
  simp only [Bluespots.PourPoint.feature, List.mem_cons, List.not_mem_nil, or_false] at hkv
  rcases hkv with rfl | rfl | rfl | rfl | rfl | rfl | rfl | rfl
  all_goals dsimp only
  · exact ⟨fun _ => by simp [IsReal], fun h => absurd h (by decide), fun _ _ => by simp⟩
  · exact ⟨fun _ => by simp [IsReal], fun h => absurd h (by decide), fun _ _ => by simp⟩
  · exact ⟨fun _ => by simp [IsReal], fun h => absurd h (by decide), fun _ _ => by simp⟩
  · refine Stored.fits (by decide) (by decide) fun s => ?_
    cases p.bspot_dmax <;> simp
  · exact Stored.fits (by decide) (by decide) (by simp)
  · exact Stored.fits (by decide) (by decide) (by simp)
  · exact Stored.fits (by decide) (by decide) (by simp)
  · refine Stored.fits (by decide) (by decide) fun s => ?_
    cases p.bspot_fumm <;> simp

/-- The tools from the network to the flooded extents on stored features. -/
theorem chain_via {back : String → List (Feature K) → List (Feature K)}
    (hback : ∀ name fs, NoReals Stored.ids fs → Homogeneous fs → List.Forall₂ (SameAttributes Stored.ids) fs (back name fs))
    {fs gs : List (Feature K)} (h : Stored.Sames fs gs) (name : String) : Stored.Sames fs (back name gs) :=
  Stored.sames_back (hback name) h

/-! Fuel does not matter for the result. -/

theorem process_mono (gt : GeoTransform K) (flowdir : Raster Nat) (labeled : Raster Int) (fs : List (Feature K)) (n : Nat) :
    Net.Le (Streams.process gt flowdir labeled fs true n) (Streams.process gt flowdir labeled fs true (n + 1)) := by
  unfold Streams.process
  exact Net.Le.bind (Net.Le.refl _) fun a => Net.Le.bind (Net.network_mono _ _ _) fun _ => Net.Le.refl _

theorem treeLoop_mono (up : Val K → List (Val K)) : ∀ (n : Nat) (S T : List (Val K)) (r : List (Val K)),
    Network.treeLoop up n S T = some r → Network.treeLoop up (n + 1) S T = some r := by
  intro n
  induction n with
  | zero =>
    intro S T r h
    cases S with
    | nil => simpa [Network.treeLoop] using h
    | cons a S => simp [Network.treeLoop] at h
  | succ n ih =>
    intro S T r h
    cases S with
    | nil => simpa [Network.treeLoop] using h
    | cons a S =>
      rw [Network.treeLoop] at h ⊢
      exact ih _ _ _ h

theorem finalState_mono (fs : List (Feature K)) (attr : String) (n : Nat) :
    Net.Le (Network.finalState fs attr n) (Network.finalState fs attr (n + 1)) := by
  unfold Network.finalState Network.finalStateFl
  refine Net.Le.bind (Net.Le.refl _) fun d => Net.Le.bind (Net.Le.refl _) fun s => Net.Le.bind ?_ fun _ => Net.Le.refl _
  unfold Network.rainEventFl
  refine Net.Le.bind ?_ fun _ => Net.Le.refl _
  generalize s.root_nodes = l
  generalize ([] : Dict (Val K) (Props K)) = v
  induction l generalizing v with
  | nil => exact Net.Le.refl _
  | cons a l ih =>
    rw [List.foldlM_cons, List.foldlM_cons]
    refine Net.Le.bind ?_ fun v' => ih v'
    unfold Network.calcStreamTreeFl
    refine Net.Le.bind ?_ fun _ => Net.Le.refl _
    intro r hr
    cases ht : Network.treeLoop s.upstream n [a] [] with
    | none => rw [ht] at hr; cases hr
    | some t =>
      rw [ht] at hr
      rw [treeLoop_mono _ _ _ _ _ ht]
      exact hr

theorem le_eq {α : Type} {f : Nat → Net.Comp α} (hm : ∀ n, Net.Le (f n) (f (n + 1))) {m n : Nat} {a b : α}
    (ha : f m = (some (.ok a) : Option (Except PyErr α))) (hb : f n = (some (.ok b) : Option (Except PyErr α))) : a = b := by
  obtain ⟨N, hN⟩ := Net.returns_of_le hm ha
  obtain ⟨M, hM⟩ := Net.returns_of_le hm hb
  have h1 := hN (max N M) (le_max_left _ _)
  rw [hM (max N M) (le_max_right _ _)] at h1
  cases h1
  rfl

/-- How the layers and the flooded extents follow from the rasters and the pour points. -/
structure Derived (back : String → List (Feature K) → List (Feature K)) (final hyps : String) (gt : GeoTransform K) (z : Raster K)
    (vol : List (Feature K) → Except PyErr (List (Feature K))) (zresolution : K) (n : Nat) (files : Files β K) : Prop where
  net : Streams.process gt files.flowdir files.bluespots (back "pourpoints" files.pourpoints) true n =
    (some (.ok (files.nodes, files.streams)) : Option (Except PyErr _))
  vol : vol (back "nodes" files.nodes) = .ok files.initvolumes
  fin : Network.finalState (back "initvolumes" files.initvolumes) "inputv" n =
    (some (.ok files.finalvolumes) : Option (Except PyErr _))
  hyp : Hyps.hypsometryIo files.bluespots gt z gt (back "pourpoints" files.pourpoints) zresolution = .ok files.hyps
  lev : Approx.waterLevelIo (back final files.finalvolumes) (back hyps files.hyps) = .ok files.finallevels
  flo : Approx.approxBluespotsIo files.bluespots (back "finallevels" files.finallevels) z true true 0 =
    .ok (files.finaldepths, files.finalbluespots)

theorem Derived.unique {back : String → List (Feature K) → List (Feature K)} {final hyps : String} {gt : GeoTransform K} {z : Raster K}
    {vol : List (Feature K) → Except PyErr (List (Feature K))} {zresolution : K} {m n : Nat} {files a b : Files β K}
    (ha : Derived back final hyps gt z vol zresolution m a) (hb : Derived back final hyps gt z vol zresolution n b)
    (hsa : SameFiles files a) (hsb : SameFiles files b) : a = b := by
  have e1 : a.flowdir = b.flowdir := hsa.flowdir.trans hsb.flowdir.symm
  have e2 : a.bluespots = b.bluespots := hsa.bluespots.trans hsb.bluespots.symm
  have e3 : a.pourpoints = b.pourpoints := hsa.pourpoints.trans hsb.pourpoints.symm
  have h1 := ha.net
  rw [e1, e2, e3] at h1
  have e4 := le_eq (process_mono _ _ _ _) h1 hb.net
  have e5 : a.nodes = b.nodes := congrArg Prod.fst e4
  have e6 : a.streams = b.streams := congrArg Prod.snd e4
  have e7 : a.initvolumes = b.initvolumes := by
    have := ha.vol
    rw [e5, hb.vol] at this
    exact (Except.ok.inj this).symm
  have h2 := ha.fin
  rw [e7] at h2
  have e8 : a.finalvolumes = b.finalvolumes := le_eq (finalState_mono _ _) h2 hb.fin
  have e9 : a.hyps = b.hyps := by
    have := ha.hyp
    rw [e2, e3, hb.hyp] at this
    exact (Except.ok.inj this).symm
  have e10 : a.finallevels = b.finallevels := by
    have := ha.lev
    rw [e8, e9, hb.lev] at this
    exact (Except.ok.inj this).symm
  cases a
  cases b
  simp only at e1 e2 e3 e5 e6 e7 e8 e9 e10
  have := hsa.filled.trans hsb.filled.symm
  have := hsa.depths.trans hsb.depths.symm
  have := hsa.accum.trans hsb.accum.symm
  have := hsa.watersheds.trans hsb.watersheds.symm
  have := hsa.finaldepths.trans hsb.finaldepths.symm
  have := hsa.finalbluespots.trans hsb.finalbluespots.symm
  simp_all

theorem complete_via {back : String → List (Feature K) → List (Feature K)}
    (hback : ∀ name fs, NoReals Stored.ids fs → Homogeneous fs → List.Forall₂ (SameAttributes Stored.ids) fs (back name fs))
    {elev : β → K} {cc : Raster Bool → Raster Int × Nat} {demEngine : Dem.Engine β K} {eng : Bluespots.Engine β K}
    {sub : β → β → K} {safe : Raster β → (β → β) × (β → β)} {subst : β} {gt : GeoTransform K} {dem : ElevFile β}
    {with_accum : Bool} {filter : Option (Bluespots.StatUnits K → Bool)} {mm zresolution : K} {n : Nat} {files : Files β K}
    (h : complete elev cc demEngine eng sub safe subst gt dem with_accum filter mm zresolution n = some (.ok files)) :
    ∃ files', completeVia back elev cc demEngine eng sub safe subst gt dem with_accum filter mm zresolution n =
      some (.ok files') ∧ SameFiles files files' ∧ Derived back "finalstate" "hypsometry" gt (numbers elev (dem.read (some subst)))
        (fun fs => Rain.simpleVolumes fs "inputv" mm) zresolution n files' := by
  simp only [complete, Complete.processWithLevels, Complete.processAll, Complete.processAllFl, Run.bind_ok, Run.pure_ok, Run.ofExcept_ok,
    Run.ofFuel_ok] at h
  obtain ⟨⟨o, l⟩, ⟨_, ⟨d, hd, b, hb, s, hs, vol, hvol, fin, hfin, rfl⟩, hy, hhy, lev, hlev, fl, hfl, h0⟩, rfl⟩ := h
  cases h0
  obtain ⟨s', hs', hs1, hs2⟩ := Stored.process (chain_via hback (clean_pourpoints b.pourpoints) "pourpoints") true n _ hs
  obtain ⟨vol', hvol', hv1⟩ := Stored.simpleVolumes (by decide) (by decide) (chain_via hback hs1 "nodes") _ hvol
  obtain ⟨fin', hfin', hf1⟩ := Stored.finalState (chain_via hback hv1 "initvolumes") "inputv" n _ hfin
  obtain ⟨hy', hhy', hh1⟩ := Stored.hypsometryIo (chain_via hback (clean_pourpoints b.pourpoints) "pourpoints") _ hhy
  obtain ⟨lev', hlev', hl1⟩ := Stored.waterLevelIo (chain_via hback hf1 "finalstate") (chain_via hback hh1 "hypsometry") _ hlev
  have hfl' := (Stored.approxBluespotsIo (chain_via hback hl1 "finallevels")).eq hfl
  refine ⟨⟨d.filled, d.depths, d.flowdir, d.accum, b.labeled, b.watersheds, b.pourpoints.map (·.feature), s'.1, s'.2, vol', fin',
    hy', lev', fl.1, fl.2⟩, ?_, ?_, ?_⟩
  · simp only [completeVia, Run.bind_ok, Run.pure_ok, Run.ofExcept_ok, Run.ofFuel_ok]
    exact ⟨d, hd, b, hb, s', hs', vol', hvol', fin', hfin', hy', hhy', lev', hlev', fl, hfl', rfl⟩
  · exact ⟨rfl, rfl, rfl, rfl, rfl, rfl, rfl, hs2.symm, Stored.sames_same hs1, Stored.sames_same hv1, Stored.sames_same hf1,
      Stored.sames_same hh1, Stored.sames_same hl1, rfl, rfl⟩
  · exact ⟨hs', hvol', hfin', hhy', hlev', hfl'⟩

theorem sequence_via {back : String → List (Feature K) → List (Feature K)}
    (hback : ∀ name fs, NoReals Stored.ids fs → Homogeneous fs → List.Forall₂ (SameAttributes Stored.ids) fs (back name fs))
    {elev : β → K} {cc : Raster Bool → Raster Int × Nat} {demEngine : Dem.Engine β K} {eng : Bluespots.Engine β K}
    {sub : β → β → K} {safe : Raster β → (β → β) × (β → β)} {subst : β} {near : β → Bool} {gt : GeoTransform K} {dem : ElevFile β}
    {with_accum : Bool} {filter : Option (Bluespots.StatUnits K → Bool)} {mm zresolution : K} {n : Nat} {files : Files β K}
    (h : sequence elev cc demEngine eng sub safe subst near gt dem with_accum filter mm zresolution n = some (.ok files)) :
    ∃ files', sequenceVia back elev cc demEngine eng sub safe subst near gt dem with_accum filter mm zresolution n =
      some (.ok files') ∧ SameFiles files files' ∧ Derived back "finalvolumes" "hyps" gt (numbers elev (dem.read (some subst)))
        (fun fs => initvolumes fs (some mm) none .mm none "inputv") zresolution n files' := by
  have hfb : ∀ bs lv, finalbluespots elev subst bs dem lv true true =
      Run.ofExcept (Approx.approxBluespotsIo bs lv (numbers elev (dem.read (some subst))) true true 0) := fun _ _ => rfl
  simp only [Scripts.sequence, network, hyps, finalvolumes, finallevels, hfb, Run.bind_ok, Run.pure_ok, Run.ofExcept_ok,
    Run.ofFuel_ok] at h
  obtain ⟨fl0, hfl0, fd, hfd, acc, hacc, bs, hbs, ws, hws, pts, hpts, s, hs, hy, hhy, vol, hvol, fin, hfin, lev, hlev, fl, hfl, rfl⟩ := h
  obtain ⟨s', hs', hs1, hs2⟩ := Stored.process (chain_via hback (clean_pourpoints pts) "pourpoints") true n _ hs
  obtain ⟨hy', hhy', hh1⟩ := Stored.hypsometryIo (chain_via hback (clean_pourpoints pts) "pourpoints") _ hhy
  have hinit : Follows Stored.Sames (initvolumes s.1 (some mm) none .mm none "inputv")
      (initvolumes (back "nodes" s'.1) (some mm) none .mm none "inputv") := by
    unfold initvolumes
    cases (some mm).filter (· ≠ 0) with
    | none => exact Follows.ofError
    | some x => exact Stored.simpleVolumes (by decide) (by decide) (chain_via hback hs1 "nodes")
  obtain ⟨vol', hvol', hv1⟩ := hinit _ hvol
  obtain ⟨fin', hfin', hf1⟩ := Stored.finalState (chain_via hback hv1 "initvolumes") "inputv" n _ hfin
  obtain ⟨lev', hlev', hl1⟩ := Stored.waterLevelIo (chain_via hback hf1 "finalvolumes") (chain_via hback hh1 "hyps") _ hlev
  have hfl' := (Stored.approxBluespotsIo (chain_via hback hl1 "finallevels")).eq hfl
  refine ⟨⟨fl0.data, Scripts.depths sub subst dem fl0, fd, acc, bs, ws, pts.map (·.feature), s'.1, s'.2, vol', fin',
    hy', lev', fl.1, fl.2⟩, ?_, ?_, ?_⟩
  · simp only [sequenceVia, network, hyps, finalvolumes, finallevels, hfb, Run.bind_ok, Run.pure_ok, Run.ofExcept_ok,
      Run.ofFuel_ok]
    exact ⟨fl0, hfl0, fd, hfd, acc, hacc, bs, hbs, ws, hws, pts, hpts, s', hs', hy', hhy', vol', hvol', fin', hfin', lev', hlev', fl,
      hfl', rfl⟩
  · exact ⟨rfl, rfl, rfl, rfl, rfl, rfl, rfl, hs2.symm, Stored.sames_same hs1, Stored.sames_same hv1, Stored.sames_same hf1,
      Stored.sames_same hh1, Stored.sames_same hl1, rfl, rfl⟩
  · exact ⟨hs', hvol', hfin', hhy', hlev', hfl'⟩

/-- C71. The vector files between the steps do not matter: `complete`, reading every layer back from its file, comes to an
end and writes the same rasters and, up to the conversions of storing, the same features as if each step had been handed the
features of the one before. All that is assumed of the files is that a layer gives back its features in order with the
same attribute values, where missing attributes may become nulls and integers may become real numbers, except for ids
without real numbers. -/
theorem C71_complete {back : String → List (Feature K) → List (Feature K)}
    (hback : ∀ name fs, NoReals Stored.ids fs → Homogeneous fs → List.Forall₂ (SameAttributes Stored.ids) fs (back name fs))
    {elev : β → K} {cc : Raster Bool → Raster Int × Nat} {demEngine : Dem.Engine β K} {eng : Bluespots.Engine β K}
    {sub : β → β → K} {safe : Raster β → (β → β) × (β → β)} {subst : β} {gt : GeoTransform K} {dem : ElevFile β}
    {with_accum : Bool} {filter : Option (Bluespots.StatUnits K → Bool)} {mm zresolution : K} {files : Files β K}
    (h : (complete elev cc demEngine eng sub safe subst gt dem with_accum filter mm zresolution).Yields (.ok files)) :
    ∃ files', (completeVia back elev cc demEngine eng sub safe subst gt dem with_accum filter mm zresolution).Yields
      (.ok files') ∧ SameFiles files files' := by
  obtain ⟨N, hN⟩ := h
  obtain ⟨files', h1, h2, h3⟩ := complete_via hback (hN N le_rfl)
  refine ⟨files', ⟨N, fun n hn => ?_⟩, h2⟩
  obtain ⟨files'', h1', h2', h3'⟩ := complete_via hback (hN n hn)
  rw [h3.unique h3' h2 h2']
  exact h1'

/-- C71 for the sequence of subcommands. -/
theorem C71_sequence {back : String → List (Feature K) → List (Feature K)}
    (hback : ∀ name fs, NoReals Stored.ids fs → Homogeneous fs → List.Forall₂ (SameAttributes Stored.ids) fs (back name fs))
    {elev : β → K} {cc : Raster Bool → Raster Int × Nat} {demEngine : Dem.Engine β K} {eng : Bluespots.Engine β K}
    {sub : β → β → K} {safe : Raster β → (β → β) × (β → β)} {subst : β} {near : β → Bool} {gt : GeoTransform K}
    {dem : ElevFile β} {with_accum : Bool} {filter : Option (Bluespots.StatUnits K → Bool)} {mm zresolution : K}
    {files : Files β K}
    (h : (Scripts.sequence elev cc demEngine eng sub safe subst near gt dem with_accum filter mm zresolution).Yields (.ok files)) :
    ∃ files', (sequenceVia back elev cc demEngine eng sub safe subst near gt dem with_accum filter mm zresolution).Yields
      (.ok files') ∧ SameFiles files files' := by
  obtain ⟨N, hN⟩ := h
  obtain ⟨files', h1, h2, h3⟩ := sequence_via hback (hN N le_rfl)
  refine ⟨files', ⟨N, fun n hn => ?_⟩, h2⟩
  obtain ⟨files'', h1', h2', h3'⟩ := sequence_via hback (hN n hn)
  rw [h3.unique h3' h2 h2']
  exact h1'

/-- The features read by a VectorReader from the layer `name` after they were written to it by a VectorWriter. `ds name` is the
datasource before. -/
def layerBack (text : Val K → Val K) (fid : Nat → Option Int) (shape : Geometry K → Geometry K)
    (ds : String → Vector.Datasource K) (name : String) (fs : List (Feature K)) : List (Feature K) :=
  (Vector.readGeojsonFeatures fid shape
    (Vector.writeGeojsonFeatures text (Vector.Writer.init name []) (ds name) fs).2 name).toOption.getD []

/-- What C71 assumes of the files holds for VectorWriter and VectorReader as modelled, whatever the format does to numbers in text
fields, to feature ids and to geometries. -/
theorem layerBack_same (text : Val K → Val K) (fid : Nat → Option Int) (shape : Geometry K → Geometry K)
    {ds : String → Vector.Datasource K} (hnew : ∀ name, (ds name).get? name = none) (ids : List String) (name : String)
    (fs : List (Feature K)) (hids : NoReals ids fs) (hom : Homogeneous fs) :
    List.Forall₂ (SameAttributes ids) fs (layerBack text fid shape ds name fs) := by
  obtain ⟨gs, hgs, hrb, _⟩ := C70_written_is_read_partial text fid shape (hnew name) hom
  unfold layerBack
  rw [hgs]
  show List.Forall₂ _ fs gs
  have key : ∀ (l m : List (Feature K)), (∀ f ∈ l, f ∈ fs) → List.Forall₂ (ReadBack shape fs) l m →
      List.Forall₂ (SameAttributes ids) l m := by
    intro l m hl h
    induction h with
    | nil => exact .nil
    | cons hab _ ih =>
      exact .cons (readBack_same hids (hl _ (by simp)) hab) (ih fun f hf => hl f (List.mem_cons_of_mem _ hf))
  exact key fs gs (fun _ h => h) hrb

/-- C71 with VectorWriter and VectorReader as modelled, in exact arithmetic: for every DEM of at least 2x2 cells with square cells
`complete`, reading each layer back from its file, comes to an end and writes the same files as with the features handed
on. -/
theorem C71_complete_files (text : Val K → Val K) (fid : Nat → Option Int) (shape : Geometry K → Geometry K)
    {ds : String → Vector.Datasource K} (hnew : ∀ name, (ds name).get? name = none)
    {cc : Raster Bool → Raster Int × Nat} (hcc : LabelContract cc)
    {gt : GeoTransform K} (hsq : SquareCells gt) (dem : Raster K) (hr : 2 ≤ dem.rows) (hc : 2 ≤ dem.cols) {short diag k : K}
    (hs : 0 < short) (hd : 0 < diag) (hk : 0 < k) (with_accum : Bool) (filter : Option (Bluespots.StatUnits K → Bool))
    (mm : K) {res : K} (hres : 0 < res)
    (hnn : ∀ c z, dem.Has c → IsSpillLevel dem.rows dem.cols dem.get c z → dem.get c < z → 0 ≤ dem.get c) :
    ∃ files files', (complete (·.untopD 0) cc (Dem.python exactSub (· * k)) Bluespots.python exactSub (exactSafe short diag)
        ((-999 : K) : WithTop K) gt ⟨finiteDem dem, none⟩ with_accum filter mm res).Yields (.ok files) ∧
      (completeVia (layerBack text fid shape ds) (·.untopD 0) cc (Dem.python exactSub (· * k)) Bluespots.python exactSub
        (exactSafe short diag) ((-999 : K) : WithTop K) gt ⟨finiteDem dem, none⟩ with_accum filter mm res).Yields (.ok files') ∧
      SameFiles files files' := by
  obtain ⟨out, lv, _, _, h, _⟩ := C67_complete_levels hcc hsq dem hr hc hs hd hk with_accum
    (filter.getD fun _ => true) mm hres hnn
  have hy := Run.yields_bind (f := fun (x : Complete.Out (WithTop K) K × Complete.LevelsOut K) => (pure
      { filled := x.1.dem.filled, depths := x.1.dem.depths, flowdir := x.1.dem.flowdir, accum := x.1.dem.accum,
        bluespots := x.1.bluespots.labeled, watersheds := x.1.bluespots.watersheds,
        pourpoints := x.1.bluespots.pourpoints.map (·.feature), nodes := x.1.nodes, streams := x.1.streams,
        initvolumes := x.1.volumes, finalvolumes := x.1.final, hyps := x.2.hyps, finallevels := x.2.levels,
        finaldepths := x.2.depths, finalbluespots := x.2.extent } : Run (Files (WithTop K) K))) h (Run.yields_pure _)
  obtain ⟨files', h1, h2⟩ := C71_complete (back := layerBack text fid shape ds)
    (fun name fs => layerBack_same text fid shape hnew Stored.ids name fs)
    (elev := (·.untopD 0)) (cc := cc) (demEngine := Dem.python exactSub (· * k)) (eng := Bluespots.python) (sub := exactSub)
    (safe := exactSafe short diag) (subst := ((-999 : K) : WithTop K)) (gt := gt) (dem := ⟨finiteDem dem, none⟩)
    (with_accum := with_accum) (filter := filter) (mm := mm) (zresolution := res) hy
  exact ⟨_, files', hy, h1, h2⟩

end

/-- Two features of which only the second has a level, and whose volumes are an integer and a real number. -/
def demoFeatures : List (Feature Rat) :=
  [⟨some 0, .point (1, 2), [("nodeid", .int 0), ("v", .int 3)]⟩,
   ⟨some 1, .point (3, 4), [("nodeid", .int 1), ("v", .num (5/2)), ("nodetype", .str "pourpoint"), ("z", .num 7)]⟩]

/-- They meet the hypotheses of C70, and what is read is what C70 says. -/
example : Homogeneous demoFeatures ∧ NoReals Stored.ids demoFeatures ∧
    Vector.readGeojsonFeatures (fun i => some (i + 1)) id
      (Vector.writeGeojsonFeatures id (Vector.Writer.init "nodes" []) [] demoFeatures).2 "nodes" = .ok
      [⟨some 1, .point (1, 2), [("nodeid", .int 0), ("v", .num 3), ("nodetype", .none), ("z", .none)]⟩,
       ⟨some 2, .point (3, 4), [("nodeid", .int 1), ("v", .num (5/2)), ("nodetype", .str "pourpoint"), ("z", .num 7)]⟩] := by
  refine ⟨?_, ?_, by decide +kernel⟩
  · intro f hf g hg key s y hs hy
    simp only [demoFeatures, List.mem_cons, List.not_mem_nil, or_false] at hf hg
    have hk : key = "nodetype" := by
      by_contra hk
      rcases hf with rfl | rfl <;> simp only [Dict.get?] at hs <;> split_ifs at hs <;> simp_all
    subst hk
    rcases hg with rfl | rfl
    · simp [Dict.get?] at hy
    · simp [Dict.get?] at hy; exact .inr ⟨_, hy.symm⟩
  · intro f hf key hkey x hx
    simp only [demoFeatures, Stored.ids, List.mem_cons, List.not_mem_nil, or_false] at hf hkey
    rcases hf with rfl | rfl <;> rcases hkey with rfl | rfl | rfl | rfl | rfl <;> simp [Dict.get?] at hx <;> subst hx <;>
      simp [IsReal]

/-- A writer used twice loses attributes: `write_geojson_features` closes the layer, a second call opens it again and appends,
but attributes that did not occur in the first call are dropped without a message, here the only attribute "b". -/
theorem C70_second_write_false :
    let first := Vector.writeGeojsonFeatures (K := Rat) id (Vector.Writer.init "layer" []) []
      [⟨none, .none, [("a", .int 1)]⟩]
    let second := Vector.writeGeojsonFeatures id first.1 first.2 [⟨none, .none, [("b", .int 2)]⟩]
    Vector.readGeojsonFeatures (fun _ => none) id second.2 "layer" =
      .ok [⟨none, .none, [("a", .int 1)]⟩, ⟨none, .none, [("a", .none)]⟩] := by
  decide +kernel

/-- A DEM, rain and datasources as in C71. -/
example : (∀ name, Dict.get? ([] : Vector.Datasource Rat) name = none) ∧ (∃ cc, LabelContract cc) ∧
    SquareCells (⟨0, 2, 0, 0, 0, -2⟩ : GeoTransform Rat) ∧ 2 ≤ demoValley.rows ∧ 2 ≤ demoValley.cols ∧
    ∀ c z, demoValley.Has c → IsSpillLevel demoValley.rows demoValley.cols demoValley.get c z → demoValley.get c < z →
      0 ≤ demoValley.get c := by
  refine ⟨fun _ => rfl, exists_labelContract, by unfold SquareCells; norm_num, by decide, by decide, fun c z hc _ _ => ?_⟩
  have key : ∀ c ∈ Raster.cellList 4 5, 0 ≤ demoValley.get c := by decide +kernel
  exact key c (Flow.mem_cellList.2 hc)

end Malstroem
