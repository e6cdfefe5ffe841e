/-
Property theorems about the whole chain `malstroem complete`: C56 (water is conserved from rain to final state) and C62
(the rasters DemTool writes belong together).
-/
import Verif.Spec.Complete
import Verif.Proofs.FinalState
import Verif.Props.Streams
import Verif.Props.Rain

set_option linter.unusedSectionVars false

namespace Malstroem
open Spec Network

section Network
variable {K : Type} [Field K] [LinearOrder K] [IsStrictOrderedRing K]

theorem leads_of_forest {R : List Net.Node} (hf : IsForest R) (g : Net.Node → RainNode K)
    (hid : ∀ n, (g n).id = n.id) (hdown : ∀ n, (g n).down = n.downstream_id) :
    ∀ n ∈ R, LeadsToRoot (R.map g) (g n) := by
  intro n hn
  obtain ⟨r, _, hpath, hroot⟩ := hf.root n hn
  induction hpath using Relation.ReflTransGen.head_induction_on with
  | refl => exact .root (by rw [hdown, hroot])
  | head h _ ih =>
    obtain ⟨_, h2, h3⟩ := h
    exact .step (List.mem_map_of_mem h2) (by rw [hdown, h3, hid]) (ih h2)

theorem forall₂_trans {α : Type} {R : α → α → Prop} (hR : ∀ a b c, R a b → R b c → R a c) {l m n : List α}
    (h1 : List.Forall₂ R l m) (h2 : List.Forall₂ R m n) : List.Forall₂ R l n := by
  induction h1 generalizing n with
  | nil => exact h2
  | cons h _ ih =>
    cases h2 with
    | cons h' h2 => exact .cons (hR _ _ _ h h') (ih h2)

/-- The node the final state sees: the rain on its catchment and its capacity. -/
def rainNode (fl : K → K) (areas caps : List K) (mm : K) (n : Net.Node) : RainNode K :=
  ⟨n.id, n.downstream_id, fl (fl (ofPourPoint areas n * mm) * fl (1 / 1000)), ofPourPoint caps n⟩

/-- The volume tool on the nodes of a network, with any arithmetic. -/
theorem volumes_on_forest {fl : K → K} {gt : GeoTransform K} {fps : List (Feature K)} {R : List Net.Node}
    {nodes : List (Feature K)} (hn : List.Forall₂ (IsNodeFeature gt fps) R nodes) {areas caps : List K}
    (hareas : List.Forall₂ (fun f x => f.properties.get? "wshed_area" = some (.num x)) fps areas)
    (hcaps : List.Forall₂ (fun f x => f.properties.get? "bspot_vol" = some (.num x)) fps caps) (mm : K) :
    ∃ vols, Rain.simpleVolumesFl fl nodes "inputv" mm = .ok vols ∧
      List.Forall₂ (SameBut ["inputv", "v", "spillv", "pctv"]) nodes vols ∧
      List.Forall₂ (fun f n => Carries "inputv" f.properties n ∧ f.properties.get? "bspot_vol" = some (.num n.cap))
        vols (R.map fun n => rainNode fl areas caps mm n) := by
  unfold Rain.simpleVolumesFl
  induction hn with
  | nil => exact ⟨[], rfl, .nil, .nil⟩
  | cons hab _ ih =>
    rename_i n f R nodes _
    obtain ⟨vols, h1, h0, h2⟩ := ih
    have ha := node_number (.inl rfl) hareas hab
    have hc := node_number (.inr (.inl rfl)) hcaps hab
    obtain ⟨f', hf1, hf2⟩ := simpleVolumeFl_ok (fl := fl) (attr := "inputv") (mm := mm) (f := f) ⟨_, ha, rfl⟩
    refine ⟨f' :: vols, by rw [List.mapM_cons, hf1, h1]; rfl,
      .cons ⟨hf2.id, hf2.geometry, fun key hk => hf2.others key fun e => hk (by simp [e])⟩ h0, .cons ⟨⟨?_, ?_, ?_, ?_, ?_⟩, ?_⟩ h2⟩
    · rw [hf2.others _ (by decide), hab.nodeid]; rfl
    · rw [hf2.others _ (by decide), hab.down]; rfl
    · exact ⟨_, _, (hf2.others _ (by decide)).trans ha, rfl⟩
    · exact hf2.value
    · exact ⟨_, (hf2.others _ (by decide)).trans hc, rfl⟩
    · exact (hf2.others _ (by decide)).trans hc

/-- Rain on the nodes of a forest: the volume tool and the final state calculator return, and the water on all catchments
ends up in the nodes or leaves through the roots. -/
theorem rain_on_forest {gt : GeoTransform K} {fps : List (Feature K)} {pps : List Cell} {R : List Net.Node}
    {nodes : List (Feature K)} (hf : IsForest R) (hids : (R.map (·.id)).Nodup)
    (hperm : ((R.filter fun n => n.nodetype = .pourpoint).map fun n => (n.id, n.pix)).Perm
      (pps.zipIdx.map fun x => ((x.2 : Int), x.1)))
    (hn : List.Forall₂ (IsNodeFeature gt fps) R nodes) {areas caps : List K} (hlen : areas.length = pps.length)
    (hareas : List.Forall₂ (fun f x => f.properties.get? "wshed_area" = some (.num x)) fps areas)
    (hcaps : List.Forall₂ (fun f x => f.properties.get? "bspot_vol" = some (.num x)) fps caps) (mm : K) :
    ∃ vols final, Rain.simpleVolumes nodes "inputv" mm = .ok vols ∧
      Returns (Network.finalState vols "inputv") (.ok final) ∧
      (∃ vs ss, List.Forall₂ (fun f x => HasNumber f "v" x) final vs ∧
        List.Forall₂ (fun f x => HasNumber f "spillv" x) (final.filter fun f => IsRoot f) ss ∧
        mm / 1000 * areas.sum = vs.sum + ss.sum) ∧
      (0 ≤ mm → (∀ a ∈ areas, 0 ≤ a) → (∀ x ∈ caps, 0 ≤ x) → ∀ f ∈ final, ∃ v s cap, HasNumber f "v" v ∧
        HasNumber f "spillv" s ∧ HasNumber f "bspot_vol" cap ∧ 0 ≤ v ∧ v ≤ cap ∧ 0 ≤ s ∧ (0 < s → v = cap)) ∧
      List.Forall₂ (SameBut ["inputv", "v", "spillv", "pctv"]) nodes final := by
  set g : Net.Node → RainNode K := fun n =>
    ⟨n.id, n.downstream_id, ofPourPoint areas n * mm / 1000, ofPourPoint caps n⟩ with hg
  -- initial volumes
  obtain ⟨vols, hvols, hsame, hcarry⟩ := volumes_on_forest (fl := id) hn hareas hcaps mm
  have hgg : (R.map fun n => rainNode id areas caps mm n) = R.map g := by
    refine List.map_congr_left fun n _ => ?_
    simp only [rainNode, hg, id_eq, mul_one_div]
  rw [hgg] at hcarry
  have hnd : ((R.map g).map (·.id)).Nodup := by rw [List.map_map]; exact hids
  obtain ⟨final, rows, v, spill, hfin, hr1, hr2, hr3, hbal, hrow⟩ := C55_final_state_distinct (attr := "inputv")
    (by decide) (hcarry.imp fun _ _ h => h.1) hnd
  have hleads : ∀ n ∈ R.map g, LeadsToRoot (R.map g) n := by
    intro n hn
    obtain ⟨m, hm, rfl⟩ := List.mem_map.1 hn
    exact leads_of_forest hf g (fun _ => rfl) (fun _ => rfl) m hm
  have hrow' : ∀ r ∈ rows, r.2.1 ∈ R.map g ∧ Finished r.1 r.2.2 r.2.1 v spill ∧ Carries "inputv" r.1.properties r.2.1 ∧
      r.1.properties.get? "bspot_vol" = some (.num r.2.1.cap) := by
    intro r hr
    have hmem : r.2.1 ∈ R.map g := by rw [← hr2]; exact List.mem_map_of_mem hr
    have hc : Carries "inputv" r.1.properties r.2.1 ∧ r.1.properties.get? "bspot_vol" = some (.num r.2.1.cap) := by
      rw [← hr1, ← hr2, List.forall₂_map_left_iff, List.forall₂_map_right_iff, List.forall₂_same] at hcarry
      exact hcarry r hr
    exact ⟨hmem, (hrow r hr).1 (hleads _ hmem), hc⟩
  have hbal' : ∀ n ∈ R.map g, Balanced (R.map g) v spill n := fun n hn => hbal n hn (hleads n hn)
  refine ⟨vols, final, hvols, hfin, ⟨(R.map g).map fun n => v n.id,
    ((R.map g).filter fun n => n.down = none).map fun n => spill n.id, ?_, ?_, ?_⟩, ?_, ?_⟩
  · rw [← hr3, ← hr2, List.map_map, List.forall₂_map_left_iff, List.forall₂_map_right_iff, List.forall₂_same]
    intro r hr
    exact ⟨_, (hrow' r hr).2.1.state.retained, rfl⟩
  · have h1 : (final.filter fun f => IsRoot f) = (rows.filter fun r => r.2.1.down = none).map (·.2.2) := by
      rw [← hr3, List.filter_map]
      congr 1
      apply List.filter_congr
      intro r hr
      obtain ⟨_, h2, h3, _⟩ := hrow' r hr
      have : r.2.2.properties.get? "dstrnodeid" = some (downVal r.2.1.down) :=
        (h2.others _ (by decide) (by decide) (by decide)).trans h3.down
      simp only [Function.comp, IsRoot, this, Option.some.injEq]
      cases r.2.1.down <;> simp [downVal]
    have h2 : (R.map g).filter (fun n => n.down = none) = (rows.filter fun r => r.2.1.down = none).map (·.2.1) := by
      rw [← hr2, List.filter_map]; rfl
    rw [h1, h2, List.map_map, List.forall₂_map_left_iff, List.forall₂_map_right_iff, List.forall₂_same]
    intro r hr
    exact ⟨_, (hrow' r (List.mem_filter.1 hr).1).2.1.state.spilled, rfl⟩
  · have := conserved hnd hnd (fun n => ⟨fun h => ⟨h, hleads n h⟩, fun h => h.1⟩) hbal'
    rw [← this, ← sum_ofPourPoint hperm hlen, List.map_map]
    clear this hbal' hleads hrow' hrow hbal hr2 hcarry hgg hn hperm hids hf hnd
    induction R with
    | nil => simp
    | cons n R ih =>
      simp only [List.map_cons, List.sum_cons, mul_add, ih]
      congr 1
      simp only [Function.comp, hg]
      ring
  · intro hmm ha hc f hfm
    rw [← hr3] at hfm
    obtain ⟨r, hr, rfl⟩ := List.mem_map.1 hfm
    obtain ⟨hmem, h1, h2, h3⟩ := hrow' r hr
    have hb := hbal' _ hmem
    have hnn : ∀ (xs : List K), (∀ x ∈ xs, 0 ≤ x) → ∀ n, 0 ≤ ofPourPoint xs n := by
      intro xs hxs n
      unfold ofPourPoint
      split
      · rw [List.getD_eq_getElem?_getD]
        cases hx : xs[n.id.toNat]? with
        | none => simp
        | some x => exact hxs x (List.mem_of_getElem? hx)
      · exact le_refl _
    obtain ⟨n, hnR, hne⟩ := List.mem_map.1 hmem
    have hcap : 0 ≤ r.2.1.cap := by rw [← hne]; exact hnn caps hc n
    have hvol : 0 ≤ r.2.1.vol := by
      rw [← hne]; exact div_nonneg (mul_nonneg (hnn areas ha n) hmm) (by norm_num)
    have harr : 0 ≤ arriving (R.map g) spill r.2.1 := arriving_nonneg hvol fun m hm =>
      balanced_spill_nonneg (hbal' m (List.mem_filter.1 hm).1)
    refine ⟨v r.2.1.id, spill r.2.1.id, r.2.1.cap, ⟨_, h1.state.retained, rfl⟩, ⟨_, h1.state.spilled, rfl⟩,
      ⟨_, (h1.others _ (by decide) (by decide) (by decide)).trans h3, rfl⟩, ?_, ?_, balanced_spill_nonneg hb,
      balanced_full hb⟩
    · rw [hb.1]; exact le_min harr hcap
    · rw [hb.1]; exact min_le_right _ _
  · have hfinal : List.Forall₂ (SameBut ["inputv", "v", "spillv", "pctv"]) vols final := by
      rw [← hr1, ← hr3, List.forall₂_map_left_iff, List.forall₂_map_right_iff, List.forall₂_same]
      intro r hr
      have h := (hrow' r hr).2.1
      exact ⟨h.id, h.geometry, fun key hk => by
        simp only [List.mem_cons, List.not_mem_nil, or_false, not_or] at hk
        exact h.others key hk.2.2.1 hk.2.1 hk.2.2.2⟩
    exact forall₂_trans (fun _ _ _ h1 h2 => ⟨h2.id.trans h1.id, h2.geometry.trans h1.geometry, fun key hk =>
      (h2.others key hk).trans (h1.others key hk)⟩) hsame hfinal

end Network

/-! ### C62: DemTool -/

section Dem
variable {K : Type} [Field K] [LinearOrder K] [IsStrictOrderedRing K] {β : Type} [LinearOrder β] [OrderTop β]
  {drop sub : β → β → K} {scale : K → K} {safe : Raster β → (β → β) × (β → β)} {dem : Raster β}

theorem noFlats_finite (h : SoundTerrain drop sub scale safe dem) {nf : Raster β}
    (hnf : Returns (Fill.fillTerrainNoFlats (safe dem).1 (safe dem).2 dem) (.ok nf)) :
    (nf.rows = dem.rows ∧ nf.cols = dem.cols) ∧ (∀ c, dem.Has c → nf.get c < ⊤) ∧
    ∀ f, Returns (Fill.fillTerrain dem) (.ok f) → ∀ c, dem.Has c → f.get c < ⊤ := by
  have h7 := C07_noflats_strictly_downslope _ _ h.mono.1 h.mono.2 (fun x => (h.ge x).1) (fun x => (h.ge x).2) dem
    nf h.finite (fun x hx => (h.keep x hx).1) (fun x hx => (h.keep x hx).2) hnf (fun c hc _ => h.strict nf (.inl hnf) c hc)
  obtain ⟨r, hr, hrows, hcols, _, _, hle⟩ := C06_noflats_returns_bracketed _ _ h.mono.1 h.mono.2 (fun x => (h.ge x).1)
    (fun x => (h.ge x).2) dem h.rows h.cols
  have heq : Except.ok r = Except.ok (ε := PyErr) nf := Returns.unique hr hnf
  cases heq
  exact ⟨⟨hrows, hcols⟩, fun c hc => (h7 c hc).1, fun f hf c hc => (hle f hf c hc).trans_lt (h7 c hc).1⟩

/-- C62. The rasters DemTool writes have the shape of the DEM and belong together: the filled terrain is the spill level
of every cell, the bluespot depth is its difference to the DEM, is not negative, is positive exactly where the DEM lies
below the spill level and is 0 on the edge; the flow directions drain every cell off the raster, falling on a surface
not below the filled terrain; the accumulated flow, if wanted, is that of the flow directions. -/
theorem C62_dem_outputs (h : SoundTerrain drop sub scale safe dem) (want : Bool) :
    ∃ out, Returns (Dem.process (Dem.python drop scale) sub safe true want dem) (.ok out) ∧
      (out.filled.rows = dem.rows ∧ out.filled.cols = dem.cols) ∧
      (out.depths.rows = dem.rows ∧ out.depths.cols = dem.cols) ∧
      (out.flowdir.rows = dem.rows ∧ out.flowdir.cols = dem.cols) ∧
      (∀ c, dem.Has c → IsSpillLevel dem.rows dem.cols dem.get c (out.filled.get c) ∧
        out.depths.get c = sub (out.filled.get c) (dem.get c) ∧ 0 ≤ out.depths.get c ∧
        (0 < out.depths.get c ↔ dem.get c < out.filled.get c)) ∧
      (∀ c, OnEdge dem.rows dem.cols c → out.depths.get c = 0) ∧
      (∃ s : Cell → β, (∀ c, dem.Has c → out.filled.get c ≤ s c) ∧ DrainsDownhill dem.rows dem.cols s out.flowdir) ∧
      (want = true → ∃ a, out.accum = some a ∧ Returns (Flow.accumulatedFlow out.flowdir) (.ok a)) ∧
      (want = false → out.accum = none) := by
  obtain ⟨out, hout⟩ := C15_dem_process_returns drop sub scale safe want dem h.rows h.cols h.drop_pos h.scale_pos h.finite
    h.mono h.ge h.keep (fun nf hnf => h.strict nf (.inl hnf))
  obtain ⟨_, hfill, hdep, hnf, hfd, hacc, hno⟩ := Dem.process_inv hout
  have hfill : Returns (Fill.fillTerrain dem) (.ok out.filled) := hfill
  have hnf : Returns (Fill.fillTerrainNoFlats (safe dem).1 (safe dem).2 dem) (.ok out.noFlats) := hnf
  obtain ⟨hsh, hfin, hffin⟩ := noFlats_finite h hnf
  obtain ⟨f, hf, hfr, hfc⟩ := (C01_fill_returns dem).1 h.rows h.cols
  have heq : Except.ok f = Except.ok (ε := PyErr) out.filled := Returns.unique hf hfill
  cases heq
  obtain ⟨r, hr, _, _, _, _, hle⟩ := C06_noflats_returns_bracketed _ _ h.mono.1 h.mono.2 (fun x => (h.ge x).1)
    (fun x => (h.ge x).2) dem h.rows h.cols
  have heq : Except.ok r = Except.ok (ε := PyErr) out.noFlats := Returns.unique hr hnf
  cases heq
  have hshf := Flow.flowdirection_rows drop scale out.noFlats true
  have h2 := C02_fill_ge_dem_edge dem out.filled hfill
  have hdget : ∀ c, out.depths.get c = sub (out.filled.get c) (dem.get c) := by intro c; rw [hdep]; rfl
  have hpos : ∀ c, dem.Has c → (0 < out.depths.get c ↔ dem.get c < out.filled.get c) := by
    intro c hc
    obtain ⟨⟨p, hp, ⟨x, hx, hxe⟩, _⟩, _⟩ := C04_fill_eq_spill_level dem _ hfill c hc
    rw [hdget, ← hxe]
    exact h.sub_pos x c (hp.inside x hx) hc
  refine ⟨out, hout, ⟨hfr, hfc⟩, by rw [hdep]; exact ⟨hfr, hfc⟩, ?_, fun c hc => ⟨C04_fill_eq_spill_level dem _ hfill c hc,
    hdget c, ?_, hpos c hc⟩, fun c hc => ?_, ⟨out.noFlats.get, hle _ hfill, ?_⟩, hacc, hno⟩
  · rw [hfd]; exact ⟨hshf.1.trans hsh.1, hshf.2.trans hsh.2⟩
  · rcases (h2.1 c hc).eq_or_lt with he | hlt
    · rw [hdget, ← he, h.sub_self c hc]
    · exact ((hpos c hc).2 hlt).le
  · rw [hdget, h2.2 c hc, h.sub_self c hc.1]
  · exact C15_dem_flow_drains drop sub scale safe true want dem out h.drop_pos h.scale_pos h.finite h.mono h.ge h.keep hout
      (h.strict _ (.inl hnf))

/-- The value of a witness path is the elevation of one of its cells. -/
theorem climb_attained {rows cols : Nat} {c : Cell} {p : List Cell} (hp : IsEscape rows cols c p) (d : Raster β) :
    ∃ x ∈ p, d.get x = Fill.climbS (fun _ _ => id) d.get p := by
  refine IsEscape.rec' (motive := fun c p => ∃ x ∈ p, d.get x = Fill.climbS (fun _ _ => id) d.get p) ?_ ?_ hp
  · intro e _
    exact ⟨e, by simp, rfl⟩
  · rintro a b q _ _ _ ⟨x, hx, he⟩
    rw [Fill.climbS_cons a rfl, id, ← he]
    rcases max_choice (d.get a) (d.get x) with e | e <;> rw [e]
    · exact ⟨a, by simp, rfl⟩
    · exact ⟨x, by simp only [List.mem_cons] at hx ⊢; tauto, rfl⟩

/-- C62 with the compiled functions, for DEMs without exactly three rows or columns (for which they raise an exception).
The filled terrain has no depressions, lies on or above the spill levels and equals the DEM on the edge, but need not be
the spill level (C09); the rest is as with the Python functions. -/
theorem C62_dem_outputs_compiled (junk : Int × Int) (h : SoundTerrain drop sub scale safe dem) (hr3 : dem.rows ≠ 3)
    (hc3 : dem.cols ≠ 3) (want : Bool) :
    ∃ out, Returns (Dem.process (Dem.compiled junk drop scale) sub safe true want dem) (.ok out) ∧
      (out.filled.rows = dem.rows ∧ out.filled.cols = dem.cols) ∧
      (out.depths.rows = dem.rows ∧ out.depths.cols = dem.cols) ∧
      (out.flowdir.rows = dem.rows ∧ out.flowdir.cols = dem.cols) ∧
      Depressionless dem.rows dem.cols out.filled.get ∧
      (∀ c, dem.Has c → (∃ z, IsSpillLevel dem.rows dem.cols dem.get c z ∧ z ≤ out.filled.get c) ∧
        out.depths.get c = sub (out.filled.get c) (dem.get c) ∧ 0 ≤ out.depths.get c ∧
        (0 < out.depths.get c ↔ dem.get c < out.filled.get c)) ∧
      (∀ c, OnEdge dem.rows dem.cols c → out.depths.get c = 0) ∧
      (∃ s : Cell → β, (∀ c, dem.Has c → dem.get c ≤ s c) ∧ DrainsDownhill dem.rows dem.cols s out.flowdir) ∧
      (want = true → ∃ a A, out.accum = some a ∧ Returns (Flow.accumulatedFlow out.flowdir) (.ok A) ∧ a.Same A) ∧
      (want = false → out.accum = none) := by
  obtain ⟨nf, hnf, hnr, hnc, _, hnge, _, hnfin, _⟩ := C11_compiled_noflats_valid (safe dem).1 (safe dem).2 h.mono.1 h.mono.2
    (fun x => (h.ge x).1) (fun x => (h.ge x).2) dem ⟨h.rows, hr3⟩ ⟨h.cols, hc3⟩ h.finite (fun x hx => (h.keep x hx).1)
    (fun x hx => (h.keep x hx).2)
  obtain ⟨f, hf, hfr, hfc, hfe, hfge, hfpy, hfdep, hffin⟩ := C11_compiled_fill_valid dem ⟨h.rows, hr3⟩ ⟨h.cols, hc3⟩
  obtain ⟨f', hf', hI, _⟩ := FillCython.fillTerrain_returns dem (FillCython.shapeError_none.2
    ⟨by have := h.rows; omega, by have := h.cols; omega, hr3, hc3⟩)
  have heq : Except.ok f' = Except.ok (ε := PyErr) f := Returns.unique hf' hf
  cases heq
  have hsh := Flow.flowdirection_rows drop scale nf true
  have h0 := Dem.process_intro (eng := Dem.compiled junk drop scale) (sub := sub) (want := false) (acc := Flow.zeros 0 0) hf hnf
    (by simp)
  have hdown := C15_dem_flow_drains_compiled junk drop sub scale safe true false dem ⟨h.rows, hr3⟩ ⟨h.cols, hc3⟩ _ h.drop_pos
    h.scale_pos h.finite h.mono h.ge h.keep h0 (h.strict _ (.inr hnf))
  have hcodes : ∀ c, (Flow.terrainFlowdirection drop scale nf true).Has c →
      (Flow.terrainFlowdirection drop scale nf true).get c < 8 := by
    intro c hc
    have hc : InGrid _ _ c := hc
    rw [hsh.1, hsh.2, hnr, hnc] at hc
    exact Flow.Drains.code_lt (hdown c hc).2.1
  obtain ⟨A, Bf, hA, hB, hsame⟩ := C20_compiled_accum_eq_python junk _ hcodes
  have hout := Dem.process_intro (eng := Dem.compiled junk drop scale) (sub := sub) (want := want) (acc := Bf) hf hnf
    (fun _ => hB.map _)
  obtain ⟨pf, hpf, _⟩ := (C01_fill_returns dem).1 h.rows h.cols
  have hpos : ∀ c, dem.Has c → (0 < sub (f.get c) (dem.get c) ↔ dem.get c < f.get c) := by
    intro c hc
    obtain ⟨p, hp, _, hcl, _⟩ := (hI.wit c hc).resolve_left (hffin h.finite c hc).ne
    obtain ⟨x, hx, he⟩ := climb_attained hp dem
    rw [← hcl, ← he]
    exact h.sub_pos x c (hp.inside x hx) hc
  refine ⟨_, hout, ⟨hfr, hfc⟩, ⟨hfr, hfc⟩, ⟨hsh.1.trans hnr, hsh.2.trans hnc⟩, hfdep, fun c hc =>
    ⟨⟨pf.get c, C04_fill_eq_spill_level dem pf hpf c hc, hfpy pf hpf c hc⟩, rfl, ?_, hpos c hc⟩, fun c hc => ?_,
    ⟨nf.get, hnge, hdown⟩, fun hw => ?_, fun hw => ?_⟩
  · show 0 ≤ sub (f.get c) (dem.get c)
    rcases (hfge c hc).eq_or_lt with he | hlt
    · rw [← he, h.sub_self c hc]
    · exact ((hpos c hc).2 hlt).le
  · show sub (f.get c) (dem.get c) = 0
    rw [hfe c hc, h.sub_self c hc.1]
  · subst hw
    exact ⟨Bf, A, rfl, hA, hsame.1.symm, hsame.2.1.symm, fun c hc => (hsame.2.2 c (by
      have hc : InGrid Bf.rows Bf.cols c := hc
      show InGrid A.rows A.cols c
      rw [hsame.1, hsame.2.1]; exact hc)).symm⟩
  · subst hw
    rfl

end Dem

/-! ### C56: the chain -/

section Chain
variable {K : Type} [Field K] [LinearOrder K] [IsStrictOrderedRing K] {β : Type} [LinearOrder β] [OrderTop β]
  {cc : Raster Bool → Raster Int × Nat} {drop sub : β → β → K} {scale : K → K} {safe : Raster β → (β → β) × (β → β)}
  {gt : GeoTransform K} {dem : Raster β}

theorem pourpoints_are {depths : Raster K}
    {choose : List Cell → Cell → Prop} {out : Bluespots.Out K} (h : Bluespots.IsChosen depths choose out) :
    ArePourPoints (out.pourpoints.map (·.feature)) (out.pourpoints.map fun p => (p.cell_row, p.cell_col)) := by
  unfold ArePourPoints
  rw [List.zipIdx_map, List.forall₂_map_left_iff, List.forall₂_map_right_iff, List.forall₂_iff_get]
  refine ⟨by simp, fun i h1 h2 => ?_⟩
  obtain ⟨p, hp, hi, _⟩ := h.points i _ (by have := h.length; omega) (lists_filter _ _ _)
  obtain ⟨_, hp⟩ := List.getElem?_eq_some_iff.1 hp
  simp only [List.get_eq_getElem, List.getElem_zipIdx, Nat.zero_add, Prod.map_fst, Prod.map_snd, id_eq, hp]
  refine ⟨?_, rfl, rfl, ?_⟩
  · show some (Val.int p.bspot_id) = _
    rw [hi]
  · intro key hk
    simp only [copied, List.mem_cons, List.not_mem_nil, or_false] at hk
    rcases hk with rfl | rfl | rfl | rfl <;> exact ⟨_, rfl⟩

/-- The chain from the results of DemTool on to the network, for either set of functions and any arithmetic, with
the run of BluespotTool, the stream features and the rule for the pour points. -/
theorem chain_network_lowest {fl : K → K} {demEngine : Dem.Engine β K} {bluespotEngine : Bluespots.Engine β K}
    (hbe : Bluespots.IsEngineFl fl bluespotEngine) (hfill : bluespotEngine.fillTerrainNoFlats = demEngine.fillTerrainNoFlats)
    (hcc : LabelContract cc) (hsq : SquareCellsFl fl gt) (hsize : 0 < dem.rows ∧ 0 < dem.cols)
    (want : Bool) (f : Bluespots.StatUnits K → Bool) {d : Dem.Out β K} {s : Cell → β}
    (hd : Returns (Dem.process demEngine sub safe true want dem) (.ok d))
    (hdsh : d.depths.rows = dem.rows ∧ d.depths.cols = dem.cols) (hfsh : d.flowdir.rows = dem.rows ∧ d.flowdir.cols = dem.cols)
    (hdown : DrainsDownhill dem.rows dem.cols s d.flowdir)
    (hnsh : d.noFlats.rows = dem.rows ∧ d.noFlats.cols = dem.cols) (hfin : ∀ c, dem.Has c → d.noFlats.get c < ⊤)
    (hdrop : ∀ a b, a < ⊤ → b < ⊤ → (0 < demEngine.drop a b ↔ b < a))
    (hscale : ∀ a b, 0 < demEngine.scale (demEngine.drop a b) ↔ 0 < demEngine.drop a b)
    (hacc : want = true → ∃ a A, d.accum = some a ∧ Returns (Flow.accumulatedFlow d.flowdir) (.ok A) ∧ a.Same A)
    (hno : want = false → d.accum = none) :
    ∃ (b : Bluespots.Out K) (nodes streams : List (Feature K)) (choose : List Cell → Cell → Prop) (R : List Net.Node),
      (Bluespots.processFl fl cc bluespotEngine safe gt d.depths (some f) d.flowdir d.accum (some dem)).Yields (.ok b) ∧
      List.Forall₂ (IsStreamFeature gt) (R.filter fun n => n.geometry ≠ []) streams ∧
      (∀ mm vols final, Rain.simpleVolumesFl fl nodes "inputv" mm = .ok vols →
        Returns (Network.finalStateFl fl vols "inputv") (.ok final) →
        (Complete.processAllFl fl cc demEngine bluespotEngine sub safe gt dem want (some f) mm).Yields
          (.ok ⟨d, b, nodes, streams, vols, final⟩)) ∧
      Bluespots.IsResultFl fl gt d.depths f d.flowdir choose b ∧
      Returns (Net.geometricPourpointNetwork d.flowdir b.labeled
        (b.pourpoints.map fun p => .pix (p.cell_row, p.cell_col)) (some 0)) (.ok R) ∧
      IsForest R ∧ List.Forall₂ (IsNodeFeature gt (b.pourpoints.map (·.feature))) R nodes ∧
      (∀ r ∈ R, r.downstream_id = none → r.geometry = [] ∨
        ∃ e, r.geometry.getLast? = some e ∧ FlowsOut dem.rows dem.cols d.flowdir.get e) ∧
      (R.map (·.id)).Nodup ∧
      ((R.filter fun n => n.nodetype = .pourpoint).map fun n => (n.id, n.pix)).Perm
        ((b.pourpoints.map fun p => (p.cell_row, p.cell_col)).zipIdx.map fun x => ((x.2 : Int), x.1)) ∧
      (∀ j ∈ R, j.nodetype = .junction → (b.pourpoints.length : Int) ≤ j.id) ∧
      choose = (match d.accum with
        | some a => PourPointRule.maxAccum a
        | none => PourPointRule.minFilled dem d.noFlats).Chooses ∧
      ∃ (γ : Type) (_ : LinearOrder γ) (rank : Cell → γ),
        LowestOutlets d.flowdir.rows d.flowdir.cols d.flowdir.get b.labeled.get rank
          (b.pourpoints.map fun p => (p.cell_row, p.cell_col)) := by
  obtain ⟨_, _, _, hnf, hfd, _, _⟩ := Dem.process_inv hd
  have hdrains : ∀ c, d.flowdir.Has c → Drains d.flowdir.rows d.flowdir.cols d.flowdir.get c := by
    intro c hc
    have hc : InGrid d.flowdir.rows d.flowdir.cols c := hc
    rw [hfsh.1, hfsh.2] at hc ⊢
    exact (hdown c hc).2.1
  have hshape : d.flowdir.rows = d.depths.rows ∧ d.flowdir.cols = d.depths.cols :=
    ⟨hfsh.1.trans hdsh.1.symm, hfsh.2.trans hdsh.2.symm⟩
  have hne : 0 < d.depths.rows ∧ 0 < d.depths.cols := by
    rw [hdsh.1, hdsh.2]; exact hsize
  -- bluespots
  obtain ⟨b, γ, iγ, rank, choose, hb, hres, hchoose, hlow⟩ : ∃ (b : Bluespots.Out K) (γ : Type) (_ : LinearOrder γ) (rank : Cell → γ)
      (choose : List Cell → Cell → Prop),
      (Bluespots.processFl fl cc bluespotEngine safe gt d.depths (some f) d.flowdir d.accum (some dem)).Yields (.ok b) ∧
      Bluespots.IsResultFl fl gt d.depths f d.flowdir choose b ∧
      choose = (match d.accum with
        | some a => PourPointRule.maxAccum a
        | none => PourPointRule.minFilled dem d.noFlats).Chooses ∧
      LowestOutlets d.flowdir.rows d.flowdir.cols d.flowdir.get b.labeled.get rank
        (b.pourpoints.map fun p => (p.cell_row, p.cell_col)) := by
    cases want with
    | true =>
      obtain ⟨a, A, ha, haR, hsame⟩ := hacc rfl
      have hash : A.rows = d.flowdir.rows ∧ A.cols = d.flowdir.cols := by
        obtain ⟨a', ha', hr, hc, _⟩ := C18_accum_counts d.flowdir hdrains
        have heq := Returns.unique ha' haR
        cases heq
        exact ⟨hr, hc⟩
      have hv : a.rows = d.depths.rows ∧ a.cols = d.depths.cols :=
        ⟨hsame.1.trans (hash.1.trans hshape.1), hsame.2.1.trans (hash.2.trans hshape.2)⟩
      obtain ⟨b, h1, h2⟩ := Bluespots.process_accumFl hcc hbe safe gt hsq d.depths hne.1 hne.2 f d.flowdir
        hshape hdrains a hv (some dem)
      obtain ⟨γ, i, rank, hl⟩ := lowest_of_rule (eng := bluespotEngine) (safe := safe) (rule := .maxAccum a) hne hshape hdrains hv ⟨A, haR, hsame⟩ h2.chosen
      exact ⟨b, γ, i, rank, _, by rw [ha]; exact h1, h2, by rw [ha]; rfl, hl⟩
    | false =>
      have hv : (PourPointRule.minFilled dem d.noFlats).Valid bluespotEngine safe d.depths.rows d.depths.cols := by
        refine ⟨hfill ▸ hnf, ⟨hnsh.1.trans hdsh.1.symm, hnsh.2.trans hdsh.2.symm⟩, fun c hc => ?_⟩
        have hc : InGrid d.noFlats.rows d.noFlats.cols c := hc
        rw [hnsh.1, hnsh.2] at hc
        exact hfin c hc
      obtain ⟨b, h1, h2⟩ := Bluespots.process_demFl hcc hbe safe gt hsq d.depths hne.1 hne.2 f d.flowdir
        hshape hdrains dem d.noFlats hv.1 hv.2.1 hv.2.2
      have hfit : PourPointRule.Fits d.flowdir (.minFilled dem d.noFlats) := by
        rw [hfd]
        refine fits_of_flowdir demEngine.drop demEngine.scale dem d.noFlats (fun a b ha hb => ?_) hscale
        have ha : InGrid d.noFlats.rows d.noFlats.cols a := ha
        have hb : InGrid d.noFlats.rows d.noFlats.cols b := hb
        rw [hnsh.1, hnsh.2] at ha hb
        exact hdrop _ _ (hfin a ha) (hfin b hb)
      obtain ⟨γ, i, rank, hl⟩ := lowest_of_rule hne hshape hdrains hv hfit h2.chosen
      exact ⟨b, γ, i, rank, _, by rw [hno rfl]; exact h1, h2, by rw [hno rfl]; rfl, hl⟩
  -- network
  have hsh : b.labeled.rows = d.flowdir.rows ∧ b.labeled.cols = d.flowdir.cols :=
    ⟨hres.shape.1.trans hshape.1.symm, hres.shape.2.1.trans hshape.2.symm⟩
  have hlt : ∀ c, d.flowdir.Has c → d.flowdir.get c < 8 := fun c hc => Flow.Drains.code_lt (hdrains c hc)
  set pps := b.pourpoints.map fun p => (p.cell_row, p.cell_col) with hpps
  have hargs : List.Forall₂ (fun (a : Net.PourPointArg) (x : Cell × Nat) => a = .pix x.1 ∨ a = .feature (x.2 : Int) x.1)
      (pps.map .pix) pps.zipIdx := by
    rw [List.forall₂_map_left_iff, List.forall₂_iff_get]
    exact ⟨by simp, fun i h1 h2 => .inl (by simp)⟩
  have hpixmap : pps.map Net.PourPointArg.pix = b.pourpoints.map fun p => .pix (p.cell_row, p.cell_col) := by
    rw [hpps, List.map_map]; rfl
  have hin := netInput_of_lowest hsh (fun c hc => (hlt c hc).le) hlow hargs
  obtain ⟨_, R, hR, hforest, hroots⟩ := C33_acyclic hsh (fun c hc => (hlt c hc).le) hlow hargs
  have hpp := pourpoints_are hres.chosen
  obtain ⟨nodes, streams, hs1, hs2, hs3⟩ := C61_stream_tool gt hin hpp R hR
  obtain ⟨hperm, hids, hjun⟩ := C30_nodes hin R hR
  refine ⟨b, nodes, streams, choose, R, hb, hs3, fun mm vols final hv1 hv2 => ?_, hres, by rw [← hpixmap]; exact hR, hforest, hs2,
    fun r hr hd => ?_, hids, hperm, fun j hj ht => by simpa [hpps] using (hjun j hj ht).2.1, hchoose, γ, iγ, rank, hlow⟩
  · unfold Complete.processAllFl
    have hsquare : Complete.squareCellsFl fl gt = true := by
      unfold Complete.squareCellsFl; exact decide_eq_true hsq
    rw [hsquare]
    refine Run.yields_bind (Run.yields_ofFuel hd) ?_
    refine Run.yields_bind hb ?_
    refine Run.yields_bind (Run.yields_ofFuel hs1) ?_
    refine Run.yields_bind (Run.yields_ofExcept' hv1) ?_
    refine Run.yields_bind (Run.yields_ofFuel hv2) ?_
    exact Run.yields_pure _
  · rcases hroots r hr hd with e | ⟨e, he, hin, hq⟩
    · exact .inl e
    · obtain hf := Flow.flowsTo_iff.2 ⟨hlt e hin, rfl⟩
      refine .inr ⟨e, he, ?_⟩
      rw [← hfsh.1, ← hfsh.2]
      exact ⟨hin, _, hf, hq _ hf⟩

/-- The chain from the results of DemTool on to the network, for either set of functions and any arithmetic, with
the run of BluespotTool and the stream features. -/
theorem chain_network_runs {fl : K → K} {demEngine : Dem.Engine β K} {bluespotEngine : Bluespots.Engine β K}
    (hbe : Bluespots.IsEngineFl fl bluespotEngine) (hfill : bluespotEngine.fillTerrainNoFlats = demEngine.fillTerrainNoFlats)
    (hcc : LabelContract cc) (hsq : SquareCellsFl fl gt) (hsize : 0 < dem.rows ∧ 0 < dem.cols)
    (want : Bool) (f : Bluespots.StatUnits K → Bool) {d : Dem.Out β K} {s : Cell → β}
    (hd : Returns (Dem.process demEngine sub safe true want dem) (.ok d))
    (hdsh : d.depths.rows = dem.rows ∧ d.depths.cols = dem.cols) (hfsh : d.flowdir.rows = dem.rows ∧ d.flowdir.cols = dem.cols)
    (hdown : DrainsDownhill dem.rows dem.cols s d.flowdir)
    (hnsh : d.noFlats.rows = dem.rows ∧ d.noFlats.cols = dem.cols) (hfin : ∀ c, dem.Has c → d.noFlats.get c < ⊤)
    (hdrop : ∀ a b, a < ⊤ → b < ⊤ → (0 < demEngine.drop a b ↔ b < a))
    (hscale : ∀ a b, 0 < demEngine.scale (demEngine.drop a b) ↔ 0 < demEngine.drop a b)
    (hacc : want = true → ∃ a A, d.accum = some a ∧ Returns (Flow.accumulatedFlow d.flowdir) (.ok A) ∧ a.Same A)
    (hno : want = false → d.accum = none) :
    ∃ (b : Bluespots.Out K) (nodes streams : List (Feature K)) (choose : List Cell → Cell → Prop) (R : List Net.Node),
      (Bluespots.processFl fl cc bluespotEngine safe gt d.depths (some f) d.flowdir d.accum (some dem)).Yields (.ok b) ∧
      List.Forall₂ (IsStreamFeature gt) (R.filter fun n => n.geometry ≠ []) streams ∧
      (∀ mm vols final, Rain.simpleVolumesFl fl nodes "inputv" mm = .ok vols →
        Returns (Network.finalStateFl fl vols "inputv") (.ok final) →
        (Complete.processAllFl fl cc demEngine bluespotEngine sub safe gt dem want (some f) mm).Yields
          (.ok ⟨d, b, nodes, streams, vols, final⟩)) ∧
      Bluespots.IsResultFl fl gt d.depths f d.flowdir choose b ∧
      Returns (Net.geometricPourpointNetwork d.flowdir b.labeled
        (b.pourpoints.map fun p => .pix (p.cell_row, p.cell_col)) (some 0)) (.ok R) ∧
      IsForest R ∧ List.Forall₂ (IsNodeFeature gt (b.pourpoints.map (·.feature))) R nodes ∧
      (∀ r ∈ R, r.downstream_id = none → r.geometry = [] ∨
        ∃ e, r.geometry.getLast? = some e ∧ FlowsOut dem.rows dem.cols d.flowdir.get e) ∧
      (R.map (·.id)).Nodup ∧
      ((R.filter fun n => n.nodetype = .pourpoint).map fun n => (n.id, n.pix)).Perm
        ((b.pourpoints.map fun p => (p.cell_row, p.cell_col)).zipIdx.map fun x => ((x.2 : Int), x.1)) ∧
      ∀ j ∈ R, j.nodetype = .junction → (b.pourpoints.length : Int) ≤ j.id := by
  obtain ⟨b, nodes, streams, choose, R, h1, h2, h3, h4, h5, h6, h7, h8, h9, h10, h11, _⟩ := chain_network_lowest hbe hfill hcc hsq
    hsize want f hd hdsh hfsh hdown hnsh hfin hdrop hscale hacc hno
  exact ⟨b, nodes, streams, choose, R, h1, h2, h3, h4, h5, h6, h7, h8, h9, h10, h11⟩

/-- The chain from the results of DemTool on to the network, for either set of functions and any arithmetic. -/
theorem chain_network {fl : K → K} {demEngine : Dem.Engine β K} {bluespotEngine : Bluespots.Engine β K}
    (hbe : Bluespots.IsEngineFl fl bluespotEngine) (hfill : bluespotEngine.fillTerrainNoFlats = demEngine.fillTerrainNoFlats)
    (hcc : LabelContract cc) (hsq : SquareCellsFl fl gt) (hsize : 0 < dem.rows ∧ 0 < dem.cols)
    (want : Bool) (f : Bluespots.StatUnits K → Bool) {d : Dem.Out β K} {s : Cell → β}
    (hd : Returns (Dem.process demEngine sub safe true want dem) (.ok d))
    (hdsh : d.depths.rows = dem.rows ∧ d.depths.cols = dem.cols) (hfsh : d.flowdir.rows = dem.rows ∧ d.flowdir.cols = dem.cols)
    (hdown : DrainsDownhill dem.rows dem.cols s d.flowdir)
    (hnsh : d.noFlats.rows = dem.rows ∧ d.noFlats.cols = dem.cols) (hfin : ∀ c, dem.Has c → d.noFlats.get c < ⊤)
    (hdrop : ∀ a b, a < ⊤ → b < ⊤ → (0 < demEngine.drop a b ↔ b < a))
    (hscale : ∀ a b, 0 < demEngine.scale (demEngine.drop a b) ↔ 0 < demEngine.drop a b)
    (hacc : want = true → ∃ a A, d.accum = some a ∧ Returns (Flow.accumulatedFlow d.flowdir) (.ok A) ∧ a.Same A)
    (hno : want = false → d.accum = none) :
    ∃ (b : Bluespots.Out K) (nodes streams : List (Feature K)) (choose : List Cell → Cell → Prop) (R : List Net.Node),
      (∀ mm vols final, Rain.simpleVolumesFl fl nodes "inputv" mm = .ok vols →
        Returns (Network.finalStateFl fl vols "inputv") (.ok final) →
        (Complete.processAllFl fl cc demEngine bluespotEngine sub safe gt dem want (some f) mm).Yields
          (.ok ⟨d, b, nodes, streams, vols, final⟩)) ∧
      Bluespots.IsResultFl fl gt d.depths f d.flowdir choose b ∧
      Returns (Net.geometricPourpointNetwork d.flowdir b.labeled
        (b.pourpoints.map fun p => .pix (p.cell_row, p.cell_col)) (some 0)) (.ok R) ∧
      IsForest R ∧ List.Forall₂ (IsNodeFeature gt (b.pourpoints.map (·.feature))) R nodes ∧
      (∀ r ∈ R, r.downstream_id = none → r.geometry = [] ∨
        ∃ e, r.geometry.getLast? = some e ∧ FlowsOut dem.rows dem.cols d.flowdir.get e) ∧
      (R.map (·.id)).Nodup ∧
      ((R.filter fun n => n.nodetype = .pourpoint).map fun n => (n.id, n.pix)).Perm
        ((b.pourpoints.map fun p => (p.cell_row, p.cell_col)).zipIdx.map fun x => ((x.2 : Int), x.1)) ∧
      ∀ j ∈ R, j.nodetype = .junction → (b.pourpoints.length : Int) ≤ j.id := by
  obtain ⟨b, nodes, streams, choose, R, _, _, h⟩ := chain_network_runs hbe hfill hcc hsq hsize want f hd hdsh hfsh hdown hnsh
    hfin hdrop hscale hacc hno
  exact ⟨b, nodes, streams, choose, R, h⟩

theorem points_areas (b : Bluespots.Out K) :
    List.Forall₂ (fun (f : Feature K) x => f.properties.get? "wshed_area" = some (.num x))
      (b.pourpoints.map (·.feature)) (b.pourpoints.map (·.wshed_area)) ∧
    List.Forall₂ (fun (f : Feature K) x => f.properties.get? "bspot_vol" = some (.num x))
      (b.pourpoints.map (·.feature)) (b.pourpoints.map (·.bspot_vol)) := by
  constructor <;>
  · rw [List.forall₂_map_left_iff, List.forall₂_map_right_iff, List.forall₂_same]
    intro p _; rfl

/-- The chain from the results of DemTool on, for either set of functions. -/
theorem chain_conserves {demEngine : Dem.Engine β K} {bluespotEngine : Bluespots.Engine β K}
    (hbe : Bluespots.IsEngine bluespotEngine) (hfill : bluespotEngine.fillTerrainNoFlats = demEngine.fillTerrainNoFlats)
    (hcc : LabelContract cc) (hsq : SquareCells gt) (hsize : 0 < dem.rows ∧ 0 < dem.cols)
    (want : Bool) (f : Bluespots.StatUnits K → Bool) (mm : K) {d : Dem.Out β K} {s : Cell → β}
    (hd : Returns (Dem.process demEngine sub safe true want dem) (.ok d))
    (hdsh : d.depths.rows = dem.rows ∧ d.depths.cols = dem.cols) (hfsh : d.flowdir.rows = dem.rows ∧ d.flowdir.cols = dem.cols)
    (hnn : ∀ c, dem.Has c → 0 ≤ d.depths.get c) (hdown : DrainsDownhill dem.rows dem.cols s d.flowdir)
    (hnsh : d.noFlats.rows = dem.rows ∧ d.noFlats.cols = dem.cols) (hfin : ∀ c, dem.Has c → d.noFlats.get c < ⊤)
    (hdrop : ∀ a b, a < ⊤ → b < ⊤ → (0 < demEngine.drop a b ↔ b < a))
    (hscale : ∀ a b, 0 < demEngine.scale (demEngine.drop a b) ↔ 0 < demEngine.drop a b)
    (hacc : want = true → ∃ a A, d.accum = some a ∧ Returns (Flow.accumulatedFlow d.flowdir) (.ok A) ∧ a.Same A)
    (hno : want = false → d.accum = none) :
    ∃ out, (Complete.processAll cc demEngine bluespotEngine sub safe gt dem want (some f) mm).Yields (.ok out) ∧ out.dem = d ∧
      (∀ (l : Nat) (cs ws : List Cell), l ≤ out.bluespots.nlabels →
        CellsOf dem.rows dem.cols out.bluespots.labeled.get l cs →
        CellsOf dem.rows dem.cols out.bluespots.watersheds.get l ws →
        ∃ p, out.bluespots.pourpoints[l]? = some p ∧
          IsPourPoint gt (fun c => sub (out.dem.filled.get c) (dem.get c)) l cs ws p) ∧
      (∃ R, Returns (Net.geometricPourpointNetwork out.dem.flowdir out.bluespots.labeled
          (out.bluespots.pourpoints.map fun p => .pix (p.cell_row, p.cell_col)) (some 0)) (.ok R) ∧
        IsForest R ∧ List.Forall₂ (IsNodeFeature gt (out.bluespots.pourpoints.map (·.feature))) R out.nodes ∧
        ∀ r ∈ R, r.downstream_id = none → r.geometry = [] ∨
          ∃ e, r.geometry.getLast? = some e ∧ FlowsOut dem.rows dem.cols out.dem.flowdir.get e) ∧
      (∃ vs ss, List.Forall₂ (fun f x => HasNumber f "v" x) out.final vs ∧
        List.Forall₂ (fun f x => HasNumber f "spillv" x) (out.final.filter fun f => IsRoot f) ss ∧
        mm / 1000 * ((dem.rows * dem.cols : Nat) * cellArea gt) = vs.sum + ss.sum) ∧
      (0 ≤ mm → ∀ f ∈ out.final, ∃ v s cap, HasNumber f "v" v ∧ HasNumber f "spillv" s ∧
        HasNumber f "bspot_vol" cap ∧ 0 ≤ v ∧ v ≤ cap ∧ 0 ≤ s ∧ (0 < s → v = cap)) ∧
      (∃ choose, Bluespots.IsResult gt d.depths f d.flowdir choose out.bluespots) ∧
      (∃ R : List Net.Node, List.Forall₂ (IsNodeFeature gt (out.bluespots.pourpoints.map (·.feature))) R out.nodes ∧
        ((R.filter fun n => n.nodetype = .pourpoint).map fun n => (n.id, n.pix)).Perm
          ((out.bluespots.pourpoints.map fun p => (p.cell_row, p.cell_col)).zipIdx.map fun x => ((x.2 : Int), x.1)) ∧
        (∀ j ∈ R, j.nodetype = .junction → (out.bluespots.pourpoints.length : Int) ≤ j.id) ∧ (R.map (·.id)).Nodup) ∧
      List.Forall₂ (SameBut ["inputv", "v", "spillv", "pctv"]) out.nodes out.final := by
  obtain ⟨b, nodes, streams, choose, R, hrun, hres, hR, hforest, hs2, hroots, hids, hperm, hjun⟩ :=
    chain_network (fl := id) hbe hfill hcc hsq hsize want f hd hdsh hfsh hdown hnsh hfin hdrop hscale hacc hno
  replace hres := hres.exact
  obtain ⟨vols, final, hv1, hv2, hv3, hv4, hv5⟩ := rain_on_forest hforest hids hperm hs2 (by simp) (points_areas b).1
    (points_areas b).2 mm
  refine ⟨⟨d, b, nodes, streams, vols, final⟩, hrun mm vols final hv1 hv2, rfl, fun l cs ws hl hcs hws => ?_,
    ⟨R, hR, hforest, hs2, hroots⟩, ?_, ?_, ⟨_, hres⟩, ⟨R, hs2, hperm, hjun, hids⟩, hv5⟩
  · obtain ⟨_, _, hdep, _⟩ := Dem.process_inv hd
    rw [← hdsh.1, ← hdsh.2] at hcs hws
    obtain ⟨p, hp1, hp2, _⟩ := hres.points l cs ws hl hcs hws
    rw [hdep] at hp2
    exact ⟨p, hp1, hp2⟩
  · rw [wshed_sum hres, hdsh.1, hdsh.2] at hv3
    exact hv3
  · intro hmm
    have hca : 0 ≤ cellArea gt := mul_nonneg (abs_nonneg _) (abs_nonneg _)
    refine hv4 hmm (fun a ha => ?_) (fun x hx => ?_)
    · obtain ⟨p, hp, rfl⟩ := List.mem_map.1 ha
      obtain ⟨i, hi, rfl⟩ := List.getElem_of_mem hp
      obtain ⟨p, hp, hip, _⟩ := hres.points i _ _ (by have := hres.length; omega) (lists_filter _ _ _) (lists_filter _ _ _)
      obtain ⟨_, hp⟩ := List.getElem?_eq_some_iff.1 hp
      rw [hp, hip.wshed_area]
      exact mul_nonneg (Nat.cast_nonneg _) hca
    · obtain ⟨p, hp, rfl⟩ := List.mem_map.1 hx
      obtain ⟨i, hi, rfl⟩ := List.getElem_of_mem hp
      obtain ⟨p, hp, hip, _⟩ := hres.points i _ _ (by have := hres.length; omega) (lists_filter _ _ _) (lists_filter _ _ _)
      obtain ⟨_, hp⟩ := List.getElem?_eq_some_iff.1 hp
      rw [hp, hip.vol]
      refine mul_nonneg (List.sum_nonneg fun y hy => ?_) hca
      obtain ⟨c, hc, rfl⟩ := List.mem_map.1 hy
      have hc := Flow.mem_cellList.1 (List.mem_filter.1 hc).1
      rw [hdsh.1, hdsh.2] at hc
      exact hnn c hc

/-- C56. On every DEM, with every filter and every amount of rain, the whole chain returns. The network is a forest whose
roots drain off the raster; the capacity of a bluespot is the volume between the DEM and its spill level; and the rain on
the whole raster equals the water retained in all nodes plus the water spilled by the roots. No node retains a negative
volume or more than its capacity, and a node that spills is full. -/
theorem C56_complete_conserves (h : SoundTerrain drop sub scale safe dem) (hcc : LabelContract cc) (hsq : SquareCells gt)
    (want : Bool) (f : Bluespots.StatUnits K → Bool) (mm : K) :
    ∃ out, (Complete.processAll cc (Dem.python drop scale) Bluespots.python sub safe gt dem want (some f) mm).Yields
        (.ok out) ∧
      (∀ (l : Nat) (cs ws : List Cell), l ≤ out.bluespots.nlabels →
        CellsOf dem.rows dem.cols out.bluespots.labeled.get l cs →
        CellsOf dem.rows dem.cols out.bluespots.watersheds.get l ws →
        ∃ p, out.bluespots.pourpoints[l]? = some p ∧
          IsPourPoint gt (fun c => sub (out.dem.filled.get c) (dem.get c)) l cs ws p) ∧
      (∀ c, dem.Has c → IsSpillLevel dem.rows dem.cols dem.get c (out.dem.filled.get c)) ∧
      (∃ R, Returns (Net.geometricPourpointNetwork out.dem.flowdir out.bluespots.labeled
          (out.bluespots.pourpoints.map fun p => .pix (p.cell_row, p.cell_col)) (some 0)) (.ok R) ∧
        IsForest R ∧ List.Forall₂ (IsNodeFeature gt (out.bluespots.pourpoints.map (·.feature))) R out.nodes ∧
        ∀ r ∈ R, r.downstream_id = none → r.geometry = [] ∨
          ∃ e, r.geometry.getLast? = some e ∧ FlowsOut dem.rows dem.cols out.dem.flowdir.get e) ∧
      (∃ vs ss, List.Forall₂ (fun f x => HasNumber f "v" x) out.final vs ∧
        List.Forall₂ (fun f x => HasNumber f "spillv" x) (out.final.filter fun f => IsRoot f) ss ∧
        mm / 1000 * ((dem.rows * dem.cols : Nat) * cellArea gt) = vs.sum + ss.sum) ∧
      (0 ≤ mm → ∀ f ∈ out.final, ∃ v s cap, HasNumber f "v" v ∧ HasNumber f "spillv" s ∧
        HasNumber f "bspot_vol" cap ∧ 0 ≤ v ∧ v ≤ cap ∧ 0 ≤ s ∧ (0 < s → v = cap)) := by
  obtain ⟨d, hd, _, hdsh, hfsh, hcells, _, ⟨z, _, hdown⟩, hacc, hno⟩ := C62_dem_outputs h want
  obtain ⟨_, _, _, hnf, hfd, _, _⟩ := Dem.process_inv hd
  have hnf : Returns (Fill.fillTerrainNoFlats (safe dem).1 (safe dem).2 dem) (.ok d.noFlats) := hnf
  obtain ⟨hnsh, hfin, _⟩ := noFlats_finite h hnf
  obtain ⟨out, h1, rfl, h2, h3⟩ := chain_conserves (demEngine := Dem.python drop scale) (bluespotEngine := Bluespots.python)
    (.inl rfl) rfl hcc hsq ⟨by have := h.rows; omega, by have := h.cols; omega⟩ want f mm hd hdsh hfsh
    (fun c hc => (hcells c hc).2.2.1) hdown hnsh hfin h.drop_pos h.scale_pos (fun hw => by
      obtain ⟨a, h1, h2⟩ := hacc hw
      exact ⟨a, a, h1, h2, rfl, rfl, fun _ _ => rfl⟩) hno
  exact ⟨out, h1, h2, fun c hc => (hcells c hc).1, h3.1, h3.2.1, h3.2.2.1⟩

/-- C56 with the compiled functions: the same for every DEM without exactly three rows or columns, except that the filled
terrain is on or above the spill level instead of equal to it. -/
theorem C56_compiled_conserves (junk : Int × Int) (h : SoundTerrain drop sub scale safe dem) (hr3 : dem.rows ≠ 3)
    (hc3 : dem.cols ≠ 3) (hcc : LabelContract cc) (hsq : SquareCells gt) (want : Bool) (f : Bluespots.StatUnits K → Bool)
    (mm : K) :
    ∃ out, (Complete.processAll cc (Dem.compiled junk drop scale) (Bluespots.compiled junk) sub safe gt dem want (some f)
        mm).Yields (.ok out) ∧
      (∀ (l : Nat) (cs ws : List Cell), l ≤ out.bluespots.nlabels →
        CellsOf dem.rows dem.cols out.bluespots.labeled.get l cs →
        CellsOf dem.rows dem.cols out.bluespots.watersheds.get l ws →
        ∃ p, out.bluespots.pourpoints[l]? = some p ∧
          IsPourPoint gt (fun c => sub (out.dem.filled.get c) (dem.get c)) l cs ws p) ∧
      (∀ c, dem.Has c → ∃ z, IsSpillLevel dem.rows dem.cols dem.get c z ∧ z ≤ out.dem.filled.get c) ∧
      (∃ R, Returns (Net.geometricPourpointNetwork out.dem.flowdir out.bluespots.labeled
          (out.bluespots.pourpoints.map fun p => .pix (p.cell_row, p.cell_col)) (some 0)) (.ok R) ∧
        IsForest R ∧ List.Forall₂ (IsNodeFeature gt (out.bluespots.pourpoints.map (·.feature))) R out.nodes ∧
        ∀ r ∈ R, r.downstream_id = none → r.geometry = [] ∨
          ∃ e, r.geometry.getLast? = some e ∧ FlowsOut dem.rows dem.cols out.dem.flowdir.get e) ∧
      (∃ vs ss, List.Forall₂ (fun f x => HasNumber f "v" x) out.final vs ∧
        List.Forall₂ (fun f x => HasNumber f "spillv" x) (out.final.filter fun f => IsRoot f) ss ∧
        mm / 1000 * ((dem.rows * dem.cols : Nat) * cellArea gt) = vs.sum + ss.sum) ∧
      (0 ≤ mm → ∀ f ∈ out.final, ∃ v s cap, HasNumber f "v" v ∧ HasNumber f "spillv" s ∧
        HasNumber f "bspot_vol" cap ∧ 0 ≤ v ∧ v ≤ cap ∧ 0 ≤ s ∧ (0 < s → v = cap)) := by
  obtain ⟨d, hd, _, hdsh, hfsh, _, hcells, _, ⟨z, _, hdown⟩, hacc, hno⟩ := C62_dem_outputs_compiled junk h hr3 hc3 want
  obtain ⟨_, _, _, hnf, hfd, _, _⟩ := Dem.process_inv hd
  obtain ⟨nf, hnf', hnr, hnc, _, _, _, hnfin, _⟩ := C11_compiled_noflats_valid (safe dem).1 (safe dem).2 h.mono.1 h.mono.2
    (fun x => (h.ge x).1) (fun x => (h.ge x).2) dem ⟨h.rows, hr3⟩ ⟨h.cols, hc3⟩ h.finite (fun x hx => (h.keep x hx).1)
    (fun x hx => (h.keep x hx).2)
  have heq : Except.ok nf = Except.ok (ε := PyErr) d.noFlats := Returns.unique hnf' hnf
  cases heq
  obtain ⟨out, h1, rfl, h2, h3⟩ := chain_conserves (demEngine := Dem.compiled junk drop scale)
    (bluespotEngine := Bluespots.compiled junk) (.inr ⟨junk, rfl⟩) rfl hcc hsq
    ⟨by have := h.rows; omega, by have := h.cols; omega⟩ want f mm hd hdsh hfsh
    (fun c hc => (hcells c hc).2.2.1) hdown ⟨hnr, hnc⟩ hnfin h.drop_pos h.scale_pos hacc hno
  exact ⟨out, h1, h2, fun c hc => (hcells c hc).1, h3.1, h3.2.1, h3.2.2.1⟩

end Chain

/-! ### The assumptions hold in exact arithmetic -/

section Exact
variable {K : Type} [Field K] [LinearOrder K] [IsStrictOrderedRing K]

/-- A DEM of finite elevations. -/
def finiteDem (dem : Raster K) : Raster (WithTop K) := ⟨dem.rows, dem.cols, fun c => (dem.get c : WithTop K)⟩

/-- Exact elevation difference. -/
def exactSub (a b : WithTop K) : K := a.untopD 0 - b.untopD 0

/-- Exact addition of `short` and `diag`. -/
def exactSafe (short diag : K) : Raster (WithTop K) → (WithTop K → WithTop K) × (WithTop K → WithTop K) :=
  fun _ => ((· + (short : WithTop K)), (· + (diag : WithTop K)))

theorem exact_add {e : K} (he : 0 < e) : Monotone (· + (e : WithTop K)) ∧ (∀ x : WithTop K, x ≤ x + e) ∧
    (∀ x : WithTop K, x < ⊤ → x + e < ⊤ ∧ x < x + e) := by
  refine ⟨fun a b h => ?_, fun x => ?_, fun x hx => ?_⟩
  · cases a using WithTop.recTopCoe with
    | top =>
      obtain rfl := top_le_iff.1 h
      exact le_refl _
    | coe a => cases b using WithTop.recTopCoe with
      | top => simp
      | coe b =>
        have h := WithTop.coe_le_coe.1 h
        show (a : WithTop K) + e ≤ (b : WithTop K) + e
        rw [← WithTop.coe_add, ← WithTop.coe_add]
        exact WithTop.coe_le_coe.2 (by linarith)
  · cases x using WithTop.recTopCoe with
    | top => simp
    | coe x => rw [← WithTop.coe_add]; exact WithTop.coe_le_coe.2 (by linarith)
  · cases x using WithTop.recTopCoe with
    | top => exact absurd hx (lt_irrefl _)
    | coe x => rw [← WithTop.coe_add]; exact ⟨WithTop.coe_lt_top _, WithTop.coe_lt_coe.2 (by linarith)⟩

/-- In exact arithmetic with positive `short`, `diag` and diagonal scaling the assumptions hold for every DEM with at
least 2x2 cells. -/
theorem exact_sound (dem : Raster K) (hr : 2 ≤ dem.rows) (hc : 2 ≤ dem.cols) {short diag k : K} (hs : 0 < short)
    (hd : 0 < diag) (hk : 0 < k) : SoundTerrain exactSub exactSub (· * k) (exactSafe short diag) (finiteDem dem) where
  rows := hr
  cols := hc
  drop_pos := by
    intro a b ha hb
    lift a to K using ha.ne
    lift b to K using hb.ne
    simp [exactSub]
  sub_pos := by intro a b _ _; simp [exactSub, finiteDem]
  sub_self := by intro a _; simp [exactSub]
  scale_pos := fun a b => by simp [hk]
  finite := fun c _ => WithTop.coe_lt_top _
  mono := ⟨(exact_add hs).1, (exact_add hd).1⟩
  ge := fun x => ⟨(exact_add hs).2.1 x, (exact_add hd).2.1 x⟩
  keep := fun x hx => ⟨((exact_add hs).2.2 x hx).1, ((exact_add hd).2.2 x hx).1⟩
  strict := by
    intro nf hnf c hc'
    refine hnf.elim (fun hnf => ?_) fun hnf => ?_
    swap
    · have hfin := (FillCython.noFlats_of_returns (exact_add hs).1 (exact_add hd).1 (exact_add hs).2.1
        (exact_add hd).2.1 hnf).2 (fun c _ => WithTop.coe_lt_top _) (fun x hx => ((exact_add hs).2.2 x hx).1)
        (fun x hx => ((exact_add hd).2.2 x hx).1) c hc'
      exact ⟨((exact_add hs).2.2 _ hfin).2, ((exact_add hd).2.2 _ hfin).2⟩
    have h7 := C07_noflats_strictly_downslope _ _ (exact_add hs).1 (exact_add hd).1 (exact_add hs).2.1
      (exact_add hd).2.1 (finiteDem dem) nf (fun c _ => WithTop.coe_lt_top _) (fun x hx => ((exact_add hs).2.2 x hx).1)
      (fun x hx => ((exact_add hd).2.2 x hx).1) hnf
      (fun c _ hfin => ⟨((exact_add hs).2.2 _ hfin).2, ((exact_add hd).2.2 _ hfin).2⟩)
    have hfin := (h7 c hc').1
    exact ⟨((exact_add hs).2.2 _ hfin).2, ((exact_add hd).2.2 _ hfin).2⟩

/-- C56 in exact arithmetic: no assumption is left but the sizes, square cells and the labelling contract. -/
theorem C56_exact {cc : Raster Bool → Raster Int × Nat} (hcc : LabelContract cc) {gt : GeoTransform K}
    (hsq : SquareCells gt) (dem : Raster K) (hr : 2 ≤ dem.rows) (hc : 2 ≤ dem.cols) {short diag k : K} (hs : 0 < short)
    (hd : 0 < diag) (hk : 0 < k) (want : Bool) (f : Bluespots.StatUnits K → Bool) (mm : K) :
    ∃ out, (Complete.processAll cc (Dem.python exactSub (· * k)) Bluespots.python exactSub (exactSafe short diag) gt
        (finiteDem dem) want (some f) mm).Yields (.ok out) ∧
      ∃ vs ss, List.Forall₂ (fun f x => HasNumber f "v" x) out.final vs ∧
        List.Forall₂ (fun f x => HasNumber f "spillv" x) (out.final.filter fun f => IsRoot f) ss ∧
        mm / 1000 * ((dem.rows * dem.cols : Nat) * cellArea gt) = vs.sum + ss.sum := by
  obtain ⟨out, h1, _, _, _, h2, _⟩ := C56_complete_conserves (exact_sound dem hr hc hs hd hk) hcc hsq want f mm
  exact ⟨out, h1, h2⟩

/-- The same with the compiled functions. -/
theorem C56_compiled_exact (junk : Int × Int) {cc : Raster Bool → Raster Int × Nat} (hcc : LabelContract cc)
    {gt : GeoTransform K} (hsq : SquareCells gt) (dem : Raster K) (hr : 2 ≤ dem.rows ∧ dem.rows ≠ 3)
    (hc : 2 ≤ dem.cols ∧ dem.cols ≠ 3) {short diag k : K} (hs : 0 < short) (hd : 0 < diag) (hk : 0 < k) (want : Bool)
    (f : Bluespots.StatUnits K → Bool) (mm : K) :
    ∃ out, (Complete.processAll cc (Dem.compiled junk exactSub (· * k)) (Bluespots.compiled junk) exactSub
        (exactSafe short diag) gt (finiteDem dem) want (some f) mm).Yields (.ok out) ∧
      ∃ vs ss, List.Forall₂ (fun f x => HasNumber f "v" x) out.final vs ∧
        List.Forall₂ (fun f x => HasNumber f "spillv" x) (out.final.filter fun f => IsRoot f) ss ∧
        mm / 1000 * ((dem.rows * dem.cols : Nat) * cellArea gt) = vs.sum + ss.sum := by
  obtain ⟨out, h1, _, _, _, h2, _⟩ := C56_compiled_conserves junk (exact_sound dem hr.1 hc.1 hs hd hk) hr.2 hc.2 hcc hsq want f
    mm
  exact ⟨out, h1, h2⟩

end Exact

/-- A DEM with one pit, and the labelling of its only bluespot. -/
def demoValley : Raster Rat := Raster.ofRows [[9,9,9,9,9],[9,3,2,1,9],[9,2,5,2,4],[9,9,9,9,9]]
def demoValleyCC (_ : Raster Bool) : Raster Int × Nat :=
  (Raster.ofRows [[0,0,0,0,0],[0,1,1,1,0],[0,1,0,1,0],[0,0,0,0,0]], 1)

example : ∃ cc, LabelContract cc ∧ SquareCells (⟨0, 2, 0, 0, 0, -2⟩ : GeoTransform Rat) ∧
    SoundTerrain exactSub exactSub (· * (7/10)) (exactSafe (1/1000) (14/10000)) (finiteDem demoValley) := by
  obtain ⟨cc, h⟩ := exists_labelContract
  exact ⟨cc, h, by unfold SquareCells; norm_num,
    exact_sound demoValley (by decide) (by decide) (by norm_num) (by norm_num) (by norm_num)⟩

/-- The whole chain on this DEM: 2 m of rain on 20 cells of 4 m². The valley gets 48 m³, holds 40 m³ and
spills 8 m³. -/
example : ((Complete.processAll demoValleyCC (Dem.python exactSub (· * (7/10))) Bluespots.python exactSub
      (exactSafe (1/1000) (14/10000)) ⟨0, 2, 0, 0, 0, -2⟩ (finiteDem demoValley) false (some fun _ => true) (2000 : Rat)).run 40).run.map
        (fun r => r.toOption.map fun o => o.final.map fun f => [Dict.get? f.properties "nodeid",
          Dict.get? f.properties "dstrnodeid", Dict.get? f.properties "v", Dict.get? f.properties "spillv"]) =
    some (some [[some (.int 0), some .none, some (.num 0), some (.num 112)],
      [some (.int 1), some .none, some (.num 40), some (.num 8)]]) := by
  decide +kernel

/-- The same with the compiled functions, and with accumulated flow. -/
example : ((Complete.processAll demoValleyCC (Dem.compiled (7, 7) exactSub (· * (7/10))) (Bluespots.compiled (7, 7)) exactSub
      (exactSafe (1/1000) (14/10000)) ⟨0, 2, 0, 0, 0, -2⟩ (finiteDem demoValley) true (some fun _ => true)
        (2000 : Rat)).run 40).run.map
        (fun r => r.toOption.map fun o => o.final.map fun f => [Dict.get? f.properties "nodeid",
          Dict.get? f.properties "dstrnodeid", Dict.get? f.properties "v", Dict.get? f.properties "spillv"]) =
    some (some [[some (.int 0), some .none, some (.num 0), some (.num 112)],
      [some (.int 1), some .none, some (.num 40), some (.num 8)]]) := by
  decide +kernel

end Malstroem
