/-
Property C84: a precipitation raster with the same value everywhere is even rain. All arithmetic is exact.
-/
import Verif.Props.Engines

set_option linter.unusedSectionVars false

namespace Malstroem
open Spec

section Nodes
variable {K : Type} [Field K] [LinearOrder K] [IsStrictOrderedRing K]

theorem sum_const {α : Type} (l : List α) (x : K) : (l.map fun _ => x).sum = l.length * x := by
  simp

/-- Even rain in millimetres summed over a label raster: if attribute `key` of pour point `l` is the area of label `l`,
every node gets the rain on its area `key`. -/
theorem even_on_labels {gt : GeoTransform K} {lab : Raster Int} {water : Raster K} {mm : K} {n : Nat} {attr key : String}
    (hkey : key = "wshed_area" ∨ key = "bspot_vol" ∨ key = "bspot_area")
    (hshape : lab.rows = water.rows ∧ lab.cols = water.cols) (hw : ∀ c, water.Has c → water.get c = mm)
    (hn : TopLabel lab.rows lab.cols lab.get none n) (hr : LabelsIn lab.rows lab.cols lab.get n)
    {fps nodes : List (Feature K)} {xs : List K} (hlen : fps.length = n + 1)
    (hxs : List.Forall₂ (fun f x => f.properties.get? key = some (.num x)) fps xs)
    (hx : ∀ l : Nat, l ≤ n → xs[l]? =
      some (((Raster.cellList lab.rows lab.cols).filter fun c => lab.get c = (l : Int)).length * cellArea gt))
    {R : List Net.Node} (hR : List.Forall₂ (IsNodeFeature gt fps) R nodes)
    (hjun : ∀ j ∈ R, j.nodetype = .junction → (fps.length : Int) ≤ j.id) :
    ∃ out, Rain.rasterVolumes nodes gt lab water .mm attr = .ok out ∧
      List.Forall₂ (fun f g => ∃ a, f.properties.get? key = some (.num a) ∧ WithNumber attr (a * mm / 1000) f g) nodes out := by
  obtain ⟨vols, hv1, hv2, hv3⟩ := rasterVolumes_ok (attr := attr) (gt := gt) (unit := .mm) hshape hn hr rfl nodes
  rw [hv3]
  clear hv3
  have hvol : ∀ l : Nat, l ≤ n → ∃ a, xs[l]? = some a ∧ vols[l]? = some (a * mm / 1000) := by
    intro l hl
    refine ⟨_, hx l hl, ?_⟩
    rw [hv2 l hl]
    congr 1
    rw [List.map_congr_left (g := fun _ => mm) fun c hc => hw c ?_, sum_const]
    · unfold Raster.cells cellArea
      ring
    · have := Flow.mem_cellList.1 (List.mem_filter.1 hc).1
      rw [hshape.1, hshape.2] at this
      exact this
  have hxl : xs.length = n + 1 := hxs.length_eq ▸ hlen
  induction hR with
  | nil => exact ⟨[], rfl, .nil⟩
  | @cons m f R nodes hmf _ ih =>
    obtain ⟨out, h1, h2⟩ := ih fun j hj => hjun j (List.mem_cons_of_mem _ hj)
    have ha := node_number hkey hxs hmf
    have hid : 0 ≤ m.id ∧ if m.id < vols.length then vols[m.id.toNat]? = some (ofPourPoint xs m * mm / 1000)
        else ofPourPoint xs m * mm / 1000 = 0 := by
      cases ht : m.nodetype with
      | junction =>
        have := hjun m (List.mem_cons_self ..) ht
        refine ⟨by omega, ?_⟩
        rw [if_neg (by omega)]
        simp [ofPourPoint, ht]
      | pourpoint =>
        obtain ⟨_, i, p, e1, e2, _⟩ := hmf.pourpoint ht
        have hi := (List.getElem?_eq_some_iff.1 e2).1
        refine ⟨by omega, ?_⟩
        rw [if_pos (by omega)]
        obtain ⟨a, ha1, ha2⟩ := hvol i (by omega)
        rw [e1, Int.toNat_natCast, ha2]
        simp [ofPourPoint, ht, e1, List.getD, ha1]
    obtain ⟨g, hg1, hg2⟩ := rasterVolume_ok (attr := attr) hmf.nodeid hid.1 hid.2
    exact ⟨g :: out, by rw [List.mapM_cons, hg1, h1]; rfl, .cons ⟨_, ha, hg2⟩ h2⟩

end Nodes

section Chain
variable {β : Type} [LinearOrder β] [OrderTop β] {K : Type} [Field K] [LinearOrder K] [IsStrictOrderedRing K]
variable {cc : Raster Bool → Raster Int × Nat} {drop sub : β → β → K} {scale : K → K}
  {safe : Raster β → (β → β) × (β → β)} {gt : GeoTransform K} {dem : Raster β}

/-- Both sets of functions, for the DEMs they accept. -/
def Accepts (dem : Raster β) (drop : β → β → K) (scale : K → K) (demEngine : Dem.Engine β K)
    (bluespotEngine : Bluespots.Engine β K) : Prop :=
  (demEngine = Dem.python drop scale ∧ bluespotEngine = Bluespots.python) ∨
  (dem.rows ≠ 3 ∧ dem.cols ≠ 3 ∧ ∃ junk, demEngine = Dem.compiled junk drop scale ∧ bluespotEngine = Bluespots.compiled junk)

/-- What a run of `complete` leaves, for the tools that work on its nodes and rasters. -/
theorem complete_nodes {demEngine : Dem.Engine β K} {eng : Bluespots.Engine β K} (heng : Accepts dem drop scale demEngine eng)
    (h : SoundTerrain drop sub scale safe dem) (hcc : LabelContract cc) (hsq : SquareCells gt)
    (want : Bool) (f : Bluespots.StatUnits K → Bool) (mm : K) :
    ∃ out, (Complete.processAll cc demEngine eng sub safe gt dem want (some f) mm).Yields (.ok out) ∧
      Returns (Dem.process demEngine sub safe true want dem) (.ok out.dem) ∧
      (out.dem.depths.rows = dem.rows ∧ out.dem.depths.cols = dem.cols) ∧
      ∃ choose R, Bluespots.IsResult gt out.dem.depths f out.dem.flowdir choose out.bluespots ∧
        List.Forall₂ (IsNodeFeature gt (out.bluespots.pourpoints.map (·.feature))) R out.nodes ∧
        ((R.filter fun n => n.nodetype = .pourpoint).map fun n => (n.id, n.pix)).Perm
          ((out.bluespots.pourpoints.map fun p => (p.cell_row, p.cell_col)).zipIdx.map fun x => ((x.2 : Int), x.1)) ∧
        ∀ j ∈ R, j.nodetype = .junction → (out.bluespots.pourpoints.length : Int) ≤ j.id := by
  rcases heng with ⟨rfl, rfl⟩ | ⟨hr3, hc3, junk, rfl, rfl⟩
  · obtain ⟨d, hd, _, hdsh, hfsh, hcells, _, ⟨z, _, hdown⟩, hacc, hno⟩ := C62_dem_outputs h want
    obtain ⟨_, _, _, hnf, hfd, _, _⟩ := Dem.process_inv hd
    have hnf : Returns (Fill.fillTerrainNoFlats (safe dem).1 (safe dem).2 dem) (.ok d.noFlats) := hnf
    obtain ⟨hnsh, hfin, _⟩ := noFlats_finite h hnf
    obtain ⟨out, h1, rfl, _, _, _, _, ⟨choose, h2⟩, ⟨R, h3, h4, h5⟩, _⟩ :=
      chain_conserves (demEngine := Dem.python drop scale) (bluespotEngine := Bluespots.python)
      (.inl rfl) rfl hcc hsq ⟨by have := h.rows; omega, by have := h.cols; omega⟩ want f mm hd hdsh hfsh
      (fun c hc => (hcells c hc).2.2.1) hdown hnsh hfin h.drop_pos h.scale_pos (fun hw => by
        obtain ⟨a, h1, h2⟩ := hacc hw
        exact ⟨a, a, h1, h2, rfl, rfl, fun _ _ => rfl⟩) hno
    exact ⟨out, h1, hd, hdsh, choose, R, h2, h3, h4, h5.1⟩
  · obtain ⟨d, hd, _, hdsh, hfsh, _, hcells, _, ⟨z, _, hdown⟩, hacc, hno⟩ := C62_dem_outputs_compiled junk h hr3 hc3 want
    obtain ⟨_, _, _, hnf, hfd, _, _⟩ := Dem.process_inv hd
    obtain ⟨nf, hnf', hnr, hnc, _, _, _, hnfin, _⟩ := C11_compiled_noflats_valid (safe dem).1 (safe dem).2 h.mono.1 h.mono.2
      (fun x => (h.ge x).1) (fun x => (h.ge x).2) dem ⟨h.rows, hr3⟩ ⟨h.cols, hc3⟩ h.finite (fun x hx => (h.keep x hx).1)
      (fun x hx => (h.keep x hx).2)
    have heq : Except.ok nf = Except.ok (ε := PyErr) d.noFlats := Returns.unique hnf' hnf
    cases heq
    obtain ⟨out, h1, rfl, _, _, _, _, ⟨choose, h2⟩, ⟨R, h3, h4, h5⟩, _⟩ :=
      chain_conserves (demEngine := Dem.compiled junk drop scale)
      (bluespotEngine := Bluespots.compiled junk) (.inr ⟨junk, rfl⟩) rfl hcc hsq
      ⟨by have := h.rows; omega, by have := h.cols; omega⟩ want f mm hd hdsh hfsh
      (fun c hc => (hcells c hc).2.2.1) hdown ⟨hnr, hnc⟩ hnfin h.drop_pos h.scale_pos hacc hno
    exact ⟨out, h1, hd, hdsh, choose, R, h2, h3, h4, h5.1⟩

/-- Two lists of features with the same ids, geometries and attributes, except that attribute `attr` may be stored as an
integer in one and as a float in the other; it is the same number. -/
def SameVolumes (attr : String) (f g : Feature K) : Prop :=
  f.id = g.id ∧ f.geometry = g.geometry ∧ (∀ key, key ≠ attr → f.properties.get? key = g.properties.get? key) ∧
    ∃ x, HasNumber f attr x ∧ HasNumber g attr x

/-- C84, what holds: with the raster of *watersheds* as label raster the raster volume tool gives every node of a completed
run the volume that the even rain tool gives it, when the precipitation raster is `mm` everywhere. The rest of the features is
the same, too. Missing: the same for the raster of bluespots, which the documentation asks for; see `C84_false`. -/
theorem C84_even_raster_partial {demEngine : Dem.Engine β K} {eng : Bluespots.Engine β K}
    (heng : Accepts dem drop scale demEngine eng)
    (h : SoundTerrain drop sub scale safe dem) (hcc : LabelContract cc) (hsq : SquareCells gt)
    (want : Bool) (f : Bluespots.StatUnits K → Bool) (rain mm : K) (attr : String) (water : Raster K)
    (hshape : water.rows = dem.rows ∧ water.cols = dem.cols) (hw : ∀ c, water.Has c → water.get c = mm) :
    ∃ out even raster, (Complete.processAll cc demEngine eng sub safe gt dem want (some f) rain).Yields (.ok out) ∧
      Rain.simpleVolumes out.nodes attr mm = .ok even ∧
      Rain.rasterVolumes out.nodes gt out.bluespots.watersheds water .mm attr = .ok raster ∧
      List.Forall₂ (SameVolumes attr) even raster := by
  obtain ⟨out, h1, _, hdsh, choose, R, hb, hR, _, hjun⟩ := complete_nodes heng h hcc hsq want f rain
  have hsh := hb.shape
  obtain ⟨raster, hr1, hr2⟩ := even_on_labels (attr := attr) (key := "wshed_area") (mm := mm) (gt := gt) (n := out.bluespots.nlabels)
    (lab := out.bluespots.watersheds) (water := water) (.inl rfl)
    ⟨by rw [hsh.2.2.1, hdsh.1, hshape.1], by rw [hsh.2.2.2, hdsh.2, hshape.2]⟩ hw
    (by rw [hsh.2.2.1, hsh.2.2.2]; exact hb.wlabels.1) (by rw [hsh.2.2.1, hsh.2.2.2]; exact hb.wlabels.2)
    (by rw [List.length_map, hb.length]) (points_areas out.bluespots).1 (fun l hl => by
      obtain ⟨p, p1, p2, _⟩ := hb.points l _ _ hl (lists_filter _ _ _) (lists_filter _ _ _)
      rw [List.getElem?_map, p1, Option.map_some, p2.wshed_area, hsh.2.2.1, hsh.2.2.2]) hR
    (by simpa using hjun)
  have : ∃ even, Rain.simpleVolumes out.nodes attr mm = .ok even ∧ List.Forall₂ (SameVolumes attr) even raster := by
    clear hr1 hR h1
    unfold Rain.simpleVolumes Rain.simpleVolumesFl
    generalize out.nodes = nodes at hr2
    induction hr2 with
    | nil => exact ⟨[], rfl, .nil⟩
    | @cons x g nodes raster hx _ ih =>
      obtain ⟨even, e1, e2⟩ := ih
      obtain ⟨a, ha, hg⟩ := hx
      obtain ⟨g', hg1, hg2⟩ := simpleVolume_ok (attr := attr) (mm := mm) (f := x) ⟨_, ha, rfl⟩
      refine ⟨g' :: even, by rw [List.mapM_cons, show Rain.simpleVolumeFl id attr mm x = _ from hg1, e1]; rfl,
        .cons ⟨hg2.id.trans hg.id.symm, hg2.geometry.trans hg.geometry.symm,
          fun key hk => (hg2.others key hk).trans (hg.others key hk).symm, _, hg2.value, ?_⟩ e2⟩
      rw [mul_one_div]
      exact hg.value
  obtain ⟨even, e1, e2⟩ := this
  exact ⟨out, even, raster, h1, e1, hr1, e2⟩

/-- C84: with the raster of bluespots as label raster every node gets the rain on its bluespot, `bspot_area`, only. (The
`bspot_area` of node 0 is the area outside of all bluespots.) -/
theorem C84_bluespots_share {demEngine : Dem.Engine β K} {eng : Bluespots.Engine β K}
    (heng : Accepts dem drop scale demEngine eng)
    (h : SoundTerrain drop sub scale safe dem) (hcc : LabelContract cc) (hsq : SquareCells gt)
    (want : Bool) (f : Bluespots.StatUnits K → Bool) (rain mm : K) (attr : String) (water : Raster K)
    (hshape : water.rows = dem.rows ∧ water.cols = dem.cols) (hw : ∀ c, water.Has c → water.get c = mm) :
    ∃ out raster, (Complete.processAll cc demEngine eng sub safe gt dem want (some f) rain).Yields (.ok out) ∧
      Rain.rasterVolumes out.nodes gt out.bluespots.labeled water .mm attr = .ok raster ∧
      List.Forall₂ (fun f g => ∃ a, HasNumber f "bspot_area" a ∧ WithNumber attr (a * mm / 1000) f g) out.nodes raster := by
  obtain ⟨out, h1, _, hdsh, choose, R, hb, hR, _, hjun⟩ := complete_nodes heng h hcc hsq want f rain
  have hsh := hb.shape
  obtain ⟨raster, hr1, hr2⟩ := even_on_labels (attr := attr) (key := "bspot_area") (mm := mm) (gt := gt) (n := out.bluespots.nlabels)
    (lab := out.bluespots.labeled) (water := water) (xs := out.bluespots.pourpoints.map (·.bspot_area)) (.inr (.inr rfl))
    ⟨by rw [hsh.1, hdsh.1, hshape.1], by rw [hsh.2.1, hdsh.2, hshape.2]⟩ hw
    (by rw [hsh.1, hsh.2.1]; exact hb.labelling.topLabel (by rw [hdsh.1]; have := h.rows; omega)
          (by rw [hdsh.2]; have := h.cols; omega)) (by rw [hsh.1, hsh.2.1]; exact hb.labelling.range)
    (by rw [List.length_map, hb.length])
    (by rw [List.forall₂_map_left_iff, List.forall₂_map_right_iff, List.forall₂_same]; intro p _; rfl) (fun l hl => by
      obtain ⟨p, p1, p2, _⟩ := hb.points l _ _ hl (lists_filter _ _ _) (lists_filter _ _ _)
      rw [List.getElem?_map, p1, Option.map_some, p2.area, hsh.1, hsh.2.1]) hR
    (by simpa using hjun)
  refine ⟨out, raster, h1, hr1, hr2.imp ?_⟩
  rintro x g ⟨a, ha, hg⟩
  exact ⟨a, ⟨_, ha, rfl⟩, hg⟩

theorem cellArea_pos (hsq : SquareCells gt) : 0 < cellArea gt := by
  unfold SquareCells at hsq
  have h1 : 0 < |gt.t1| := by
    by_contra h0
    have h0 : |gt.t1| = 0 := le_antisymm (not_lt.1 h0) (abs_nonneg _)
    rw [h0] at hsq
    have := abs_nonneg (0 - |gt.t5|)
    linarith
  have h5 : 0 < |gt.t5| := by
    have := (abs_lt.1 hsq).2
    linarith
  exact mul_pos h1 h5

theorem same_number {f : Feature K} {attr : String} {x y : K} (hx : HasNumber f attr x) (hy : HasNumber f attr y) : x = y := by
  obtain ⟨a, h1, h2⟩ := hx
  obtain ⟨b, h3, h4⟩ := hy
  rw [h1] at h3
  cases h3
  rw [h2] at h4
  cases h4
  rfl

/-- C84: with the raster of bluespots as label raster the volumes are those of even rain only if nothing outside of the
bluespots drains into one. -/
theorem C84_bluespots_differ {demEngine : Dem.Engine β K} {eng : Bluespots.Engine β K}
    (heng : Accepts dem drop scale demEngine eng)
    (h : SoundTerrain drop sub scale safe dem) (hcc : LabelContract cc) (hsq : SquareCells gt)
    (want : Bool) (f : Bluespots.StatUnits K → Bool) (rain mm : K) (hmm : mm ≠ 0) (attr : String) (water : Raster K)
    (hshape : water.rows = dem.rows ∧ water.cols = dem.cols) (hw : ∀ c, water.Has c → water.get c = mm) :
    ∃ out even raster, (Complete.processAll cc demEngine eng sub safe gt dem want (some f) rain).Yields (.ok out) ∧
      Returns (Dem.process demEngine sub safe true want dem) (.ok out.dem) ∧
      (out.dem.depths.rows = dem.rows ∧ out.dem.depths.cols = dem.cols) ∧
      (∃ choose, Bluespots.IsResult gt out.dem.depths f out.dem.flowdir choose out.bluespots) ∧
      Rain.simpleVolumes out.nodes attr mm = .ok even ∧
      Rain.rasterVolumes out.nodes gt out.bluespots.labeled water .mm attr = .ok raster ∧
      (List.Forall₂ (SameVolumes attr) even raster →
        ∀ c, dem.Has c → out.bluespots.watersheds.get c = out.bluespots.labeled.get c) := by
  obtain ⟨out, h1, hd, hdsh, choose, R, hb, hR, hperm, _⟩ := complete_nodes heng h hcc hsq want f rain
  obtain ⟨out', even, _, h1', he, hr, hsame⟩ := C84_even_raster_partial heng h hcc hsq want f rain mm attr water hshape hw
  obtain ⟨out'', raster, h1'', hr', hshare⟩ := C84_bluespots_share heng h hcc hsq want f rain mm attr water hshape hw
  have e := Run.Yields.unique h1 h1'
  cases e
  have e := Run.Yields.unique h1 h1''
  cases e
  refine ⟨out, even, raster, h1, hd, hdsh, ⟨choose, hb⟩, he, hr', fun hvol c hc => ?_⟩
  have hcin : InGrid out.dem.depths.rows out.dem.depths.cols c := by rw [hdsh.1, hdsh.2]; exact hc
  by_contra hne
  have hw := hb.watershed c hcin
  have hrange := hb.wlabels.2 c hcin
  have hlab0 : out.bluespots.labeled.get c = 0 := by
    by_contra h0
    exact hne (hw.2.1 h0)
  rw [hlab0] at hne
  obtain ⟨l, hl⟩ := Int.eq_ofNat_of_zero_le hrange.1
  rw [hl] at hne hrange
  have hln : l ≤ out.bluespots.nlabels := by omega
  have hl1 : 1 ≤ l := by omega
  set cs := (Raster.cellList out.dem.depths.rows out.dem.depths.cols).filter fun x => out.bluespots.labeled.get x = (l : Int) with hcs
  set ws := (Raster.cellList out.dem.depths.rows out.dem.depths.cols).filter fun x => out.bluespots.watersheds.get x = (l : Int) with hws
  obtain ⟨p, p1, p2, _⟩ := hb.points l cs ws hln (lists_filter _ _ _) (lists_filter _ _ _)
  -- the node of label `l`
  have hmem : ((l : Int), (p.cell_row, p.cell_col)) ∈
      (out.bluespots.pourpoints.map fun p => (p.cell_row, p.cell_col)).zipIdx.map fun x => ((x.2 : Int), x.1) :=
    List.mem_map.2 ⟨((p.cell_row, p.cell_col), l), List.mem_zipIdx_iff_getElem?.2 (by simp [p1]), rfl⟩
  obtain ⟨m, hm, hme⟩ := List.mem_map.1 (hperm.mem_iff.2 hmem)
  obtain ⟨hmR, hmt⟩ := List.mem_filter.1 hm
  have hmt : m.nodetype = .pourpoint := by simpa using hmt
  have hmid : m.id = l := (Prod.ext_iff.1 hme).1
  obtain ⟨k, hk, hkm⟩ := List.getElem_of_mem hmR
  have hkn : k < out.nodes.length := hR.length_eq ▸ hk
  have hkr : k < raster.length := hshare.length_eq ▸ hkn
  have hke : k < even.length := by rw [hvol.length_eq]; exact hkr
  have hnode := (List.forall₂_iff_get.1 hR).2 k hk hkn
  have hra := (List.forall₂_iff_get.1 hshare).2 k hkn hkr
  have hev := (List.forall₂_iff_get.1 hvol).2 k hke hkr
  simp only [List.get_eq_getElem, hkm] at hnode hra hev
  have num : ∀ (key : String) (g : Bluespots.PourPoint K → K), key = "wshed_area" ∨ key = "bspot_vol" ∨ key = "bspot_area" →
      (∀ p : Bluespots.PourPoint K, p.feature.properties.get? key = some (.num (g p))) → HasNumber out.nodes[k] key (g p) := by
    intro key g hkey hg
    have := node_number (xs := out.bluespots.pourpoints.map g) hkey (by
      rw [List.forall₂_map_left_iff, List.forall₂_map_right_iff, List.forall₂_same]; intro p _; exact hg p) hnode
    refine ⟨_, this, ?_⟩
    simp [ofPourPoint, hmt, hmid, List.getD, p1, Val.float]
  have hnum1 := num "wshed_area" (·.wshed_area) (.inl rfl) fun _ => rfl
  have hnum2 := num "bspot_area" (·.bspot_area) (.inr (.inr rfl)) fun _ => rfl
  -- the volumes
  have hev1 : HasNumber even[k] attr (p.wshed_area * mm / 1000) := by
    obtain ⟨even', he', -, hx⟩ := C39_simple_volumes (attr := attr) (mm := mm) (fs := out.nodes)
      (areas := R.map (ofPourPoint (out.bluespots.pourpoints.map (·.wshed_area)))) (by
        rw [List.forall₂_map_right_iff]
        exact hR.flip.imp fun f n hfn => ⟨_, node_number (.inl rfl) (points_areas out.bluespots).1 hfn, rfl⟩)
    rw [he] at he'
    cases he'
    obtain ⟨g, hg1, hg2⟩ := hx k out.nodes[k] (ofPourPoint (out.bluespots.pourpoints.map (·.wshed_area)) m) (by simp [hkn])
      (by simp [hk, hkm])
    rw [List.getElem?_eq_getElem hke] at hg1
    cases hg1
    have : ofPourPoint (out.bluespots.pourpoints.map (·.wshed_area)) m = p.wshed_area := by
      simp [ofPourPoint, hmt, hmid, List.getD, p1]
    rw [← this]
    exact hg2.value
  obtain ⟨a, ha, hg⟩ := hra
  cases same_number ha hnum2
  obtain ⟨-, -, -, x, hx1, hx2⟩ := hev
  have e1 := same_number hx1 hev1
  have e2 := same_number hx2 hg.value
  have hA : 0 < cellArea gt := cellArea_pos hsq
  have hlen : (ws.length : K) = cs.length := by
    rw [e1, p2.wshed_area, p2.area] at e2
    have : ((ws.length : K) - cs.length) * (cellArea gt * mm / 1000) = 0 := by linear_combination e2
    have h0 : cellArea gt * mm / 1000 ≠ 0 := div_ne_zero (mul_ne_zero hA.ne' hmm) (by norm_num)
    exact sub_eq_zero.1 ((mul_eq_zero.1 this).resolve_right h0)
  have hlen : ws.length = cs.length := by exact_mod_cast hlen
  have hsub : cs ⊆ ws := by
    intro x hx
    obtain ⟨hx1, hx2⟩ := List.mem_filter.1 hx
    refine List.mem_filter.2 ⟨hx1, ?_⟩
    simp only [decide_eq_true_eq] at hx2 ⊢
    rw [(hb.watershed x (Flow.mem_cellList.1 hx1)).2.1 (by omega), hx2]
  have hcs' : cs.Nodup := (lists_filter out.dem.depths.rows out.dem.depths.cols _).nodup
  have hpm := (List.subperm_of_subset hcs' hsub).perm_of_length_le hlen.le
  have hcw : c ∈ ws := List.mem_filter.2 ⟨Flow.mem_cellList.2 hcin, by simp [hl]⟩
  have := (List.mem_filter.1 (hpm.mem_iff.2 hcw)).2
  simp only [decide_eq_true_eq] at this
  omega

end Chain

/-! ### The DEM with one valley -/

/-- A filter that accepts everything accepts every bluespot. -/
theorem passes_all {K : Type} [Field K] [LinearOrder K] [IsStrictOrderedRing K] {depths : Raster K} {area : K} {c : Cell} (hc : depths.Has c)
    (hw : depths.get c ≠ 0) : Passes depths.rows depths.cols depths.get area (fun _ => true) c := by
  classical
  have hl := lists_filter depths.rows depths.cols
    (fun x => ConnectedIn (fun y => InGrid depths.rows depths.cols y ∧ depths.get y ≠ 0) c x)
  have hm := (hl.2 c).2 ⟨hc, .refl ⟨hc, hw⟩⟩
  exact ⟨_, _, hl, Bluespots.isStatsFl_id.1 (Bluespots.stat_isStats id depths area (List.ne_nil_of_mem hm)), rfl⟩

/-- What is computed from a concrete run of the Python no-flats fill. -/
theorem noFlats_run {β α : Type*} [LinearOrder β] [OrderTop β] {short diag : β → β} {dem r : Raster β}
    (hs : ¬ (dem.rows < 2 ∨ dem.cols < 2)) (h : Returns (Fill.fillTerrainNoFlats short diag dem) (.ok r)) (g : Raster β → α)
    {v : α} (k : Nat) (hk : ((Fill.fillTerrainNoFlatsLoop short diag dem k).map g) = some v) : g r = v := by
  obtain ⟨n, hn⟩ := h
  have h := hn (max n k) (le_max_left _ _)
  obtain ⟨q, hq, hq2⟩ := Option.map_eq_some_iff.1 hk
  have hq' : Fill.fillTerrainNoFlatsLoop short diag dem (max n k) = some q := doWhile_mono hq (le_max_right n k)
  unfold Fill.fillTerrainNoFlats at h
  rw [if_neg hs, hq'] at h
  simp only [Option.map_some, Option.some.injEq, Except.ok.injEq] at h
  rw [← h]; exact hq2

/-- C84 is false with the raster of bluespots: on the DEM with one valley (`demoValley`) the volumes differ for any amount of
rain but 0. The hill in the middle of the valley is outside of the bluespot and drains into it; the rain on it is missing. -/
theorem C84_false {cc : Raster Bool → Raster Int × Nat} (hcc : LabelContract cc) {gt : GeoTransform Rat}
    (hsq : SquareCells gt) (want : Bool) (rain mm : Rat) (hmm : mm ≠ 0) (attr : String) :
    ∃ out even raster, (Complete.processAll cc (Dem.python exactSub (· * (7/10))) Bluespots.python exactSub
        (exactSafe (1/1000) (14/10000)) gt (finiteDem demoValley) want (some fun _ => true) rain).Yields (.ok out) ∧
      Rain.simpleVolumes out.nodes attr mm = .ok even ∧
      Rain.rasterVolumes out.nodes gt out.bluespots.labeled ⟨demoValley.rows, demoValley.cols, fun _ => mm⟩ .mm attr = .ok raster ∧
      ¬ List.Forall₂ (SameVolumes attr) even raster := by
  obtain ⟨out, even, raster, h1, hd, hrows, ⟨choose, hb⟩, h2, h3, h4⟩ := C84_bluespots_differ (β := WithTop Rat) (.inl ⟨rfl, rfl⟩)
    (exact_sound demoValley (by decide) (by decide) (short := 1/1000) (diag := 14/10000) (k := 7/10) (by norm_num) (by norm_num)
      (by norm_num)) hcc hsq want (fun _ => true) rain mm hmm attr ⟨demoValley.rows, demoValley.cols, fun _ => mm⟩ ⟨rfl, rfl⟩
      (fun _ _ => rfl)
  refine ⟨out, even, raster, h1, h2, h3, fun h => ?_⟩
  obtain ⟨_, hfill, hdep, hnf, hfd, _⟩ := Dem.process_inv hd
  have hfill : Returns (Fill.fillTerrain (finiteDem demoValley)) (.ok out.dem.filled) := hfill
  have hnf : Returns (Fill.fillTerrainNoFlats _ _ (finiteDem demoValley)) (.ok out.dem.noFlats) := hnf
  have e1 : out.dem.filled.get (2, 2) = 5 := python_cell (by decide) hfill (k := 9) (by decide +kernel)
  have e2 : out.dem.filled.get (2, 3) = 4 := python_cell (by decide) hfill (k := 9) (by decide +kernel)
  have e3 : out.dem.flowdir.get (2, 2) = 2 := by
    rw [hfd]
    exact noFlats_run (by decide) hnf (fun r => (Flow.terrainFlowdirection exactSub (· * (7/10)) r true).get (2, 2)) 9
      (by decide +kernel)
  have hrows : out.dem.depths.rows = 4 ∧ out.dem.depths.cols = 5 := hrows
  have hg : ∀ c : Cell, c = (2, 2) ∨ c = (2, 3) → InGrid out.dem.depths.rows out.dem.depths.cols c := by
    rw [hrows.1, hrows.2]
    rintro c (rfl | rfl) <;> exact ⟨by decide, by decide, by decide, by decide⟩
  have d1 : out.dem.depths.get (2, 2) = 0 := by
    rw [hdep]
    show exactSub (out.dem.filled.get (2, 2)) _ = 0
    rw [e1]
    decide +kernel
  have d2 : out.dem.depths.get (2, 3) ≠ 0 := by
    rw [hdep]
    show exactSub (out.dem.filled.get (2, 3)) _ ≠ 0
    rw [e2]
    decide +kernel
  have l1 : out.bluespots.labeled.get (2, 2) = 0 := (hb.labelling.background _ (hg _ (.inl rfl))).2 fun h => h.1 d1
  have l2 : out.bluespots.labeled.get (2, 3) ≠ 0 := fun h0 =>
    (hb.labelling.background _ (hg _ (.inr rfl))).1 h0 ⟨d2, passes_all (hg _ (.inr rfl)) d2⟩
  have hw := hb.watershed (2, 2) (hg _ (.inl rfl))
  refine l2 (hw.2.2.1.1 ((h4 h _ ?_).trans l1) (2, 3) (.single ⟨hg _ (.inl rfl), hg _ (.inr rfl),
    Flow.flowsTo_iff.2 ⟨by rw [e3]; decide, by rw [e3]; decide⟩⟩))
  exact ⟨by decide, by decide, by decide, by decide⟩

/-- The hypotheses of C84 on this DEM, for both sets of functions. -/
example : ∃ cc, LabelContract cc ∧ SquareCells (⟨0, 2, 0, 0, 0, -2⟩ : GeoTransform Rat) ∧
    SoundTerrain exactSub exactSub (· * (7/10)) (exactSafe (1/1000) (14/10000)) (finiteDem demoValley) ∧
    Accepts (finiteDem demoValley) exactSub (· * (7/10)) (Dem.compiled (7, 7) exactSub (· * (7/10))) (Bluespots.compiled (7, 7)) := by
  obtain ⟨cc, h⟩ := exists_labelContract
  exact ⟨cc, h, by unfold SquareCells; norm_num,
    exact_sound demoValley (by decide) (by decide) (by norm_num) (by norm_num) (by norm_num),
    .inr ⟨by decide, by decide, (7, 7), rfl, rfl⟩⟩

/-- Two metres of rain on cells of 4 m²: even rain, the raster summed over the watersheds, and summed over the bluespots. -/
example : ((Complete.processAll demoValleyCC (Dem.python exactSub (· * (7/10))) Bluespots.python exactSub
      (exactSafe (1/1000) (14/10000)) ⟨0, 2, 0, 0, 0, -2⟩ (finiteDem demoValley) false (some fun _ => true) (2000 : Rat)).run 40).run.map
        (fun r => r.toOption.map fun o =>
          let water : Raster Rat := ⟨4, 5, fun _ => 2000⟩
          [Rain.simpleVolumes o.nodes "w" 2000, Rain.rasterVolumes o.nodes ⟨0, 2, 0, 0, 0, -2⟩ o.bluespots.watersheds water .mm "w",
            Rain.rasterVolumes o.nodes ⟨0, 2, 0, 0, 0, -2⟩ o.bluespots.labeled water .mm "w"].map fun x =>
              x.toOption.map fun l => l.map fun f => Dict.get? f.properties "w") =
    some (some [some [some (.num 112), some (.num 48)], some [some (.num 112), some (.num 48)],
      some [some (.num 120), some (.num 40)]]) := by
  decide +kernel

end Malstroem
