/-
Property C90: what the attribute bspot_fumm means for the final state. All arithmetic is exact.
-/
import Verif.Props.MoreRain
import Verif.Props.EvenRaster

set_option linter.unusedSectionVars false

namespace Malstroem
open Spec Network

section
variable {K : Type} [Field K] [LinearOrder K] [IsStrictOrderedRing K]

/-- The bluespot `l` after `mm` of even rain: `p` is its pour point, which says that `x` mm fill it, `g` its node in the
final state `final`. -/
structure FilledUp (mm : K) (final : List (Feature K)) (l : Nat) (p : Bluespots.PourPoint K) (x : K) (g : Feature K) : Prop where
  fumm : p.bspot_fumm = some x
  node : g ∈ final ∧ g.properties.get? "bspot_id" = some (.int l)
  capacity : HasNumber g "bspot_vol" p.bspot_vol
  /-- with `x` mm or more it is full -/
  full : x ≤ mm → HasNumber g "v" p.bspot_vol
  /-- with more it spills -/
  spills : x < mm → ∃ s, HasNumber g "spillv" s ∧ 0 < s
  /-- and if nothing spills to it from other nodes, `x` is exactly the amount that fills it; it holds the proportional part of its volume
  with less -/
  alone : (∀ h ∈ final, ∀ n, g.properties.get? "nodeid" = some n → h.properties.get? "dstrnodeid" = some n →
      HasNumber h "spillv" 0) →
    (mm ≤ x → HasNumber g "spillv" 0 ∧ HasNumber g "v" (mm / 1000 * p.wshed_area)) ∧
    (0 < x → mm ≤ x → HasNumber g "v" (mm / x * p.bspot_vol)) ∧ (mm < x → ¬ HasNumber g "v" p.bspot_vol)

theorem fills_up {gt : GeoTransform K} {depths : Raster K} {f : Bluespots.StatUnits K → Bool} {flowdir : Raster Nat}
    {rule : List Cell → Cell → Prop} {b : Bluespots.Out K} (hsq : SquareCells gt)
    (hb : Bluespots.IsResult gt depths f flowdir rule b) {R : List Net.Node}
    {nodes : List (Feature K)} (hf : IsForest R) (hids : (R.map (·.id)).Nodup)
    (hn : List.Forall₂ (IsNodeFeature gt (b.pourpoints.map (·.feature))) R nodes)
    (hperm : ((R.filter fun n => n.nodetype = .pourpoint).map fun n => (n.id, n.pix)).Perm
        ((b.pourpoints.map fun p => (p.cell_row, p.cell_col)).zipIdx.map fun x => ((x.2 : Int), x.1))) (mm : K) :
    ∃ vols final, Rain.simpleVolumes nodes "inputv" mm = .ok vols ∧
      Returns (Network.finalState vols "inputv") (.ok final) ∧
      ∀ l : Nat, 1 ≤ l → l ≤ b.nlabels → ∃ p x g, b.pourpoints[l]? = some p ∧ FilledUp mm final l p x g := by
  obtain ⟨vols, final, v, spill, h1, h2, h3, h4, ⟨order, h5, h5'⟩, h6⟩ :=
    rain_balance hf hids hn (points_areas b).1 (points_areas b).2 mm
  refine ⟨vols, final, h1, h2, fun l hl1 hl2 => ?_⟩
  obtain ⟨p, hp, hip, _⟩ := hb.points l _ _ hl2 (lists_filter _ _ _) (lists_filter _ _ _)
  -- the watershed has cells
  obtain ⟨c, hc, hcl⟩ := hb.labelling.used l hl1 hl2
  have hw : 0 < p.wshed_area := by
    rw [hip.wshed_area]
    refine mul_pos ?_ (cellArea_pos hsq)
    have : c ∈ (Raster.cellList depths.rows depths.cols).filter fun c => decide (b.watersheds.get c = (l : Int)) := by
      refine ((lists_filter depths.rows depths.cols (fun c => b.watersheds.get c = (l : Int))).2 c).2 ⟨hc, ?_⟩
      show b.watersheds.get c = (l : Int)
      rw [(hb.watershed c hc).2.1 (by rw [hcl]; omega), hcl]
    exact_mod_cast List.length_pos_of_mem this
  have hfumm : p.bspot_fumm = some (1000 * p.bspot_vol / p.wshed_area) := by rw [hip.fumm, if_neg hw.ne']
  -- its node
  obtain ⟨r, hr, hrt, hrid⟩ : ∃ r ∈ R, r.nodetype = .pourpoint ∧ r.id = (l : Int) := by
    have hmem : ((l : Int), (p.cell_row, p.cell_col)) ∈
        (b.pourpoints.map fun p => (p.cell_row, p.cell_col)).zipIdx.map fun x => ((x.2 : Int), x.1) := by
      refine List.mem_map.2 ⟨((p.cell_row, p.cell_col), l), ?_, rfl⟩
      rw [List.mem_zipIdx_iff_getElem?, List.getElem?_map, hp]; rfl
    obtain ⟨r, hr, hre⟩ := List.mem_map.1 (hperm.mem_iff.2 hmem)
    rw [List.mem_filter] at hr
    exact ⟨r, hr.1, by simpa using hr.2, by simpa using congrArg Prod.fst hre⟩
  obtain ⟨i, hi, hri⟩ := List.getElem_of_mem hr
  have hri : R[i]? = some r := by rw [List.getElem?_eq_getElem hi, hri]
  obtain ⟨nf, hnf, hnode⟩ := forall₂_get hn hri
  obtain ⟨g, hg, hsame⟩ := forall₂_get h3 hnf
  obtain ⟨g', hg', hv, hsp⟩ := forall₂_get h6 hri
  rw [hg] at hg'; cases hg'
  have hof : ∀ xs : List K, ofPourPoint xs r = xs.getD l 0 := by
    intro xs; unfold ofPourPoint; rw [if_pos hrt, hrid]; rfl
  have hcap : ofPourPoint (b.pourpoints.map (·.bspot_vol)) r = p.bspot_vol := by
    rw [hof, List.getD_eq_getElem?_getD, List.getElem?_map, hp]; rfl
  have harea : ofPourPoint (b.pourpoints.map (·.wshed_area)) r = p.wshed_area := by
    rw [hof, List.getD_eq_getElem?_getD, List.getElem?_map, hp]; rfl
  set ns := R.map fun n => rainNode id (b.pourpoints.map (·.wshed_area)) (b.pourpoints.map (·.bspot_vol)) mm n with hns
  set N := rainNode id (b.pourpoints.map (·.wshed_area)) (b.pourpoints.map (·.bspot_vol)) mm r with hN
  have hNmem : N ∈ ns := List.mem_map_of_mem hr
  have hNvol : N.vol = p.wshed_area * mm * (1 / 1000) := by
    show ofPourPoint _ r * mm * (1 / 1000) = _; rw [harea]
  have hNcap : N.cap = p.bspot_vol := hcap
  obtain ⟨b1, b2⟩ := h4 N hNmem
  have hspill : ∀ n ∈ ns, 0 ≤ spill n.id := fun n hn => by rw [(h4 n hn).2]; exact le_max_left _ _
  have harr : N.vol ≤ arriving ns spill N := by
    unfold arriving
    refine le_add_of_nonneg_right (List.sum_nonneg fun y hy => ?_)
    obtain ⟨m, hm, rfl⟩ := List.mem_map.1 hy
    exact hspill m (List.mem_filter.1 hm).1
  have hNid : N.id = r.id := rfl
  rw [hNid, hNcap] at b1 b2
  have hle : ∀ y, 1000 * p.bspot_vol / p.wshed_area ≤ y ↔ p.bspot_vol ≤ p.wshed_area * y * (1 / 1000) := by
    intro y
    rw [div_le_iff₀ hw]
    constructor <;> intro h <;> linarith
  have hlt : ∀ y, 1000 * p.bspot_vol / p.wshed_area < y ↔ p.bspot_vol < p.wshed_area * y * (1 / 1000) := by
    intro y
    rw [div_lt_iff₀ hw]
    constructor <;> intro h <;> linarith
  refine ⟨p, _, g, hp, ⟨hfumm, ⟨List.mem_of_getElem? hg, ?_⟩, ?_, fun hx => ?_, fun hx => ?_, fun hal => ?_⟩⟩
  · obtain ⟨_, j, q, hj, hq, hcop⟩ := hnode.pourpoint hrt
    have hjl : j = l := by omega
    subst hjl
    rw [hsame.others _ (by decide), hcop _ (by decide)]
    rw [List.getElem?_map, hp] at hq
    cases hq
    show some (Val.int p.bspot_id) = _
    rw [hip.bspot_id]
  · refine ⟨.num p.bspot_vol, ?_, rfl⟩
    rw [hsame.others _ (by decide), node_number (.inr (.inl rfl)) (points_areas b).2 hnode, hcap]
  · have := (hle mm).1 hx
    rw [← hNvol] at this
    rw [min_eq_right (this.trans harr)] at b1
    rw [← b1]; exact hv
  · have := (hlt mm).1 hx
    rw [← hNvol] at this
    refine ⟨_, hsp, ?_⟩
    rw [b2]
    exact lt_max_of_lt_right (sub_pos.2 (this.trans_le harr))
  · have hup : ((upstreamOf ns N).map fun m => spill m.id).sum = 0 := by
      refine List.sum_eq_zero fun y hy => ?_
      obtain ⟨m, hm, rfl⟩ := List.mem_map.1 hy
      obtain ⟨hm, hmd⟩ := List.mem_filter.1 hm
      obtain ⟨r', hr', rfl⟩ := List.mem_map.1 hm
      have hmd : r'.downstream_id = some r.id := of_decide_eq_true hmd
      obtain ⟨j, hj, hrj⟩ := List.getElem_of_mem hr'
      have hrj : R[j]? = some r' := by rw [List.getElem?_eq_getElem hj, hrj]
      obtain ⟨nf', hnf', hnode'⟩ := forall₂_get hn hrj
      obtain ⟨g', hg', hsame'⟩ := forall₂_get h3 hnf'
      obtain ⟨g'', hg'', _, hsp'⟩ := forall₂_get h6 hrj
      rw [hg'] at hg''; cases hg''
      refine hasNumber_unique hsp' (hal g' (List.mem_of_getElem? hg') (.int r.id) ?_ ?_)
      · rw [hsame.others _ (by decide), hnode.nodeid]
      · rw [hsame'.others _ (by decide), hnode'.down, hmd]; rfl
    have harr' : arriving ns spill N = p.wshed_area * mm * (1 / 1000) := by
      unfold arriving; rw [hup, hNvol]; simp
    rw [harr'] at b1 b2
    have hvv : mm ≤ 1000 * p.bspot_vol / p.wshed_area → v r.id = mm / 1000 * p.wshed_area := by
      intro hx
      rw [b1, min_eq_left (not_lt.1 fun h => absurd ((hlt mm).2 h) (not_lt.2 hx))]
      ring
    refine ⟨fun hx => ⟨?_, ?_⟩, fun hx0 hx => ?_, fun hx hfull => ?_⟩
    · have : spill r.id = 0 := by
        rw [b2]
        exact max_eq_left (sub_nonpos.2 (not_lt.1 fun h => absurd ((hlt mm).2 h) (not_lt.2 hx)))
      rw [← this]; exact hsp
    · rw [← hvv hx]; exact hv
    · have : v r.id = mm / (1000 * p.bspot_vol / p.wshed_area) * p.bspot_vol := by
        rw [hvv hx]
        have hv0 : p.bspot_vol ≠ 0 := by rintro h0; rw [h0] at hx0; simp at hx0
        field_simp
      rw [← this]; exact hv
    · have h1 := hasNumber_unique hfull hv
      rw [hvv hx.le] at h1
      have : p.bspot_vol ≤ p.wshed_area * mm * (1 / 1000) := by rw [h1]; apply le_of_eq; ring
      exact absurd ((hle mm).2 this) (not_le.2 hx)

variable {β : Type} [LinearOrder β] [OrderTop β]
variable {drop : β → β → K} {sub : β → β → K} {scale : K → K} {safe : Raster β → (β → β) × (β → β)}
  {dem : Raster β} {cc : Raster Bool → Raster Int × Nat} {gt : GeoTransform K}

/-- C90: after `complete` with `mm` of rain, every bluespot whose attribute `bspot_fumm` is at most `mm` is full, and it
spills if the attribute is less than `mm`. If no node spills to it, the attribute is exact: with less rain it is not full,
does not spill, and holds the proportional part of its volume. -/
theorem C90_fill_up (h : SoundTerrain drop sub scale safe dem) (hcc : LabelContract cc) (hsq : SquareCells gt)
    (want : Bool) (f : Bluespots.StatUnits K → Bool) (mm : K) :
    ∃ out, (Complete.processAll cc (Dem.python drop scale) Bluespots.python sub safe gt dem want (some f) mm).Yields
        (.ok out) ∧
      ∀ l : Nat, 1 ≤ l → l ≤ out.bluespots.nlabels →
        ∃ p x g, out.bluespots.pourpoints[l]? = some p ∧ FilledUp mm out.final l p x g := by
  obtain ⟨d, hd, _, hdsh, hfsh, hcells, _, ⟨z, _, hdown⟩, hacc, hno⟩ := C62_dem_outputs h want
  obtain ⟨_, _, _, hnf, hfd, _, _⟩ := Dem.process_inv hd
  have hnf : Returns (Fill.fillTerrainNoFlats (safe dem).1 (safe dem).2 dem) (.ok d.noFlats) := hnf
  obtain ⟨hnsh, hfin, _⟩ := noFlats_finite h hnf
  obtain ⟨b, nodes, streams, choose, R, hrun, hb, hR, hforest, hs2, hroots, hids, hperm, hjun⟩ :=
    chain_network (fl := id) (demEngine := Dem.python drop scale) (bluespotEngine := Bluespots.python)
    (.inl rfl) rfl hcc hsq ⟨by have := h.rows; omega, by have := h.cols; omega⟩ want f hd hdsh hfsh hdown hnsh hfin
    h.drop_pos h.scale_pos (fun hw => by
      obtain ⟨a, h1, h2⟩ := hacc hw
      exact ⟨a, a, h1, h2, rfl, rfl, fun _ _ => rfl⟩) hno
  obtain ⟨vols, final, a1, a2, a3⟩ := fills_up hsq hb.exact hforest hids hs2 hperm mm
  exact ⟨_, hrun mm vols final a1 a2, a3⟩

/-- C90 with the compiled functions, for every DEM without exactly three rows or columns. -/
theorem C90_fill_up_compiled (junk : Int × Int) (h : SoundTerrain drop sub scale safe dem) (hr3 : dem.rows ≠ 3)
    (hc3 : dem.cols ≠ 3) (hcc : LabelContract cc) (hsq : SquareCells gt)
    (want : Bool) (f : Bluespots.StatUnits K → Bool) (mm : K) :
    ∃ out, (Complete.processAll cc (Dem.compiled junk drop scale) (Bluespots.compiled junk) sub safe gt dem want (some f)
        mm).Yields (.ok out) ∧
      ∀ l : Nat, 1 ≤ l → l ≤ out.bluespots.nlabels →
        ∃ p x g, out.bluespots.pourpoints[l]? = some p ∧ FilledUp mm out.final l p x g := by
  obtain ⟨d, hd, _, hdsh, hfsh, _, hcells, _, ⟨z, _, hdown⟩, hacc, hno⟩ := C62_dem_outputs_compiled junk h hr3 hc3 want
  obtain ⟨_, _, _, hnf, hfd, _, _⟩ := Dem.process_inv hd
  obtain ⟨nf, hnf', hnr, hnc, _, _, _, hnfin, _⟩ := C11_compiled_noflats_valid (safe dem).1 (safe dem).2 h.mono.1 h.mono.2
    (fun x => (h.ge x).1) (fun x => (h.ge x).2) dem ⟨h.rows, hr3⟩ ⟨h.cols, hc3⟩ h.finite (fun x hx => (h.keep x hx).1)
    (fun x hx => (h.keep x hx).2)
  have heq : Except.ok nf = Except.ok (ε := PyErr) d.noFlats := Returns.unique hnf' hnf
  cases heq
  obtain ⟨b, nodes, streams, choose, R, hrun, hb, hR, hforest, hs2, hroots, hids, hperm, hjun⟩ :=
    chain_network (fl := id) (demEngine := Dem.compiled junk drop scale) (bluespotEngine := Bluespots.compiled junk)
    (.inr ⟨junk, rfl⟩) rfl hcc hsq ⟨by have := h.rows; omega, by have := h.cols; omega⟩ want f hd hdsh hfsh hdown
    ⟨hnr, hnc⟩ hnfin h.drop_pos h.scale_pos hacc hno
  obtain ⟨vols, final, a1, a2, a3⟩ := fills_up hsq hb.exact hforest hids hs2 hperm mm
  exact ⟨_, hrun mm vols final a1 a2, a3⟩

end

/-- The valley holds 40 m³ and its watershed has 24 m²: its fumm is 5000/3. Its volume after 5000/3, 1000 and 2000 mm. -/
def valleyFillUp (mm : Rat) : Option (Option (List (Option Rat) × List (List (Option (Val Rat))))) :=
  ((Complete.processAll demoValleyCC (Dem.python exactSub (· * (7/10))) Bluespots.python exactSub
      (exactSafe (1/1000) (14/10000)) ⟨0, 2, 0, 0, 0, -2⟩ (finiteDem demoValley) false (some fun _ => true) mm).run 40).run.map
        fun r => r.toOption.map fun o => (o.bluespots.pourpoints.map (·.bspot_fumm),
          o.final.map fun f => [Dict.get? f.properties "nodeid",
            Dict.get? f.properties "dstrnodeid", Dict.get? f.properties "v", Dict.get? f.properties "spillv"])

set_option synthInstance.maxSize 1000 in
example : valleyFillUp (5000 / 3) = some (some ([some 0, some (5000 / 3)],
    [[some (.int 0), some .none, some (.num 0), some (.num (280 / 3))],
      [some (.int 1), some .none, some (.num 40), some (.num 0)]])) := by decide +kernel
set_option synthInstance.maxSize 1000 in
example : valleyFillUp 1000 = some (some ([some 0, some (5000 / 3)],
    [[some (.int 0), some .none, some (.num 0), some (.num 56)],
      [some (.int 1), some .none, some (.num 24), some (.num 0)]])) := by decide +kernel
set_option synthInstance.maxSize 1000 in
example : valleyFillUp 2000 = some (some ([some 0, some (5000 / 3)],
    [[some (.int 0), some .none, some (.num 0), some (.num 112)],
      [some (.int 1), some .none, some (.num 40), some (.num 8)]])) := by decide +kernel

end Malstroem
