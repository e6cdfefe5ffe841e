/-
Property C78: the water balance of the whole chain when every number is a floating point number.
-/
import Verif.Proofs.CompleteFloat
import Verif.Props.Float
import Verif.Props.NetworkFloat

set_option linter.unusedSectionVars false

namespace Malstroem
open Spec
open Malstroem.Float
namespace Network

variable {fl : Rat → Rat}

theorem forall₂_filter {α β : Type} {R : α → β → Prop} {p : α → Bool} {q : β → Bool} {l : List α} {m : List β}
    (h : List.Forall₂ (fun a b => R a b ∧ p a = q b) l m) : List.Forall₂ R (l.filter p) (m.filter q) := by
  induction h with
  | nil => exact .nil
  | cons hab _ ih =>
    obtain ⟨h1, h2⟩ := hab
    rw [List.filter_cons, List.filter_cons, h2]
    split_ifs
    · exact .cons h1 ih
    · exact ih

/-- A property of all values and of 0 holds of the value of a node. -/
theorem ofPourPoint_cases {K : Type} [Field K] [LinearOrder K] {P : K → Prop} (h0 : P 0) {xs : List K} (hx : ∀ x ∈ xs, P x)
    (n : Net.Node) : P (ofPourPoint xs n) := by
  unfold ofPourPoint
  split
  · rw [List.getD_eq_getElem?_getD]
    cases hx' : xs[n.id.toNat]? with
    | none => exact h0
    | some x => exact hx x (List.mem_of_getElem? hx')
  · exact h0

/-- Values that belong together belong together at a node. -/
theorem ofPourPoint_pair {K : Type} [Field K] [LinearOrder K] {P : K → K → Prop} (h0 : P 0 0) {xs ys : List K}
    (h : List.Forall₂ P xs ys) (n : Net.Node) : P (ofPourPoint xs n) (ofPourPoint ys n) := by
  unfold ofPourPoint
  split
  · rw [List.getD_eq_getElem?_getD, List.getD_eq_getElem?_getD]
    generalize n.id.toNat = i
    induction h generalizing i with
    | nil => simpa using h0
    | cons hab _ ih =>
      cases i with
      | zero => simpa using hab
      | succ i => simpa using ih i
  · exact h0

/-- The exact areas of the watersheds. -/
def exactAreas (gt : GeoTransform Rat) (rows cols : Nat) (b : Bluespots.Out Rat) : List Rat :=
  (List.range (b.nlabels + 1)).map fun (l : Nat) =>
    ((((Raster.cellList rows cols).filter fun c => b.watersheds.get c = (l : Int)).length : Nat) : Rat) * cellArea gt

theorem exactAreas_sum {gt : GeoTransform Rat} {rows cols : Nat} {b : Bluespots.Out Rat}
    (h : LabelsIn rows cols b.watersheds.get b.nlabels) :
    (exactAreas gt rows cols b).sum = (rows * cols : Nat) * cellArea gt := by
  have hmap : exactAreas gt rows cols b = (List.range (b.nlabels + 1)).map fun (l : Nat) =>
      (((Raster.cellList rows cols).filter fun c => b.watersheds.get c = (l : Int)).map fun _ => cellArea gt).sum := by
    refine List.map_congr_left fun l _ => ?_
    simp
  rw [hmap, sum_over_labels b.watersheds.get (fun _ => cellArea gt) b.nlabels _ (fun c hc => h c (Flow.mem_cellList.1 hc))]
  simp [Flow.length_cellList]

section Chain
variable {cc : Raster Bool → Raster Int × Nat} {sub : WithTop F64 → WithTop F64 → Rat}
  {safe : Raster (WithTop F64) → (WithTop F64 → WithTop F64) × (WithTop F64 → WithTop F64)}
  {gt : GeoTransform Rat} {mm : Rat} {dem : Raster (WithTop F64)}

theorem chain_balance {demEngine : Dem.Engine (WithTop F64) Rat} {bluespotEngine : Bluespots.Engine (WithTop F64) Rat}
    (hfl : IsRounding 53 (-1074) fl) (hg : FloatRain gt mm) (hcells : dem.rows * dem.cols ≤ 2 ^ 50)
    (hbe : Bluespots.IsEngineFl fl bluespotEngine) (hfill : bluespotEngine.fillTerrainNoFlats = demEngine.fillTerrainNoFlats)
    (hcc : LabelContract cc) (hsq : SquareCellsFl fl gt) (hsize : 0 < dem.rows ∧ 0 < dem.cols)
    (want : Bool) (f : Bluespots.StatUnits Rat → Bool) {d : Dem.Out (WithTop F64) Rat} {s : Cell → WithTop F64}
    (hd : Returns (Dem.process demEngine sub safe true want dem) (.ok d))
    (hdsh : d.depths.rows = dem.rows ∧ d.depths.cols = dem.cols) (hfsh : d.flowdir.rows = dem.rows ∧ d.flowdir.cols = dem.cols)
    (hnn : ∀ c, dem.Has c → 0 ≤ d.depths.get c ∧ IsF32 (d.depths.get c)) (hdown : DrainsDownhill dem.rows dem.cols s d.flowdir)
    (hnsh : d.noFlats.rows = dem.rows ∧ d.noFlats.cols = dem.cols) (hfin : ∀ c, dem.Has c → d.noFlats.get c < ⊤)
    (hdrop : ∀ a b, a < ⊤ → b < ⊤ → (0 < demEngine.drop a b ↔ b < a))
    (hscale : ∀ a b, 0 < demEngine.scale (demEngine.drop a b) ↔ 0 < demEngine.drop a b)
    (hacc : want = true → ∃ a A, d.accum = some a ∧ Returns (Flow.accumulatedFlow d.flowdir) (.ok A) ∧ a.Same A)
    (hno : want = false → d.accum = none) :
    ∃ out, (Complete.processAllFl fl cc demEngine bluespotEngine sub safe gt dem want (some f) mm).Yields (.ok out) ∧ out.dem = d ∧
      (∃ vs ss, List.Forall₂ (fun f x => HasNumber f "v" x) out.final vs ∧
        List.Forall₂ (fun f x => HasNumber f "spillv" x) (out.final.filter fun f => IsRoot f) ss ∧
        Rounded (3 * out.final.length + 5) (vs.sum + ss.sum) (mm / 1000 * ((dem.rows * dem.cols : Nat) * cellArea gt))) ∧
      (∀ f ∈ out.final, ∃ v s cap, HasNumber f "v" v ∧ HasNumber f "spillv" s ∧
        HasNumber f "bspot_vol" cap ∧ 0 ≤ v ∧ v ≤ cap ∧ 0 ≤ s ∧ (0 < s → v = cap)) ∧
      (∀ (l : Nat) (cs ws : List Cell), l ≤ out.bluespots.nlabels →
        CellsOf dem.rows dem.cols out.bluespots.labeled.get l cs →
        CellsOf dem.rows dem.cols out.bluespots.watersheds.get l ws →
        ∃ p, out.bluespots.pourpoints[l]? = some p ∧ p.bspot_id = l ∧
          Rounded 2 p.bspot_area (cs.length * cellArea gt) ∧
          Rounded (cs.length + 2) p.bspot_vol ((cs.map d.depths.get).sum * cellArea gt) ∧
          Rounded 2 p.wshed_area (ws.length * cellArea gt)) ∧
      (∃ choose, Bluespots.IsResultFl fl gt d.depths f d.flowdir choose out.bluespots) ∧
      (∃ R : List Net.Node, List.Forall₂ (IsNodeFeature gt (out.bluespots.pourpoints.map (·.feature))) R out.nodes ∧
        ((R.filter fun n => n.nodetype = .pourpoint).map fun n => (n.id, n.pix)).Perm
          ((out.bluespots.pourpoints.map fun p => (p.cell_row, p.cell_col)).zipIdx.map fun x => ((x.2 : Int), x.1))) ∧
      List.Forall₂ (SameBut ["inputv", "v", "spillv", "pctv"]) out.nodes out.final ∧
      (∃ ns, FloatNodes "wshed_area" out.nodes ns ∧ (∀ m ∈ ns, 0 ≤ m.id) ∧
        (∀ l : Nat, l ≤ out.bluespots.nlabels → ∃ m ∈ ns, m.id = l) ∧
        (∀ m ∈ ns, m.vol = 0 ∨ 2 ^ (-600 : Int) ≤ m.vol) ∧
        Near (1 / 2 ^ 53) 2 (ns.map (·.vol)).sum ((dem.rows * dem.cols : Nat) * cellArea gt) ∧
        ∀ m ∈ ns, ∀ cs ws, CellsOf dem.rows dem.cols out.bluespots.labeled.get m.id cs →
          CellsOf dem.rows dem.cols out.bluespots.watersheds.get m.id ws →
          Near (1 / 2 ^ 53) 2 m.vol (ws.length * cellArea gt) ∧
          Near (1 / 2 ^ 53) (cs.length + 2) m.cap ((cs.map d.depths.get).sum * cellArea gt)) ∧
      Rain.simpleVolumesFl fl out.nodes "inputv" mm = .ok out.volumes ∧ Returns (finalStateFl fl out.volumes "inputv") (.ok out.final) ∧
      (∀ mm' vols final, Rain.simpleVolumesFl fl out.nodes "inputv" mm' = .ok vols → Returns (finalStateFl fl vols "inputv") (.ok final) →
        (Complete.processAllFl fl cc demEngine bluespotEngine sub safe gt dem want (some f) mm').Yields
          (.ok ⟨out.dem, out.bluespots, out.nodes, out.streams, vols, final⟩)) := by
  obtain ⟨b, nodes, streams, choose, R, hrun, hres, hR, hforest, hs2, hroots, hids, hperm, hjun⟩ :=
    chain_network (fl := fl) hbe hfill hcc hsq hsize want f hd hdsh hfsh hdown hnsh hfin hdrop hscale hacc hno
  have harea := area_spec (fl := fl) (gt := gt) hfl hg.width.2 hg.height.2
  have hA0 : 0 ≤ cellArea gt := mul_nonneg (abs_nonneg _) (abs_nonneg _)
  have hA : Near (1 / 2 ^ 53) 1 (cellAreaFl fl gt) (cellArea gt) := harea.1
  have hA2 : 2 ^ (-600 : Int) ≤ cellAreaFl fl gt := harea.2
  have hcount : ∀ {g : Cell → Int} {l : Nat} {ws : List Cell}, CellsOf dem.rows dem.cols g l ws → ws.length ≤ 2 ^ 53 := by
    intro g l ws hws
    have : ws.length ≤ dem.rows * dem.cols := by
      rw [← Flow.length_cellList]
      exact (List.subperm_of_subset (hws.1.imp fun h e => by subst e; simp [Before] at h) fun x hx => Flow.mem_cellList.2 ((hws.2 x).1 hx).1).length_le
    omega
  have hpoint : ∀ (l : Nat) (cs ws : List Cell), l ≤ b.nlabels → CellsOf dem.rows dem.cols b.labeled.get l cs →
      CellsOf dem.rows dem.cols b.watersheds.get l ws → ∃ p, b.pourpoints[l]? = some p ∧ p.bspot_id = l ∧
        Near (1 / 2 ^ 53) 2 p.bspot_area (cs.length * cellArea gt) ∧
        Near (1 / 2 ^ 53) (cs.length + 2) p.bspot_vol ((cs.map d.depths.get).sum * cellArea gt) ∧
        Near (1 / 2 ^ 53) 2 p.wshed_area (ws.length * cellArea gt) ∧
        (p.wshed_area = 0 ∨ 2 ^ (-600 : Int) ≤ p.wshed_area) ∧ 0 ≤ p.bspot_vol ∧ IsF64 p.bspot_vol ∧ IsF64 p.wshed_area := by
    intro l cs ws hl hcs hws
    have hcs' := hcs
    have hws' := hws
    rw [← hdsh.1, ← hdsh.2] at hcs' hws'
    obtain ⟨p, hp1, hp2, -⟩ := hres.points l cs ws hl hcs' hws'
    have hv := volume_spec hfl (depths := cs.map d.depths.get) (fun x hx => by
      obtain ⟨c, hc, rfl⟩ := List.mem_map.1 hx
      exact hnn c ((hcs.2 c).1 hc).1) hA hA0 hA2
    have hw := count_spec hfl (hcount hws) hA hA0 hA2
    have hc := count_spec hfl (hcount hcs) hA hA0 hA2
    rw [List.length_map] at hv
    refine ⟨p, hp1, hp2.bspot_id, ?_, ?_, ?_, ?_, ?_, ?_, ?_⟩
    · rw [hp2.area]; exact hc.1
    · rw [hp2.vol]; exact hv.1
    · rw [hp2.wshed_area]; exact hw.1
    · rw [hp2.wshed_area]; exact hw.2.imp (·.2) id
    · rw [hp2.vol]; exact hv.2
    · rw [hp2.vol]; exact (hfl _).1
    · rw [hp2.wshed_area]; exact (hfl _).1
  have hlabel : ∀ p ∈ b.pourpoints, (p.wshed_area = 0 ∨ 2 ^ (-600 : Int) ≤ p.wshed_area) ∧ 0 ≤ p.bspot_vol ∧ IsF64 p.bspot_vol ∧
      IsF64 p.wshed_area := by
    intro p hp
    obtain ⟨i, hi, rfl⟩ := List.getElem_of_mem hp
    obtain ⟨p, hp, -, -, -, -, h⟩ := hpoint i _ _ (by have := hres.length; omega) (lists_filter _ _ _) (lists_filter _ _ _)
    obtain ⟨_, hp⟩ := List.getElem?_eq_some_iff.1 hp
    rw [hp]
    exact h
  set areas := b.pourpoints.map (·.wshed_area) with hareas
  set caps := b.pourpoints.map (·.bspot_vol) with hcaps
  have hpair : List.Forall₂ (fun a A => Near (1 / 2 ^ 53) 2 a A ∧ 0 ≤ A ∧ (a = 0 ∨ 2 ^ (-600 : Int) ≤ a)) areas
      (exactAreas gt dem.rows dem.cols b) := by
    rw [hareas, exactAreas, List.forall₂_map_left_iff, List.forall₂_map_right_iff, List.forall₂_iff_get]
    refine ⟨by simp [hres.length], fun i h1 h2 => ?_⟩
    obtain ⟨p, hp, -, -, -, h3, h4, -⟩ := hpoint i _ _ (by have := hres.length; omega) (lists_filter _ _ _) (lists_filter _ _ _)
    obtain ⟨_, hp⟩ := List.getElem?_eq_some_iff.1 hp
    simp only [List.get_eq_getElem, List.getElem_range, hp]
    exact ⟨h3, mul_nonneg (Nat.cast_nonneg _) hA0, h4⟩
  -- the rain
  set ns := R.map fun n => rainNode fl areas caps mm n with hns
  have hnode : ∀ n ∈ R, Near (1 / 2 ^ 53) 5 (rainNode fl areas caps mm n).vol
      (mm / 1000 * ofPourPoint (exactAreas gt dem.rows dem.cols b) n) ∧ 0 ≤ (rainNode fl areas caps mm n).vol := by
    intro n _
    obtain ⟨h1, h2, h3⟩ := ofPourPoint_pair (P := fun a A => Near (1 / 2 ^ 53) 2 a A ∧ 0 ≤ A ∧ (a = 0 ∨ 2 ^ (-600 : Int) ≤ a))
      ⟨Near.zero, le_refl _, .inl rfl⟩ hpair n
    exact rain_spec hfl hg.rain.2 h1 h2 h3
  have htotal : Near (1 / 2 ^ 53) 5 (totalWater ns) (mm / 1000 * ((dem.rows * dem.cols : Nat) * cellArea gt)) := by
    have hwl := hres.wlabels.2
    rw [hdsh.1, hdsh.2] at hwl
    rw [← exactAreas_sum hwl, ← sum_ofPourPoint hperm (by simp [exactAreas, hres.length]), totalWater, hns, List.map_map,
      ← List.sum_map_mul_left]
    exact Near.sum _ _ R fun n hn => (hnode n hn).1
  have htotal2 : Near (1 / 2 ^ 53) 2 (R.map fun n => ofPourPoint areas n).sum ((dem.rows * dem.cols : Nat) * cellArea gt) := by
    have hwl := hres.wlabels.2
    rw [hdsh.1, hdsh.2] at hwl
    have e := sum_ofPourPoint hperm (show (exactAreas gt dem.rows dem.cols b).length = _ by simp [exactAreas, hres.length])
    rw [← exactAreas_sum hwl, ← e]
    exact Near.sum _ _ R fun n _ => (ofPourPoint_pair
      (P := fun a A => Near (1 / 2 ^ 53) 2 a A ∧ 0 ≤ A ∧ (a = 0 ∨ 2 ^ (-600 : Int) ≤ a)) ⟨Near.zero, le_refl _, .inl rfl⟩ hpair n).1
  obtain ⟨vols, hv1, hv2, hv3⟩ := volumes_on_forest (fl := fl) hs2 (points_areas b).1 (points_areas b).2 mm
  have hfn : FloatNodes "inputv" vols ns := by
    refine ⟨hv3.imp fun _ _ h => h.1, by rw [hns, List.map_map]; exact hids, by decide, fun n hn => ?_, fun n hn => ?_, fun n hn => ?_⟩
    · obtain ⟨m, hm, rfl⟩ := List.mem_map.1 hn
      exact leads_of_forest hforest _ (fun _ => rfl) (fun _ => rfl) m hm
    · obtain ⟨m, hm, rfl⟩ := List.mem_map.1 hn
      exact ⟨(hnode m hm).2, (hfl _).1⟩
    · obtain ⟨m, hm, rfl⟩ := List.mem_map.1 hn
      refine ofPourPoint_cases (P := fun x => 0 ≤ x ∧ IsF64 x) ⟨le_refl _, isFloat_zero⟩ (fun x hx => ?_) m
      obtain ⟨p, hp, rfl⟩ := List.mem_map.1 hx
      exact ⟨(hlabel p hp).2.1, (hlabel p hp).2.2.1⟩
  obtain ⟨final, v, spill, hf1, hf2, hf3⟩ := C74_returns fl hfn
  have hb := C74_bounds hfl hfn hf1 hf2
  have hc := C76_conserved hfl hfn hf1 hf2
  have hrows : List.Forall₂ (fun g n => (g.properties.get? "v" = some (.num (v n.id)) ∧
      g.properties.get? "spillv" = some (.num (spill n.id)) ∧ g.properties.get? "bspot_vol" = some (.num n.cap)) ∧
      g.properties.get? "dstrnodeid" = some (downVal n.down)) final ns := by
    rw [List.forall₂_iff_get]
    have l1 := hf2.length_eq
    have l2 := hf3.length_eq
    refine ⟨l1, fun i h1 h2 => ?_⟩
    have a1 := (List.forall₂_iff_get.1 hf2).2 i h1 h2
    have a2 := (List.forall₂_iff_get.1 hf3).2 i h1 (by omega)
    have a3 := (List.forall₂_iff_get.1 hv3).2 i (by omega) h2
    exact ⟨⟨a1.2.1, a1.2.2, (a2.2.2 _ (by decide) (by decide) (by decide)).trans a3.2⟩,
      (a2.2.2 _ (by decide) (by decide) (by decide)).trans a3.1.down⟩
  refine ⟨⟨d, b, nodes, streams, vols, final⟩, hrun mm vols final hv1 hf1, rfl,
    ⟨ns.map fun n => v n.id, (ns.filter fun n => n.down = none).map fun n => spill n.id, ?_, ?_, ?_⟩, ?_, ?_, ⟨choose, hres⟩, ⟨R, hs2, hperm⟩, ?_,
    ⟨R.map fun n => ⟨n.id, n.downstream_id, ofPourPoint areas n, ofPourPoint caps n⟩, ⟨?_, ?_, by decide, ?_, ?_, ?_⟩, ?_, ?_⟩, hv1, hf1, hrun⟩
  · rw [List.forall₂_map_right_iff]
    exact hrows.imp fun g n h => ⟨_, h.1.1, rfl⟩
  · rw [List.forall₂_map_right_iff]
    refine (forall₂_filter (hrows.imp fun g n h => ⟨h.1, ?_⟩)).imp fun g n h => ⟨_, h.2.1, rfl⟩
    simp only [IsRoot, h.2, Option.some.injEq]
    cases n.down <;> simp [downVal]
  · have hl : final.length = ns.length := hf2.length_eq
    have h1 : Near (1 / 2 ^ 53) (3 * ns.length) ((ns.map fun n => v n.id).sum +
        ((ns.filter fun n => n.down = none).map fun n => spill n.id).sum) (totalWater ns) := hc
    show Near _ _ _ _
    simp only [hl]
    exact Near.trans (by norm_num) h1 htotal
  · intro g hg'
    obtain ⟨i, hi, rfl⟩ := List.getElem_of_mem hg'
    have hi : i < final.length := hi
    have h1 := (List.forall₂_iff_get.1 hrows).2 i hi (by rw [← hrows.length_eq]; exact hi)
    have h2 := hb (ns[i]'(by rw [← hrows.length_eq]; exact hi)) (List.getElem_mem _)
    exact ⟨_, _, _, ⟨_, h1.1.1, rfl⟩, ⟨_, h1.1.2.1, rfl⟩, ⟨_, h1.1.2.2, rfl⟩, h2.1, h2.2.1, h2.2.2.1, h2.2.2.2.1⟩
  · intro l cs ws hl hcs hws
    obtain ⟨p, h1, h2, h3, h4, h5, -⟩ := hpoint l cs ws hl hcs hws
    exact ⟨p, h1, h2, h3, h4, h5⟩
  · rw [List.forall₂_iff_get]
    have l1 : final.length = vols.length := hf3.length_eq
    have l2 := hv2.length_eq
    refine ⟨l2.trans l1.symm, fun i h1 h2 => ?_⟩
    have h2 : i < final.length := h2
    have a1 := (List.forall₂_iff_get.1 hv2).2 i h1 (by omega)
    have a2 := (List.forall₂_iff_get.1 hf3).2 i h2 (by omega)
    refine ⟨a2.1.trans a1.id, a2.2.1.trans a1.geometry, fun key hk => ?_⟩
    simp only [List.mem_cons, List.not_mem_nil, or_false, not_or] at hk
    exact (a2.2.2 key hk.2.2.1 hk.2.1 hk.2.2.2).trans (a1.others key (by simp [hk]))
  · rw [List.forall₂_map_right_iff]
    refine hs2.flip.imp fun g n h => ?_
    have ha := node_number (.inl rfl) (points_areas b).1 h
    have hc := node_number (.inr (.inl rfl)) (points_areas b).2 h
    exact ⟨h.nodeid, h.down, ⟨_, _, ha, rfl⟩, ⟨_, ha, rfl⟩, ⟨_, hc, rfl⟩⟩
  · rw [List.map_map]; exact hids
  · intro n hn
    obtain ⟨m, hm, rfl⟩ := List.mem_map.1 hn
    exact leads_of_forest hforest (fun n => ⟨n.id, n.downstream_id, ofPourPoint areas n, ofPourPoint caps n⟩) (fun _ => rfl)
      (fun _ => rfl) m hm
  · intro n hn
    obtain ⟨m, hm, rfl⟩ := List.mem_map.1 hn
    refine ofPourPoint_cases (P := fun x => 0 ≤ x ∧ IsF64 x) ⟨le_refl _, isFloat_zero⟩ (fun x hx => ?_) m
    obtain ⟨p, hp, rfl⟩ := List.mem_map.1 hx
    refine ⟨?_, (hlabel p hp).2.2.2⟩
    rcases (hlabel p hp).1 with h | h
    · exact h.ge
    · exact (two_pos _).le.trans h
  · intro n hn
    obtain ⟨m, hm, rfl⟩ := List.mem_map.1 hn
    refine ofPourPoint_cases (P := fun x => 0 ≤ x ∧ IsF64 x) ⟨le_refl _, isFloat_zero⟩ (fun x hx => ?_) m
    obtain ⟨p, hp, rfl⟩ := List.mem_map.1 hx
    exact ⟨(hlabel p hp).2.1, (hlabel p hp).2.2.1⟩
  · intro n hn
    obtain ⟨m, hm, rfl⟩ := List.mem_map.1 hn
    cases ht : m.nodetype with
    | junction => exact le_trans (by positivity) (hjun m hm ht)
    | pourpoint =>
      have hmem := hperm.mem_iff.1 (List.mem_map.2 ⟨m, List.mem_filter.2 ⟨hm, by simp [ht]⟩, rfl⟩)
      obtain ⟨x, -, hx⟩ := List.mem_map.1 hmem
      have e : (x.2 : Int) = m.id := congrArg Prod.fst hx
      show 0 ≤ m.id
      omega
  · refine ⟨fun l hl => ?_, fun n hn => ?_, ?_, fun n hn cs ws hcs hws => ?_⟩
    · have hl' : l < (b.pourpoints.map fun p => (p.cell_row, p.cell_col)).length := by
        rw [List.length_map, hres.length]
        exact Nat.lt_succ_of_le hl
      have hmem := hperm.mem_iff.2 (List.mem_map.2 ⟨(_, l), List.mem_zipIdx_iff_getElem?.2 (List.getElem?_eq_getElem hl'), rfl⟩)
      obtain ⟨m, hm, e⟩ := List.mem_map.1 hmem
      exact ⟨_, List.mem_map.2 ⟨m, (List.mem_filter.1 hm).1, rfl⟩, congrArg Prod.fst e⟩
    · obtain ⟨m, hm, rfl⟩ := List.mem_map.1 hn
      refine ofPourPoint_cases (P := fun x : Rat => x = 0 ∨ 2 ^ (-600 : Int) ≤ x) (.inl rfl) (fun x hx => ?_) m
      obtain ⟨p, hp, rfl⟩ := List.mem_map.1 hx
      exact (hlabel p hp).1
    · rw [List.map_map]
      exact htotal2
    · obtain ⟨m, hm, rfl⟩ := List.mem_map.1 hn
      cases ht : m.nodetype with
      | junction =>
        have hid := hjun m hm ht
        rw [hres.length] at hid
        have e1 : cs = [] := List.eq_nil_iff_forall_not_mem.2 fun c hc => by
          have h1 := (hcs.2 c).1 hc
          have h2 := (hres.labelling.range c (by rw [hdsh.1, hdsh.2]; exact h1.1)).2
          have h3 : b.labeled.get c = m.id := h1.2
          omega
        have e2 : ws = [] := List.eq_nil_iff_forall_not_mem.2 fun c hc => by
          have h1 := (hws.2 c).1 hc
          have h2 := (hres.wlabels.2 c (by rw [hdsh.1, hdsh.2]; exact h1.1)).2
          have h3 : b.watersheds.get c = m.id := h1.2
          omega
        subst e1 e2
        simp only [ofPourPoint, ht, List.length_nil, Nat.cast_zero, zero_mul, List.map_nil, List.sum_nil, reduceCtorEq, if_false]
        exact ⟨Near.zero, Near.zero⟩
      | pourpoint =>
        have hmem := hperm.mem_iff.1 (List.mem_map.2 ⟨m, List.mem_filter.2 ⟨hm, by simp [ht]⟩, rfl⟩)
        obtain ⟨x, hx0, hx⟩ := List.mem_map.1 hmem
        have e : (x.2 : Int) = m.id := congrArg Prod.fst hx
        have hl : x.2 ≤ b.nlabels := by
          have hh := (List.mem_zipIdx_iff_getElem?.1 hx0)
          have := (List.getElem?_eq_some_iff.1 hh).1
          rw [List.length_map, hres.length] at this
          omega
        obtain ⟨p, hp, -, -, h4, h5, -⟩ := hpoint x.2 cs ws hl (by rw [e]; exact hcs) (by rw [e]; exact hws)
        have e1 : ofPourPoint areas m = p.wshed_area := by
          simp only [ofPourPoint, ht, if_true, ← e, Int.toNat_natCast, hareas, List.getD_eq_getElem?_getD, List.getElem?_map, hp,
            Option.map_some, Option.getD_some]
        have e2 : ofPourPoint caps m = p.bspot_vol := by
          simp only [ofPourPoint, ht, if_true, ← e, Int.toNat_natCast, hcaps, List.getD_eq_getElem?_getD, List.getElem?_map, hp,
            Option.map_some, Option.getD_some]
        show Near _ _ (ofPourPoint areas m) _ ∧ Near _ _ (ofPourPoint caps m) _
        rw [e1, e2]
        exact ⟨h5, h4⟩

end Chain
end Network

namespace Float
open Malstroem.Network
variable {fl nextafter : Rat → Rat} {cc : Raster Bool → Raster Int × Nat} {gt : GeoTransform Rat} {mm : Rat}
  {dem : Raster (WithTop F64)}

/-- C78. On every float32 DEM, with every filter and every amount of rain, the whole chain computed in floating point arithmetic
returns. What all nodes hold and the roots spill is the rain on the raster, with a relative error of at most `3 n + 5` roundings
for `n` nodes. No node holds a negative volume or more than its capacity, and a node that spills is full. Areas are within two
roundings of the exact areas, capacities of bluespots with `k` cells within `k + 2` roundings of the sum of the depths times the cell
area. -/
theorem C78_balance {fl32 : Rat → Rat} (hfl : IsRounding 53 (-1074) fl) (hfl32 : IsRounding 24 (-149) fl32)
    (hnext : IsNextAfter nextafter) (hdem : IsDem32 dem) (hsize : dem.rows * dem.cols ≤ 2 ^ 50) (hcc : LabelContract cc)
    (hsq : SquareCellsFl fl gt) (hg : FloatRain gt mm) (want : Bool) (f : Bluespots.StatUnits Rat → Bool) :
    ∃ out, (Complete.processAllFl fl cc (Dem.python (fsub fl) fun x => fl (x * (1 / Fill.sqrt2))) (Bluespots.pythonFl fl) (fsub fl32)
        (fsafe hfl nextafter) gt dem want (some f) mm).Yields (.ok out) ∧
      (∃ vs ss, List.Forall₂ (fun f x => HasNumber f "v" x) out.final vs ∧
        List.Forall₂ (fun f x => HasNumber f "spillv" x) (out.final.filter fun f => IsRoot f) ss ∧
        Rounded (3 * out.final.length + 5) (vs.sum + ss.sum) (mm / 1000 * ((dem.rows * dem.cols : Nat) * cellArea gt))) ∧
      (∀ f ∈ out.final, ∃ v s cap, HasNumber f "v" v ∧ HasNumber f "spillv" s ∧
        HasNumber f "bspot_vol" cap ∧ 0 ≤ v ∧ v ≤ cap ∧ 0 ≤ s ∧ (0 < s → v = cap)) ∧
      (∀ (l : Nat) (cs ws : List Cell), l ≤ out.bluespots.nlabels →
        CellsOf dem.rows dem.cols out.bluespots.labeled.get l cs →
        CellsOf dem.rows dem.cols out.bluespots.watersheds.get l ws →
        ∃ p, out.bluespots.pourpoints[l]? = some p ∧ p.bspot_id = l ∧
          Rounded 2 p.bspot_area (cs.length * cellArea gt) ∧
          Rounded (cs.length + 2) p.bspot_vol ((cs.map out.dem.depths.get).sum * cellArea gt) ∧
          Rounded 2 p.wshed_area (ws.length * cellArea gt)) := by
  have h := float_sound hfl hfl32 hnext hdem hsize (k := 1 / Fill.sqrt2) (by norm_num [Fill.sqrt2])
  obtain ⟨d, hd, _, hdsh, hfsh, hcells, _, ⟨z, _, hdown⟩, hacc, hno⟩ := C62_dem_outputs h want
  obtain ⟨_, _, _, hnf, _, _, _⟩ := Dem.process_inv hd
  obtain ⟨hnsh, hfin, _⟩ := noFlats_finite h hnf
  obtain ⟨out, h1, rfl, h2, h3, h4, -⟩ := chain_balance (bluespotEngine := Bluespots.pythonFl fl) hfl hg hsize
    (.inl rfl) rfl hcc hsq ⟨by have := h.rows; omega, by have := h.cols; omega⟩ want f hd hdsh hfsh
    (fun c hc => ⟨(hcells c hc).2.2.1, by rw [(hcells c hc).2.1]; exact (hfl32 _).1⟩) hdown hnsh hfin h.drop_pos h.scale_pos
    (fun hw => by
      obtain ⟨a, h1, h2⟩ := hacc hw
      exact ⟨a, a, h1, h2, rfl, rfl, fun _ _ => rfl⟩) hno
  exact ⟨out, h1, h2, h3, h4⟩

/-- C78 with the compiled functions. -/
theorem C78_compiled_balance {fl32 : Rat → Rat} (junk : Int × Int) (hfl : IsRounding 53 (-1074) fl)
    (hfl32 : IsRounding 24 (-149) fl32) (hnext : IsNextAfter nextafter) (hdem : IsDem32 dem) (hr3 : dem.rows ≠ 3)
    (hc3 : dem.cols ≠ 3) (hsize : dem.rows * dem.cols ≤ 2 ^ 50) (hcc : LabelContract cc)
    (hsq : SquareCellsFl fl gt) (hg : FloatRain gt mm) (want : Bool) (f : Bluespots.StatUnits Rat → Bool) :
    ∃ out, (Complete.processAllFl fl cc (Dem.compiled junk (fsub fl) fun x => fl (x * FlowCython.invSqrt2))
        (Bluespots.compiledFl fl junk) (fsub fl32) (fsafe hfl nextafter) gt dem want (some f) mm).Yields (.ok out) ∧
      (∃ vs ss, List.Forall₂ (fun f x => HasNumber f "v" x) out.final vs ∧
        List.Forall₂ (fun f x => HasNumber f "spillv" x) (out.final.filter fun f => IsRoot f) ss ∧
        Rounded (3 * out.final.length + 5) (vs.sum + ss.sum) (mm / 1000 * ((dem.rows * dem.cols : Nat) * cellArea gt))) ∧
      (∀ f ∈ out.final, ∃ v s cap, HasNumber f "v" v ∧ HasNumber f "spillv" s ∧
        HasNumber f "bspot_vol" cap ∧ 0 ≤ v ∧ v ≤ cap ∧ 0 ≤ s ∧ (0 < s → v = cap)) ∧
      (∀ (l : Nat) (cs ws : List Cell), l ≤ out.bluespots.nlabels →
        CellsOf dem.rows dem.cols out.bluespots.labeled.get l cs →
        CellsOf dem.rows dem.cols out.bluespots.watersheds.get l ws →
        ∃ p, out.bluespots.pourpoints[l]? = some p ∧ p.bspot_id = l ∧
          Rounded 2 p.bspot_area (cs.length * cellArea gt) ∧
          Rounded (cs.length + 2) p.bspot_vol ((cs.map out.dem.depths.get).sum * cellArea gt) ∧
          Rounded 2 p.wshed_area (ws.length * cellArea gt)) := by
  have h := float_sound hfl hfl32 hnext hdem hsize (k := FlowCython.invSqrt2) (by norm_num [FlowCython.invSqrt2])
  obtain ⟨d, hd, _, hdsh, hfsh, _, hcells, _, ⟨z, _, hdown⟩, hacc, hno⟩ := C62_dem_outputs_compiled junk h hr3 hc3 want
  obtain ⟨_, _, _, hnf, _, _, _⟩ := Dem.process_inv hd
  obtain ⟨nf, hnf', hnr, hnc, _, _, _, hnfin, _⟩ := C11_compiled_noflats_valid (fsafe hfl nextafter dem).1 (fsafe hfl nextafter dem).2
    h.mono.1 h.mono.2 (fun x => (h.ge x).1) (fun x => (h.ge x).2) dem ⟨h.rows, hr3⟩ ⟨h.cols, hc3⟩ h.finite
    (fun x hx => (h.keep x hx).1) (fun x hx => (h.keep x hx).2)
  have heq : Except.ok nf = Except.ok (ε := PyErr) d.noFlats := Returns.unique hnf' hnf
  cases heq
  obtain ⟨out, h1, rfl, h2, h3, h4, -⟩ := chain_balance (bluespotEngine := Bluespots.compiledFl fl junk) hfl hg hsize
    (.inr ⟨junk, rfl⟩) rfl hcc hsq ⟨by have := h.rows; omega, by have := h.cols; omega⟩ want f hd hdsh hfsh
    (fun c hc => ⟨(hcells c hc).2.2.1, by rw [(hcells c hc).2.1]; exact (hfl32 _).1⟩) hdown ⟨hnr, hnc⟩ hnfin h.drop_pos h.scale_pos
    hacc hno
  exact ⟨out, h1, h2, h3, h4⟩

/-- Cells of 1.6 m and 10 mm of rain meet the hypotheses. -/
theorem demo_complete : ∃ fl fl32 next cc w, IsRounding 53 (-1074) fl ∧ IsRounding 24 (-149) fl32 ∧ IsNextAfter next ∧ IsDem32 demo ∧
    demo.rows ≠ 3 ∧ demo.cols ≠ 3 ∧ demo.rows * demo.cols ≤ 2 ^ 50 ∧ LabelContract cc ∧ w = fl (16 / 10) ∧
    SquareCellsFl fl ⟨0, w, 0, 0, 0, -w⟩ ∧ FloatRain ⟨0, w, 0, 0, 0, -w⟩ 10 := by
  obtain ⟨fl, h1⟩ := exists_rounding 53 (by norm_num) (-1074)
  obtain ⟨fl32, h2⟩ := exists_rounding 24 (by norm_num) (-149)
  obtain ⟨next, h3⟩ := exists_nextAfter
  obtain ⟨cc, h4⟩ := exists_labelContract
  have hw : (2 : Rat) ^ (-300 : Int) ≤ fl (16 / 10) := pow_le_fl h1 (by norm_num) (by norm_num)
    ((two_le.2 (show (-300 : Int) ≤ 0 by norm_num)).trans (by norm_num))
  have hw' : (2 : Rat) ^ (-300 : Int) ≤ |fl (16 / 10)| := hw.trans (le_abs_self _)
  refine ⟨fl, fl32, next, cc, _, h1, h2, h3, demo_dem32, by decide, by decide, by decide, h4, rfl, ?_, ⟨(h1 _).1, hw'⟩, ⟨?_, ?_⟩, ?_⟩
  · unfold SquareCellsFl
    have hp : (2 : Rat) ^ (-7 : Int) ≤ fl (1 / 100) := pow_le_fl h1 (by norm_num) (by norm_num) (by norm_num)
    have hq : (2 : Rat) ^ (-400 : Int) ≤ fl (1 / 100) * |fl (16 / 10)| := by
      have := mul_le_mul hp hw' (two_pos _).le ((two_pos _).le.trans hp)
      rw [← zpow_add₀ (by norm_num)] at this
      exact (two_le.2 (by norm_num)).trans this
    have hr := (two_pos (-400)).trans_le (pow_le_fl h1 (by norm_num) (by norm_num) hq)
    simp only [abs_neg, sub_self, fl_zero h1, abs_zero]
    exact hr
  · exact isFloat_neg (h1 _).1
  · rw [abs_neg]; exact hw'
  · exact ⟨⟨10, 0, by norm_num, by norm_num, by norm_num⟩, .inr ((two_le.2 (show (-300 : Int) ≤ 0 by norm_num)).trans (by norm_num))⟩

end Float
end Malstroem
