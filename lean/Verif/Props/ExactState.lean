/-
Property C128: the final state of a run is that of the exact areas and capacities of its bluespots and watersheds, up to a proved error.
-/
import Verif.Props.Stability

set_option linter.unusedSectionVars false

namespace Malstroem
open Spec

namespace Float
open Malstroem.Network

namespace Spec
open Malstroem.Spec

/-- Node `n` is the node of feature `f`. Its volume is exactly the rain on the cells of its watershed (`rain` in cubic metres), its
capacity exactly the depths of its bluespot times the cell area. -/
structure ExactNode (gt : GeoTransform Rat) (rows cols : Nat) (rain : Cell → Rat) (out : Complete.Out (WithTop F64) Rat) (f : Feature Rat)
    (n : RainNode Rat) : Prop where
  id : f.properties.get? "nodeid" = some (.int n.id)
  down : f.properties.get? "dstrnodeid" = some (downVal n.down)
  vol : ∀ ws, CellsOf rows cols out.bluespots.watersheds.get n.id ws → n.vol = (ws.map rain).sum
  cap : ∀ cs, CellsOf rows cols out.bluespots.labeled.get n.id cs → n.cap = (cs.map out.dem.depths.get).sum * cellArea gt

/-- The final state `final` of the nodes of a run with the given rain on every cell, compared with the exact water balance of the
bluespots and watersheds the run found (every node holds the water that arrives up to its capacity and spills the rest): the volume and
the spill of no node differ by more than 3 roundings for every node and `k` of the rain on all cells, and twice one rounding for every
cell and 2 of the volume of all depths. -/
def FinalExact (gt : GeoTransform Rat) (dem : Raster (WithTop F64)) (rain : Cell → Rat) (k : Nat)
    (out : Complete.Out (WithTop F64) Rat) (final : List (Feature Rat)) : Prop :=
  ∃ (ns : List (RainNode Rat)) (v spill : Int → Rat), List.Forall₂ (ExactNode gt dem.rows dem.cols rain out) out.nodes ns ∧
    (∀ n ∈ ns, Balanced ns v spill n) ∧
    ∀ e, e = ((1 + 1 / 2 ^ 53) ^ (3 * out.nodes.length + k) - 1) * ((Raster.cellList dem.rows dem.cols).map rain).sum +
        2 * (((1 + 1 / 2 ^ 53) ^ (dem.rows * dem.cols + 2) - 1) *
          (((Raster.cellList dem.rows dem.cols).map out.dem.depths.get).sum * cellArea gt)) →
      List.Forall₂ (fun g n => g.properties.get? "nodeid" = some (.int n.id) ∧ ∃ v' s', HasNumber g "v" v' ∧ HasNumber g "spillv" s' ∧
        |v' - v n.id| ≤ e ∧ |s' - spill n.id| ≤ e) final ns

end Spec

/-- A feature with the data of a node. -/
def nodeFeature (n : RainNode Rat) : Feature Rat :=
  ⟨some n.id, .none, [("nodeid", .int n.id), ("dstrnodeid", downVal n.down), ("water", .num n.vol), ("wshed_area", .num 0),
    ("bspot_vol", .num n.cap)]⟩

theorem leads_map {ns : List (RainNode Rat)} (t : RainNode Rat → RainNode Rat) (ht : ∀ n, (t n).id = n.id ∧ (t n).down = n.down)
    {n : RainNode Rat} (h : LeadsToRoot ns n) : LeadsToRoot (ns.map t) (t n) := by
  induction h with
  | root h => exact .root ((ht _).2.trans h)
  | @step n m h1 h2 _ ih => exact .step (List.mem_map_of_mem h1) (by rw [(ht n).2, (ht m).1]; exact h2) ih

theorem network_map {attr : String} {fs : List (Feature Rat)} {ns : List (RainNode Rat)} (h : NetworkNodes attr fs ns)
    (t : RainNode Rat → RainNode Rat) (ht : ∀ n, (t n).id = n.id ∧ (t n).down = n.down) :
    NetworkNodes "water" ((ns.map t).map nodeFeature) (ns.map t) := by
  refine ⟨?_, ?_, by decide, fun m hm => ?_⟩
  · rw [List.forall₂_map_left_iff, List.forall₂_same]
    intro n _
    exact ⟨rfl, rfl, ⟨_, _, rfl, rfl⟩, ⟨_, rfl, rfl⟩, ⟨_, rfl, rfl⟩⟩
  · rw [List.map_map, show (fun n : RainNode Rat => n.id) ∘ t = fun n => n.id from funext fun n => (ht n).1]
    exact h.distinct
  · obtain ⟨n, hn, rfl⟩ := List.mem_map.1 hm
    exact leads_map t ht (h.drains n hn)

/-- The cells of all nodes are all cells. -/
theorem sum_cells (lab : Raster Int) (w : Cell → Rat) (n : Nat) (hr : LabelsIn lab.rows lab.cols lab.get n)
    {ns : List (RainNode Rat)} (hnd : (ns.map (·.id)).Nodup) (h0 : ∀ m ∈ ns, 0 ≤ m.id)
    (hall : ∀ l : Nat, l ≤ n → ∃ m ∈ ns, m.id = l) :
    (ns.map fun m => (((Raster.cellList lab.rows lab.cols).filter fun c => lab.get c = m.id).map w).sum).sum =
      ((Raster.cellList lab.rows lab.cols).map w).sum := by
  have h := sum_shares lab (⟨lab.rows, lab.cols, w⟩ : Raster Rat) 1 n hr hnd (fun i hi => by
    obtain ⟨m, hm, rfl⟩ := List.mem_map.1 hi
    exact h0 m hm) (fun l hl => by
    obtain ⟨m, hm, e⟩ := hall l hl
    exact List.mem_map.2 ⟨m, hm, e⟩)
  rw [mul_one, List.map_map] at h
  refine Eq.trans ?_ h
  congr 1
  apply List.map_congr_left
  intro m _
  simp only [Function.comp, rasterShare, mul_one]
  split_ifs with hm
  · rfl
  · have : (Raster.cellList lab.rows lab.cols).filter (fun c => lab.get c = m.id) = [] := by
      rw [List.filter_eq_nil_iff]
      intro c hc
      have := (hr c (Flow.mem_cellList.1 hc)).2
      simp only [decide_eq_true_eq]
      omega
    rw [this]
    rfl

variable {fl : Rat → Rat} {gt : GeoTransform Rat} {ns : List (RainNode Rat)} {nextafter : Rat → Rat}
  {cc : Raster Bool → Raster Int × Nat} {mm : Rat} {dem : Raster (WithTop F64)}

/-- The nodes of a run with their computed areas and capacities. -/
structure NodesNear (gt : GeoTransform Rat) (dem : Raster (WithTop F64)) (out : Complete.Out (WithTop F64) Rat)
    (ns : List (RainNode Rat)) : Prop where
  nodes : FloatNodes "wshed_area" out.nodes ns
  ids : ∀ m ∈ ns, 0 ≤ m.id
  all : ∀ l : Nat, l ≤ out.bluespots.nlabels → ∃ m ∈ ns, m.id = l
  areas : ∀ m ∈ ns, m.vol = 0 ∨ 2 ^ (-600 : Int) ≤ m.vol
  near : ∀ m ∈ ns, ∀ cs ws, CellsOf dem.rows dem.cols out.bluespots.labeled.get m.id cs →
    CellsOf dem.rows dem.cols out.bluespots.watersheds.get m.id ws →
    Near (1 / 2 ^ 53) 2 m.vol (ws.length * cellArea gt) ∧
    Near (1 / 2 ^ 53) (cs.length + 2) m.cap ((cs.map out.dem.depths.get).sum * cellArea gt)
  lshape : out.bluespots.labeled.rows = dem.rows ∧ out.bluespots.labeled.cols = dem.cols
  wshape : out.bluespots.watersheds.rows = dem.rows ∧ out.bluespots.watersheds.cols = dem.cols
  labels : LabelsIn dem.rows dem.cols out.bluespots.labeled.get out.bluespots.nlabels
  wtop : TopLabel dem.rows dem.cols out.bluespots.watersheds.get none out.bluespots.nlabels
  wlabels : LabelsIn dem.rows dem.cols out.bluespots.watersheds.get out.bluespots.nlabels
  depths : ∀ c, dem.Has c → 0 ≤ out.dem.depths.get c

/-- The final state of nodes whose volumes are the rain up to `k` roundings. -/
theorem near_exact (hfl : IsRounding 53 (-1074) fl) {out : Complete.Out (WithTop F64) Rat} (hN : NodesNear gt dem out ns)
    {attr : String} (hattr : attr ∉ ["nodeid", "dstrnodeid", "wshed_area", "bspot_vol"]) {rained final : List (Feature Rat)}
    (h2 : rained.length = out.nodes.length) {X : RainNode Rat → Rat} {rain : Cell → Rat} {k : Nat}
    (h3 : ∀ (i : Nat) (h : i < out.nodes.length) (h' : i < rained.length) (hn : i < ns.length),
      WithNumber attr (X ns[i]) out.nodes[i] rained[i])
    (hX : ∀ m ∈ ns, 0 ≤ X m ∧ IsF64 (X m) ∧ ∀ ws, CellsOf dem.rows dem.cols out.bluespots.watersheds.get m.id ws →
      Near (1 / 2 ^ 53) k (X m) (ws.map rain).sum)
    (hr : Returns (finalStateFl fl rained attr) (.ok final)) : Spec.FinalExact gt dem rain k out final := by
  obtain ⟨hf, hids, hall, hareas, hexact, hlsh, hwsh, hlab, -, hwlab, hdep⟩ := hN
  have l0 : out.nodes.length = ns.length := hf.carries.length_eq
  have hA0 : 0 ≤ cellArea gt := mul_nonneg (abs_nonneg _) (abs_nonneg _)
  -- the cells of a node
  obtain ⟨wcells, hwc⟩ : ∃ wcells : RainNode Rat → List Cell,
      wcells = fun m => (Raster.cellList dem.rows dem.cols).filter fun c => out.bluespots.watersheds.get c = m.id := ⟨_, rfl⟩
  obtain ⟨lcells, hlc⟩ : ∃ lcells : RainNode Rat → List Cell,
      lcells = fun m => (Raster.cellList dem.rows dem.cols).filter fun c => out.bluespots.labeled.get c = m.id := ⟨_, rfl⟩
  have hw : ∀ m, CellsOf dem.rows dem.cols out.bluespots.watersheds.get m.id (wcells m) := fun m => by
    rw [hwc]
    exact lists_filter dem.rows dem.cols fun c => out.bluespots.watersheds.get c = m.id
  have hl : ∀ m, CellsOf dem.rows dem.cols out.bluespots.labeled.get m.id (lcells m) := fun m => by
    rw [hlc]
    exact lists_filter dem.rows dem.cols fun c => out.bluespots.labeled.get c = m.id
  -- computed and exact nodes
  obtain ⟨g, hgdef⟩ : ∃ g : RainNode Rat → RainNode Rat, g = fun m => ⟨m.id, m.down, X m, m.cap⟩ := ⟨_, rfl⟩
  obtain ⟨e, hedef⟩ : ∃ e : RainNode Rat → RainNode Rat, e = fun m => ⟨m.id, m.down, ((wcells m).map rain).sum,
    ((lcells m).map out.dem.depths.get).sum * cellArea gt⟩ := ⟨_, rfl⟩
  have hcap0 : ∀ m, 0 ≤ (e m).cap := fun m => by
    rw [hedef]
    refine mul_nonneg (List.sum_nonneg fun y hy => ?_) hA0
    obtain ⟨c, hc, rfl⟩ := List.mem_map.1 hy
    exact hdep c (((hl m).2 c).1 hc).1
  have hvol : ∀ m ∈ ns, Near (1 / 2 ^ 53) k (g m).vol (e m).vol := fun m hm => by
    rw [hgdef, hedef]
    exact (hX m hm).2.2 _ (hw m)
  have hcap : ∀ m ∈ ns, Near (1 / 2 ^ 53) (dem.rows * dem.cols + 2) (g m).cap (e m).cap := fun m hm => by
    have h1 := (hexact m hm _ _ (hl m) (hw m)).2
    have h2 := hcap0 m
    rw [hgdef]
    rw [hedef] at h2 ⊢
    refine h1.weaken (by norm_num) (Nat.add_le_add_right ?_ 2) h2
    rw [← Flow.length_cellList, hlc]
    exact List.length_filter_le _ _
  -- the volumes
  obtain ⟨x, hx⟩ : ∃ x : Nat → Rat, ∀ (k : Nat) (h : k < ns.length), x k = X ns[k] :=
    ⟨fun k => if h : k < ns.length then X ns[k] else 0, fun k h => dif_pos h⟩
  have hF := rained_nodes (attr := attr) (x := x) hf hattr h2 fun k h h' => by
    rw [hx k (by omega)]
    have := hX _ (List.getElem_mem (show k < ns.length by omega))
    exact ⟨h3 k h h' (by omega), this.1, this.2.1⟩
  have hmap : rainedOn ns x = ns.map g := by
    apply List.ext_getElem (by simp [rainedOn])
    intro i a b
    simp only [List.length_map] at b
    rw [rainedOn_get ns x i a b, List.getElem_map, hx i b]
    generalize ns[i] = n
    rw [hgdef]
  rw [hmap] at hF
  have het : ∀ n, (e n).id = n.id ∧ (e n).down = n.down := fun n => by rw [hedef]; exact ⟨rfl, rfl⟩
  have hgt : ∀ n, (g n).id = n.id ∧ (g n).down = n.down := fun n => by rw [hgdef]; exact ⟨rfl, rfl⟩
  have hE := network_map hf.network e het
  obtain ⟨final, v, spill, f1, f2, -⟩ := final_run fl hF
  have := Except.ok.inj (hr.unique f1)
  subst this
  obtain ⟨mid, w, t, m1, m2, -⟩ := final_run id hF
  obtain ⟨final', v', spill', f1', f2', hbal, -⟩ := network_run id hE
  have hclose := C76_close hfl hF f1 f2 m1 m2
  obtain ⟨s1, s2⟩ := C127_stable hF.network hE (by
    rw [List.forall₂_map_left_iff, List.forall₂_map_right_iff, List.forall₂_same]
    intro n _
    exact ⟨(het n).1.trans (hgt n).1.symm, (het n).2.trans (hgt n).2.symm⟩) m1 f1' m2 f2'
  rw [List.zipWith_map, List.zipWith_self] at s1 s2
  -- the totals
  have hR : (ns.map fun m => (e m).vol).sum = ((Raster.cellList dem.rows dem.cols).map rain).sum := by
    have k := sum_cells out.bluespots.watersheds rain out.bluespots.nlabels (by rw [hwsh.1, hwsh.2]; exact hwlab)
      hf.distinct hids hall
    rw [hwsh.1, hwsh.2] at k
    rw [← k, hedef, hwc]
  have hD : (ns.map fun m => (e m).cap).sum = ((Raster.cellList dem.rows dem.cols).map out.dem.depths.get).sum * cellArea gt := by
    have k := sum_cells out.bluespots.labeled out.dem.depths.get out.bluespots.nlabels (by rw [hlsh.1, hlsh.2]; exact hlab)
      hf.distinct hids hall
    rw [hlsh.1, hlsh.2] at k
    rw [← k, hedef, hlc, List.sum_map_mul_right]
  have hdiff1 : (ns.map fun m => |(g m).vol - (e m).vol|).sum ≤ ((1 + 1 / 2 ^ 53) ^ k - 1) * (ns.map fun m => (e m).vol).sum := by
    rw [← List.sum_map_mul_left]
    exact List.sum_le_sum fun m hm => hvol m hm
  have hdiff2 : (ns.map fun m => |(g m).cap - (e m).cap|).sum ≤
      ((1 + 1 / 2 ^ 53) ^ (dem.rows * dem.cols + 2) - 1) * (ns.map fun m => (e m).cap).sum := by
    rw [← List.sum_map_mul_left]
    exact List.sum_le_sum fun m hm => hcap m hm
  have hXt : totalWater (ns.map g) ≤ (1 + 1 / 2 ^ 53) ^ k * (ns.map fun m => (e m).vol).sum := by
    unfold totalWater
    rw [List.map_map, ← List.sum_map_mul_left]
    exact List.sum_le_sum fun m hm => (hvol m hm).le
  have hdd : (ns.map fun m => difference (g m) (e m)).sum = (ns.map fun m => |(g m).vol - (e m).vol|).sum +
      2 * (ns.map fun m => |(g m).cap - (e m).cap|).sum := by
    unfold difference
    rw [List.sum_map_add, List.sum_map_mul_left]
  rw [hR] at hdiff1 hXt
  rw [hD] at hdiff2
  have herr : roundingError (ns.map g).length * totalWater (ns.map g) + (ns.map fun m => difference (g m) (e m)).sum ≤
      ((1 + 1 / 2 ^ 53) ^ (3 * out.nodes.length + k) - 1) * ((Raster.cellList dem.rows dem.cols).map rain).sum +
        2 * (((1 + 1 / 2 ^ 53) ^ (dem.rows * dem.cols + 2) - 1) *
          (((Raster.cellList dem.rows dem.cols).map out.dem.depths.get).sum * cellArea gt)) := by
    rw [hdd]
    unfold roundingError
    rw [List.length_map, l0, pow_add _ (3 * ns.length) k]
    have g1 : (1 : Rat) ≤ (1 + 1 / 2 ^ 53) ^ (3 * ns.length) := one_le_grow (by norm_num) _
    have := mul_le_mul_of_nonneg_left hXt (sub_nonneg.2 g1)
    generalize ((1 : Rat) + 1 / 2 ^ 53) ^ (3 * ns.length) = p at this ⊢
    generalize ((1 : Rat) + 1 / 2 ^ 53) ^ k = q at this hdiff1 ⊢
    generalize ((1 : Rat) + 1 / 2 ^ 53) ^ (dem.rows * dem.cols + 2) = r at hdiff2 ⊢
    linarith
  refine ⟨ns.map e, v', spill', ?_, fun n hn => balanced_id.1 (hbal n hn), ?_⟩
  · rw [List.forall₂_map_right_iff]
    refine hf.carries.imp fun f n hc => ?_
    refine ⟨by rw [(het n).1]; exact hc.id, by rw [(het n).2]; exact hc.down, fun ws hws => ?_, fun cs hcs => ?_⟩
    · rw [(het n).1] at hws
      rw [lists_unique hws (hw n), hedef]
    · rw [(het n).1] at hcs
      rw [lists_unique hcs (hl n), hedef]
  · rintro _ rfl
    rw [List.forall₂_map_right_iff]
    unfold Shows at f2
    rw [List.forall₂_map_right_iff, List.forall₂_iff_get] at f2
    rw [List.forall₂_iff_get]
    refine ⟨f2.1, fun i a b => ?_⟩
    obtain ⟨a1, a2, a3⟩ := f2.2 i a b
    simp only [List.get_eq_getElem] at a1 a2 a3 ⊢
    have hmem : ns[i] ∈ ns := List.getElem_mem b
    generalize ns[i] = n at *
    have hgm : g n ∈ ns.map g := List.mem_map_of_mem hmem
    obtain ⟨c1, c2⟩ := hclose _ hgm
    have d2 := s2 _ hgm
    have d1 : |w (g n).id - v' (g n).id| ≤ (ns.map fun m => difference (g m) (e m)).sum := by
      refine le_trans ?_ s1
      have e1 : |w (g n).id - v' (g n).id| ≤ ((ns.map g).map fun n => |w n.id - v' n.id|).sum :=
        List.single_le_sum (fun y hy => by
          obtain ⟨m, -, rfl⟩ := List.mem_map.1 hy
          exact abs_nonneg _) _ (List.mem_map_of_mem (f := fun n : RainNode Rat => |w n.id - v' n.id|) hgm)
      have e2 : 0 ≤ (((ns.map g).filter fun n => n.down = none).map fun n => |t n.id - spill' n.id|).sum :=
        List.sum_nonneg fun y hy => by
          obtain ⟨m, -, rfl⟩ := List.mem_map.1 hy
          exact abs_nonneg _
      linarith
    rw [(hgt n).1] at a1 a2 a3 c1 c2 d1 d2
    rw [(het n).1]
    refine ⟨a1, _, _, ⟨_, a2, rfl⟩, ⟨_, a3, rfl⟩, ?_, ?_⟩
    · have := abs_sub_le (v n.id) (w n.id) (v' n.id)
      linarith
    · have := abs_sub_le (spill n.id) (t n.id) (spill' n.id)
      linarith

/-- Even rain. -/
theorem even_exact (hfl : IsRounding 53 (-1074) fl) {out : Complete.Out (WithTop F64) Rat} (hg : FloatRain gt mm)
    (hN : NodesNear gt dem out ns) (hv : Rain.simpleVolumesFl fl out.nodes "inputv" mm = .ok out.volumes)
    (hr : Returns (finalStateFl fl out.volumes "inputv") (.ok out.final)) :
    Spec.FinalExact gt dem (fun _ => mm / 1000 * cellArea gt) 5 out out.final := by
  obtain ⟨rained, h1, h2, h3⟩ := evenVolumes_ok (fl := fl) (attr := "inputv") (mm := mm) hN.nodes
  rw [hv] at h1
  cases h1
  refine near_exact hfl hN (by decide) h2 (X := fun m => fl (fl (m.vol * mm) * fl (1 / 1000))) h3 (fun m hm => ?_) hr
  obtain ⟨cs, hcs⟩ : ∃ cs, CellsOf dem.rows dem.cols out.bluespots.labeled.get m.id cs :=
    ⟨_, lists_filter dem.rows dem.cols fun c => out.bluespots.labeled.get c = m.id⟩
  have key : ∀ ws, CellsOf dem.rows dem.cols out.bluespots.watersheds.get m.id ws → _ := fun ws hws =>
    rain_spec hfl hg.rain.2 (k := 2) (hN.near m hm cs ws hcs hws).1
      (mul_nonneg (Nat.cast_nonneg _) (mul_nonneg (abs_nonneg _) (abs_nonneg _))) (hN.areas _ hm)
  refine ⟨(key _ (lists_filter dem.rows dem.cols fun c => out.bluespots.watersheds.get c = m.id)).2, (hfl _).1, fun ws hws => ?_⟩
  rw [List.map_const', List.sum_replicate, nsmul_eq_mul, mul_left_comm]
  exact (key ws hws).1

/-- Rain given as a raster, on the watersheds of the run. -/
theorem raster_exact (hfl : IsRounding 53 (-1074) fl) {out : Complete.Out (WithTop F64) Rat} (hN : NodesNear gt dem out ns)
    {water : Raster Rat} {unit : Rain.Unit} {factor : Rat} {attr : String}
    (hg : FloatRainRaster gt water) (hshape : water.rows = dem.rows ∧ water.cols = dem.cols)
    (hu : unitFactor (|gt.t1| * |gt.t5|) unit = some factor)
    (hattr : attr ∉ ["nodeid", "dstrnodeid", "wshed_area", "bspot_vol"]) :
    ∃ rained final, Rain.rasterVolumesFl fl out.nodes gt out.bluespots.watersheds water unit attr = .ok rained ∧
      Returns (finalStateFl fl rained attr) (.ok final) ∧
      Spec.FinalExact gt dem (fun c => water.get c * factor) (dem.rows * dem.cols + 4) out final := by
  have hf := hN.nodes
  have l0 : out.nodes.length = ns.length := hf.carries.length_eq
  have hidl : List.Forall₂ (fun f (i : Int) => f.properties.get? "nodeid" = some (.int i) ∧ 0 ≤ i) out.nodes (ns.map (·.id)) := by
    rw [List.forall₂_map_right_iff, List.forall₂_iff_get]
    refine ⟨hf.carries.length_eq, fun i h1 h2 => ?_⟩
    exact ⟨((List.forall₂_iff_get.1 hf.carries).2 i h1 h2).id, hN.ids _ (List.getElem_mem h2)⟩
  obtain ⟨_, -, -, hfac, -⟩ := factor_spec hfl hg.width hg.height hu
  obtain ⟨rained, r1, r2, r3⟩ := C125_raster_volumes (attr := attr) hfl hg
    ⟨hN.wshape.1.trans hshape.1.symm, hN.wshape.2.trans hshape.2.symm⟩
    (by rw [hN.wshape.1, hN.wshape.2]; exact hN.wtop) (by rw [hN.wshape.1, hN.wshape.2]; exact hN.wlabels) hu hidl
  rw [hN.wshape.1, hN.wshape.2] at r3
  have hx : ∀ k : Nat, ∃ x : Rat, ∀ (h : k < ns.length), (∀ (h1 : k < out.nodes.length) (h2 : k < rained.length),
      WithNumber attr x out.nodes[k] rained[k]) ∧ 0 ≤ x ∧ IsF64 x ∧
      ∀ ws, CellsOf dem.rows dem.cols out.bluespots.watersheds.get ns[k].id ws →
        Near (1 / 2 ^ 53) (dem.rows * dem.cols + 4) x (ws.map fun c => water.get c * factor).sum := by
    intro k
    by_cases h : k < ns.length
    · have hk : k < (ns.map (·.id)).length := by rw [List.length_map]; exact h
      obtain ⟨g, x, g1, g2, g3, g4, g5, g6⟩ := r3 k _ _ (List.getElem?_eq_getElem (by omega)) (List.getElem?_eq_getElem hk)
      rw [List.getElem_map] at g5 g6
      refine ⟨x, fun _ => ⟨fun _ h2 => ?_, g3, g4, fun ws hws => ?_⟩⟩
      · rw [List.getElem?_eq_getElem h2] at g1
        injection g1 with g1
        rw [g1]
        exact g2
      · rcases le_or_gt ns[k].id (out.bluespots.nlabels : Int) with hle | hgt
        · have e : Near (1 / 2 ^ 53) (ws.length + 4) x ((ws.map water.get).sum * factor) := g5 ws hws hle
          rw [List.sum_map_mul_right]
          refine e.weaken (by norm_num) (Nat.add_le_add_right ?_ 4) (mul_nonneg (List.sum_nonneg fun y hy => ?_) hfac)
          · rw [← Flow.length_cellList, lists_unique hws (lists_filter dem.rows dem.cols fun c => out.bluespots.watersheds.get c = ns[k].id)]
            exact List.length_filter_le _ _
          · obtain ⟨c, hc, rfl⟩ := List.mem_map.1 hy
            have := ((hws.2 c).1 hc).1
            rw [← hshape.1, ← hshape.2] at this
            rcases (hg.rain c this).2 with e | e
            · exact e.ge
            · exact (two_pos _).le.trans e
        · have e1 : ws = [] := List.eq_nil_iff_forall_not_mem.2 fun c hc => by
            have h1 := (hws.2 c).1 hc
            have h2 := (hN.wlabels c h1.1).2
            have h3 : out.bluespots.watersheds.get c = ns[k].id := h1.2
            omega
          rw [g6 hgt, e1]
          exact Near.zero
    · exact ⟨0, fun h1 => absurd h1 h⟩
  choose x hx using hx
  have hnd : ns.Nodup := List.Nodup.of_map _ hf.distinct
  obtain ⟨X, hX⟩ : ∃ X : RainNode Rat → Rat, ∀ (k : Nat) (h : k < ns.length), X ns[k] = x k := by
    classical
    exact ⟨fun m => x (ns.idxOf m), fun k h => congrArg x (hnd.idxOf_getElem k h)⟩
  have hF := rained_nodes (attr := attr) (x := x) hf hattr r2 fun k h h' =>
    have := hx k (by omega)
    ⟨this.1 h h', this.2.1, this.2.2.1⟩
  obtain ⟨final, v, spill, f1, -⟩ := final_run fl hF
  refine ⟨rained, final, r1, f1, near_exact hfl hN hattr r2 (X := X) (fun i h h' hn => ?_) (fun m hm => ?_) f1⟩
  · rw [hX i hn]
    exact (hx i hn).1 h h'
  · obtain ⟨i, hi, rfl⟩ := List.getElem_of_mem hm
    rw [hX i hi]
    exact (hx i hi).2

/-- C128 for the outputs of a run: for the even rain of the run itself, and for every raster of rain on the watersheds it wrote. -/
def RunExact (fl : Rat → Rat) (gt : GeoTransform Rat) (dem : Raster (WithTop F64)) (mm : Rat)
    (out : Complete.Out (WithTop F64) Rat) : Prop :=
  Spec.FinalExact gt dem (fun _ => mm / 1000 * cellArea gt) 5 out out.final ∧
  ∀ (water : Raster Rat) (unit : Rain.Unit) (factor : Rat) (attr : String), FloatRainRaster gt water →
    water.rows = dem.rows ∧ water.cols = dem.cols → unitFactor (|gt.t1| * |gt.t5|) unit = some factor →
    attr ∉ ["nodeid", "dstrnodeid", "wshed_area", "bspot_vol"] →
    ∃ rained final, Rain.rasterVolumesFl fl out.nodes gt out.bluespots.watersheds water unit attr = .ok rained ∧
      Returns (finalStateFl fl rained attr) (.ok final) ∧
      Spec.FinalExact gt dem (fun c => water.get c * factor) (dem.rows * dem.cols + 4) out final

/-- C128 for whole runs on a float32 DEM with the Python functions. -/
theorem C128_run {fl32 : Rat → Rat} (hfl : IsRounding 53 (-1074) fl) (hfl32 : IsRounding 24 (-149) fl32)
    (hnext : IsNextAfter nextafter) (hdem : IsDem32 dem) (hsize : dem.rows * dem.cols ≤ 2 ^ 50) (hcc : LabelContract cc)
    (hsq : SquareCellsFl fl gt) (hg : FloatRain gt mm) (want : Bool) (f : Bluespots.StatUnits Rat → Bool) :
    ∃ out, (Complete.processAllFl fl cc (Dem.python (fsub fl) fun x => fl (x * (1 / Fill.sqrt2))) (Bluespots.pythonFl fl)
        (fsub fl32) (fsafe hfl nextafter) gt dem want (some f) mm).Yields (.ok out) ∧ RunExact fl gt dem mm out := by
  have h := float_sound hfl hfl32 hnext hdem hsize (k := 1 / Fill.sqrt2) (by norm_num [Fill.sqrt2])
  obtain ⟨d, hd, _, hdsh, hfsh, hcells, _, ⟨z, _, hdown⟩, hacc, hno⟩ := C62_dem_outputs h want
  obtain ⟨_, _, _, hnf, _, _, _⟩ := Dem.process_inv hd
  obtain ⟨hnsh, hfin, _⟩ := noFlats_finite h hnf
  obtain ⟨out, h1, rfl, -, -, -, ⟨choose, hb⟩, -, -, ⟨ns, n1, n2, n3, n4, -, n5⟩, hv, hr, -⟩ := chain_balance (bluespotEngine := Bluespots.pythonFl fl) hfl hg hsize
    (.inl rfl) rfl hcc hsq ⟨by have := h.rows; omega, by have := h.cols; omega⟩ want f hd hdsh hfsh
    (fun c hc => ⟨(hcells c hc).2.2.1, by rw [(hcells c hc).2.1]; exact (hfl32 _).1⟩) hdown hnsh hfin h.drop_pos h.scale_pos
    (fun hw => by
      obtain ⟨a, h1, h2⟩ := hacc hw
      exact ⟨a, a, h1, h2, rfl, rfl, fun _ _ => rfl⟩) hno
  have hsh := hb.shape
  have hrange := hb.labelling.range
  have hwl := hb.wlabels
  rw [hdsh.1, hdsh.2] at hsh hrange hwl
  have hN : NodesNear gt dem out ns :=
    ⟨n1, n2, n3, n4, n5, ⟨hsh.1, hsh.2.1⟩, hsh.2.2, hrange, hwl.1, hwl.2, fun c hc => (hcells c hc).2.2.1⟩
  exact ⟨out, h1, even_exact hfl hg hN hv hr, fun _ _ _ _ k1 k2 k3 k4 => raster_exact hfl hN k1 k2 k3 k4⟩

/-- C128 for whole runs with the compiled functions. -/
theorem C128_compiled_run {fl32 : Rat → Rat} (junk : Int × Int) (hfl : IsRounding 53 (-1074) fl) (hfl32 : IsRounding 24 (-149) fl32)
    (hnext : IsNextAfter nextafter) (hdem : IsDem32 dem) (hr3 : dem.rows ≠ 3) (hc3 : dem.cols ≠ 3)
    (hsize : dem.rows * dem.cols ≤ 2 ^ 50) (hcc : LabelContract cc)
    (hsq : SquareCellsFl fl gt) (hg : FloatRain gt mm) (want : Bool) (f : Bluespots.StatUnits Rat → Bool) :
    ∃ out, (Complete.processAllFl fl cc (Dem.compiled junk (fsub fl) fun x => fl (x * FlowCython.invSqrt2))
        (Bluespots.compiledFl fl junk) (fsub fl32) (fsafe hfl nextafter) gt dem want (some f) mm).Yields (.ok out) ∧
      RunExact fl gt dem mm out := by
  have h := float_sound hfl hfl32 hnext hdem hsize (k := FlowCython.invSqrt2) (by norm_num [FlowCython.invSqrt2])
  obtain ⟨d, hd, _, hdsh, hfsh, _, hcells, _, ⟨z, _, hdown⟩, hacc, hno⟩ := C62_dem_outputs_compiled junk h hr3 hc3 want
  obtain ⟨_, _, _, hnf, _, _, _⟩ := Dem.process_inv hd
  obtain ⟨nf, hnf', hnr, hnc, _, _, _, hnfin, _⟩ := C11_compiled_noflats_valid (fsafe hfl nextafter dem).1 (fsafe hfl nextafter dem).2
    h.mono.1 h.mono.2 (fun x => (h.ge x).1) (fun x => (h.ge x).2) dem ⟨h.rows, hr3⟩ ⟨h.cols, hc3⟩ h.finite
    (fun x hx => (h.keep x hx).1) (fun x hx => (h.keep x hx).2)
  have heq : Except.ok nf = Except.ok (ε := PyErr) d.noFlats := Returns.unique hnf' hnf
  cases heq
  obtain ⟨out, h1, rfl, -, -, -, ⟨choose, hb⟩, -, -, ⟨ns, n1, n2, n3, n4, -, n5⟩, hv, hr, -⟩ := chain_balance (bluespotEngine := Bluespots.compiledFl fl junk)
    hfl hg hsize (.inr ⟨junk, rfl⟩) rfl hcc hsq ⟨by have := h.rows; omega, by have := h.cols; omega⟩ want f hd hdsh hfsh
    (fun c hc => ⟨(hcells c hc).2.2.1, by rw [(hcells c hc).2.1]; exact (hfl32 _).1⟩) hdown ⟨hnr, hnc⟩ hnfin h.drop_pos h.scale_pos
    hacc hno
  have hsh := hb.shape
  have hrange := hb.labelling.range
  have hwl := hb.wlabels
  rw [hdsh.1, hdsh.2] at hsh hrange hwl
  have hN : NodesNear gt dem out ns :=
    ⟨n1, n2, n3, n4, n5, ⟨hsh.1, hsh.2.1⟩, hsh.2.2, hrange, hwl.1, hwl.2, fun c hc => (hcells c hc).2.2.1⟩
  exact ⟨out, h1, even_exact hfl hg hN hv hr, fun _ _ _ _ k1 k2 k3 k4 => raster_exact hfl hN k1 k2 k3 k4⟩

/-- The hypotheses of C128 can be met: the DEM of C124, cells with a side of 1.6 m and 10 mm of rain, with both sets of functions. A raster
of rain that meets those of its second part is `rainWater` (C125). -/
example : ∃ fl w out out', IsRounding 53 (-1074) fl ∧ w = fl (16 / 10) ∧ RunExact fl ⟨0, w, 0, 0, 0, -w⟩ demo 10 out ∧
    RunExact fl ⟨0, w, 0, 0, 0, -w⟩ demo 10 out' := by
  obtain ⟨fl, fl32, next, cc, w, h1, h2, h3, h4, h5, h6, h7, h8, h9, h10, h11⟩ := demo_complete
  obtain ⟨out, -, h⟩ := C128_run h1 h2 h3 h4 h7 h8 h10 h11 true fun _ => true
  obtain ⟨out', -, h'⟩ := C128_compiled_run (0, 0) h1 h2 h3 h4 h5 h6 h7 h8 h10 h11 true fun _ => true
  exact ⟨fl, w, out, out', h1, h9, h, h'⟩

end Float
end Malstroem
