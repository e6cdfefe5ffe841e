/-
Property C125: a raster of rain, summed up and let run through the network in floating point arithmetic.
-/
import Verif.Props.CompleteFloat

set_option linter.unusedSectionVars false

namespace Malstroem
open Spec

namespace Spec

/-- A raster of rain: float64 numbers (float32 numbers are) that are not negative and not below the least positive float32 number,
about 1e-45. Cell sizes are not so small that products underflow. -/
structure FloatRainRaster (gt : GeoTransform Rat) (water : Raster Rat) : Prop where
  width : 2 ^ (-300 : Int) ≤ |gt.t1|
  height : 2 ^ (-300 : Int) ≤ |gt.t5|
  rain : ∀ c, water.Has c → IsF64 (water.get c) ∧ (water.get c = 0 ∨ 2 ^ (-149 : Int) ≤ water.get c)

end Spec

namespace Float
open Malstroem.Network
variable {fl : Rat → Rat} {gt : GeoTransform Rat} {lab : Raster Int} {water : Raster Rat} {unit : Rain.Unit} {factor : Rat}
  {attr : String} {n : Nat} {fs : List (Feature Rat)}

/-- The factor from the unit of the raster to cubic metres. -/
theorem factor_spec (hfl : IsRounding 53 (-1074) fl) (hw : 2 ^ (-300 : Int) ≤ |gt.t1|) (hh : 2 ^ (-300 : Int) ≤ |gt.t5|)
    (hu : unitFactor (|gt.t1| * |gt.t5|) unit = some factor) :
    ∃ fac, Rain.conversionFactorFl fl (fl (|gt.t1| * |gt.t5|)) unit = .ok fac ∧ Near (1 / 2 ^ 53) 3 fac factor ∧ 0 ≤ factor ∧
      2 ^ (-700 : Int) ≤ fac := by
  obtain ⟨t1, t2⟩ := thousandth hfl
  obtain ⟨a1, a2⟩ := area_spec (gt := gt) hfl hw hh
  have hA0 : 0 ≤ |gt.t1| * |gt.t5| := mul_nonneg (abs_nonneg _) (abs_nonneg _)
  cases unit with
  | mm =>
    injection hu with hu
    subst hu
    refine ⟨_, rfl, ?_, by positivity, ?_⟩
    · have h1 := Near.mul (u := 1 / 2 ^ 53) (by norm_num) t1 a1 (by norm_num) hA0
      have h2 := mul_le_mul t2 a2 (two_pos _).le ((two_pos _).le.trans t2)
      rw [← zpow_add₀ (by norm_num)] at h2
      have h3 := Near.fl_mul hfl h1 (.inr ((two_le.2 (by norm_num)).trans h2))
      rw [show |gt.t1| * |gt.t5| / 1000 = 1 / 1000 * (|gt.t1| * |gt.t5|) by ring]
      exact h3
    · have h2 := mul_le_mul t2 a2 (two_pos _).le ((two_pos _).le.trans t2)
      rw [← zpow_add₀ (by norm_num)] at h2
      exact pow_le_fl hfl (by norm_num) (by norm_num) ((two_le.2 (by norm_num)).trans h2)
  | l =>
    injection hu with hu
    subst hu
    exact ⟨_, rfl, t1.weaken (by norm_num) (by norm_num) (by norm_num), by norm_num, (two_le.2 (by norm_num)).trans t2⟩
  | m3 =>
    injection hu with hu
    subst hu
    exact ⟨_, rfl, Near.refl.weaken (by norm_num) (by norm_num) (by norm_num), by norm_num,
      (two_le.2 (show (-700 : Int) ≤ 0 by norm_num)).trans (by norm_num)⟩
  | other => simp [unitFactor] at hu

/-- The volume on a number of cells. -/
theorem cellsum_spec (hfl : IsRounding 53 (-1074) fl) {xs : List Rat}
    (hx : ∀ x ∈ xs, IsF64 x ∧ (x = 0 ∨ 2 ^ (-149 : Int) ≤ x)) {fac : Rat} (hf : Near (1 / 2 ^ 53) 3 fac factor) (h0 : 0 ≤ factor)
    (hf2 : 2 ^ (-700 : Int) ≤ fac) :
    Near (1 / 2 ^ 53) (xs.length + 4) (fl (sumFl fl xs * fac)) (xs.sum * factor) ∧ 0 ≤ fl (sumFl fl xs * fac) := by
  obtain ⟨s1, s2, s3, s4⟩ := sumFl_spec hfl (by norm_num) xs fun x h => ⟨by
    rcases (hx x h).2 with h | h
    · exact h.ge
    · exact (two_pos _).le.trans h, .of_float (hx x h).1⟩
  have hz := sumFl_zero_or hfl xs fun x h => (hx x h).2
  refine ⟨Near.fl_mul hfl (Near.mul (by norm_num) s4 hf s3 h0) ?_, fl_nonneg hfl (mul_nonneg s1 ((two_pos _).le.trans hf2))⟩
  rcases hz with ⟨e, -⟩ | hz
  · left; rw [e, zero_mul]
  · right
    have := mul_le_mul hz hf2 (two_pos _).le s1
    rw [← zpow_add₀ (by norm_num)] at this
    exact (two_le.2 (by norm_num)).trans this

/-- What the tool does: the volume of every label, then the nodes. -/
theorem rasterVolumesFl_ok (hfl : IsRounding 53 (-1074) fl) (hg : FloatRainRaster gt water)
    (hshape : lab.rows = water.rows ∧ lab.cols = water.cols)
    (hn : TopLabel lab.rows lab.cols lab.get none n) (hr : LabelsIn lab.rows lab.cols lab.get n)
    (hu : unitFactor (|gt.t1| * |gt.t5|) unit = some factor) (fs : List (Feature Rat)) :
    ∃ vols : List Rat, vols.length = n + 1 ∧
      (∀ (l : Nat) (cs : List Cell), l ≤ n → CellsOf lab.rows lab.cols lab.get l cs → ∃ x, vols[l]? = some x ∧
        Near (1 / 2 ^ 53) (cs.length + 4) x ((cs.map water.get).sum * factor) ∧ 0 ≤ x ∧ IsF64 x) ∧
      Rain.rasterVolumesFl fl fs gt lab water unit attr = fs.mapM (Rain.rasterVolume attr vols) := by
  obtain ⟨fac, f1, f2, f3, f4⟩ := factor_spec hfl hg.width hg.height hu
  obtain ⟨stats, h1, h2, h3⟩ := Label.labelStats_ok fl water ⟨hshape.1.symm, hshape.2.symm⟩ hn hr
  refine ⟨stats.map fun s => fl (s.sum * fac), by simp [h2], fun l cs hl hcs => ?_, ?_⟩
  · have hs := h3 l cs hl hcs
    obtain ⟨-, hsum, -⟩ := Label.fold_statFl fl water cs
    obtain ⟨c1, c2⟩ := cellsum_spec hfl (xs := cs.map water.get) (fun x hx => by
      obtain ⟨c, hc, rfl⟩ := List.mem_map.1 hx
      refine hg.rain c ?_
      have := ((hcs.2 c).1 hc).1
      rw [hshape.1, hshape.2] at this
      exact this) f2 f3 f4
    refine ⟨fl (sumFl fl (cs.map water.get) * fac), ?_, ?_, c2, (hfl _).1⟩
    · rw [List.getElem?_map, hs, Option.map_some]
      congr 3
    · simpa using c1
  · unfold Rain.rasterVolumesFl
    simp only [hshape.1, hshape.2, h1, f1, and_self, not_true_eq_false, if_false]
    rfl

/-- The nodes get the volumes of their labels. -/
theorem nodes_get {vols : List Rat} {ids : List Int}
    (hf : List.Forall₂ (fun f (i : Int) => f.properties.get? "nodeid" = some (.int i) ∧ 0 ≤ i) fs ids) :
    ∃ out, fs.mapM (Rain.rasterVolume attr vols) = .ok out ∧ out.length = fs.length ∧
      ∀ (k : Nat) f (id : Int), fs[k]? = some f → ids[k]? = some id → ∃ g, out[k]? = some g ∧
        WithNumber attr (vols.getD id.toNat 0) f g := by
  induction hf with
  | nil => exact ⟨[], rfl, rfl, by simp⟩
  | cons hab _ ih =>
    rename_i f0 i0 fs ids _
    obtain ⟨out, h1, h2, h3⟩ := ih
    obtain ⟨g, hg1, hg2⟩ := rasterVolume_ok (attr := attr) (vols := vols) (x := vols.getD i0.toNat 0) hab.1 hab.2 (by
      have := hab.2
      split
      · rename_i hl
        have hl' : i0.toNat < vols.length := by omega
        rw [List.getD_eq_getElem?_getD, List.getElem?_eq_getElem hl']
        rfl
      · rename_i hl
        rw [List.getD_eq_getElem?_getD, List.getElem?_eq_none (by omega)]
        rfl)
    refine ⟨g :: out, ?_, by simp [h2], ?_⟩
    · rw [List.mapM_cons, hg1, h1]; rfl
    · rintro (_ | k) f i hf hi
      · simp only [List.getElem?_cons_zero, Option.some.injEq] at hf hi
        subst hf hi
        exact ⟨g, rfl, hg2⟩
      · simp only [List.getElem?_cons_succ] at hf hi ⊢
        exact h3 k f i hf hi

/-- C125: the raster volume tool in floating point arithmetic. The node with id `id` gets the rain on the cells labelled `id` in cubic
metres, up to the number of these cells plus 4 roundings, and never a negative volume; a node whose id is above every label gets 0.
Nothing else in the features changes. -/
theorem C125_raster_volumes (hfl : IsRounding 53 (-1074) fl) (hg : FloatRainRaster gt water)
    (hshape : lab.rows = water.rows ∧ lab.cols = water.cols)
    (hn : TopLabel lab.rows lab.cols lab.get none n) (hr : LabelsIn lab.rows lab.cols lab.get n)
    (hu : unitFactor (|gt.t1| * |gt.t5|) unit = some factor) {ids : List Int}
    (hf : List.Forall₂ (fun f (i : Int) => f.properties.get? "nodeid" = some (.int i) ∧ 0 ≤ i) fs ids) :
    ∃ out, Rain.rasterVolumesFl fl fs gt lab water unit attr = .ok out ∧ out.length = fs.length ∧
      ∀ (k : Nat) f (id : Int), fs[k]? = some f → ids[k]? = some id → ∃ g x, out[k]? = some g ∧ WithNumber attr x f g ∧
        0 ≤ x ∧ IsF64 x ∧
        (∀ cs, CellsOf lab.rows lab.cols lab.get id cs → id ≤ n → Rounded (cs.length + 4) x ((cs.map water.get).sum * factor)) ∧
        ((n : Int) < id → x = 0) := by
  obtain ⟨vols, hv1, hv2, hv3⟩ := rasterVolumesFl_ok (attr := attr) hfl hg hshape hn hr hu fs
  obtain ⟨out, h1, h2, h3⟩ := nodes_get (attr := attr) (vols := vols) hf
  refine ⟨out, hv3.trans h1, h2, fun k f id hk hi => ?_⟩
  obtain ⟨g, g1, g2⟩ := h3 k f id hk hi
  have h0 : 0 ≤ id := by
    obtain ⟨hk', -⟩ := List.getElem?_eq_some_iff.1 hk
    obtain ⟨hi', rfl⟩ := List.getElem?_eq_some_iff.1 hi
    exact ((List.forall₂_iff_get.1 hf).2 k hk' hi').2
  refine ⟨g, _, g1, g2, ?_⟩
  by_cases hle : id ≤ n
  · have key : ∀ cs, CellsOf lab.rows lab.cols lab.get id cs → 0 ≤ vols.getD id.toNat 0 ∧ IsF64 (vols.getD id.toNat 0) ∧
        Rounded (cs.length + 4) (vols.getD id.toNat 0) ((cs.map water.get).sum * factor) := by
      intro cs hcs
      obtain ⟨x, x1, x2, x3, x4⟩ := hv2 id.toNat cs (by omega) (by rwa [Int.toNat_of_nonneg h0])
      rw [List.getD_eq_getElem?_getD, x1]
      exact ⟨x3, x4, x2⟩
    obtain ⟨cs, hcs⟩ : ∃ cs, CellsOf lab.rows lab.cols lab.get id cs := ⟨_, lists_filter _ _ _⟩
    exact ⟨(key cs hcs).1, (key cs hcs).2.1, fun cs hcs _ => (key cs hcs).2.2, fun h => by omega⟩
  · have e : vols.getD id.toNat 0 = 0 := by
      rw [List.getD_eq_getElem?_getD, List.getElem?_eq_none (by omega)]; rfl
    rw [e]
    exact ⟨le_refl _, isFloat_zero, fun _ _ h => absurd h hle, fun _ => rfl⟩

theorem cellsOf_length {id : Int} {cs : List Cell} (hcs : CellsOf lab.rows lab.cols lab.get id cs) : cs.length ≤ lab.rows * lab.cols := by
  rw [← Flow.length_cellList]
  exact (List.subperm_of_subset (hcs.1.imp fun h e => by subst e; simp [Before] at h)
    fun x hx => Flow.mem_cellList.2 ((hcs.2 x).1 hx).1).length_le

theorem share_nonneg (hg : FloatRainRaster gt water) (hshape : lab.rows = water.rows ∧ lab.cols = water.cols) {id : Int}
    {cs : List Cell} (hcs : CellsOf lab.rows lab.cols lab.get id cs) (h0 : 0 ≤ factor) : 0 ≤ (cs.map water.get).sum * factor := by
  refine mul_nonneg (List.sum_nonneg fun x hx => ?_) h0
  obtain ⟨c, hc, rfl⟩ := List.mem_map.1 hx
  have := ((hcs.2 c).1 hc).1
  rw [hshape.1, hshape.2] at this
  rcases (hg.rain c this).2 with h | h
  · exact h.ge
  · exact (two_pos _).le.trans h

/-- C125: if ids are distinct and every label up to the highest one has its node, the volumes written add up to all rain of the raster
in cubic metres, up to the number of cells plus 4 roundings. -/
theorem C125_total (hfl : IsRounding 53 (-1074) fl) (hg : FloatRainRaster gt water)
    (hshape : lab.rows = water.rows ∧ lab.cols = water.cols)
    (hn : TopLabel lab.rows lab.cols lab.get none n) (hr : LabelsIn lab.rows lab.cols lab.get n)
    (hu : unitFactor (|gt.t1| * |gt.t5|) unit = some factor) {out : List (Feature Rat)} {ids : List Int} {vols : List Rat}
    (hf : List.Forall₂ (fun f (i : Int) => f.properties.get? "nodeid" = some (.int i) ∧ 0 ≤ i) fs ids)
    (hnd : ids.Nodup) (hall : ∀ l : Nat, l ≤ n → (l : Int) ∈ ids)
    (ho : Rain.rasterVolumesFl fl fs gt lab water unit attr = .ok out)
    (hv : List.Forall₂ (fun g x => HasNumber g attr x) out vols) :
    Rounded (water.rows * water.cols + 4) vols.sum (((Raster.cellList water.rows water.cols).map water.get).sum * factor) := by
  obtain ⟨out', h1, h2, h3⟩ := C125_raster_volumes (attr := attr) hfl hg hshape hn hr hu hf
  rw [ho] at h1
  injection h1 with h1
  subst h1
  obtain ⟨_, -, -, hfac, -⟩ := factor_spec hfl hg.width hg.height hu
  have h0 : ∀ i ∈ ids, 0 ≤ i := by
    intro i hi
    obtain ⟨k, hk, rfl⟩ := List.getElem_of_mem hi
    exact ((List.forall₂_iff_get.1 hf).2 k (by rw [hf.length_eq]; exact hk) hk).2
  have hs := sum_shares lab water factor n hr hnd h0 hall
  have hpair : List.Forall₂ (fun x i => Near (1 / 2 ^ 53) (water.rows * water.cols + 4) x (rasterShare lab water factor n i)) vols ids := by
    rw [List.forall₂_iff_get]
    refine ⟨by rw [← hv.length_eq, h2, hf.length_eq], fun k hk1 hk2 => ?_⟩
    have hkf : k < fs.length := by rw [hf.length_eq]; exact hk2
    have hko : k < out.length := by rw [h2]; exact hkf
    obtain ⟨g, x, hg1, hw, -, -, hx1, hx2⟩ := h3 k fs[k] ids[k] (by simp [hkf]) (by simp [hk2])
    have hgv := (List.forall₂_iff_get.1 hv).2 k hko hk1
    simp only [List.get_eq_getElem] at hgv ⊢
    rw [List.getElem?_eq_getElem hko] at hg1
    injection hg1 with hg1
    rw [hg1] at hgv
    obtain ⟨y, hy1, hy2⟩ := hw.value
    obtain ⟨z, hz1, hz2⟩ := hgv
    rw [hy1] at hz1
    injection hz1 with hz1
    subst hz1
    rw [hy2] at hz2
    injection hz2 with hz2
    rw [← hz2]
    unfold rasterShare
    split
    · rename_i hle
      have hcs : CellsOf lab.rows lab.cols lab.get ids[k] (lab.cells.filter fun c => lab.get c = ids[k]) := lists_filter _ _ _
      have hl := cellsOf_length hcs
      rw [hshape.1, hshape.2] at hl
      exact Near.weaken (by norm_num) (hx1 _ hcs hle) (by omega) (share_nonneg hg hshape hcs hfac)
    · rename_i hle
      rw [hx2 (by omega)]
      exact Near.zero
  have hsum : ∀ (l : List Rat) (m : List Int), List.Forall₂ (fun x i => Near (1 / 2 ^ 53) (water.rows * water.cols + 4) x (rasterShare lab water factor n i)) l m →
      Near (1 / 2 ^ 53) (water.rows * water.cols + 4) l.sum (m.map (rasterShare lab water factor n)).sum := by
    intro l m h
    induction h with
    | nil => simp [Near]
    | cons hab _ ih =>
      unfold Near at *
      rw [List.map_cons, List.sum_cons, List.sum_cons]
      rw [add_sub_add_comm, mul_add]
      exact le_trans (abs_add_le _ _) (add_le_add hab ih)
  have := hsum _ _ hpair
  rw [hs] at this
  unfold Raster.cells at this
  rw [hshape.1, hshape.2] at this
  exact this

/-- The nodes with the volumes `x` instead of their own. -/
def rainedOn (ns : List (RainNode Rat)) (x : Nat → Rat) : List (RainNode Rat) :=
  ns.zipIdx.map fun p => ⟨p.1.id, p.1.down, x p.2, p.1.cap⟩

theorem rainedOn_get (ns : List (RainNode Rat)) (x : Nat → Rat) (i : Nat) (h : i < (rainedOn ns x).length) (h' : i < ns.length) :
    (rainedOn ns x)[i] = ⟨ns[i].id, ns[i].down, x i, ns[i].cap⟩ := by
  simp [rainedOn]

/-- Adding volumes to the features of a network. -/
theorem rained_network {ns : List (RainNode Rat)} (hf : NetworkNodes "wshed_area" fs ns)
    (hattr : attr ∉ ["nodeid", "dstrnodeid", "wshed_area", "bspot_vol"]) {rained : List (Feature Rat)} (r2 : rained.length = fs.length)
    {x : Nat → Rat} (hx : ∀ (k : Nat) (h : k < fs.length) (h' : k < rained.length), WithNumber attr (x k) fs[k] rained[k]) :
    NetworkNodes attr rained (rainedOn ns x) := by
  simp only [List.mem_cons, List.not_mem_nil, or_false, not_or] at hattr
  obtain ⟨a1, a2, a3, a4⟩ := hattr
  have hget := rainedOn_get ns x
  have hlen : (rainedOn ns x).length = ns.length := by simp [rainedOn]
  have hlen2 : fs.length = ns.length := hf.carries.length_eq
  generalize rainedOn ns x = ns' at hget hlen
  have hids' : ns'.map (·.id) = ns.map (·.id) := by
    apply List.ext_getElem
    · simp [hlen]
    · intro i h1 h2
      simp only [List.getElem_map]
      rw [hget i (by simpa using h1) (by simpa using h2)]
  have hdrain : ∀ m, LeadsToRoot ns m → ∀ m' ∈ ns', m'.id = m.id → m'.down = m.down → LeadsToRoot ns' m' := by
    intro m hm
    induction hm with
    | root h => intro m' hm' e1 e2; exact .root (e2.trans h)
    | @step m d hd1 hd2 _ ih =>
      intro m' hm' e1 e2
      obtain ⟨i, hi, rfl⟩ := List.getElem_of_mem hd1
      have hi' : i < ns'.length := by omega
      have e := hget i hi' hi
      refine .step (List.getElem_mem hi') (by rw [e2, hd2, e]) (ih _ (List.getElem_mem hi') (by rw [e]) (by rw [e]))
  refine ⟨?_, by rw [hids']; exact hf.distinct, a1, fun m' hm' => ?_⟩
  · rw [List.forall₂_iff_get]
    refine ⟨by omega, fun i h1 h2 => ?_⟩
    have hi : i < fs.length := by omega
    have c := (List.forall₂_iff_get.1 hf.carries).2 i hi (by omega)
    have w := hx i hi h1
    simp only [List.get_eq_getElem] at c ⊢
    rw [hget i h2 (by omega)]
    refine ⟨?_, ?_, ?_, w.value, ?_⟩
    · rw [w.others _ (Ne.symm a1)]; exact c.id
    · rw [w.others _ (Ne.symm a2)]; exact c.down
    · rw [w.others _ (Ne.symm a3)]; exact c.area
    · rw [w.others _ (Ne.symm a4)]; exact c.cap
  · obtain ⟨i, hi, rfl⟩ := List.getElem_of_mem hm'
    have hi' : i < ns.length := by omega
    have e := hget i hi hi'
    exact hdrain _ (hf.drains _ (List.getElem_mem hi')) _ hm' (by rw [e]) (by rw [e])

theorem rained_nodes {ns : List (RainNode Rat)} (hf : FloatNodes "wshed_area" fs ns)
    (hattr : attr ∉ ["nodeid", "dstrnodeid", "wshed_area", "bspot_vol"]) {rained : List (Feature Rat)} (r2 : rained.length = fs.length)
    {x : Nat → Rat} (hx : ∀ (k : Nat) (h : k < fs.length) (h' : k < rained.length),
      WithNumber attr (x k) fs[k] rained[k] ∧ 0 ≤ x k ∧ IsF64 (x k)) : FloatNodes attr rained (rainedOn ns x) := by
  have h := rained_network hf.network hattr r2 fun k h h' => (hx k h h').1
  have hlen : (rainedOn ns x).length = ns.length := by simp [rainedOn]
  have hlen2 : fs.length = ns.length := hf.carries.length_eq
  refine ⟨h.carries, h.distinct, h.attr_ne, h.drains, fun m' hm' => ?_, fun m' hm' => ?_⟩ <;>
    obtain ⟨i, hi, rfl⟩ := List.getElem_of_mem hm' <;> rw [rainedOn_get ns x i hi (by omega)]
  · exact (hx i (by omega) (by omega)).2
  · exact hf.capacities ns[i] (List.getElem_mem (show i < ns.length by omega))

/-- C125: a network with a raster of rain, in floating point arithmetic. The features `fs` are the nodes of a network (`ns`, with ids
that are not negative, and every label has its node). The volumes are added and the final state computed without an error. What all
nodes hold and the roots spill is the rain of the raster in cubic metres, up to 3 roundings for every node, one for every cell and 4.
No node holds a negative volume or more than its capacity, and a node that spills is full. -/
theorem C125_balance (hfl : IsRounding 53 (-1074) fl) (hg : FloatRainRaster gt water)
    (hshape : lab.rows = water.rows ∧ lab.cols = water.cols)
    (hn : TopLabel lab.rows lab.cols lab.get none n) (hr : LabelsIn lab.rows lab.cols lab.get n)
    (hu : unitFactor (|gt.t1| * |gt.t5|) unit = some factor) {ns : List (RainNode Rat)} (hf : FloatNodes "wshed_area" fs ns)
    (hids : ∀ m ∈ ns, 0 ≤ m.id) (hall : ∀ l : Nat, l ≤ n → ∃ m ∈ ns, m.id = l)
    (hattr : attr ∉ ["nodeid", "dstrnodeid", "wshed_area", "bspot_vol"]) :
    ∃ rained final, Rain.rasterVolumesFl fl fs gt lab water unit attr = .ok rained ∧
      Returns (finalStateFl fl rained attr) (.ok final) ∧
      (∃ vs ss, List.Forall₂ (fun f x => HasNumber f "v" x) final vs ∧
        List.Forall₂ (fun f x => HasNumber f "spillv" x) (final.filter fun f => IsRoot f) ss ∧
        Rounded (3 * final.length + (water.rows * water.cols + 4)) (vs.sum + ss.sum)
          (((Raster.cellList water.rows water.cols).map water.get).sum * factor)) ∧
      List.Forall₂ (SameBut [attr, "v", "spillv", "pctv"]) fs final ∧
      (∀ f ∈ final, ∃ v s cap, HasNumber f "v" v ∧ HasNumber f "spillv" s ∧
        HasNumber f "bspot_vol" cap ∧ 0 ≤ v ∧ v ≤ cap ∧ 0 ≤ s ∧ (0 < s → v = cap)) := by
  simp only [List.mem_cons, List.not_mem_nil, or_false, not_or] at hattr
  obtain ⟨a1, a2, a3, a4⟩ := hattr
  have hidl : List.Forall₂ (fun f (i : Int) => f.properties.get? "nodeid" = some (.int i) ∧ 0 ≤ i) fs (ns.map (·.id)) := by
    rw [List.forall₂_map_right_iff, List.forall₂_iff_get]
    refine ⟨hf.carries.length_eq, fun i h1 h2 => ?_⟩
    exact ⟨((List.forall₂_iff_get.1 hf.carries).2 i h1 h2).id, hids _ (List.getElem_mem h2)⟩
  obtain ⟨rained, r1, r2, r3⟩ := C125_raster_volumes (attr := attr) hfl hg hshape hn hr hu hidl
  -- the volumes
  have hx : ∀ k : Nat, ∃ x : Rat, ∀ (h : k < fs.length) (h' : k < rained.length), WithNumber attr x fs[k] rained[k] ∧ 0 ≤ x ∧ IsF64 x := by
    intro k
    by_cases h : k < fs.length
    · have hk : k < (ns.map (·.id)).length := by rw [← hidl.length_eq]; exact h
      obtain ⟨g, x, g1, g2, g3, g4, -⟩ := r3 k _ _ (List.getElem?_eq_getElem h) (List.getElem?_eq_getElem hk)
      refine ⟨x, fun _ h' => ?_⟩
      rw [List.getElem?_eq_getElem h'] at g1
      injection g1 with g1
      rw [g1]
      exact ⟨g2, g3, g4⟩
    · exact ⟨0, fun h1 => absurd h1 h⟩
  choose x hx using hx
  have hlen : (rainedOn ns x).length = ns.length := by simp [rainedOn]
  have hlen2 : fs.length = ns.length := hf.carries.length_eq
  have hfn : FloatNodes attr rained (rainedOn ns x) := rained_nodes hf (by simp [a1, a2, a3, a4]) r2 hx
  set ns' := rainedOn ns x
  obtain ⟨final, v, spill, hf1, hf2, hf3⟩ := C74_returns fl hfn
  have hb := C74_bounds hfl hfn hf1 hf2
  have hc := C76_conserved hfl hfn hf1 hf2
  have l1 : final.length = rained.length := hf3.length_eq
  have l2 : final.length = ns'.length := hf2.length_eq
  have hrows : List.Forall₂ (fun g n => (HasNumber g "v" (v n.id) ∧ HasNumber g "spillv" (spill n.id) ∧ HasNumber g "bspot_vol" n.cap) ∧
      g.properties.get? "dstrnodeid" = some (downVal n.down)) final ns' := by
    rw [List.forall₂_iff_get]
    refine ⟨l2, fun i h1 h2 => ?_⟩
    have b1 := (List.forall₂_iff_get.1 hf2).2 i h1 h2
    have b2 := (List.forall₂_iff_get.1 hf3).2 i h1 (by omega)
    have b3 := (List.forall₂_iff_get.1 hfn.carries).2 i (by omega) h2
    obtain ⟨y, y1, y2⟩ := b3.cap
    exact ⟨⟨⟨_, b1.2.1, rfl⟩, ⟨_, b1.2.2, rfl⟩, y, (b2.2.2 _ (by decide) (by decide) (by decide)).trans y1, y2⟩,
      (b2.2.2 _ (by decide) (by decide) (by decide)).trans b3.down⟩
  refine ⟨rained, final, r1, hf1,
    ⟨ns'.map fun n => v n.id, (ns'.filter fun n => n.down = none).map fun n => spill n.id, ?_, ?_, ?_⟩, ?_, ?_⟩
  · rw [List.forall₂_map_right_iff]
    exact hrows.imp fun g n h => h.1.1
  · rw [List.forall₂_map_right_iff]
    refine (forall₂_filter (hrows.imp fun g n h => ⟨h.1, ?_⟩)).imp fun g n h => h.2.1
    simp only [IsRoot, h.2, Option.some.injEq]
    cases n.down <;> simp [downVal]
  · have h1 : Near (1 / 2 ^ 53) (3 * ns'.length) ((ns'.map fun n => v n.id).sum +
        ((ns'.filter fun n => n.down = none).map fun n => spill n.id).sum) (totalWater ns') := hc
    have hvol : List.Forall₂ (fun g x => HasNumber g attr x) rained (ns'.map (·.vol)) := by
      rw [List.forall₂_map_right_iff]
      exact hfn.carries.imp fun g n h => h.vol
    have h2 := C125_total hfl hg hshape hn hr hu hidl hf.distinct (fun l hl => by
      obtain ⟨m, hm, e⟩ := hall l hl
      exact List.mem_map.2 ⟨m, hm, e⟩) r1 hvol
    show Near _ _ _ _
    rw [l2]
    exact Near.trans (by norm_num) h1 h2
  · rw [List.forall₂_iff_get]
    refine ⟨by omega, fun i h1 h2 => ?_⟩
    have b2 := (List.forall₂_iff_get.1 hf3).2 i h2 (by omega)
    obtain ⟨w, -⟩ := hx i h1 (by omega)
    refine ⟨b2.1.trans w.id, b2.2.1.trans w.geometry, fun key hk => ?_⟩
    simp only [List.mem_cons, List.not_mem_nil, or_false, not_or] at hk
    exact (b2.2.2 _ hk.2.2.1 hk.2.1 hk.2.2.2).trans (w.others key hk.1)
  · intro g hg'
    obtain ⟨i, hi, rfl⟩ := List.getElem_of_mem hg'
    have h1 := (List.forall₂_iff_get.1 hrows).2 i hi (by omega)
    have h2 := hb (ns'[i]'(by omega)) (List.getElem_mem _)
    exact ⟨_, _, _, h1.1.1, h1.1.2.1, h1.1.2.2, h2.1, h2.2.1, h2.2.2.1, h2.2.2.2.1⟩

section Command
variable {nextafter : Rat → Rat} {cc : Raster Bool → Raster Int × Nat} {mm : Rat} {dem : Raster (WithTop F64)}

/-- What the raster volume tool and the final state calculator do with the network of a run and a raster of labels. -/
def RainRasterBalances (fl : Rat → Rat) (gt : GeoTransform Rat) (nodes : List (Feature Rat)) (lab : Raster Int) (water : Raster Rat)
    (unit : Rain.Unit) (factor : Rat) (attr : String) : Prop :=
  ∃ rained final, Rain.rasterVolumesFl fl nodes gt lab water unit attr = .ok rained ∧
    Returns (finalStateFl fl rained attr) (.ok final) ∧
    (∃ vs ss, List.Forall₂ (fun f x => HasNumber f "v" x) final vs ∧
      List.Forall₂ (fun f x => HasNumber f "spillv" x) (final.filter fun f => IsRoot f) ss ∧
      Rounded (3 * final.length + (water.rows * water.cols + 4)) (vs.sum + ss.sum)
        (((Raster.cellList water.rows water.cols).map water.get).sum * factor)) ∧
    List.Forall₂ (SameBut [attr, "v", "spillv", "pctv"]) nodes final ∧
    (∀ f ∈ final, ∃ v s cap, HasNumber f "v" v ∧ HasNumber f "spillv" s ∧
      HasNumber f "bspot_vol" cap ∧ 0 ≤ v ∧ v ≤ cap ∧ 0 ≤ s ∧ (0 < s → v = cap))

theorem run_balances (hfl : IsRounding 53 (-1074) fl) (hg : FloatRainRaster gt water)
    (hu : unitFactor (|gt.t1| * |gt.t5|) unit = some factor)
    (hattr : attr ∉ ["nodeid", "dstrnodeid", "wshed_area", "bspot_vol"]) {d : Raster Rat} {f : Bluespots.StatUnits Rat → Bool}
    {fd : Raster Nat} {choose : List Cell → Cell → Prop} {b : Bluespots.Out Rat} (hb : Bluespots.IsResultFl fl gt d f fd choose b)
    (hd : 0 < d.rows ∧ 0 < d.cols) (hshape : water.rows = d.rows ∧ water.cols = d.cols) {nodes : List (Feature Rat)}
    {ns : List (RainNode Rat)} (hns : FloatNodes "wshed_area" nodes ns) (hids : ∀ m ∈ ns, 0 ≤ m.id)
    (hall : ∀ l : Nat, l ≤ b.nlabels → ∃ m ∈ ns, m.id = l) :
    RainRasterBalances fl gt nodes b.watersheds water unit factor attr ∧ RainRasterBalances fl gt nodes b.labeled water unit factor attr := by
  have hsh := hb.shape
  constructor
  · exact C125_balance hfl hg ⟨by rw [hsh.2.2.1, hshape.1], by rw [hsh.2.2.2, hshape.2]⟩
      (by rw [hsh.2.2.1, hsh.2.2.2]; exact hb.wlabels.1) (by rw [hsh.2.2.1, hsh.2.2.2]; exact hb.wlabels.2) hu hns hids hall hattr
  · exact C125_balance hfl hg ⟨by rw [hsh.1, hshape.1], by rw [hsh.2.1, hshape.2]⟩
      (by rw [hsh.1, hsh.2.1]; exact hb.labelling.topLabel hd.1 hd.2) (by rw [hsh.1, hsh.2.1]; exact hb.labelling.range) hu hns hids
      hall hattr

/-- C125 for a whole run on a float32 DEM with the Python functions: a raster of rain of the size of the DEM, in any of the units,
summed up over the watersheds or over the bluespots of the run. -/
theorem C125_run {fl32 : Rat → Rat} (hfl : IsRounding 53 (-1074) fl) (hfl32 : IsRounding 24 (-149) fl32)
    (hnext : IsNextAfter nextafter) (hdem : IsDem32 dem) (hsize : dem.rows * dem.cols ≤ 2 ^ 50) (hcc : LabelContract cc)
    (hsq : SquareCellsFl fl gt) (hg : FloatRain gt mm) (want : Bool) (f : Bluespots.StatUnits Rat → Bool)
    (hw : FloatRainRaster gt water) (hshape : water.rows = dem.rows ∧ water.cols = dem.cols)
    (hu : unitFactor (|gt.t1| * |gt.t5|) unit = some factor)
    (hattr : attr ∉ ["nodeid", "dstrnodeid", "wshed_area", "bspot_vol"]) :
    ∃ out, (Complete.processAllFl fl cc (Dem.python (fsub fl) fun x => fl (x * (1 / Fill.sqrt2))) (Bluespots.pythonFl fl) (fsub fl32)
        (fsafe hfl nextafter) gt dem want (some f) mm).Yields (.ok out) ∧
      RainRasterBalances fl gt out.nodes out.bluespots.watersheds water unit factor attr ∧
      RainRasterBalances fl gt out.nodes out.bluespots.labeled water unit factor attr := by
  have h := float_sound hfl hfl32 hnext hdem hsize (k := 1 / Fill.sqrt2) (by norm_num [Fill.sqrt2])
  obtain ⟨d, hd, _, hdsh, hfsh, hcells, _, ⟨z, _, hdown⟩, hacc, hno⟩ := C62_dem_outputs h want
  obtain ⟨_, _, _, hnf, _, _, _⟩ := Dem.process_inv hd
  obtain ⟨hnsh, hfin, _⟩ := noFlats_finite h hnf
  obtain ⟨out, h1, rfl, -, -, -, ⟨choose, hb⟩, -, -, ⟨ns, n1, n2, n3, -⟩, -⟩ := chain_balance (bluespotEngine := Bluespots.pythonFl fl) hfl hg hsize
    (.inl rfl) rfl hcc hsq ⟨by have := h.rows; omega, by have := h.cols; omega⟩ want f hd hdsh hfsh
    (fun c hc => ⟨(hcells c hc).2.2.1, by rw [(hcells c hc).2.1]; exact (hfl32 _).1⟩) hdown hnsh hfin h.drop_pos h.scale_pos
    (fun hw => by
      obtain ⟨a, h1, h2⟩ := hacc hw
      exact ⟨a, a, h1, h2, rfl, rfl, fun _ _ => rfl⟩) hno
  exact ⟨out, h1, run_balances hfl hw hu hattr hb ⟨by rw [hdsh.1]; have := h.rows; omega, by rw [hdsh.2]; have := h.cols; omega⟩
    ⟨hshape.1.trans hdsh.1.symm, hshape.2.trans hdsh.2.symm⟩ n1 n2 n3⟩

/-- C125 for a whole run with the compiled functions. -/
theorem C125_compiled_run {fl32 : Rat → Rat} (junk : Int × Int) (hfl : IsRounding 53 (-1074) fl) (hfl32 : IsRounding 24 (-149) fl32)
    (hnext : IsNextAfter nextafter) (hdem : IsDem32 dem) (hr3 : dem.rows ≠ 3) (hc3 : dem.cols ≠ 3)
    (hsize : dem.rows * dem.cols ≤ 2 ^ 50) (hcc : LabelContract cc)
    (hsq : SquareCellsFl fl gt) (hg : FloatRain gt mm) (want : Bool) (f : Bluespots.StatUnits Rat → Bool)
    (hw : FloatRainRaster gt water) (hshape : water.rows = dem.rows ∧ water.cols = dem.cols)
    (hu : unitFactor (|gt.t1| * |gt.t5|) unit = some factor)
    (hattr : attr ∉ ["nodeid", "dstrnodeid", "wshed_area", "bspot_vol"]) :
    ∃ out, (Complete.processAllFl fl cc (Dem.compiled junk (fsub fl) fun x => fl (x * FlowCython.invSqrt2))
        (Bluespots.compiledFl fl junk) (fsub fl32) (fsafe hfl nextafter) gt dem want (some f) mm).Yields (.ok out) ∧
      RainRasterBalances fl gt out.nodes out.bluespots.watersheds water unit factor attr ∧
      RainRasterBalances fl gt out.nodes out.bluespots.labeled water unit factor attr := by
  have h := float_sound hfl hfl32 hnext hdem hsize (k := FlowCython.invSqrt2) (by norm_num [FlowCython.invSqrt2])
  obtain ⟨d, hd, _, hdsh, hfsh, _, hcells, _, ⟨z, _, hdown⟩, hacc, hno⟩ := C62_dem_outputs_compiled junk h hr3 hc3 want
  obtain ⟨_, _, _, hnf, _, _, _⟩ := Dem.process_inv hd
  obtain ⟨nf, hnf', hnr, hnc, _, _, _, hnfin, _⟩ := C11_compiled_noflats_valid (fsafe hfl nextafter dem).1 (fsafe hfl nextafter dem).2
    h.mono.1 h.mono.2 (fun x => (h.ge x).1) (fun x => (h.ge x).2) dem ⟨h.rows, hr3⟩ ⟨h.cols, hc3⟩ h.finite
    (fun x hx => (h.keep x hx).1) (fun x hx => (h.keep x hx).2)
  have heq : Except.ok nf = Except.ok (ε := PyErr) d.noFlats := Returns.unique hnf' hnf
  cases heq
  obtain ⟨out, h1, rfl, -, -, -, ⟨choose, hb⟩, -, -, ⟨ns, n1, n2, n3, -⟩, -⟩ := chain_balance (bluespotEngine := Bluespots.compiledFl fl junk)
    hfl hg hsize (.inr ⟨junk, rfl⟩) rfl hcc hsq ⟨by have := h.rows; omega, by have := h.cols; omega⟩ want f hd hdsh hfsh
    (fun c hc => ⟨(hcells c hc).2.2.1, by rw [(hcells c hc).2.1]; exact (hfl32 _).1⟩) hdown ⟨hnr, hnc⟩ hnfin h.drop_pos h.scale_pos
    hacc hno
  exact ⟨out, h1, run_balances hfl hw hu hattr hb ⟨by rw [hdsh.1]; have := h.rows; omega, by rw [hdsh.2]; have := h.cols; omega⟩
    ⟨hshape.1.trans hdsh.1.symm, hshape.2.trans hdsh.2.symm⟩ n1 n2 n3⟩

end Command

/-! ## The hypotheses can be met -/

/-- A bluespot with 2 cubic metres that drains into node 0, as the features of a network. -/
def rainedNodes : List (Feature Rat) :=
  [⟨some 0, .none, [("nodeid", .int 0), ("dstrnodeid", .none), ("wshed_area", .num 8), ("bspot_vol", .num 0)]⟩,
   ⟨some 1, .none, [("nodeid", .int 1), ("dstrnodeid", .int 0), ("wshed_area", .num 8), ("bspot_vol", .num 2)]⟩]

theorem rainWater_ok : FloatRainRaster ⟨0, 2, 0, 0, 0, -2⟩ rainWater := by
  have h300 : (2 : Rat) ^ (-300 : Int) ≤ 2 := (two_le.2 (show (-300 : Int) ≤ 0 by norm_num)).trans (by norm_num)
  refine ⟨by simpa using h300, by simpa using h300, fun c hc => ?_⟩
  have h : ∀ c ∈ Raster.cellList rainWater.rows rainWater.cols, rainWater.get c ∈ [(5 : Rat), 10, 20, 1] := by decide +kernel
  have := h c (Flow.mem_cellList.2 hc)
  have hp : (2 : Rat) ^ (-149 : Int) ≤ 1 := by norm_num
  simp only [List.mem_cons, List.not_mem_nil, or_false] at this
  rcases this with e | e | e | e <;> rw [e]
  · exact ⟨⟨5, 0, by norm_num, by norm_num, by norm_num⟩, .inr (hp.trans (by norm_num))⟩
  · exact ⟨⟨10, 0, by norm_num, by norm_num, by norm_num⟩, .inr (hp.trans (by norm_num))⟩
  · exact ⟨⟨20, 0, by norm_num, by norm_num, by norm_num⟩, .inr (hp.trans (by norm_num))⟩
  · exact ⟨⟨1, 0, by norm_num, by norm_num, by norm_num⟩, .inr hp⟩

theorem rainedNodes_ok : FloatNodes "wshed_area" rainedNodes [⟨0, none, 8, 0⟩, ⟨1, some 0, 8, 2⟩] := by
  refine ⟨.cons ⟨rfl, rfl, ⟨_, _, rfl, rfl⟩, ⟨_, rfl, rfl⟩, ⟨_, rfl, rfl⟩⟩
    (.cons ⟨rfl, rfl, ⟨_, _, rfl, rfl⟩, ⟨_, rfl, rfl⟩, ⟨_, rfl, rfl⟩⟩ .nil), by decide, by decide, ?_, ?_, ?_⟩
  · intro n hn
    have h0 : LeadsToRoot [(⟨0, none, 8, 0⟩ : RainNode Rat), ⟨1, some 0, 8, 2⟩] ⟨0, none, 8, 0⟩ := .root rfl
    simp only [List.mem_cons, List.not_mem_nil, or_false] at hn
    rcases hn with rfl | rfl
    · exact h0
    · exact .step (m := ⟨0, none, 8, 0⟩) (by simp) rfl h0
  · intro n hn
    simp only [List.mem_cons, List.not_mem_nil, or_false] at hn
    rcases hn with rfl | rfl <;> exact ⟨by norm_num, 8, 0, by norm_num, by norm_num, by norm_num⟩
  · intro n hn
    simp only [List.mem_cons, List.not_mem_nil, or_false] at hn
    rcases hn with rfl | rfl
    · exact ⟨by norm_num, isFloat_zero⟩
    · exact ⟨by norm_num, 2, 0, by norm_num, by norm_num, by norm_num⟩

/-- The rasters of the example of C40 with cells of 2 m and millimetres as unit meet the hypotheses of C125 (labels and factor: see
there). -/
example : (∃ fl, IsRounding 53 (-1074) fl) ∧ FloatRainRaster ⟨0, 2, 0, 0, 0, -2⟩ rainWater ∧
    (rainLab.rows = rainWater.rows ∧ rainLab.cols = rainWater.cols) ∧
    FloatNodes "wshed_area" rainedNodes [⟨0, none, 8, 0⟩, ⟨1, some 0, 8, 2⟩] ∧
    "rain" ∉ ["nodeid", "dstrnodeid", "wshed_area", "bspot_vol"] :=
  ⟨exists_rounding 53 (by norm_num) _, rainWater_ok, by decide, rainedNodes_ok, by decide⟩

end Float
end Malstroem
