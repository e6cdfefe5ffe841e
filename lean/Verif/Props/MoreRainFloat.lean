/-
Property C126: more rain never means less water anywhere, in floating point arithmetic too.
-/
import Verif.Props.RainFloat

set_option linter.unusedSectionVars false

namespace Malstroem
open Spec

namespace Spec

/-- Feature `g` is the same node as `f` and shows at least as much water, held and spilled, and at least the same percentage, if
there is one. -/
def AtLeastAsWet (f g : Feature Rat) : Prop :=
  g.id = f.id ∧ g.geometry = f.geometry ∧ g.properties.get? "nodeid" = f.properties.get? "nodeid" ∧
    (∃ v s v' s', HasNumber f "v" v ∧ HasNumber f "spillv" s ∧ HasNumber g "v" v' ∧ HasNumber g "spillv" s' ∧ v ≤ v' ∧ s ≤ s') ∧
    ((f.properties.get? "pctv" = some .none ∧ g.properties.get? "pctv" = some .none) ∨
      ∃ p p', HasNumber f "pctv" p ∧ HasNumber g "pctv" p' ∧ p ≤ p')

end Spec

namespace Float
open Malstroem.Network
variable {fl : Rat → Rat} {gt : GeoTransform Rat} {lab : Raster Int} {water water' : Raster Rat} {unit : Rain.Unit} {factor : Rat}
  {attr : String} {n : Nat} {fs : List (Feature Rat)}

/-- More water on the nodes of a network. -/
theorem wetter_final (hfl : IsRounding 53 (-1074) fl) {ns : List (RainNode Rat)} (hf : FloatNodes "wshed_area" fs ns)
    (hattr : attr ∉ ["nodeid", "dstrnodeid", "wshed_area", "bspot_vol"]) {rained rained' : List (Feature Rat)}
    (r : rained.length = fs.length) (r' : rained'.length = fs.length) {x x' : Nat → Rat}
    (hx : ∀ (k : Nat) (h : k < fs.length) (h' : k < rained.length), WithNumber attr (x k) fs[k] rained[k] ∧ 0 ≤ x k ∧ IsF64 (x k))
    (hx' : ∀ (k : Nat) (h : k < fs.length) (h' : k < rained'.length), WithNumber attr (x' k) fs[k] rained'[k] ∧ 0 ≤ x' k ∧ IsF64 (x' k))
    (hle : ∀ k, k < fs.length → x k ≤ x' k) :
    ∃ final final', Returns (finalStateFl fl rained attr) (.ok final) ∧ Returns (finalStateFl fl rained' attr) (.ok final') ∧
      List.Forall₂ AtLeastAsWet final final' := by
  have h := rained_nodes hf hattr r hx
  have h' := rained_nodes hf hattr r' hx'
  obtain ⟨final, v, spill, f1, f2, -, fp, f3⟩ := final_run fl h
  obtain ⟨final', v', spill', f1', f2', -, fp', f3'⟩ := final_run fl h'
  refine ⟨final, final', f1, f1', ?_⟩
  have l0 : fs.length = ns.length := hf.carries.length_eq
  have l1 : (rainedOn ns x).length = ns.length := by simp [rainedOn]
  have l2 : (rainedOn ns x').length = ns.length := by simp [rainedOn]
  have l3 : final.length = rained.length := f3.length_eq
  have l4 : final'.length = rained'.length := f3'.length_eq
  have hm := C74_monotone hfl h h' (by
    rw [List.forall₂_iff_get]
    refine ⟨by omega, fun i h1 h2 => ?_⟩
    simp only [List.get_eq_getElem]
    rw [rainedOn_get ns x i h1 (by omega), rainedOn_get ns x' i h2 (by omega)]
    exact ⟨rfl, rfl, hle i (by omega), le_refl _⟩) f1 f1' f2 f2'
  rw [List.forall₂_iff_get]
  refine ⟨by omega, fun i h1 h2 => ?_⟩
  have hi : i < (rainedOn ns x).length := by omega
  have hi' : i < (rainedOn ns x').length := by omega
  have pc := (List.forall₂_iff_get.1 fp).2 i h1 hi
  have pc' := (List.forall₂_iff_get.1 fp').2 i h2 hi'
  have s := (List.forall₂_iff_get.1 f2).2 i h1 hi
  have s' := (List.forall₂_iff_get.1 f2').2 i h2 hi'
  have k := (List.forall₂_iff_get.1 f3).2 i h1 (by omega)
  have k' := (List.forall₂_iff_get.1 f3').2 i h2 (by omega)
  have w := (hx i (by omega) (by omega)).1
  have w' := (hx' i (by omega) (by omega)).1
  obtain ⟨m1, m2⟩ := hm _ (List.getElem_mem hi)
  have m3 := m2 _ (List.getElem_mem hi')
  simp only [List.get_eq_getElem] at s s' k k' w w' pc pc' ⊢
  rw [rainedOn_get ns x i hi (by omega)] at m1 m3 s pc
  rw [rainedOn_get ns x' i hi' (by omega)] at m3 s' pc'
  have hpct : (final[i].properties.get? "pctv" = some .none ∧ final'[i].properties.get? "pctv" = some .none) ∨
      ∃ p p', HasNumber final[i] "pctv" p ∧ HasNumber final'[i] "pctv" p' ∧ p ≤ p' := by
    rw [pc, pc']
    unfold percentFl
    by_cases hc : ns[i].cap = 0
    · left; simp [hc]
    · right
      have hc0 := (hf.capacities ns[i] (List.getElem_mem _)).1
      unfold percentFl at pc pc'
      rw [if_neg hc] at pc pc'
      exact ⟨_, _, ⟨_, pc, rfl⟩, ⟨_, pc', rfl⟩, fl_mono hfl (div_le_div_of_nonneg_right
        (fl_mono hfl (mul_le_mul_of_nonneg_left (m3 rfl rfl) (by norm_num))) hc0)⟩
  exact ⟨k'.1.trans (w'.id.trans (w.id.symm.trans k.1.symm)), k'.2.1.trans (w'.geometry.trans (w.geometry.symm.trans k.2.1.symm)),
    s'.1.trans s.1.symm, ⟨_, _, _, _, ⟨_, s.2.1, rfl⟩, ⟨_, s.2.2, rfl⟩, ⟨_, s'.2.1, rfl⟩, ⟨_, s'.2.2, rfl⟩, m3 rfl rfl, m1⟩, hpct⟩

/-- The volume of even rain on the nodes of a network. -/
theorem evenVolumes_ok {mm : Rat} {ns : List (RainNode Rat)} (hf : FloatNodes "wshed_area" fs ns) :
    ∃ rained, Rain.simpleVolumesFl fl fs attr mm = .ok rained ∧ rained.length = fs.length ∧
      ∀ (k : Nat) (h : k < fs.length) (h' : k < rained.length) (hn : k < ns.length),
        WithNumber attr (fl (fl (ns[k].vol * mm) * fl (1 / 1000))) fs[k] rained[k] := by
  have hc := hf.carries
  clear hf
  unfold Rain.simpleVolumesFl
  induction hc with
  | nil => exact ⟨[], rfl, rfl, fun k h => absurd h (by simp)⟩
  | @cons f n fs ns hfn _ ih =>
    obtain ⟨rained, h1, h2, h3⟩ := ih
    obtain ⟨g, g1, g2⟩ := simpleVolumeFl_ok (fl := fl) (attr := attr) (mm := mm) (f := f) hfn.vol
    refine ⟨g :: rained, by rw [List.mapM_cons, g1, h1]; rfl, by simp [h2], ?_⟩
    rintro (_ | k) h h' hn
    · exact g2
    · simp only [List.getElem_cons_succ]
      exact h3 k (by simpa using h) (by simpa using h') (by simpa using hn)

/-- C126 on a network: with more even rain every node holds and spills at least as much, in floating point arithmetic. -/
theorem C126_even (hfl : IsRounding 53 (-1074) fl) {ns : List (RainNode Rat)} (hf : FloatNodes "wshed_area" fs ns)
    (hattr : attr ∉ ["nodeid", "dstrnodeid", "wshed_area", "bspot_vol"]) {mm mm' : Rat} (h0 : 0 ≤ mm) (hle : mm ≤ mm') :
    ∃ rained rained' final final', Rain.simpleVolumesFl fl fs attr mm = .ok rained ∧ Rain.simpleVolumesFl fl fs attr mm' = .ok rained' ∧
      Returns (finalStateFl fl rained attr) (.ok final) ∧ Returns (finalStateFl fl rained' attr) (.ok final') ∧
      List.Forall₂ AtLeastAsWet final final' := by
  obtain ⟨rained, h1, h2, h3⟩ := evenVolumes_ok (fl := fl) (attr := attr) (mm := mm) hf
  obtain ⟨rained', h1', h2', h3'⟩ := evenVolumes_ok (fl := fl) (attr := attr) (mm := mm') hf
  have l0 : fs.length = ns.length := hf.carries.length_eq
  have ht := (thousandth hfl).2
  have ht0 : 0 ≤ fl (1 / 1000) := (two_pos _).le.trans ht
  obtain ⟨vol, hvol⟩ : ∃ vol : Nat → Rat, ∀ (k : Nat) (h : k < ns.length), vol k = ns[k].vol :=
    ⟨fun k => if h : k < ns.length then ns[k].vol else 0, fun k h => dif_pos h⟩
  have hv : ∀ k, k < ns.length → 0 ≤ vol k := fun k h => by rw [hvol k h]; exact (hf.volumes _ (List.getElem_mem h)).1
  have hpos : ∀ (y : Rat), 0 ≤ y → ∀ k, k < ns.length → 0 ≤ fl (fl (vol k * y) * fl (1 / 1000)) := fun y hy k hk =>
    fl_nonneg hfl (mul_nonneg (fl_nonneg hfl (mul_nonneg (hv k hk) hy)) ht0)
  obtain ⟨final, final', f1, f2, f3⟩ := wetter_final (attr := attr) hfl hf hattr h2 h2' (x := fun k => fl (fl (vol k * mm) * fl (1 / 1000)))
    (x' := fun k => fl (fl (vol k * mm') * fl (1 / 1000)))
    (fun k h h' => ⟨by rw [hvol k (by omega)]; exact h3 k h h' (by omega), hpos mm h0 k (by omega), (hfl _).1⟩)
    (fun k h h' => ⟨by rw [hvol k (by omega)]; exact h3' k h h' (by omega), hpos mm' (h0.trans hle) k (by omega), (hfl _).1⟩)
    (fun k h => fl_mono hfl (mul_le_mul_of_nonneg_right (fl_mono hfl (mul_le_mul_of_nonneg_left hle (hv k (by omega)))) ht0))
  exact ⟨rained, rained', final, final', h1, h1', f1, f2, f3⟩

/-- C126 on a network with rain given as a raster: if no cell gets less rain, every node holds and spills at least as much. -/
theorem C126_raster (hfl : IsRounding 53 (-1074) fl) (hg : FloatRainRaster gt water) (hg' : FloatRainRaster gt water')
    (hshape : lab.rows = water.rows ∧ lab.cols = water.cols) (hshape' : lab.rows = water'.rows ∧ lab.cols = water'.cols)
    (hmore : ∀ c, water.Has c → water.get c ≤ water'.get c)
    (hn : TopLabel lab.rows lab.cols lab.get none n) (hr : LabelsIn lab.rows lab.cols lab.get n)
    (hu : unitFactor (|gt.t1| * |gt.t5|) unit = some factor) {ns : List (RainNode Rat)} (hf : FloatNodes "wshed_area" fs ns)
    (hids : ∀ m ∈ ns, 0 ≤ m.id) (hattr : attr ∉ ["nodeid", "dstrnodeid", "wshed_area", "bspot_vol"]) :
    ∃ rained rained' final final', Rain.rasterVolumesFl fl fs gt lab water unit attr = .ok rained ∧
      Rain.rasterVolumesFl fl fs gt lab water' unit attr = .ok rained' ∧
      Returns (finalStateFl fl rained attr) (.ok final) ∧ Returns (finalStateFl fl rained' attr) (.ok final') ∧
      List.Forall₂ AtLeastAsWet final final' := by
  obtain ⟨fac, c1, -, -, c2⟩ := factor_spec hfl hg.width hg.height hu
  have l0 : fs.length = ns.length := hf.carries.length_eq
  have hidl : List.Forall₂ (fun f (i : Int) => f.properties.get? "nodeid" = some (.int i) ∧ 0 ≤ i) fs (ns.map (·.id)) := by
    rw [List.forall₂_map_right_iff, List.forall₂_iff_get]
    refine ⟨hf.carries.length_eq, fun i h1 h2 => ?_⟩
    exact ⟨((List.forall₂_iff_get.1 hf.carries).2 i h1 h2).id, hids _ (List.getElem_mem h2)⟩
  -- the volumes of the labels, exactly as they are computed
  have key : ∀ w : Raster Rat, lab.rows = w.rows ∧ lab.cols = w.cols → ∃ vols : List Rat, vols.length = n + 1 ∧
      (∀ (l : Nat), l ≤ n → vols[l]? = some (fl (sumFl fl ((lab.cells.filter fun c => lab.get c = (l : Int)).map w.get) * fac))) ∧
      Rain.rasterVolumesFl fl fs gt lab w unit attr = fs.mapM (Rain.rasterVolume attr vols) := by
    intro w hw
    obtain ⟨stats, h1, h2, h3⟩ := Label.labelStats_ok fl w ⟨hw.1.symm, hw.2.symm⟩ hn hr
    refine ⟨stats.map fun s => fl (s.sum * fac), by simp [h2], fun l hl => ?_, ?_⟩
    · have hs := h3 l _ hl (lists_filter lab.rows lab.cols fun c => lab.get c = (l : Int))
      obtain ⟨-, hsum, -⟩ := Label.fold_statFl fl w ((Raster.cellList lab.rows lab.cols).filter fun c => lab.get c = (l : Int))
      rw [List.getElem?_map, hs, Option.map_some, hsum]
      rfl
    · unfold Rain.rasterVolumesFl
      simp only [hw.1, hw.2, h1, c1, and_self, not_true_eq_false, if_false]
      rfl
  obtain ⟨vols, v1, v2, v3⟩ := key water hshape
  obtain ⟨vols', v1', v2', v3'⟩ := key water' hshape'
  obtain ⟨rained, r1, r2, r3⟩ := C125_raster_volumes (attr := attr) hfl hg hshape hn hr hu hidl
  obtain ⟨rained', r1', r2', r3'⟩ := C125_raster_volumes (attr := attr) hfl hg' hshape' hn hr hu hidl
  obtain ⟨o, o1, o2, o3⟩ := nodes_get (attr := attr) (vols := vols) hidl
  obtain ⟨o', o1', o2', o3'⟩ := nodes_get (attr := attr) (vols := vols') hidl
  rw [v3, o1] at r1
  rw [v3', o1'] at r1'
  cases r1
  cases r1'
  have number_unique : ∀ {f g : Feature Rat} {a b : Rat}, WithNumber attr a f g → WithNumber attr b f g → a = b := by
    intro f g a b ha hb
    obtain ⟨y, y1, y2⟩ := ha.value
    obtain ⟨z, z1, z2⟩ := hb.value
    rw [y1] at z1
    injection z1 with z1
    subst z1
    rw [y2] at z2
    injection z2
  have hx : ∀ {vols : List Rat} {o : List (Feature Rat)},
      (∀ (k : Nat) f (id : Int), fs[k]? = some f → (ns.map (·.id))[k]? = some id → ∃ g, o[k]? = some g ∧
        WithNumber attr (vols.getD id.toNat 0) f g) →
      (∀ (k : Nat) f (id : Int), fs[k]? = some f → (ns.map (·.id))[k]? = some id → ∃ g x, o[k]? = some g ∧ WithNumber attr x f g ∧
        0 ≤ x ∧ IsF64 x) → ∀ (k : Nat) (h : k < fs.length) (h' : k < o.length),
      WithNumber attr (vols.getD ((ns.map RainNode.id).getD k 0).toNat 0) fs[k] o[k] ∧
        0 ≤ vols.getD ((ns.map RainNode.id).getD k 0).toNat 0 ∧ IsF64 (vols.getD ((ns.map RainNode.id).getD k 0).toNat 0) := by
    intro vols o a b k h h'
    have hk : k < (ns.map (·.id)).length := by simp; omega
    have e : (ns.map RainNode.id).getD k 0 = (ns.map (·.id))[k] := by rw [List.getD_eq_getElem?_getD, List.getElem?_eq_getElem hk]; rfl
    obtain ⟨g, g1, g2⟩ := a k _ _ (List.getElem?_eq_getElem h) (List.getElem?_eq_getElem hk)
    obtain ⟨g', x, g1', g2', g3', g4'⟩ := b k _ _ (List.getElem?_eq_getElem h) (List.getElem?_eq_getElem hk)
    rw [g1] at g1'
    cases g1'
    rw [List.getElem?_eq_getElem h'] at g1
    injection g1 with g1
    rw [e, g1]
    have := number_unique g2' g2
    subst this
    exact ⟨g2, g3', g4'⟩
  obtain ⟨final, final', f1, f2, f3⟩ := wetter_final (attr := attr) hfl hf hattr o2 o2'
    (hx o3 fun k f id a b => by
      obtain ⟨g, x, h1, h2, h3, h4, -⟩ := r3 k f id a b
      exact ⟨g, x, h1, h2, h3, h4⟩)
    (hx o3' fun k f id a b => by
      obtain ⟨g, x, h1, h2, h3, h4, -⟩ := r3' k f id a b
      exact ⟨g, x, h1, h2, h3, h4⟩)
    (fun k hk => by
      generalize ((ns.map RainNode.id).getD k 0).toNat = l
      rw [List.getD_eq_getElem?_getD, List.getD_eq_getElem?_getD]
      by_cases hl : l ≤ n
      · rw [v2 l hl, v2' l hl]
        refine fl_mono hfl (mul_le_mul_of_nonneg_right (sumFl_mono hfl ?_) ((two_pos _).le.trans c2))
        rw [List.forall₂_map_left_iff, List.forall₂_map_right_iff, List.forall₂_same]
        intro c hc
        have := Flow.mem_cellList.1 (List.mem_filter.1 hc).1
        rw [hshape.1, hshape.2] at this
        exact hmore c this
      · rw [List.getElem?_eq_none (by omega), List.getElem?_eq_none (by omega)])
  exact ⟨_, _, final, final', v3.trans o1, v3'.trans o1', f1, f2, f3⟩

section Command
variable {nextafter : Rat → Rat} {cc : Raster Bool → Raster Int × Nat} {mm mm' : Rat} {dem : Raster (WithTop F64)}

/-- C126 for whole runs on a float32 DEM with the Python functions: with more rain everything up to the network is the same, and every
node holds and spills at least as much. -/
theorem C126_run {fl32 : Rat → Rat} (hfl : IsRounding 53 (-1074) fl) (hfl32 : IsRounding 24 (-149) fl32)
    (hnext : IsNextAfter nextafter) (hdem : IsDem32 dem) (hsize : dem.rows * dem.cols ≤ 2 ^ 50) (hcc : LabelContract cc)
    (hsq : SquareCellsFl fl gt) (hg : FloatRain gt mm) (hmore : mm ≤ mm') (want : Bool) (f : Bluespots.StatUnits Rat → Bool) :
    ∃ out out', (Complete.processAllFl fl cc (Dem.python (fsub fl) fun x => fl (x * (1 / Fill.sqrt2))) (Bluespots.pythonFl fl)
        (fsub fl32) (fsafe hfl nextafter) gt dem want (some f) mm).Yields (.ok out) ∧
      (Complete.processAllFl fl cc (Dem.python (fsub fl) fun x => fl (x * (1 / Fill.sqrt2))) (Bluespots.pythonFl fl)
        (fsub fl32) (fsafe hfl nextafter) gt dem want (some f) mm').Yields (.ok out') ∧
      out'.dem = out.dem ∧ out'.bluespots = out.bluespots ∧ out'.nodes = out.nodes ∧ out'.streams = out.streams ∧
      List.Forall₂ AtLeastAsWet out.final out'.final := by
  have h := float_sound hfl hfl32 hnext hdem hsize (k := 1 / Fill.sqrt2) (by norm_num [Fill.sqrt2])
  obtain ⟨d, hd, _, hdsh, hfsh, hcells, _, ⟨z, _, hdown⟩, hacc, hno⟩ := C62_dem_outputs h want
  obtain ⟨_, _, _, hnf, _, _, _⟩ := Dem.process_inv hd
  obtain ⟨hnsh, hfin, _⟩ := noFlats_finite h hnf
  obtain ⟨out, h1, rfl, -, -, -, -, -, -, ⟨ns, n1, -⟩, -, -, hrun⟩ := chain_balance (bluespotEngine := Bluespots.pythonFl fl) hfl hg hsize
    (.inl rfl) rfl hcc hsq ⟨by have := h.rows; omega, by have := h.cols; omega⟩ want f hd hdsh hfsh
    (fun c hc => ⟨(hcells c hc).2.2.1, by rw [(hcells c hc).2.1]; exact (hfl32 _).1⟩) hdown hnsh hfin h.drop_pos h.scale_pos
    (fun hw => by
      obtain ⟨a, h1, h2⟩ := hacc hw
      exact ⟨a, a, h1, h2, rfl, rfl, fun _ _ => rfl⟩) hno
  obtain ⟨rained, rained', final, final', e1, e2, e3, e4, e5⟩ := C126_even (attr := "inputv") hfl n1 (by decide) (mm := mm) (mm' := mm')
    (by rcases hg.rain.2 with e | e
        · exact e.ge
        · exact (two_pos _).le.trans e) hmore
  exact ⟨_, _, hrun mm rained final e1 e3, hrun mm' rained' final' e2 e4, rfl, rfl, rfl, rfl, e5⟩

/-- C126 for whole runs with the compiled functions. -/
theorem C126_compiled_run {fl32 : Rat → Rat} (junk : Int × Int) (hfl : IsRounding 53 (-1074) fl) (hfl32 : IsRounding 24 (-149) fl32)
    (hnext : IsNextAfter nextafter) (hdem : IsDem32 dem) (hr3 : dem.rows ≠ 3) (hc3 : dem.cols ≠ 3)
    (hsize : dem.rows * dem.cols ≤ 2 ^ 50) (hcc : LabelContract cc)
    (hsq : SquareCellsFl fl gt) (hg : FloatRain gt mm) (hmore : mm ≤ mm') (want : Bool) (f : Bluespots.StatUnits Rat → Bool) :
    ∃ out out', (Complete.processAllFl fl cc (Dem.compiled junk (fsub fl) fun x => fl (x * FlowCython.invSqrt2))
        (Bluespots.compiledFl fl junk) (fsub fl32) (fsafe hfl nextafter) gt dem want (some f) mm).Yields (.ok out) ∧
      (Complete.processAllFl fl cc (Dem.compiled junk (fsub fl) fun x => fl (x * FlowCython.invSqrt2))
        (Bluespots.compiledFl fl junk) (fsub fl32) (fsafe hfl nextafter) gt dem want (some f) mm').Yields (.ok out') ∧
      out'.dem = out.dem ∧ out'.bluespots = out.bluespots ∧ out'.nodes = out.nodes ∧ out'.streams = out.streams ∧
      List.Forall₂ AtLeastAsWet out.final out'.final := by
  have h := float_sound hfl hfl32 hnext hdem hsize (k := FlowCython.invSqrt2) (by norm_num [FlowCython.invSqrt2])
  obtain ⟨d, hd, _, hdsh, hfsh, _, hcells, _, ⟨z, _, hdown⟩, hacc, hno⟩ := C62_dem_outputs_compiled junk h hr3 hc3 want
  obtain ⟨_, _, _, hnf, _, _, _⟩ := Dem.process_inv hd
  obtain ⟨nf, hnf', hnr, hnc, _, _, _, hnfin, _⟩ := C11_compiled_noflats_valid (fsafe hfl nextafter dem).1 (fsafe hfl nextafter dem).2
    h.mono.1 h.mono.2 (fun x => (h.ge x).1) (fun x => (h.ge x).2) dem ⟨h.rows, hr3⟩ ⟨h.cols, hc3⟩ h.finite
    (fun x hx => (h.keep x hx).1) (fun x hx => (h.keep x hx).2)
  have heq : Except.ok nf = Except.ok (ε := PyErr) d.noFlats := Returns.unique hnf' hnf
  cases heq
  obtain ⟨out, h1, rfl, -, -, -, -, -, -, ⟨ns, n1, -⟩, -, -, hrun⟩ := chain_balance (bluespotEngine := Bluespots.compiledFl fl junk)
    hfl hg hsize (.inr ⟨junk, rfl⟩) rfl hcc hsq ⟨by have := h.rows; omega, by have := h.cols; omega⟩ want f hd hdsh hfsh
    (fun c hc => ⟨(hcells c hc).2.2.1, by rw [(hcells c hc).2.1]; exact (hfl32 _).1⟩) hdown ⟨hnr, hnc⟩ hnfin h.drop_pos h.scale_pos
    hacc hno
  obtain ⟨rained, rained', final, final', e1, e2, e3, e4, e5⟩ := C126_even (attr := "inputv") hfl n1 (by decide) (mm := mm) (mm' := mm')
    (by rcases hg.rain.2 with e | e
        · exact e.ge
        · exact (two_pos _).le.trans e) hmore
  exact ⟨_, _, hrun mm rained final e1 e3, hrun mm' rained' final' e2 e4, rfl, rfl, rfl, rfl, e5⟩

end Command

/-- The hypotheses of C126 can be met: the nodes of the example of C125 are a network, and a raster with more rain. -/
example : FloatNodes "wshed_area" rainedNodes [⟨0, none, 8, 0⟩, ⟨1, some 0, 8, 2⟩] ∧
    "rain" ∉ ["nodeid", "dstrnodeid", "wshed_area", "bspot_vol"] ∧ FloatRainRaster ⟨0, 2, 0, 0, 0, -2⟩ rainWater ∧
    (∀ c, rainWater.Has c → rainWater.get c ≤ ({ rainWater with get := fun c => rainWater.get c + rainWater.get c } : Raster Rat).get c) ∧ FloatRain ⟨0, 2, 0, 0, 0, -2⟩ 10 := by
  have h300 : ∀ x : Rat, 1 ≤ x → (2 : Rat) ^ (-300 : Int) ≤ x := fun x hx =>
    (two_le.2 (show (-300 : Int) ≤ 0 by norm_num)).trans (by simpa using hx)
  refine ⟨rainedNodes_ok, by decide, rainWater_ok, fun c hc => ?_, ⟨⟨2, 0, by norm_num, by norm_num, by norm_num⟩, h300 _ (by norm_num)⟩,
    ⟨⟨-2, 0, by norm_num, by norm_num, by norm_num⟩, h300 _ (by norm_num)⟩, ⟨10, 0, by norm_num, by norm_num, by norm_num⟩,
    .inr (h300 _ (by norm_num))⟩
  have h : 0 ≤ rainWater.get c := by
    rcases (rainWater_ok.rain c hc).2 with e | e
    · exact e.ge
    · exact (two_pos _).le.trans e
  show rainWater.get c ≤ rainWater.get c + rainWater.get c
  linarith

end Float
end Malstroem
