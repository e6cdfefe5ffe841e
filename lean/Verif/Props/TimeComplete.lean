/-
Property C101 for StreamTool, FinalStateCalculator and the whole `complete` command.
-/
import Verif.Props.Time
import Verif.Props.Ignored
import Verif.Props.NetworkFloat
import Verif.Proofs.Fuel

set_option linter.unusedSectionVars false

namespace Malstroem
open Spec

/-! ### The network -/

/-- Sorted by distinct keys, no list gets longer. -/
theorem sum_filters_le {α κ : Type*} [DecidableEq κ] (key : α → Option κ) (ks : List κ) (hks : ks.Nodup) (l : List α) :
    (ks.map fun k => (l.filter fun n => key n = some k).length).sum ≤ l.length := by
  induction ks generalizing l with
  | nil => simp
  | cons k ks ih =>
    obtain ⟨hk, hks⟩ := List.nodup_cons.1 hks
    have h1 := ih hks (l.filter fun n => ¬ key n = some k)
    have h2 : (ks.map fun k' => ((l.filter fun n => ¬ key n = some k).filter fun n => key n = some k').length) =
        ks.map fun k' => (l.filter fun n => key n = some k').length := by
      refine List.map_congr_left fun k' hk' => ?_
      rw [List.filter_filter]
      congr 1
      refine List.filter_congr fun n _ => ?_
      have : k' ≠ k := fun e => hk (e ▸ hk')
      by_cases hn : key n = some k'
      · simp [hn, this]
      · simp [hn]
    rw [h2] at h1
    have h3 := List.length_eq_length_filter_add (l := l) (fun n => decide (key n = some k))
    simp only [List.map_cons, List.sum_cons]
    simp only [decide_not] at h1
    omega

section
variable {flowdir : Raster Nat} {labeled : Raster Int} {pps : List Cell} {args : List Net.PourPointArg}

/-- The network has at most twice as many nodes as there are pour points. -/
theorem network_size (h : NetInput flowdir labeled pps args) (R : List Net.Node)
    (hR : Returns (Net.geometricPourpointNetwork flowdir labeled args (some 0)) (.ok R)) : R.length ≤ 2 * pps.length := by
  obtain ⟨h1, h2, h3⟩ := C30_nodes h R hR
  set J := R.filter fun n => ¬ n.nodetype = .pourpoint with hJ
  have hJ' : ∀ j ∈ J, 2 ≤ (R.filter fun n => n.downstream_id = some j.id).length := by
    intro j hj
    obtain ⟨hj1, hj2⟩ := List.mem_filter.1 hj
    refine (h3 j hj1 ?_).2.2
    cases ht : j.nodetype with
    | junction => rfl
    | pourpoint => simp [ht] at hj2
  have hsum := sum_filters_le (fun n : Net.Node => n.downstream_id) (J.map (·.id)) (h2.sublist (List.Sublist.map _ List.filter_sublist)) R
  have hle : 2 * J.length ≤ ((J.map (·.id)).map fun k => (R.filter fun n => n.downstream_id = some k).length).sum := by
    rw [List.map_map]
    generalize J = L at hJ'
    induction L with
    | nil => simp
    | cons j L ih =>
      have a := hJ' j (by simp)
      have b := ih fun j hj => hJ' j (by simp [hj])
      simp only [List.map_cons, List.sum_cons, List.length_cons, Function.comp]
      omega
  have hp : (R.filter fun n => n.nodetype = .pourpoint).length = pps.length := by
    have := h1.length_eq
    simpa using this
  have := List.length_eq_length_filter_add (l := R) (fun n => decide (n.nodetype = .pourpoint))
  simp only [hJ, decide_not] at hle hsum this
  omega

/-- C101: no loop of the building of the network runs more than once per cell and once per pour point, and twice more; the
network has at most twice as many nodes as there are pour points. -/
theorem C101_network (h : NetInput flowdir labeled pps args) :
    ∃ R, EndsWithin (fun n => Net.geometricPourpointNetwork flowdir labeled args (some 0) n)
        (flowdir.rows * flowdir.cols + pps.length + 2) (.ok R) ∧ R.length ≤ 2 * pps.length := by
  obtain ⟨nodes, R, M, next', h1, h2⟩ := Net.network_within h.shape.1 h.shape.2 h.codes h.acyclic h.good h.args
  have he : EndsWithin (fun n => Net.geometricPourpointNetwork flowdir labeled args (some 0) n)
      (flowdir.rows * flowdir.cols + pps.length + 2) (.ok R) := fun n hn =>
    Fuel.geometricPourpointNetwork flowdir labeled args (some 0) _ n hn _ h1
  exact ⟨R, he, network_size h R (EndsWithin.returns he)⟩

end

/-! ### The final state -/

section
variable {K : Type} [Field K] [LinearOrder K]

/-- C101: no loop of FinalStateCalculator runs more often than there are nodes. -/
theorem C101_final (fl : K → K) {attr : String} {fs : List (Feature K)} {ns : List (RainNode K)} (hattr : attr ≠ "nodeid")
    (hfs : List.Forall₂ (fun f n => Carries attr f.properties n) fs ns) (hnd : (ns.map (·.id)).Nodup) :
    ∃ out, EndsWithin (Network.finalStateFl fl fs attr) fs.length (.ok out) := by
  obtain ⟨d, hd, hi, hval⟩ := index_of_carries hfs hnd
  obtain ⟨out, v, spill, h1, _⟩ := Network.finalStateFl_within fl hattr hd hi (by rw [hval]; exact hfs)
  exact ⟨out, fun n hn => h1 n (by rw [← hfs.length_eq]; exact hn)⟩

end

/-! ### The command -/

theorem ends_bind {α γ : Type} {x : Run α} {f : α → Run γ} {b : Nat} {a : α} {r : Except PyErr γ}
    (hx : EndsWithin (fun n => x n) b (.ok a)) (hf : EndsWithin (fun n => f a n) b r) :
    EndsWithin (fun n => (x >>= f) n) b r := by
  intro k hk
  have h1 := hx k hk
  have h2 := hf k hk
  simp only [bind, ReaderT.bind, ExceptT.bind, ExceptT.mk, Option.bind] at *
  rw [h1]
  exact h2

theorem ends_except {α γ : Type} (x : Except PyErr α) {f : α → Run γ} {b : Nat}
    (hf : ∀ a, ∃ r, EndsWithin (fun n => f a n) b r) : ∃ r, EndsWithin (fun n => (Run.ofExcept x >>= f) n) b r := by
  cases x with
  | error e => exact ⟨.error e, fun _ _ => rfl⟩
  | ok a =>
    obtain ⟨r, hr⟩ := hf a
    exact ⟨r, ends_bind (a := a) (fun _ _ => rfl) hr⟩

section
variable {K : Type} [Field K] [LinearOrder K] [IsStrictOrderedRing K] {β : Type} [LinearOrder β] [OrderTop β]
  {drop sub : β → β → K} {scale : K → K} {safe : Raster β → (β → β) × (β → β)}
  {gt : GeoTransform K} {dem : Raster β} {cc : Raster Bool → Raster Int × Nat}

/-- There are no more pour points than cells. -/
theorem pourpoints_le {fl : K → K} {depths : Raster K} {f : Bluespots.StatUnits K → Bool} {flowdir : Raster Nat}
    {rule : List Cell → Cell → Prop} {b : Bluespots.Out K} (h : Bluespots.IsResultFl fl gt depths f flowdir rule b)
    (hr : 0 < depths.rows) (hc : 0 < depths.cols) (hedge : ∀ c, OnEdge depths.rows depths.cols c → depths.get c = 0) :
    b.pourpoints.length ≤ depths.rows * depths.cols := by
  have huse : ∀ l : Nat, l ≤ b.nlabels → ∃ c, InGrid depths.rows depths.cols c ∧ b.labeled.get c = l := by
    intro l hl
    rcases Nat.eq_zero_or_pos l with rfl | h0
    · have hin : InGrid depths.rows depths.cols (0, 0) := by unfold InGrid; omega
      refine ⟨(0, 0), hin, ?_⟩
      by_contra hne
      exact ((h.labelling.background _ hin).not.1 hne) |> fun hb => by
        simp only [not_not] at hb
        exact hb.1 (hedge _ ⟨hin, by simp⟩)
    · exact h.labelling.used l h0 hl
  rw [h.length, ← Flow.length_cellList]
  have hsub : ((List.range (b.nlabels + 1)).map Int.ofNat) ⊆
      (Raster.cellList depths.rows depths.cols).map b.labeled.get := by
    intro x hx
    obtain ⟨l, hl, rfl⟩ := List.mem_map.1 hx
    obtain ⟨c, hc, he⟩ := huse l (by have := List.mem_range.1 hl; omega)
    exact List.mem_map.2 ⟨c, Flow.mem_cellList.2 hc, he⟩
  have hnd : ((List.range (b.nlabels + 1)).map Int.ofNat).Nodup :=
    List.nodup_range.map fun _ _ e => Int.ofNat.inj e
  have := (List.subperm_of_subset hnd hsub).length_le
  simpa using this

/-- The two sets of functions, for any arithmetic on the numbers: pure Python, and the compiled ones on DEMs without exactly
three rows or columns. -/
def FunctionsFl (fl : K → K) (drop : β → β → K) (scale : K → K) (dem : Raster β) (demEngine : Dem.Engine β K)
    (bluespotEngine : Bluespots.Engine β K) : Prop :=
  (demEngine = Dem.python drop scale ∧ bluespotEngine = Bluespots.pythonFl fl) ∨
  ∃ junk, demEngine = Dem.compiled junk drop scale ∧ bluespotEngine = Bluespots.compiledFl fl junk ∧ dem.rows ≠ 3 ∧ dem.cols ≠ 3

/-- C101: no loop of the `complete` command runs more than twice as often as the DEM has cells, and twice more; whatever the
arithmetic. -/
theorem C101_complete {fl : K → K} {demEngine : Dem.Engine β K} {bluespotEngine : Bluespots.Engine β K}
    (h : SoundTerrain drop sub scale safe dem) (hfun : FunctionsFl fl drop scale dem demEngine bluespotEngine)
    (hcc : LabelContract cc) (hsq : SquareCellsFl fl gt) (want : Bool) (f : Bluespots.StatUnits K → Bool) (mm : K) :
    ∃ out, EndsWithin (fun n => Complete.processAllFl fl cc demEngine bluespotEngine sub safe gt dem want (some f) mm n)
      (2 * (dem.rows * dem.cols) + 2) (.ok out) := by
  -- DemTool
  obtain ⟨be, hbe, hbf⟩ : ∃ be, Functions drop scale dem demEngine be ∧
      be.fillTerrainNoFlats = bluespotEngine.fillTerrainNoFlats := by
    rcases hfun with ⟨rfl, rfl⟩ | ⟨junk, rfl, rfl, h3⟩
    · exact ⟨_, .inl ⟨rfl, rfl⟩, rfl⟩
    · exact ⟨_, .inr ⟨junk, rfl, rfl, h3⟩, rfl⟩
  have heng : Bluespots.IsEngineFl fl bluespotEngine := by
    rcases hfun with ⟨rfl, rfl⟩ | ⟨junk, rfl, rfl, h3⟩
    · exact .inl rfl
    · exact .inr ⟨junk, rfl⟩
  obtain ⟨d, s, g⟩ := good_dem h hbe want
  have hd : EndsWithin (Dem.process demEngine sub safe true want dem) (dem.rows * dem.cols + 1) (.ok d) := by
    have : ∃ o, EndsWithin (Dem.process demEngine sub safe true want dem) (dem.rows * dem.cols + 1) (.ok o) := by
      rcases hfun with ⟨rfl, rfl⟩ | ⟨junk, rfl, rfl, h3⟩
      · exact C101_dem h want
      · exact C101_dem_compiled junk h h3.1 h3.2 want
    obtain ⟨o, ho⟩ := this
    obtain rfl : o = d := Except.ok.inj (EndsWithin.eq ho g.run)
    exact ho
  obtain ⟨b, nodes, streams, choose, R, hb, -, -, hres, hR, hforest, hnodes, -, hids, -, -, -, γ, iγ, rank, hlow⟩ :=
    chain_network_lowest (fl := fl) heng (by rw [← hbf]; exact g.fill) hcc hsq g.size want f g.run g.depths g.flowdir g.down
      g.noFlats g.finite g.drop g.scale g.acc g.noacc
  -- BluespotTool
  have hfsh := g.flowdir
  obtain ⟨_, _, _, _, hfd, _, _⟩ := Dem.process_inv g.run
  have hedge : ∀ c, OnEdge d.flowdir.rows d.flowdir.cols c → FlowsOut d.flowdir.rows d.flowdir.cols d.flowdir.get c := by
    intro c hc
    rw [hfsh.1, hfsh.2, ← g.noFlats.1, ← g.noFlats.2] at hc ⊢
    rw [hfd]
    exact (Flow.flowdirection_edge demEngine.drop demEngine.scale d.noFlats hc).1
  have hb' : EndsWithin (fun n => Bluespots.processFl fl cc bluespotEngine safe gt d.depths (some f) d.flowdir d.accum (some dem) n)
      (dem.rows * dem.cols + 1) (.ok b) := by
    have hsz : d.flowdir.rows * d.flowdir.cols = dem.rows * dem.cols := by rw [hfsh.1, hfsh.2]
    obtain ⟨junk, hj⟩ : ∃ junk, bluespotEngine = Bluespots.pythonFl fl ∨ bluespotEngine = Bluespots.compiledFl fl junk := by
      rcases heng with e | ⟨junk, e⟩
      · exact ⟨(0, 0), .inl e⟩
      · exact ⟨junk, .inr e⟩
    rw [← hsz]
    refine C101_bluespots fl cc junk bluespotEngine hj safe gt d.depths (some f) d.flowdir d.accum (some dem)
      (by rw [hfsh.1]; exact g.size.1) (by rw [hfsh.2]; exact g.size.2) hedge (fun _ d' e => ?_) _ hb
    obtain rfl : dem = d' := Option.some.inj e
    exact ⟨hsz.ge, h.mono.1, h.mono.2, h.ge⟩
  have hpl : b.pourpoints.length ≤ dem.rows * dem.cols := by
    rw [← g.depths.1, ← g.depths.2]
    refine pourpoints_le hres (by rw [g.depths.1]; exact g.size.1) (by rw [g.depths.2]; exact g.size.2) fun c hc => g.edge c ?_
    rw [g.depths.1, g.depths.2] at hc
    exact hc
  -- StreamTool
  set pps := b.pourpoints.map fun p => (p.cell_row, p.cell_col) with hpps
  have hargs : List.Forall₂ (fun (a : Net.PourPointArg) (x : Cell × Nat) => a = .pix x.1 ∨ a = .feature (x.2 : Int) x.1)
      (pps.map .pix) pps.zipIdx := by
    rw [List.forall₂_map_left_iff, List.forall₂_iff_get]
    exact ⟨by simp, fun i h1 h2 => .inl (by simp)⟩
  have hin : NetInput d.flowdir b.labeled pps (pps.map .pix) := by
    refine netInput_of_lowest ⟨?_, ?_⟩ (fun c hc => ?_) hlow hargs
    · rw [hres.shape.1, g.depths.1, hfsh.1]
    · rw [hres.shape.2.1, g.depths.2, hfsh.2]
    · have hc : InGrid d.flowdir.rows d.flowdir.cols c := hc
      rw [hfsh.1, hfsh.2] at hc
      exact (g.down c hc).1.le
  obtain ⟨R', hR', hsize⟩ := C101_network hin
  have hpixmap : pps.map Net.PourPointArg.pix = b.pourpoints.map fun p => .pix (p.cell_row, p.cell_col) := by
    rw [hpps, List.map_map]; rfl
  obtain rfl : R' = R := by
    rw [← hpixmap] at hR
    exact Except.ok.inj (EndsWithin.eq hR' hR)
  obtain ⟨h1, _, h2⟩ := C30_nodes hin R' (EndsWithin.returns hR')
  have hpp : ∀ n ∈ R', n.nodetype = .pourpoint → ∃ i : Nat, i < pps.length ∧ n.id = i := by
    intro n hn ht
    have : (n.id, n.pix) ∈ pps.zipIdx.map fun x => ((x.2 : Int), x.1) :=
      h1.mem_iff.1 (List.mem_map.2 ⟨n, List.mem_filter.2 ⟨hn, by simpa using ht⟩, rfl⟩)
    obtain ⟨x, hx, he⟩ := List.mem_map.1 this
    exact ⟨x.2, (List.getElem?_eq_some_iff.1 (List.mem_zipIdx_iff_getElem?.1 hx)).1, ((Prod.ext_iff.1 he).1).symm⟩
  obtain ⟨fs, hs1, hs2⟩ := Streams.process_within (gt := gt) (pourpoints_are hres.chosen) true (ns := R')
    (N := d.flowdir.rows * d.flowdir.cols + pps.length + 2) hR' hpp (fun n hn ht => (h2 n hn ht).2.1)
  -- the volumes and the final state
  obtain ⟨vols, hv, _, hcarry⟩ := volumes_on_forest (fl := fl) hs2 (points_areas b).1 (points_areas b).2 mm
  obtain ⟨final, hfinal⟩ := C101_final fl (attr := "inputv") (by decide) (hcarry.imp fun _ _ h => h.1) (by
    rw [List.map_map]; exact hids)
  have hvl : vols.length ≤ 2 * (dem.rows * dem.cols) := by
    have e1 := hcarry.length_eq
    simp only [List.length_map] at e1
    simp only [hpps, List.length_map] at hsize
    omega
  have hsl : d.flowdir.rows * d.flowdir.cols + pps.length + 2 ≤ 2 * (dem.rows * dem.cols) + 2 := by
    simp only [hpps, List.length_map]
    rw [hfsh.1, hfsh.2]
    omega
  refine ⟨⟨d, b, fs, R'.filterMap (Streams.streamFeature gt), vols, final⟩, ?_⟩
  have hsquare : Complete.squareCellsFl fl gt = true := by
    unfold Complete.squareCellsFl; exact decide_eq_true hsq
  unfold Complete.processAllFl
  rw [hsquare]
  refine ends_bind (EndsWithin.le hd (by omega)) ?_
  refine ends_bind (EndsWithin.le hb' (by omega)) ?_
  refine ends_bind (a := (fs, R'.filterMap (Streams.streamFeature gt)))
    (EndsWithin.le (b' := 2 * (dem.rows * dem.cols) + 2) hs1 hsl) ?_
  refine ends_bind (a := vols) (fun n _ => congrArg some hv) ?_
  refine ends_bind (EndsWithin.le hfinal (by omega)) ?_
  exact fun n _ => rfl

/-- C101: nor does any with the hypsometry, the final levels and the rasters of the final state, whether or not these fail. -/
theorem C101_complete_levels [FloorRing K] (elev : β → K) {demEngine : Dem.Engine β K} {bluespotEngine : Bluespots.Engine β K}
    (h : SoundTerrain drop sub scale safe dem) (hfun : Functions drop scale dem demEngine bluespotEngine)
    (hcc : LabelContract cc) (hsq : SquareCells gt) (want : Bool) (f : Bluespots.StatUnits K → Bool) (mm zresolution : K) :
    ∃ r, EndsWithin (fun n => Complete.processWithLevels elev cc demEngine bluespotEngine sub safe gt dem want (some f) mm
      zresolution n) (2 * (dem.rows * dem.cols) + 2) r := by
  obtain ⟨out, hout⟩ := C101_complete (fl := id) (gt := gt) h hfun hcc hsq want f mm
  unfold Complete.processWithLevels
  obtain ⟨r, hr⟩ : ∃ r, EndsWithin (fun n => (do
      let z : Raster K := ⟨dem.rows, dem.cols, fun c => elev (dem.get c)⟩
      let hyps ← Run.ofExcept (Hyps.hypsometryIo out.bluespots.labeled gt z gt
        (out.bluespots.pourpoints.map (·.feature)) zresolution)
      let levels ← Run.ofExcept (Approx.waterLevelIo out.final hyps)
      let flooded ← Run.ofExcept (Approx.approxBluespotsIo out.bluespots.labeled levels z true true 0)
      pure (out, { hyps := hyps, levels := levels, depths := flooded.1, extent := flooded.2 }) :
        Run (Complete.Out β K × Complete.LevelsOut K)) n) (2 * (dem.rows * dem.cols) + 2) r :=
    ends_except _ fun _ => ends_except _ fun _ => ends_except _ fun _ => ⟨_, fun _ _ => rfl⟩
  exact ⟨r, ends_bind hout hr⟩

end

/-! ### Examples -/

/-- Non-vacuity for C101: `complete` on the snake, with either set of functions and exact arithmetic; at most 100 runs. -/
example (f : Bluespots.StatUnits Rat → Bool) : ∃ cc, LabelContract cc ∧
    (∃ out, EndsWithin (fun n => Complete.processAll cc (Dem.python exactSub (· * (7 / 10 : ℚ))) Bluespots.python exactSub
      (exactSafe (1 / 10) (1 / 7)) ⟨0, 2, 0, 0, 0, -2⟩ (finiteDem demoSnake) true (some f) 20 n) 100 (.ok out)) ∧
    ∃ out, EndsWithin (fun n => Complete.processAll cc (Dem.compiled (0, 0) exactSub (· * (7 / 10 : ℚ)))
      (Bluespots.compiled (0, 0)) exactSub
      (exactSafe (1 / 10) (1 / 7)) ⟨0, 2, 0, 0, 0, -2⟩ (finiteDem demoSnake) false (some f) 20 n) 100 (.ok out) := by
  obtain ⟨cc, hcc⟩ := exists_labelContract
  have hs : SquareCellsFl (K := Rat) id ⟨0, 2, 0, 0, 0, -2⟩ := by unfold SquareCellsFl; norm_num
  have ht := exact_sound demoSnake (by decide) (by decide) (k := (7 / 10 : ℚ)) (short := 1 / 10) (diag := 1 / 7) (by norm_num) (by norm_num) (by norm_num)
  exact ⟨cc, hcc, C101_complete ht (.inl ⟨rfl, rfl⟩) hcc hs true f 20,
    C101_complete ht (.inr ⟨_, rfl, rfl, by decide, by decide⟩) hcc hs false f 20⟩

end Malstroem
