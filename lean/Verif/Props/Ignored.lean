/-
Property C112: bluespots that do not pass the filter. All arithmetic is exact.
-/
import Verif.Props.Direct
import Verif.Props.Filters

set_option linter.unusedSectionVars false

namespace Malstroem
open Spec Network

section
variable {K : Type} [Field K] [LinearOrder K] [IsStrictOrderedRing K] {β : Type} [LinearOrder β] [OrderTop β]
variable {drop : β → β → K} {sub : β → β → K} {scale : K → K} {safe : Raster β → (β → β) × (β → β)}
  {gt : GeoTransform K} {dem : Raster β} {cc : Raster Bool → Raster Int × Nat}

/-- The two sets of functions: pure Python, and the compiled ones on DEMs without exactly three rows or columns. -/
def Functions (drop : β → β → K) (scale : K → K) (dem : Raster β) (demEngine : Dem.Engine β K)
    (bluespotEngine : Bluespots.Engine β K) : Prop :=
  (demEngine = Dem.python drop scale ∧ bluespotEngine = Bluespots.python) ∨
  ∃ junk, demEngine = Dem.compiled junk drop scale ∧ bluespotEngine = Bluespots.compiled junk ∧ dem.rows ≠ 3 ∧ dem.cols ≠ 3

variable {demEngine : Dem.Engine β K} {bluespotEngine : Bluespots.Engine β K}

/-- The results of DemTool, whatever the rest of the command is asked to do. -/
structure GoodDem (drop : β → β → K) (sub : β → β → K) (safe : Raster β → (β → β) × (β → β)) (dem : Raster β) (want : Bool)
    (demEngine : Dem.Engine β K) (bluespotEngine : Bluespots.Engine β K) (d : Dem.Out β K) (s : Cell → β) : Prop where
  engine : Bluespots.IsEngine bluespotEngine
  fill : bluespotEngine.fillTerrainNoFlats = demEngine.fillTerrainNoFlats
  size : 0 < dem.rows ∧ 0 < dem.cols
  run : Returns (Dem.process demEngine sub safe true want dem) (.ok d)
  depths : d.depths.rows = dem.rows ∧ d.depths.cols = dem.cols
  flowdir : d.flowdir.rows = dem.rows ∧ d.flowdir.cols = dem.cols
  down : DrainsDownhill dem.rows dem.cols s d.flowdir
  noFlats : d.noFlats.rows = dem.rows ∧ d.noFlats.cols = dem.cols
  finite : ∀ c, dem.Has c → d.noFlats.get c < ⊤
  drop : ∀ a b, a < ⊤ → b < ⊤ → (0 < demEngine.drop a b ↔ b < a)
  scale : ∀ a b, 0 < demEngine.scale (demEngine.drop a b) ↔ 0 < demEngine.drop a b
  acc : want = true → ∃ a A, d.accum = some a ∧ Returns (Flow.accumulatedFlow d.flowdir) (.ok A) ∧ a.Same A
  noacc : want = false → d.accum = none
  edge : ∀ c, OnEdge dem.rows dem.cols c → d.depths.get c = 0
  nonneg : ∀ c, dem.Has c → 0 ≤ d.depths.get c

theorem good_dem (h : SoundTerrain drop sub scale safe dem) (hfun : Functions drop scale dem demEngine bluespotEngine)
    (want : Bool) : ∃ d s, GoodDem drop sub safe dem want demEngine bluespotEngine d s := by
  have hsize : 0 < dem.rows ∧ 0 < dem.cols := ⟨by have := h.rows; omega, by have := h.cols; omega⟩
  rcases hfun with ⟨rfl, rfl⟩ | ⟨junk, rfl, rfl, hr3, hc3⟩
  · obtain ⟨d, hd, _, hdsh, hfsh, hcells, hedge, ⟨z, _, hdown⟩, hacc, hno⟩ := C62_dem_outputs h want
    obtain ⟨_, _, _, hnf, hfd, _, _⟩ := Dem.process_inv hd
    have hnf : Returns (Fill.fillTerrainNoFlats (safe dem).1 (safe dem).2 dem) (.ok d.noFlats) := hnf
    obtain ⟨hnsh, hfin, _⟩ := noFlats_finite h hnf
    exact ⟨d, z, .inl rfl, rfl, hsize, hd, hdsh, hfsh, hdown, hnsh, hfin, h.drop_pos, h.scale_pos, fun hw => by
      obtain ⟨a, h1, h2⟩ := hacc hw
      exact ⟨a, a, h1, h2, rfl, rfl, fun _ _ => rfl⟩, hno, hedge, fun c hc => (hcells c hc).2.2.1⟩
  · obtain ⟨d, hd, _, hdsh, hfsh, _, hcells, hedge, ⟨z, _, hdown⟩, hacc, hno⟩ := C62_dem_outputs_compiled junk h hr3 hc3 want
    obtain ⟨_, _, _, hnf, hfd, _, _⟩ := Dem.process_inv hd
    obtain ⟨nf, hnf', hnr, hnc, _, _, _, hnfin, _⟩ := C11_compiled_noflats_valid (safe dem).1 (safe dem).2 h.mono.1 h.mono.2
      (fun x => (h.ge x).1) (fun x => (h.ge x).2) dem ⟨h.rows, hr3⟩ ⟨h.cols, hc3⟩ h.finite (fun x hx => (h.keep x hx).1)
      (fun x hx => (h.keep x hx).2)
    have heq : Except.ok nf = Except.ok (ε := PyErr) d.noFlats := Returns.unique hnf' hnf
    cases heq
    exact ⟨d, z, .inr ⟨junk, rfl⟩, rfl, hsize, hd, hdsh, hfsh, hdown, ⟨hnr, hnc⟩, hnfin, h.drop_pos, h.scale_pos, hacc, hno,
      hedge, fun c hc => (hcells c hc).2.2.1⟩

/-- The chain after DemTool. -/
theorem GoodDem.chain {want : Bool} {d : Dem.Out β K} {s : Cell → β}
    (g : GoodDem drop sub safe dem want demEngine bluespotEngine d s) (hcc : LabelContract cc) (hsq : SquareCells gt)
    (f : Bluespots.StatUnits K → Bool) (mm : K) :
    ∃ out point next v spill,
      (Complete.processAll cc demEngine bluespotEngine sub safe gt dem want (some f) mm).Yields (.ok out) ∧ out.dem = d ∧
      ReportsState dem.rows dem.cols gt mm out point next v spill ∧
      Bluespots.IsResult gt d.depths f d.flowdir (pourPointRule dem d).Chooses out.bluespots ∧
      ∃ (γ : Type) (_ : LinearOrder γ) (rank : Cell → γ),
        LowestOutlets dem.rows dem.cols d.flowdir.get out.bluespots.labeled.get rank
          (out.bluespots.pourpoints.map fun p => (p.cell_row, p.cell_col)) :=
  chain_direct g.engine g.fill hcc hsq g.size want f mm g.run g.depths g.flowdir g.down g.noFlats g.finite g.drop g.scale
    g.acc g.noacc

/-- No bluespot drains to the background, and the background drains off the raster. -/
theorem GoodDem.apart {want : Bool} {d : Dem.Out β K} {s : Cell → β}
    (g : GoodDem drop sub safe dem want demEngine bluespotEngine d s) {f : Bluespots.StatUnits K → Bool} {mm : K}
    {out : Complete.Out β K} {point : Nat → Cell} {next : Nat → Option Int} {v spill : Nat → K} (hout : out.dem = d)
    (hrep : ReportsState dem.rows dem.cols gt mm out point next v spill)
    (hres : Bluespots.IsResult gt d.depths f d.flowdir (pourPointRule dem d).Chooses out.bluespots)
    {γ : Type} [LinearOrder γ] {rank : Cell → γ}
    (hlow : LowestOutlets dem.rows dem.cols d.flowdir.get out.bluespots.labeled.get rank
      (out.bluespots.pourpoints.map fun p => (p.cell_row, p.cell_col))) :
    next 0 = none ∧ ∀ l ≤ out.bluespots.nlabels, next l ≠ some 0 := by
  subst hout
  have hnone : ∀ l ≤ out.bluespots.nlabels, next l ≠ some 0 := by
    intro l hl e
    rcases hrep.goes l hl with ⟨-, path, t, -, ⟨pre, x, post, -, -, hx, hd, -⟩ | ⟨-, hd, -⟩⟩ | ⟨-, hd⟩
    · rw [e] at hd
      exact hx.2 hd.symm
    · rw [e] at hd; exact nomatch hd
    · rw [e] at hd; exact nomatch hd
  refine ⟨?_, hnone⟩
  rcases hrep.goes 0 (Nat.zero_le _) with ⟨hin, path, t, ht, ⟨pre, x, post, rfl, hpre, hx, hd, -⟩ | ⟨-, hd, -⟩⟩ | ⟨-, hd⟩
  · exfalso
    obtain ⟨p, hp, he⟩ := hrep.outlet 0 (Nat.zero_le _)
    have hp' : (out.bluespots.pourpoints.map fun p => ((p.cell_row, p.cell_col) : Cell))[0]? = some (point 0) := by
      rw [List.getElem?_map, hp, he]; rfl
    rcases hlow.lowest 0 _ hp' with ⟨-, h1, h2⟩ | ⟨-, h1, h2⟩
    · rw [h1] at hin; exact absurd hin.1 (by simp)
    · have hxin := ht.inside x (by simp)
      obtain ⟨e, hxe, heo⟩ := (g.down x hxin).2.1
      have he0 : out.bluespots.labeled.get e = 0 := by
        have := g.edge e (Flow.flowsOut_onEdge heo)
        refine (hres.labelling.background e ?_).2 fun hw => hw.1 this
        rw [g.depths.1, g.depths.2]; exact heo.1
      have h1' : out.bluespots.labeled.get (point 0) = 0 := h1
      have hx0 : out.bluespots.labeled.get x ≠ 0 := by rw [h1'] at hx; exact hx.1
      have hxe' : Relation.TransGen (Step dem.rows dem.cols out.dem.flowdir.get) x e := by
        rcases Relation.reflTransGen_iff_eq_or_transGen.1 hxe with rfl | h
        · exact absurd he0 hx0
        · exact h
      have hlt := hlow.trans hxe'
      have hpx : rank x ≤ rank (point 0) := by
        have : Downstream dem.rows dem.cols out.dem.flowdir.get (point 0) x := (Flow.trace_downstream _ _ ht x).1 (by simp)
        rcases Relation.reflTransGen_iff_eq_or_transGen.1 this with e | h
        · rw [e]
        · exact (hlow.trans h).le
      exact absurd (h2 e heo.1 (by rw [he0]; rfl)) (not_le.2 (hlt.trans_le hpx))
  · exact hd
  · exact hd

/-- A bluespot without inflow. -/
theorem comesTo_alone {n : Nat} {next : Nat → Option Int} {water spill : Nat → K} {l : Nat}
    (h : ∀ k ≤ n, next k ≠ some (l : Int)) : comesTo n next water spill l = water l := by
  unfold comesTo
  rw [List.filter_eq_nil_iff.2 fun k hk => by
    have := h k (by have := List.mem_range.1 hk; omega)
    simpa using this]
  simp

/-- The background after rain. -/
theorem GoodDem.background {want : Bool} {d : Dem.Out β K} {s : Cell → β}
    (g : GoodDem drop sub safe dem want demEngine bluespotEngine d s) (hcc : LabelContract cc) (hsq : SquareCells gt)
    (f : Bluespots.StatUnits K → Bool) (mm : K) :
    ∃ out point next v spill,
      (Complete.processAll cc demEngine bluespotEngine sub safe gt dem want (some f) mm).Yields (.ok out) ∧ out.dem = d ∧
      ReportsState dem.rows dem.cols gt mm out point next v spill ∧
      Bluespots.IsResult gt d.depths f d.flowdir (pourPointRule dem d).Chooses out.bluespots ∧
      next 0 = none ∧ (∀ l ≤ out.bluespots.nlabels, next l ≠ some 0) ∧
      ∀ cs ws, CellsOf dem.rows dem.cols out.bluespots.labeled.get 0 cs →
        CellsOf dem.rows dem.cols out.bluespots.watersheds.get 0 ws →
        v 0 = min (ws.length * cellArea gt * mm / 1000) ((cs.map out.dem.depths.get).sum * cellArea gt) ∧
        spill 0 = max 0 (ws.length * cellArea gt * mm / 1000 - (cs.map out.dem.depths.get).sum * cellArea gt) := by
  obtain ⟨out, point, next, v, spill, h1, h2, h3, h4, γ, iγ, rank, h5⟩ := g.chain hcc hsq f mm
  obtain ⟨h6, h7⟩ := g.apart h2 h3 h4 h5
  refine ⟨out, point, next, v, spill, h1, h2, h3, h4, h6, h7, fun cs ws hcs hws => ?_⟩
  obtain ⟨water, cap, hst, hwc⟩ := h3.state
  obtain ⟨e1, e2⟩ := hst 0 (Nat.zero_le _)
  obtain ⟨e3, e4⟩ := hwc 0 (Nat.zero_le _) cs ws hcs hws
  rw [comesTo_alone h7, e3, e4] at e1 e2
  exact ⟨e1, e2⟩

/-- C112, part: what the run reports does not mix the background (number 0) with bluespots: no bluespot spills to it and
it spills to none. The bluespots the filter ignores have no other effect on the final state than that their volume
keeps back water there: of the rain on the watershed of the background, the volume of the ignored bluespots stays and the
rest leaves. Missing: that nothing stays (`C112_ignored_false`). -/
theorem C112_background_partial (h : SoundTerrain drop sub scale safe dem)
    (hfun : Functions drop scale dem demEngine bluespotEngine) (hcc : LabelContract cc) (hsq : SquareCells gt)
    (want : Bool) (f : Bluespots.StatUnits K → Bool) (mm : K) :
    ∃ out point next v spill,
      (Complete.processAll cc demEngine bluespotEngine sub safe gt dem want (some f) mm).Yields (.ok out) ∧
      ReportsState dem.rows dem.cols gt mm out point next v spill ∧
      next 0 = none ∧ (∀ l ≤ out.bluespots.nlabels, next l ≠ some 0) ∧
      ∀ cs ws, CellsOf dem.rows dem.cols out.bluespots.labeled.get 0 cs →
        CellsOf dem.rows dem.cols out.bluespots.watersheds.get 0 ws →
        v 0 = min (ws.length * cellArea gt * mm / 1000) ((cs.map out.dem.depths.get).sum * cellArea gt) ∧
        spill 0 = max 0 (ws.length * cellArea gt * mm / 1000 - (cs.map out.dem.depths.get).sum * cellArea gt) := by
  obtain ⟨d, s, g⟩ := good_dem h hfun want
  obtain ⟨out, point, next, v, spill, h1, -, h3, -, h5, h6, h7⟩ := g.background hcc hsq f mm
  exact ⟨out, point, next, v, spill, h1, h3, h5, h6, h7⟩

/-- C112 for filters that ignore none of the bluespots: all rain on ground that drains to no bluespot leaves. -/
theorem C112_none_ignored (h : SoundTerrain drop sub scale safe dem)
    (hfun : Functions drop scale dem demEngine bluespotEngine) (hcc : LabelContract cc) (hsq : SquareCells gt)
    (want : Bool) (f : Bluespots.StatUnits K → Bool) (mm : K) (hmm : 0 ≤ mm) :
    ∃ out point next v spill,
      (Complete.processAll cc demEngine bluespotEngine sub safe gt dem want (some f) mm).Yields (.ok out) ∧
      ReportsState dem.rows dem.cols gt mm out point next v spill ∧
      ((∀ c, dem.Has c → 0 < out.dem.depths.get c → out.bluespots.labeled.get c ≠ 0) →
        ∀ ws, CellsOf dem.rows dem.cols out.bluespots.watersheds.get 0 ws →
          v 0 = 0 ∧ spill 0 = ws.length * cellArea gt * mm / 1000) := by
  obtain ⟨d, s, g⟩ := good_dem h hfun want
  obtain ⟨out, point, next, v, spill, h1, hd, h3, -, h5, h6, h7⟩ := g.background hcc hsq f mm
  refine ⟨out, point, next, v, spill, h1, h3, fun hall ws hws => ?_⟩
  obtain ⟨e1, e2⟩ := h7 _ ws (lists_filter _ _ _) hws
  have hz : (((Raster.cellList dem.rows dem.cols).filter fun c => out.bluespots.labeled.get c = 0).map out.dem.depths.get).sum = 0 := by
    refine List.sum_eq_zero fun x hx => ?_
    obtain ⟨c, hc, rfl⟩ := List.mem_map.1 hx
    obtain ⟨hc1, hc2⟩ := List.mem_filter.1 hc
    have hc1 : dem.Has c := Flow.mem_cellList.1 hc1
    by_contra hne
    have := g.nonneg c hc1
    rw [← hd] at this
    exact hall c hc1 (lt_of_le_of_ne this (Ne.symm hne)) (by simpa using hc2)
  rw [hz, zero_mul] at e1 e2
  have hw : 0 ≤ (ws.length : K) * cellArea gt * mm / 1000 := by
    have := (cellArea_pos hsq).le
    positivity
  rw [min_eq_right hw] at e1
  rw [sub_zero, max_eq_right hw] at e2
  exact ⟨e1, e2⟩

end

/-- A function of the filled DEM, computed. -/
theorem python_run {β α : Type*} [LinearOrder β] [OrderTop β] {dem r : Raster β} (hs : ¬ (dem.rows < 2 ∨ dem.cols < 2))
    (h : Returns (Fill.fillTerrain dem) (.ok r)) (g : Raster β → α) {v : α} (k : Nat)
    (hk : ((Fill.fillTerrainLoop dem k).map g) = some v) : g r = v := by
  obtain ⟨n, hn⟩ := h
  have h := hn (max n k) (le_max_left _ _)
  obtain ⟨q, hq, hq2⟩ := Option.map_eq_some_iff.1 hk
  have hq' : Fill.fillTerrainLoop dem (max n k) = some q := doWhile_mono hq (le_max_right n k)
  unfold Fill.fillTerrain at h
  rw [if_neg hs, hq'] at h
  simp only [Option.map_some, Option.some.injEq, Except.ok.injEq] at h
  rw [← h]; exact hq2

/-- C112 is false in general: with every bluespot of `demoValley` ignored the run has no bluespots, and still reports that
40 of the 80 m³ of rain are held on the terrain: the volume of the ignored bluespot is taken into account. -/
theorem C112_ignored_false {cc : Raster Bool → Raster Int × Nat} (hcc : LabelContract cc) (want : Bool) :
    ∃ out, ∃ f ∈ out.final,
      (Complete.processAll cc (Dem.python exactSub (· * (7/10))) Bluespots.python exactSub
        (exactSafe (1/1000) (14/10000)) (⟨0, 2, 0, 0, 0, -2⟩ : GeoTransform Rat) (finiteDem demoValley) want
        (some fun _ => false) 1000).Yields (.ok out) ∧ out.bluespots.nlabels = 0 ∧
      f.properties.get? "nodeid" = some (.int 0) ∧ HasNumber f "v" 40 ∧ HasNumber f "spillv" 40 := by
  have hsq : SquareCells (⟨0, 2, 0, 0, 0, -2⟩ : GeoTransform Rat) := by unfold SquareCells; norm_num
  obtain ⟨d, s, g⟩ := good_dem (demEngine := Dem.python exactSub (· * (7/10))) (bluespotEngine := Bluespots.python)
    (exact_sound demoValley (by decide) (by decide) (short := 1/1000) (diag := 14/10000) (k := 7/10) (by norm_num) (by norm_num)
      (by norm_num)) (.inl ⟨rfl, rfl⟩) want
  obtain ⟨out, point, next, v, spill, h1, rfl, h3, h4, h5, h6, h7⟩ := g.background hcc hsq (fun _ => false) 1000
  obtain ⟨f, hf, e1, e2, e3⟩ := h3.shown 0 (Nat.zero_le _)
  have hlab : ∀ c, out.dem.depths.Has c → out.bluespots.labeled.get c = 0 := fun c hc =>
    (h4.labelling.background c hc).2 fun ⟨_, _, _, _, _, h⟩ => nomatch h
  have hwat : ∀ c, out.dem.depths.Has c → out.bluespots.watersheds.get c = 0 := by
    intro c hc
    have key : ∀ c x, out.dem.depths.Has c →
        FirstLabel out.dem.depths.rows out.dem.depths.cols out.dem.flowdir.get out.bluespots.labeled.get 0 c x → x = 0 := by
      intro c x hc hF
      induction hF with
      | here h => exact absurd (hlab _ hc) h
      | next _ hst _ ih => exact ih hst.2.1
      | out => rfl
    exact key c _ hc (h4.watershed c hc).1
  have hn : out.bluespots.nlabels = 0 := by
    by_contra hne
    obtain ⟨c, hc, e⟩ := h4.labelling.used 1 le_rfl (by omega)
    rw [hlab c hc] at e
    exact absurd e (by decide)
  have hrows : out.dem.depths.rows = 4 ∧ out.dem.depths.cols = 5 := g.depths
  have hHas : ∀ c, InGrid 4 5 c → out.dem.depths.Has c := fun c hc => by
    show InGrid _ _ c
    rw [hrows.1, hrows.2]; exact hc
  have hall : ∀ lab : Cell → Int, (∀ c, InGrid 4 5 c → lab c = 0) → CellsOf 4 5 lab 0 (Raster.cellList 4 5) := by
    intro lab hlab
    refine cellsOf_iff.2 (List.filter_eq_self.2 fun c hc => ?_).symm
    simpa using hlab c (Flow.mem_cellList.1 hc)
  obtain ⟨r1, r2⟩ := h7 (Raster.cellList 4 5) (Raster.cellList 4 5) (hall _ fun c hc => hlab c (hHas c hc))
    (hall _ fun c hc => hwat c (hHas c hc))
  obtain ⟨_, hfill, hdep, _⟩ := Dem.process_inv g.run
  have hfill : Returns (Fill.fillTerrain (finiteDem demoValley)) (.ok out.dem.filled) := hfill
  have hsum : ((Raster.cellList 4 5).map out.dem.depths.get).sum = 10 := by
    rw [hdep]
    exact python_run (by decide) hfill (fun r => ((Raster.cellList 4 5).map fun c =>
      exactSub (r.get c) ((finiteDem demoValley).get c)).sum) 9 (by decide +kernel)
  rw [hsum] at r1 r2
  have ha : cellArea (⟨0, 2, 0, 0, 0, -2⟩ : GeoTransform Rat) = 4 := by unfold cellArea; norm_num
  have hl : (Raster.cellList 4 5).length = 20 := by decide
  rw [ha, hl] at r1 r2
  refine ⟨out, f, hf, h1, hn, e1, ?_, ?_⟩
  · have : v 0 = 40 := by rw [r1]; norm_num
    rwa [this] at e2
  · have : spill 0 = 40 := by rw [r2]; norm_num
    rwa [this] at e3

/-- The hypotheses of C112 can be met. -/
example : ∃ cc, LabelContract cc ∧ SquareCells (⟨0, 2, 0, 0, 0, -2⟩ : GeoTransform Rat) ∧
    SoundTerrain (K := Rat) exactSub exactSub (· * (7/10)) (exactSafe (1/1000) (14/10000)) (finiteDem demoValley) ∧
    Functions exactSub (· * (7/10) : Rat → Rat) (finiteDem demoValley) (Dem.python exactSub (· * (7/10))) Bluespots.python ∧
    Functions exactSub (· * (7/10) : Rat → Rat) (finiteDem demoValley) (Dem.compiled (0, 0) exactSub (· * (7/10)))
      (Bluespots.compiled (0, 0)) := by
  obtain ⟨cc, h⟩ := exists_labelContract
  exact ⟨cc, h, by unfold SquareCells; norm_num, exact_sound demoValley (by decide) (by decide) (by norm_num) (by norm_num)
    (by norm_num), .inl ⟨rfl, rfl⟩, .inr ⟨_, rfl, rfl, by decide, by decide⟩⟩

end Malstroem
