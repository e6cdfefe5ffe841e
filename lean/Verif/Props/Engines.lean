/-
Property C82: `complete` writes the same files with the compiled functions as with the Python functions.
-/
import Verif.Proofs.Engines
import Verif.Props.FlowFloat
import Verif.Props.Scripts

set_option linter.unusedSectionVars false

namespace Malstroem
open Spec

/-- Water can leave every cell next to the edge over the edge: some neighbour on the edge is lower, also after adding the
increment the fill without flats adds on the way from it. -/
def OpenEdge {β : Type*} [LinearOrder β] (short diag : β → β) (dem : Raster β) : Prop :=
  ∀ c, NextToEdge dem.rows dem.cols c → ∃ e, OnEdge dem.rows dem.cols e ∧ Adj c e ∧
    (if Orth c e then short else diag) (dem.get e) ≤ dem.get c

section
variable {K : Type} [Field K] [LinearOrder K] [IsStrictOrderedRing K] {β : Type} [LinearOrder β] [OrderTop β]
variable {drop sub : β → β → K} {scale scale' : K → K} {safe : Raster β → (β → β) × (β → β)} {dem : Raster β}

/-- With enough fuel all functions of DemTool and the fill used by BluespotTool give the same results. -/
theorem engines_agree (junk : Int × Int) (h : SoundTerrain drop sub scale safe dem) (hr3 : dem.rows ≠ 3)
    (hc3 : dem.cols ≠ 3) (hopen : OpenEdge (safe dem).1 (safe dem).2 dem)
    (hflow : ∀ nf, Returns (Fill.fillTerrainNoFlats (safe dem).1 (safe dem).2 dem) (.ok nf) →
      Flow.terrainFlowdirection drop scale nf true = Flow.terrainFlowdirection drop scale' nf true)
    (square want : Bool) :
    ∃ filled nf N, filled.rows = dem.rows ∧ filled.cols = dem.cols ∧ nf.rows = dem.rows ∧ nf.cols = dem.cols ∧ ∀ n, N ≤ n →
      Fill.fillTerrain dem n = some (.ok filled) ∧ FillCython.fillTerrain dem n = some (.ok filled) ∧
      Fill.fillTerrainNoFlats (safe dem).1 (safe dem).2 dem n = some (.ok nf) ∧
      FillCython.fillTerrainNoFlats (safe dem).1 (safe dem).2 dem n = some (.ok nf) ∧
      Dem.process (Dem.python drop scale) sub safe square want dem n =
        Dem.process (Dem.compiled junk drop scale') sub safe square want dem n := by
  have hse : FillCython.shapeError dem.rows dem.cols = none :=
    FillCython.shapeError_none.2 ⟨h.rows, h.cols, hr3, hc3⟩
  obtain ⟨r, hr, hrI, _⟩ := Fill.fillTerrain_returns dem h.rows h.cols
  obtain ⟨r', hr', _⟩ := FillCython.fillTerrain_returns dem hse
  have hge : ∀ (x : β) (c e : Cell), x ≤ (if Orth c e then (safe dem).1 else (safe dem).2) x := by
    intro x c e
    split_ifs
    exacts [(h.ge x).1, (h.ge x).2]
  have e1 : r' = r := (C09_open_edge_partial dem r r' hr hr' h.finite (fun c hc => by
    obtain ⟨e, he, hadj, hle⟩ := hopen c hc
    exact ⟨e, he, hadj, (hge _ c e).trans hle⟩)).eq fun c hc => by
      have hI := (FillCython.stable_of_returns hr').1
      have hc : ¬ dem.Has c := fun h => hc (by
        show InGrid r'.rows r'.cols c
        rw [hI.rows, hI.cols]; exact h)
      rw [FillCython.fillTerrain_untouched hr' c hc, Fill.fillTerrain_untouched hr c hc]
  subst e1
  obtain ⟨q, hq, hqI, _⟩ := Fill.fillTerrainNoFlats_returns (safe dem).1 (safe dem).2 h.mono.1 h.mono.2
    (fun x => (h.ge x).1) (fun x => (h.ge x).2) dem h.rows h.cols
  obtain ⟨q', hq', _⟩ := FillCython.fillTerrainNoFlats_returns (safe dem).1 (safe dem).2 h.mono.1 h.mono.2
    (fun x => (h.ge x).1) (fun x => (h.ge x).2) dem hse
  have e2 : q' = q := (C10_open_edge_partial (safe dem).1 (safe dem).2 h.mono.1 h.mono.2 (fun x => (h.ge x).1)
    (fun x => (h.ge x).2) (fun x hx => (h.keep x hx).1) (fun x hx => (h.keep x hx).2) dem q q' hq hq' h.finite hopen).eq
    fun c hc => by
      have hI := (FillCython.noFlats_of_returns h.mono.1 h.mono.2 (fun x => (h.ge x).1) (fun x => (h.ge x).2) hq').1
      have hc : ¬ dem.Has c := fun h => hc (by
        show InGrid q'.rows q'.cols c
        rw [hI.rows, hI.cols]; exact h)
      rw [FillCython.noFlats_untouched h.mono.1 h.mono.2 hq' c hc, Fill.noFlats_untouched h.mono.1 h.mono.2 hq c hc]
  subst e2
  obtain ⟨out, hout, _, _, hfsh, _, _, ⟨s, _, hdown⟩, _⟩ := C62_dem_outputs h true
  obtain ⟨_, _, _, hnf, hfd, _⟩ := Dem.process_inv hout
  have e3 : out.noFlats = q' := by
    have := Returns.unique hnf hq
    simpa using this
  have hcodes : ∀ c, (Flow.terrainFlowdirection drop scale q' true).Has c →
      (Flow.terrainFlowdirection drop scale q' true).get c < 8 := by
    intro c hc
    have e4 : Flow.terrainFlowdirection drop scale q' true = out.flowdir := by rw [hfd, e3]; rfl
    rw [e4] at hc ⊢
    have hc : InGrid out.flowdir.rows out.flowdir.cols c := hc
    rw [hfsh.1, hfsh.2] at hc
    exact (hdown c hc).1
  obtain ⟨A, hA, hA'⟩ := Flow.accum_same junk hcodes
  obtain ⟨n1, h1⟩ := hr
  obtain ⟨n2, h2⟩ := hr'
  obtain ⟨n3, h3⟩ := hq
  obtain ⟨n4, h4⟩ := hq'
  obtain ⟨n5, h5⟩ := hA
  obtain ⟨n6, h6⟩ := hA'
  refine ⟨r', q', n1 + n2 + n3 + n4 + n5 + n6, hrI.rows, hrI.cols, hqI.rows, hqI.cols, fun n hn => ?_⟩
  refine ⟨h1 n (by omega), h2 n (by omega), h3 n (by omega), h4 n (by omega), ?_⟩
  refine Dem.process_congr ?_ ?_ fun nf hnf => ?_
  · show Fill.fillTerrain dem n = FillCython.fillTerrain dem n
    rw [h1 n (by omega), h2 n (by omega)]
  · show Fill.fillTerrainNoFlats _ _ dem n = FillCython.fillTerrainNoFlats _ _ dem n
    rw [h3 n (by omega), h4 n (by omega)]
  · have hnf : Fill.fillTerrainNoFlats _ _ dem n = some (.ok nf) := hnf
    rw [h3 n (by omega)] at hnf
    cases hnf
    refine ⟨hflow _ ⟨n3, h3⟩, fun _ => ?_⟩
    show Flow.accumulatedFlow (Flow.terrainFlowdirection drop scale _ true) n =
      (FlowCython.accumulatedFlow junk (Flow.terrainFlowdirection drop scale _ true) n).map .ok
    rw [h5 n (by omega), h6 n (by omega)]
    rfl

theorem process_depths {eng : Dem.Engine β K} {square want : Bool} {n : Nat} {d : Dem.Out β K}
    (h : Dem.process eng sub safe square want dem n = some (.ok d)) :
    ∃ filled, eng.fillTerrain dem n = some (.ok filled) ∧ d.depths = Dem.depths sub filled dem := by
  cases square
  · simp [Dem.process] at h
  · obtain ⟨filled, nf, h1, _, acc, _, rfl⟩ := Scripts.dem_iff.1 h
    exact ⟨filled, h1, rfl⟩

/-- With enough fuel the runs end with the same results. -/
theorem runs_agree {fl : K → K} (junk : Int × Int) (h : SoundTerrain drop sub scale safe dem)
    (hr3 : dem.rows ≠ 3) (hc3 : dem.cols ≠ 3) (hopen : OpenEdge (safe dem).1 (safe dem).2 dem)
    (hflow : ∀ nf, Returns (Fill.fillTerrainNoFlats (safe dem).1 (safe dem).2 dem) (.ok nf) →
      Flow.terrainFlowdirection drop scale nf true = Flow.terrainFlowdirection drop scale' nf true)
    {cc : Raster Bool → Raster Int × Nat} (hcc : LabelContract cc) (gt : GeoTransform K) (want : Bool)
    (f : Bluespots.StatUnits K → Bool) (mm : K) : ∃ N, ∀ n, N ≤ n → ∀ out,
      ((Complete.processAllFl fl cc (Dem.python drop scale) (Bluespots.pythonFl fl) sub safe gt dem want (some f) mm) n =
          some (.ok out) ↔
        (Complete.processAllFl fl cc (Dem.compiled junk drop scale') (Bluespots.compiledFl fl junk) sub safe gt dem want (some f)
          mm) n = some (.ok out)) := by
  obtain ⟨filled, nf, N, s1, s2, s3, s4, hN⟩ := engines_agree junk h hr3 hc3 hopen hflow (Complete.squareCellsFl fl gt) want
  refine ⟨N, fun n hn out => ?_⟩
  obtain ⟨f1, f2, f3, f4, f5⟩ := hN n hn
  have hb : ∀ d : Dem.Out β K, d.depths = Dem.depths sub filled dem → ∀ b,
      (Bluespots.processFl fl cc (Bluespots.pythonFl fl) safe gt d.depths (some f) d.flowdir d.accum (some dem) n =
          some (.ok b) ↔
        Bluespots.processFl fl cc (Bluespots.compiledFl fl junk) safe gt d.depths (some f) d.flowdir d.accum (some dem) n =
          some (.ok b)) := by
    intro d hd b
    have hr : 0 < d.depths.rows := by
      rw [hd]; show 0 < filled.rows; have := h.rows; omega
    have hc : 0 < d.depths.cols := by
      rw [hd]; show 0 < filled.cols; have := h.cols; omega
    have hsh : nf.rows = d.depths.rows ∧ nf.cols = d.depths.cols := by
      rw [hd]
      exact ⟨by show nf.rows = filled.rows; omega, by show nf.cols = filled.cols; omega⟩
    constructor
    · refine Bluespots.process_congr hcc (.inl rfl) (.inr ⟨junk, rfl⟩) hr hc (fun _ => ?_) (fun nf' hnf' => ?_)
      · exact f3.trans f4.symm
      · cases f3.symm.trans hnf'; exact hsh
    · refine Bluespots.process_congr hcc (.inr ⟨junk, rfl⟩) (.inl rfl) hr hc (fun _ => ?_) (fun nf' hnf' => ?_)
      · exact f4.trans f3.symm
      · cases f4.symm.trans hnf'; exact hsh
  unfold Complete.processAllFl
  simp only [Run.bind_ok, Run.ofFuel_ok, Run.ofExcept_ok, Run.pure_ok, ← f5]
  constructor
  · rintro ⟨d, hd, b, h4, rest⟩
    obtain ⟨filled', g1, g2⟩ := process_depths hd
    cases f1.symm.trans g1
    exact ⟨d, hd, b, (hb d g2 b).1 h4, rest⟩
  · rintro ⟨d, hd, b, h4, rest⟩
    obtain ⟨filled', g1, g2⟩ := process_depths hd
    cases f1.symm.trans g1
    exact ⟨d, hd, b, (hb d g2 b).2 h4, rest⟩

/-- C82 (the part that holds) up to the final state, with any arithmetic `fl` on volumes. On a DEM with open edges, if the two
ways to treat diagonal drops give the same flow directions, the command writes the same with the compiled functions as with the
Python functions: one comes to an end without error and has written `out` if and only if the other has. Missing (and false,
`C82_same_files_false`): other DEMs. -/
theorem C82_same_results_partial {fl : K → K} (junk : Int × Int) (h : SoundTerrain drop sub scale safe dem)
    (hr3 : dem.rows ≠ 3) (hc3 : dem.cols ≠ 3) (hopen : OpenEdge (safe dem).1 (safe dem).2 dem)
    (hflow : ∀ nf, Returns (Fill.fillTerrainNoFlats (safe dem).1 (safe dem).2 dem) (.ok nf) →
      Flow.terrainFlowdirection drop scale nf true = Flow.terrainFlowdirection drop scale' nf true)
    {cc : Raster Bool → Raster Int × Nat} (hcc : LabelContract cc) (gt : GeoTransform K) (want : Bool)
    (f : Bluespots.StatUnits K → Bool) (mm : K) (out : Complete.Out β K) :
    (Complete.processAllFl fl cc (Dem.python drop scale) (Bluespots.pythonFl fl) sub safe gt dem want (some f) mm).Yields
        (.ok out) ↔
      (Complete.processAllFl fl cc (Dem.compiled junk drop scale') (Bluespots.compiledFl fl junk) sub safe gt dem want (some f)
        mm).Yields (.ok out) := by
  obtain ⟨N, key⟩ := runs_agree (fl := fl) junk h hr3 hc3 hopen hflow hcc gt want f mm
  constructor
  · rintro ⟨m, hm⟩
    exact ⟨N + m, fun n hn => (key n (by omega) out).1 (hm n (by omega))⟩
  · rintro ⟨m, hm⟩
    exact ⟨N + m, fun n hn => (key n (by omega) out).2 (hm n (by omega))⟩

/-- C82 (the part that holds) for all files `complete` writes, in exact arithmetic: on a DEM with open edges they are the same
with the compiled functions as with the Python functions. Missing (and false, `C82_same_files_false`): other DEMs. -/
theorem C82_same_files_partial [FloorRing K] (junk : Int × Int) (elev : β → K) (subst : β) (file : Scripts.ElevFile β)
    (h : SoundTerrain drop sub scale safe (file.read (some subst))) (hr3 : (file.read (some subst)).rows ≠ 3)
    (hc3 : (file.read (some subst)).cols ≠ 3)
    (hopen : OpenEdge (safe (file.read (some subst))).1 (safe (file.read (some subst))).2 (file.read (some subst)))
    {cc : Raster Bool → Raster Int × Nat} (hcc : LabelContract cc) (gt : GeoTransform K) (want : Bool)
    (filter : Option (Bluespots.StatUnits K → Bool)) (mm zresolution : K) (files : Scripts.Files β K) :
    (Scripts.complete elev cc (Dem.python drop scale) Bluespots.python sub safe subst gt file want filter mm
        zresolution).Yields (.ok files) ↔
      (Scripts.complete elev cc (Dem.compiled junk drop scale) (Bluespots.compiled junk) sub safe subst gt file want filter mm
        zresolution).Yields (.ok files) := by
  obtain ⟨N, key⟩ := runs_agree (fl := id) junk h hr3 hc3 hopen (fun _ _ => rfl) hcc gt want (filter.getD fun _ => true) mm
  have key' : ∀ n, N ≤ n → ((Scripts.complete elev cc (Dem.python drop scale) Bluespots.python sub safe subst gt file want filter
      mm zresolution) n = some (.ok files) ↔ (Scripts.complete elev cc (Dem.compiled junk drop scale) (Bluespots.compiled junk)
      sub safe subst gt file want filter mm zresolution) n = some (.ok files)) := by
    intro n hn
    unfold Scripts.complete Complete.processWithLevels Complete.processAll
    simp only [Run.bind_ok, key n hn]
  constructor
  · rintro ⟨m, hm⟩
    exact ⟨N + m, fun n hn => (key' n (by omega)).1 (hm n (by omega))⟩
  · rintro ⟨m, hm⟩
    exact ⟨N + m, fun n hn => (key' n (by omega)).2 (hm n (by omega))⟩

end

theorem complete_yields {K : Type} [Field K] [LinearOrder K] [FloorRing K] {β : Type} [LinearOrder β] [OrderTop β]
    {elev : β → K} {cc : Raster Bool → Raster Int × Nat} {demEngine : Dem.Engine β K} {eng : Bluespots.Engine β K}
    {sub : β → β → K} {safe : Raster β → (β → β) × (β → β)} {gt : GeoTransform K} {subst : β} {file : Scripts.ElevFile β}
    {want : Bool} {filter : Option (Bluespots.StatUnits K → Bool)} {mm res : K} {o : Complete.Out β K × Complete.LevelsOut K}
    (h : (Complete.processWithLevels elev cc demEngine eng sub safe gt (file.read (some subst)) want
      (some (filter.getD fun _ => true)) mm res).Yields (.ok o)) :
    ∃ files, (Scripts.complete elev cc demEngine eng sub safe subst gt file want filter mm res).Yields (.ok files) :=
  ⟨_, Run.yields_bind h (Run.yields_pure _)⟩

/-- A DEM of 5x5 cells with a pit and low cells along the edge. -/
def openQ : Raster Rat :=
  ⟨5, 5, fun c => if c.1 ≤ 0 ∨ 4 ≤ c.1 ∨ c.2 ≤ 0 ∨ 4 ≤ c.2 then 0 else if c = (2, 2) then 3 else 5⟩

theorem openQ_open : OpenEdge (exactSafe (1 : Rat) 2 (finiteDem openQ)).1 (exactSafe (1 : Rat) 2 (finiteDem openQ)).2
    (finiteDem openQ) := by
  rintro ⟨i, j⟩ ⟨h, hr⟩
  have h1 := (interior_iff (rows := 5) (cols := 5)).1 h
  have h2 : i = 1 ∨ i = 3 ∨ j = 1 ∨ j = 3 := hr
  simp only at h1
  have hi : i = 1 ∨ i = 2 ∨ i = 3 := by omega
  have hj : j = 1 ∨ j = 2 ∨ j = 3 := by omega
  refine ⟨if i = 2 then (2, if j = 1 then 0 else 4) else (if i = 1 then 0 else 4, j), ?_⟩
  rcases hi with rfl | rfl | rfl <;> rcases hj with rfl | rfl | rfl
  all_goals first
    | (exfalso; omega)
    | (refine ⟨by decide, by decide, by decide +kernel⟩)

/-- `complete` comes to an end with the Python functions, on DEMs that are nowhere negative. -/
theorem complete_exact {K : Type} [Field K] [LinearOrder K] [IsStrictOrderedRing K] [FloorRing K]
    {cc : Raster Bool → Raster Int × Nat} (hcc : LabelContract cc) {gt : GeoTransform K} (hsq : SquareCells gt) (dem : Raster K)
    (hr : 2 ≤ dem.rows) (hc : 2 ≤ dem.cols) {short diag k : K} (hs : 0 < short) (hd : 0 < diag) (hk : 0 < k) (want : Bool)
    (filter : Option (Bluespots.StatUnits K → Bool)) (mm : K) {res : K} (hres : 0 < res) (hnn : ∀ c, 0 ≤ dem.get c) :
    ∃ files, (Scripts.complete (·.untopD 0) cc (Dem.python exactSub (· * k)) Bluespots.python exactSub (exactSafe short diag)
        ((-999 : K) : WithTop K) gt ⟨finiteDem dem, none⟩ want filter mm res).Yields (.ok files) := by
  obtain ⟨out, lv, _, _, h1, _⟩ := C67_complete_levels hcc hsq dem hr hc hs hd hk want (filter.getD fun _ => true) mm hres
    (fun c _ _ _ _ => hnn c)
  exact complete_yields (file := ⟨finiteDem dem, none⟩) (subst := ((-999 : K) : WithTop K)) h1

/-- C82 in exact arithmetic, for DEMs that are nowhere negative: the command comes to an end, with the same files. -/
theorem C82_exact_partial {K : Type} [Field K] [LinearOrder K] [IsStrictOrderedRing K] [FloorRing K] (junk : Int × Int)
    {cc : Raster Bool → Raster Int × Nat} (hcc : LabelContract cc) {gt : GeoTransform K} (hsq : SquareCells gt) (dem : Raster K)
    (hr : 2 ≤ dem.rows ∧ dem.rows ≠ 3) (hc : 2 ≤ dem.cols ∧ dem.cols ≠ 3) {short diag k : K} (hs : 0 < short) (hd : 0 < diag)
    (hk : 0 < k) (want : Bool) (filter : Option (Bluespots.StatUnits K → Bool)) (mm : K) {res : K} (hres : 0 < res)
    (hnn : ∀ c, 0 ≤ dem.get c) (hopen : OpenEdge (· + (short : WithTop K)) (· + (diag : WithTop K)) (finiteDem dem)) :
    ∃ files, (Scripts.complete (·.untopD 0) cc (Dem.python exactSub (· * k)) Bluespots.python exactSub (exactSafe short diag)
        ((-999 : K) : WithTop K) gt ⟨finiteDem dem, none⟩ want filter mm res).Yields (.ok files) ∧
      (Scripts.complete (·.untopD 0) cc (Dem.compiled junk exactSub (· * k)) (Bluespots.compiled junk) exactSub
        (exactSafe short diag) ((-999 : K) : WithTop K) gt ⟨finiteDem dem, none⟩ want filter mm res).Yields (.ok files) := by
  obtain ⟨files, h⟩ := complete_exact hcc hsq dem hr.1 hc.1 hs hd hk want filter mm hres hnn
  have hsound := exact_sound dem hr.1 hc.1 hs hd hk
  have key := C82_same_files_partial junk (·.untopD 0) ((-999 : K) : WithTop K) ⟨finiteDem dem, none⟩ hsound hr.2 hc.2 hopen hcc gt
    want filter mm res files
  exact ⟨files, h, key.1 h⟩

theorem openQ_nonneg (c : Cell) : 0 ≤ openQ.get c := by
  unfold openQ
  dsimp only
  split_ifs <;> norm_num

/-- Non-vacuity of C82: `openQ` meets the hypotheses of `C82_exact_partial`, and has a pit. -/
example : openQ.get (2, 2) < openQ.get (1, 1) ∧ openQ.rows = 5 ∧ openQ.cols = 5 ∧ (∀ c, 0 ≤ openQ.get c) ∧
    OpenEdge (· + ((1 : Rat) : WithTop Rat)) (· + ((2 : Rat) : WithTop Rat)) (finiteDem openQ) :=
  ⟨by decide +kernel, rfl, rfl, openQ_nonneg, openQ_open⟩

/-- Returned value of a cell, for a concrete run of the Python fill. -/
theorem python_cell {β : Type*} [LinearOrder β] [OrderTop β] {dem r : Raster β} (hs : ¬ (dem.rows < 2 ∨ dem.cols < 2))
    (h : Returns (Fill.fillTerrain dem) (.ok r)) {c : Cell} {v : β} {k : Nat}
    (hk : ((Fill.fillTerrainLoop dem k).map fun r => r.get c) = some v) : r.get c = v := by
  obtain ⟨n, hn⟩ := h
  have h := hn (max n k) (le_max_left _ _)
  obtain ⟨q, hq, hq2⟩ := Option.map_eq_some_iff.1 hk
  have hq' : Fill.fillTerrainLoop dem (max n k) = some q := doWhile_mono hq (le_max_right n k)
  unfold Fill.fillTerrain at h
  rw [if_neg hs, hq'] at h
  simp only [Option.map_some, Option.some.injEq, Except.ok.injEq] at h
  rw [← h]; exact hq2

theorem yields_dem {K : Type} [Field K] [LinearOrder K] {β : Type} [LinearOrder β] [OrderTop β] {fl : K → K}
    {cc : Raster Bool → Raster Int × Nat} {demEngine : Dem.Engine β K} {eng : Bluespots.Engine β K} {sub : β → β → K}
    {safe : Raster β → (β → β) × (β → β)} {gt : GeoTransform K} {dem : Raster β} {want : Bool}
    {f : Option (Bluespots.StatUnits K → Bool)} {mm : K} {out : Complete.Out β K}
    (h : (Complete.processAllFl fl cc demEngine eng sub safe gt dem want f mm).Yields (.ok out)) :
    Returns (Dem.process demEngine sub safe (Complete.squareCellsFl fl gt) want dem) (.ok out.dem) := by
  obtain ⟨n, hn⟩ := h
  refine ⟨n, fun m hm => ?_⟩
  have : Complete.processAllFl fl cc demEngine eng sub safe gt dem want f mm m = some (.ok out) := hn m hm
  unfold Complete.processAllFl at this
  simp only [Run.bind_ok, Run.ofFuel_ok, Run.ofExcept_ok, Run.pure_ok] at this
  obtain ⟨d, hd, b, _, s, _, vol, _, fin, _, rfl⟩ := this
  exact hd

/-- `demoDem` with rational elevations. -/
def demoQ : Raster Rat := Raster.ofRows [[10,10,10,10],[10,10,0,10],[10,0,0,10],[1,10,10,10]]

set_option maxRecDepth 100000 in
/-- C82 is false: with the compiled functions `complete` writes other filled elevations for `demoQ`, whatever its options. -/
theorem C82_same_files_false (junk : Int × Int) {cc : Raster Bool → Raster Int × Nat} (hcc : LabelContract cc)
    {gt : GeoTransform Rat} (hsq : SquareCells gt) (want : Bool) (f : Bluespots.StatUnits Rat → Bool) (mm : Rat) {k : Rat}
    (hk : 0 < k) : ∃ out out',
    (Complete.processAll cc (Dem.python exactSub (· * k)) Bluespots.python exactSub (exactSafe 1 2) gt (finiteDem demoQ) want
      (some f) mm).Yields (.ok out) ∧
    (Complete.processAll cc (Dem.compiled junk exactSub (· * k)) (Bluespots.compiled junk) exactSub (exactSafe 1 2) gt
      (finiteDem demoQ) want (some f) mm).Yields (.ok out') ∧
    out.dem.filled.get (2, 2) = 1 ∧ out'.dem.filled.get (2, 2) = 10 := by
  obtain ⟨out, h1, _⟩ := C56_exact hcc hsq demoQ (by decide) (by decide) (short := 1) (diag := 2) (by norm_num) (by norm_num) hk want f mm
  obtain ⟨out', h2, _⟩ := C56_compiled_exact junk hcc hsq demoQ (by decide) (by decide) (short := 1) (diag := 2) (by norm_num)
    (by norm_num) hk want f mm
  refine ⟨out, out', h1, h2, ?_, ?_⟩
  · obtain ⟨_, hf, _⟩ := Dem.process_inv (yields_dem h1)
    have hf : Returns (Fill.fillTerrain (finiteDem demoQ)) (.ok out.dem.filled) := hf
    exact python_cell (by decide) hf (k := 9) (by decide +kernel)
  · obtain ⟨_, hf, _⟩ := Dem.process_inv (yields_dem h2)
    have hf : Returns (FillCython.fillTerrain (finiteDem demoQ)) (.ok out'.dem.filled) := hf
    exact compiled_cell (by decide) hf (k := 9) (by decide +kernel)

end Malstroem
