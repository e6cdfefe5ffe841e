/-
C102: the units of length and height and the origin of the coordinates do not matter.
-/
import Verif.Proofs.UnitsLevels
import Verif.Props.Datum
import Verif.Props.Levels

set_option linter.unusedSectionVars false

namespace Malstroem
open Spec

section Exact
variable {K : Type} [Field K] [LinearOrder K] [IsStrictOrderedRing K]

theorem exactSub_rescale (s : K) (a b : WithTop K) : exactSub (rescale s a) (rescale s b) = s * exactSub a b := by
  have h : ∀ z : WithTop K, (rescale s z).untopD 0 = s * z.untopD 0 := by
    intro z
    cases z using WithTop.recTopCoe with
    | top => exact (mul_zero s).symm
    | coe z => rfl
  unfold exactSub
  rw [h, h, mul_sub]

theorem results_inUnits {β β' : Type} (u : UnitChange K) (g : β → β') (o : Complete.Out β K) : u.Results g o (o.inUnits u g) :=
  ⟨rfl, rfl, rfl, rfl, rfl, rfl, rfl, rfl, rfl, rfl, rfl, rfl⟩

theorem sameRun_of_map {α α' : Type} {R : α → α' → Prop} {x : Run α} {x' : Run α'} {q : α → α'} (h : x' = q <$> x)
    (hq : ∀ a, R a (q a)) : SameRun R x x' := by
  subst h
  have key : ∀ n, (q <$> x : Run _) n = Option.map (Except.map q) (x n) := by
    intro n
    show (ExceptT.map q (x n) : ExceptT PyErr Option α') = _
    rcases x n with _ | _ | a <;> rfl
  refine ⟨fun e ⟨n, hn⟩ => ⟨n, fun m hm => ?_⟩, fun out ⟨n, hn⟩ => ⟨q out, ⟨n, fun m hm => ?_⟩, hq out⟩⟩
  · show (q <$> x : Run _) m = _
    rw [key, show x m = some (.error e) from hn m hm]; rfl
  · show (q <$> x : Run _) m = _
    rw [key, show x m = some (.ok out) from hn m hm]; rfl

/-- C102: `complete` up to the final state, with the Python and with the compiled functions. A georeference, elevations,
increments and rain in other units and coordinates give the same flow directions, bluespots, watersheds and networks, and
all results in the new units and coordinates: areas are squares of lengths, volumes areas times heights. The filter `f'` is the
filter `f` for the new units. `fl` rounds the results of operations; it has to commute with the change of units, as not
rounding does. -/
theorem C102_units (u : UnitChange K) (hl : 0 < u.len) (hh : 0 < u.height) {fl : K → K} (hfl : ∀ x, fl (u.len * x) = u.len * fl x)
    (hfh : ∀ x, fl (u.height * x) = u.height * fl x) (short diag q : K) (junk : Int × Int) (cc : Raster Bool → Raster Int × Nat)
    (gt : GeoTransform K) (dem : Raster (WithTop K)) (want : Bool) {f f' : Bluespots.StatUnits K → Bool}
    (hf : ∀ s, f' (u.stats s) = f s) (mm : K) :
    SameRun (u.Results (rescale u.height))
      (Complete.processAllFl fl cc (Dem.python exactSub (· * q)) (Bluespots.pythonFl fl) exactSub (exactSafe short diag) gt
        dem want (some f) mm)
      (Complete.processAllFl fl cc (Dem.python exactSub (· * q)) (Bluespots.pythonFl fl) exactSub
        (exactSafe (u.height * short) (u.height * diag)) (u.transform gt) (dem.map (rescale u.height)) want (some f')
        (u.height * mm)) ∧
    SameRun (u.Results (rescale u.height))
      (Complete.processAllFl fl cc (Dem.compiled junk exactSub (· * q)) (Bluespots.compiledFl fl junk) exactSub
        (exactSafe short diag) gt dem want (some f) mm)
      (Complete.processAllFl fl cc (Dem.compiled junk exactSub (· * q)) (Bluespots.compiledFl fl junk) exactSub
        (exactSafe (u.height * short) (u.height * diag)) (u.transform gt) (dem.map (rescale u.height)) want (some f')
        (u.height * mm)) := by
  have hg := rescale_strictMono hh
  have ht : rescale u.height ⊤ = ⊤ := rfl
  have hq : ∀ x : K, (u.height * x) * q = u.height * (x * q) := fun x => mul_assoc _ _ _
  exact ⟨sameRun_of_map (Complete.processAll_units hl hh ⟨hfl, hfh⟩ (Dem.python_commutes hg ht (exactSub_rescale u.height) hq)
      (Bluespots.python_units hg ht hh hfh) cc (exactSub_rescale u.height) dem (safe_rescale short u.height)
      (safe_rescale diag u.height) gt want hf mm) (results_inUnits u _),
    sameRun_of_map (Complete.processAll_units hl hh ⟨hfl, hfh⟩ (Dem.compiled_commutes hg ht junk (exactSub_rescale u.height) hq)
      (Bluespots.compiled_units hg ht hh hfh junk) cc (exactSub_rescale u.height) dem (safe_rescale short u.height)
      (safe_rescale diag u.height) gt want hf mm) (results_inUnits u _)⟩

theorem levels_run_units [FloorRing K] {u : UnitChange K} (hl : 0 < u.len) (hh : 0 < u.height) (gt : GeoTransform K) (z : Raster K)
    (hz : ∀ c, z.Has c → -999 < z.get c ∧ -999 < u.height * z.get c) (res : K) {x x' : Run (Complete.Out (WithTop K) K)}
    (h : x' = Complete.Out.inUnits u (rescale u.height) <$> x) :
    SameRun (fun r r' => u.Results (rescale u.height) r.1 r'.1 ∧ u.Levels r.2 r'.2)
      (x >>= fun out => Run.ofExcept ((fun l => (out, l)) <$> Complete.levelsOf z gt res out))
      (x' >>= fun out => Run.ofExcept ((fun l => (out, l)) <$>
        Complete.levelsOf (z.map (u.height * ·)) (u.transform gt) (u.height * res) out)) := by
  subst h
  have hrel := fun out => Complete.levelsOf_units hl hh (rescale u.height) z hz gt res out
  rw [bind_map_left]
  refine ⟨fun e ⟨n, hn⟩ => ⟨n, fun m hm => ?_⟩, fun r ⟨n, hn⟩ => ?_⟩
  · have hxm := hn m hm
    change (ExceptT.bind (x m) _ : ExceptT PyErr Option _) = _ at hxm
    show (ExceptT.bind (x m) _ : ExceptT PyErr Option _) = _
    generalize x m = y at hxm ⊢
    rcases y with _ | e' | out
    · cases hxm
    · injection hxm with hxm
      injection hxm with hxm
      subst hxm
      rfl
    · have ho := hrel out
      change some ((fun l => (out, l)) <$> Complete.levelsOf _ _ _ out) = _ at hxm
      show some ((fun l => (_, l)) <$> Complete.levelsOf _ _ _ _) = _
      revert ho hxm
      generalize Complete.levelsOf _ gt res out = y
      generalize Complete.levelsOf _ _ _ (out.inUnits u (rescale u.height)) = y'
      intro ho hxm
      cases ho with
      | ok _ => cases hxm
      | error e' =>
        injection hxm with hxm
        injection hxm with hxm
        subst hxm
        rfl
  · obtain ⟨out, l⟩ := r
    have hx : ∀ m, n ≤ m → x m = some (.ok out) ∧
        Complete.levelsOf z gt res out = .ok l := by
      intro m hm
      have hxm := hn m hm
      change (ExceptT.bind (x m) _ : ExceptT PyErr Option _) = _ at hxm
      generalize hxy : x m = y at hxm ⊢
      rcases y with _ | e' | out'
      · cases hxm
      · cases hxm
      · change some ((fun l => (out', l)) <$> Complete.levelsOf _ _ _ out') = _ at hxm
        rcases hy : Complete.levelsOf z gt res out' with e | l'
        · rw [hy] at hxm; cases hxm
        · rw [hy] at hxm
          injection hxm with hxm
          injection hxm with hxm
          injection hxm with e1 e2
          subst e1 e2
          exact ⟨rfl, hy⟩
    have ho := hrel out
    rw [(hx n (le_refl n)).2] at ho
    generalize hy : Complete.levelsOf _ _ _ (out.inUnits u (rescale u.height)) = y at ho
    cases ho with
    | ok ho =>
      rename_i l'
      refine ⟨(out.inUnits u (rescale u.height), l'), ⟨n, fun m hm => ?_⟩, results_inUnits u _ out, ?_⟩
      · show (ExceptT.bind (x m) _ : ExceptT PyErr Option _) = _
        rw [(hx m hm).1]
        show some ((fun l => (_, l)) <$> Complete.levelsOf _ _ _ _) = _
        rw [hy]
        rfl
      · obtain ⟨a1, a2, d, d', e, e', b1, b2, ⟨c1, c2, c3⟩, c4, c5, c6⟩ := ho
        injection b1 with b1 b1'
        injection b2 with b2 b2'
        refine ⟨a1, a2, ⟨d, d', b1, b2, c1, c2, fun c hc => c3 c ?_⟩, ⟨e, e', b1', b2', c4, c5, fun c hc => c6 c ?_⟩⟩
        · unfold Raster.Has at *
          rw [c1, c2]
          exact hc
        · unfold Raster.Has at *
          rw [c4, c5]
          exact hc

/-- C102: the whole of `complete` with exact arithmetic, hypsometry, water levels and flooded areas included. The level of the
background is the constant -999, so all elevations have to be above it in both units. -/
theorem C102_levels [FloorRing K] (u : UnitChange K) (hl : 0 < u.len) (hh : 0 < u.height) (short diag q : K) (junk : Int × Int)
    (cc : Raster Bool → Raster Int × Nat) (gt : GeoTransform K) (dem : Raster K)
    (hz : ∀ c, dem.Has c → -999 < dem.get c ∧ -999 < u.height * dem.get c) (want : Bool) {f f' : Bluespots.StatUnits K → Bool}
    (hf : ∀ s, f' (u.stats s) = f s) (mm zresolution : K) :
    SameRun (fun r r' => u.Results (rescale u.height) r.1 r'.1 ∧ u.Levels r.2 r'.2)
      (Complete.processWithLevels (·.untopD 0) cc (Dem.python exactSub (· * q)) Bluespots.python exactSub (exactSafe short diag)
        gt (finiteDem dem) want (some f) mm zresolution)
      (Complete.processWithLevels (·.untopD 0) cc (Dem.python exactSub (· * q)) Bluespots.python exactSub
        (exactSafe (u.height * short) (u.height * diag)) (u.transform gt)
        (finiteDem ⟨dem.rows, dem.cols, fun c => u.height * dem.get c⟩) want (some f') (u.height * mm) (u.height * zresolution)) ∧
    SameRun (fun r r' => u.Results (rescale u.height) r.1 r'.1 ∧ u.Levels r.2 r'.2)
      (Complete.processWithLevels (·.untopD 0) cc (Dem.compiled junk exactSub (· * q)) (Bluespots.compiled junk) exactSub
        (exactSafe short diag) gt (finiteDem dem) want (some f) mm zresolution)
      (Complete.processWithLevels (·.untopD 0) cc (Dem.compiled junk exactSub (· * q)) (Bluespots.compiled junk) exactSub
        (exactSafe (u.height * short) (u.height * diag)) (u.transform gt)
        (finiteDem ⟨dem.rows, dem.cols, fun c => u.height * dem.get c⟩) want (some f') (u.height * mm) (u.height * zresolution)) := by
  have hg := rescale_strictMono hh
  have ht : rescale u.height ⊤ = ⊤ := rfl
  have hq : ∀ x : K, (u.height * x) * q = u.height * (x * q) := fun x => mul_assoc _ _ _
  have hid : u.Homogeneous id := ⟨fun _ => rfl, fun _ => rfl⟩
  have h1 := Complete.processAll_units hl hh hid (Dem.python_commutes (scale := (· * q)) (scale' := (· * q)) hg ht (exactSub_rescale u.height) hq)
      (Bluespots.python_units (fl := id) hg ht hh fun _ => rfl) cc (exactSub_rescale u.height) (finiteDem dem) (safe_rescale short u.height)
      (safe_rescale diag u.height) gt want hf mm (safe := exactSafe short diag) (safe' := exactSafe (u.height * short) (u.height * diag))
  have h2 := Complete.processAll_units hl hh hid (Dem.compiled_commutes (scale := (· * q)) (scale' := (· * q)) hg ht junk (exactSub_rescale u.height) hq)
      (Bluespots.compiled_units (fl := id) hg ht hh (fun _ => rfl) junk) cc (exactSub_rescale u.height) (finiteDem dem)
      (safe_rescale short u.height) (safe_rescale diag u.height) gt want hf mm (safe := exactSafe short diag)
      (safe' := exactSafe (u.height * short) (u.height * diag))
  have e1 := levels_run_units hl hh gt dem hz zresolution h1
  have e2 := levels_run_units hl hh gt dem hz zresolution h2
  rw [Complete.processWithLevels_eq, Complete.processWithLevels_eq, Complete.processWithLevels_eq, Complete.processWithLevels_eq]
  exact ⟨e1, e2⟩

/-- The results up to the final state, those in `o'` moved by `dx`, `dy`. -/
structure MovedResults {β : Type} (dx dy : K) (o o' : Complete.Out β K) : Prop where
  dem : o'.dem = o.dem
  bluespots : o'.bluespots.labeled = o.bluespots.labeled
  nlabels : o'.bluespots.nlabels = o.bluespots.nlabels
  watersheds : o'.bluespots.watersheds = o.bluespots.watersheds
  pourpoints : o'.bluespots.pourpoints =
    o.bluespots.pourpoints.map fun p => { p with coordinates := (p.coordinates.1 + dx, p.coordinates.2 + dy) }
  nodes : List.Forall₂ (Moved dx dy) o.nodes o'.nodes
  streams : List.Forall₂ (Moved dx dy) o.streams o'.streams
  volumes : List.Forall₂ (Moved dx dy) o.volumes o'.volumes
  final : List.Forall₂ (Moved dx dy) o.final o'.final

theorem moved_feature (dx dy : K) (f : Feature K) : Moved dx dy f ((⟨1, 1, dx, dy⟩ : UnitChange K).feature f) := by
  have hp : (⟨1, 1, dx, dy⟩ : UnitChange K).point = fun xy => (xy.1 + dx, xy.2 + dy) := by
    funext xy
    simp [UnitChange.point]
  have hfac : ∀ k c, (⟨1, 1, dx, dy⟩ : UnitChange K).factor k = some c → c = 1 := by
    intro k c h
    unfold UnitChange.factor UnitChange.volume UnitChange.area at h
    split_ifs at h <;> simp_all
  refine ⟨rfl, ?_, ?_⟩
  · show UnitChange.geometry _ f.geometry = _
    unfold UnitChange.geometry moveGeometry
    rw [hp]
  · show List.Forall₂ _ f.properties (f.properties.map _)
    rw [List.forall₂_map_right_iff]
    refine List.forall₂_same.2 fun kv _ => ⟨rfl, ?_⟩
    show SameNumber kv.2 (UnitChange.value (UnitChange.factor _ kv.1) kv.2)
    rcases hc : (⟨1, 1, dx, dy⟩ : UnitChange K).factor kv.1 with _ | c
    · rw [UnitChange.value_none]; exact Or.inl rfl
    · obtain rfl := hfac _ _ hc
      rcases kv.2 with _ | i | x | _ | _ | _ | _ <;> first | exact Or.inl rfl | skip
      · exact Or.inr ⟨i, rfl, by simp [UnitChange.value]⟩
      · exact Or.inl (by simp [UnitChange.value])

theorem moved_features (dx dy : K) (l : List (Feature K)) :
    List.Forall₂ (Moved dx dy) l (l.map (⟨1, 1, dx, dy⟩ : UnitChange K).feature) := by
  rw [List.forall₂_map_right_iff]
  exact List.forall₂_same.2 fun f _ => moved_feature dx dy f

theorem map_one (r : Raster K) : r.map ((1 : K) * ·) = r := by
  unfold Raster.map
  simp only [one_mul]

theorem moved_results {β : Type} (dx dy : K) (o : Complete.Out β K) :
    MovedResults dx dy o (o.inUnits (⟨1, 1, dx, dy⟩ : UnitChange K) id) := by
  refine ⟨?_, rfl, rfl, rfl, ?_, moved_features dx dy _, moved_features dx dy _, moved_features dx dy _, moved_features dx dy _⟩
  · show (⟨o.dem.filled.map id, o.dem.depths.map ((1 : K) * ·), o.dem.noFlats.map id, o.dem.flowdir, o.dem.accum⟩ : Dem.Out β K) = _
    rw [map_one]
    rfl
  · show List.map _ _ = List.map _ _
    refine List.map_congr_left fun p _ => ?_
    have h1 : ∀ t : WithBot K, t.map (fun x : K => x) = t := by
      intro t
      cases t using WithBot.recBotCoe <;> rfl
    simp only [UnitChange.pourPoint, UnitChange.point, UnitChange.area, UnitChange.volume, one_mul, h1, Option.map_id']

/-- C102: another origin of the coordinates moves the geometries and changes nothing else, whatever the elevations, the functions
used, the filter and the rounding of results. -/
theorem C102_moved {β : Type} [LinearOrder β] [OrderTop β] (dx dy : K) (fl : K → K) (cc : Raster Bool → Raster Int × Nat)
    (de : Dem.Engine β K) (be : Bluespots.Engine β K) (sub : β → β → K) (safe : Raster β → (β → β) × (β → β)) (gt : GeoTransform K)
    (dem : Raster β) (want : Bool) (f : Bluespots.StatUnits K → Bool) (mm : K) :
    SameRun (MovedResults dx dy)
      (Complete.processAllFl fl cc de be sub safe gt dem want (some f) mm)
      (Complete.processAllFl fl cc de be sub safe { gt with t0 := gt.t0 + dx, t3 := gt.t3 + dy } dem want (some f) mm) := by
  have hopt : ∀ y : Option (Except PyErr (Raster β)), y.map (Except.map (Raster.map id)) = y := by
    intro y
    rcases y with _ | _ | r <;> rfl
  have hde : de.Commutes id ((1 : K) * ·) de :=
    ⟨fun dem n => (hopt _).symm, fun {s d s' d'} hs hd dem n => by
      obtain rfl : s' = s := funext hs
      obtain rfl : d' = d := funext hd
      exact (hopt _).symm, fun a b => (one_mul _).symm,
      fun x => by simp only [one_mul], rfl⟩
  have ht : ∀ s : Label.Stat K, s.times 1 = s := by
    rintro ⟨mn, mx, sm, ct⟩
    unfold Label.Stat.times
    congr 1
    · cases mn using WithTop.recTopCoe with
      | top => rfl
      | coe x => show ((1 * x : K) : WithTop K) = _; rw [one_mul]
    · cases mx using WithBot.recBotCoe with
      | bot => rfl
      | coe x => show ((1 * x : K) : WithBot K) = _; rw [one_mul]
    · exact one_mul _
  have hbe : be.CommutesUnits id (1 : K) be := by
    refine ⟨fun {s d s' d'} hs hd dem n => ?_, rfl, fun data lab n => ?_, fun data lab n => ?_⟩
    · obtain rfl : s' = s := funext hs
      obtain rfl : d' = d := funext hd
      exact (hopt _).symm
    · rw [map_one, show (Label.Stat.times 1 : Label.Stat K → _) = id from funext ht, List.map_id_fun, id_map]
    · show be.labelMinIndex data lab n = Except.map (List.map (Label.Index.map id)) _
      rcases be.labelMinIndex data lab n with e | l
      · rfl
      · show Except.ok l = Except.ok (List.map (Label.Index.map id) l)
        rw [show (Label.Index.map id : Label.Index β → Label.Index β) = id from rfl, List.map_id_fun]
        rfl
  have hstats : ∀ s : Bluespots.StatUnits K, f ((⟨1, 1, dx, dy⟩ : UnitChange K).stats s) = f s := by
    rintro ⟨mn, mx, sm, ct, vol, ar⟩
    congr 1
    have e1 : mn.map (fun x : K => x) = mn := by cases mn using WithTop.recTopCoe <;> rfl
    have e2 : mx.map (fun x : K => x) = mx := by cases mx using WithBot.recBotCoe <;> rfl
    unfold UnitChange.stats UnitChange.volume UnitChange.area
    simp only [one_mul, e1, e2]
  have h := Complete.processAll_units (u := (⟨1, 1, dx, dy⟩ : UnitChange K)) (fl := fl) (g := id) one_pos one_pos
    ⟨fun x => by simp only [one_mul], fun x => by simp only [one_mul]⟩ hde hbe cc (sub := sub) (sub' := sub)
    (fun a b => (one_mul _).symm) (safe := safe) (safe' := safe) dem (fun _ => rfl) (fun _ => rfl) gt want hstats mm
  rw [show (⟨1, 1, dx, dy⟩ : UnitChange K).transform gt = { gt with t0 := gt.t0 + dx, t3 := gt.t3 + dy } by
    simp [UnitChange.transform], show dem.map id = dem from rfl, show (⟨1, 1, dx, dy⟩ : UnitChange K).height = 1 from rfl, one_mul] at h
  exact sameRun_of_map h (moved_results dx dy)

end Exact

/-- From metres to lengths in half metres and heights in centimetres, with another origin. -/
def demoUnits : UnitChange Rat := ⟨2, 100, 5, 7⟩

/-- A change of units, a filter in old and new units, and a DEM that meet the hypotheses. -/
example : 0 < demoUnits.len ∧ 0 < demoUnits.height ∧
    (∀ s : Bluespots.StatUnits Rat, (fun s : Bluespots.StatUnits Rat => decide (4 * 8 < s.area ∧ 400 * 2 < s.volume)) (demoUnits.stats s) =
      (fun s : Bluespots.StatUnits Rat => decide (8 < s.area ∧ 2 < s.volume)) s) ∧
    ∀ c, demoValley.Has c → -999 < demoValley.get c ∧ -999 < demoUnits.height * demoValley.get c := by
  have h1 : ∀ c ∈ demoValley.cells, 0 ≤ demoValley.get c := by decide +kernel
  have h0 : ∀ c, demoValley.Has c → 0 ≤ demoValley.get c := fun c hc => h1 c (Flow.mem_cellList.2 hc)
  refine ⟨by decide +kernel, by decide +kernel, fun s => ?_, fun c hc => ⟨by linarith [h0 c hc], ?_⟩⟩
  · have : ∀ x : Rat, 8 < x ↔ 4 * 8 < 2 * 2 * x := fun x => by constructor <;> intro h <;> linarith
    have h2 : ∀ x : Rat, 2 < x ↔ 400 * 2 < 2 * 2 * 100 * x := fun x => by constructor <;> intro h <;> linarith
    exact decide_eq_decide.2 (and_congr (this _).symm (h2 _).symm)
  · have : (0 : Rat) ≤ demoUnits.height * demoValley.get c := mul_nonneg (by decide +kernel) (h0 c hc)
    linarith

set_option synthInstance.maxSize 1000 in
/-- The example of `Props/Levels.lean` in these units: 12 m³ are 12 * 400 new units, the level 2.625 m is 262.5 cm, and the
depths are 100 times those in metres. -/
example : ((Complete.processWithLevels (·.untopD 0) demoValleyCC (Dem.python exactSub (· * (7/10))) Bluespots.python exactSub
      (exactSafe (100 * (1/1000)) (100 * (14/10000))) (demoUnits.transform ⟨0, 2, 0, 0, 0, -2⟩)
      (finiteDem ⟨demoValley.rows, demoValley.cols, fun c => 100 * demoValley.get c⟩) false (some fun _ => true) (100 * 500 : Rat)
        (100 * (1/4))).run 40).run.map (fun r => r.toOption.map fun o => (o.2.levels.map fun f =>
          [Dict.get? f.properties "bspot_id", Dict.get? f.properties "v", Dict.get? f.properties "approx_z"],
          o.2.depths.map (·.toRows), o.2.extent.map (·.toRows))) =
    some (some ([[some (.int 0), some (.num 0), some (.num 400)], [some (.int 1), some (.num 4800), some (.num (525/2))]],
      some [[0,0,0,0,0],[0,0,125/2,325/2,0],[0,125/2,0,125/2,0],[0,0,0,0,0]],
      some [[0,0,0,0,0],[0,0,1,1,0],[0,1,0,1,0],[0,0,0,0,0]])) := by
  decide +kernel

/-- The valley with another origin: the pour points are elsewhere and hold the same water. -/
example : ((Complete.processAll demoValleyCC (Dem.python exactSub (· * (7/10))) Bluespots.python exactSub
      (exactSafe (1/1000) (14/10000)) ⟨1000, 2, 0, 500, 0, -2⟩ (finiteDem demoValley) false (some fun _ => true) (2000 : Rat)).run 40).run.map
        (fun r => r.toOption.map fun o => o.final.map fun f => (f.geometry, Dict.get? f.properties "v")) =
    ((Complete.processAll demoValleyCC (Dem.python exactSub (· * (7/10))) Bluespots.python exactSub
      (exactSafe (1/1000) (14/10000)) ⟨0, 2, 0, 0, 0, -2⟩ (finiteDem demoValley) false (some fun _ => true) (2000 : Rat)).run 40).run.map
        (fun r => r.toOption.map fun o => o.final.map fun f => (moveGeometry 1000 500 f.geometry, Dict.get? f.properties "v")) := by
  decide +kernel

end Malstroem
