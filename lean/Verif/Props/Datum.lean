/-
C85: the height datum and the unit of the elevations do not matter.
-/
import Verif.Proofs.Datum
import Verif.Props.Complete
import Mathlib.Algebra.Order.Monoid.WithTop
import Mathlib.Tactic.Linarith
import Mathlib.Tactic.NormNum
import Mathlib.Tactic.Ring

set_option linter.unusedSectionVars false

namespace Malstroem
open Spec

/-! ### Filling and any change of elevations that keeps their order -/

section Order
variable {β β' : Type*} [LinearOrder β] [OrderTop β] [LinearOrder β'] [OrderTop β']

theorem highest_map {g : β → β'} (hg : Monotone g) {dem : Cell → β} {p : List Cell} {z : β} (h : IsHighest dem p z) :
    IsHighest (fun c => g (dem c)) p (g z) := by
  obtain ⟨⟨x, hx, rfl⟩, hub⟩ := h
  refine ⟨⟨x, hx, rfl⟩, ?_⟩
  rintro _ ⟨y, hy, rfl⟩
  exact hg (hub ⟨y, hy, rfl⟩)

theorem spill_map {g : β → β'} (hg : Monotone g) {rows cols : Nat} {dem : Cell → β} {c : Cell} {z : β}
    (h : IsSpillLevel rows cols dem c z) : IsSpillLevel rows cols (fun c => g (dem c)) c (g z) := by
  obtain ⟨⟨p, hp, hz⟩, hlb⟩ := h
  refine ⟨⟨p, hp, highest_map hg hz⟩, ?_⟩
  rintro w ⟨q, hq, hw⟩
  have hne : q ≠ [] := by obtain ⟨_, rfl⟩ := hq.exists_cons; simp
  have hh := Fill.isHighest_climb dem hne
  rw [hw.unique (highest_map hg hh)]
  exact hg (hlb ⟨q, hq, hh⟩)

/-- C85: filling commutes with every change of elevations that keeps their order, also with one that makes different
elevations equal, like rounding. -/
theorem C85_fill_commutes {g : β → β'} (hg : Monotone g) (dem r : Raster β) (r' : Raster β')
    (h : Returns (Fill.fillTerrain dem) (.ok r)) (h' : Returns (Fill.fillTerrain (dem.map g)) (.ok r')) :
    r'.Same (r.map g) := by
  have hI := (Fill.inv_of_returns h).1
  have hI' := (Fill.inv_of_returns h').1
  refine ⟨by rw [hI'.rows, Raster.map_rows, Raster.map_rows, hI.rows],
    by rw [hI'.cols, Raster.map_cols, Raster.map_cols, hI.cols], fun c hc => ?_⟩
  have hc : dem.Has c := by unfold Raster.Has at *; rwa [hI'.rows, hI'.cols] at hc
  exact (C04_fill_eq_spill_level _ r' h' c hc).unique (spill_map hg (C04_fill_eq_spill_level dem r h c hc))

end Order

section Exact
variable {K : Type} [Field K] [LinearOrder K] [IsStrictOrderedRing K]

/-- The elevation `z` read from a datum that lies `k` lower. -/
def raise (k : K) (z : WithTop K) : WithTop K := z + (k : WithTop K)

/-- The elevation `z` in a unit of which `a` make up the old one. -/
def rescale (a : K) (z : WithTop K) : WithTop K := z.map (a * ·)

/-- Exact difference of two finite elevations. -/
def exactDiff (a b : WithTop K) : K :=
  match a, b with
  | (x : K), (y : K) => x - y
  | _, _ => 0

theorem raise_strictMono (k : K) : StrictMono (raise k) := by
  intro a b h
  cases a using WithTop.recTopCoe with
  | top => exact absurd h not_top_lt
  | coe a => cases b using WithTop.recTopCoe with
    | top => unfold raise; rw [← WithTop.coe_add, WithTop.top_add]; exact WithTop.coe_lt_top _
    | coe b =>
      unfold raise
      rw [← WithTop.coe_add, ← WithTop.coe_add]
      exact WithTop.coe_lt_coe.2 (by have := WithTop.coe_lt_coe.1 h; linarith)

theorem rescale_strictMono {a : K} (ha : 0 < a) : StrictMono (rescale a) := by
  intro x y h
  cases x using WithTop.recTopCoe with
  | top => exact absurd h not_top_lt
  | coe x => cases y using WithTop.recTopCoe with
    | top => exact WithTop.coe_lt_top _
    | coe y => exact WithTop.coe_lt_coe.2 (mul_lt_mul_of_pos_left (WithTop.coe_lt_coe.1 h) ha)

theorem exactDiff_raise (k : K) (a b : WithTop K) : exactDiff (raise k a) (raise k b) = exactDiff a b := by
  cases a using WithTop.recTopCoe with
  | top => rfl
  | coe a => cases b using WithTop.recTopCoe with
    | top => rfl
    | coe b =>
      show (a + k) - (b + k) = a - b
      ring

theorem exactDiff_rescale (s : K) (a b : WithTop K) : exactDiff (rescale s a) (rescale s b) = s * exactDiff a b := by
  cases a using WithTop.recTopCoe with
  | top => exact (mul_zero s).symm
  | coe a => cases b using WithTop.recTopCoe with
    | top => exact (mul_zero s).symm
    | coe b =>
      show s * a - s * b = s * (a - b)
      ring

theorem safe_raise (e k : K) (x : WithTop K) : raise k x + (e : WithTop K) = raise k (x + (e : WithTop K)) :=
  add_right_comm _ _ _

theorem safe_rescale (e s : K) (x : WithTop K) : rescale s x + ((s * e : K) : WithTop K) = rescale s (x + (e : WithTop K)) := by
  cases x using WithTop.recTopCoe with
  | top => rfl
  | coe x =>
    show ((s * x : K) : WithTop K) + _ = ((s * (x + e) : K) : WithTop K)
    rw [← WithTop.coe_add]
    congr 1
    ring

/-- C85: filling does not enlarge errors: if two DEMs differ by at most `e` everywhere, so do the filled ones. -/
theorem C85_fill_nonexpansive (e : K) (dem dem' : Raster (WithTop K)) (r r' : Raster (WithTop K))
    (hrows : dem.rows = dem'.rows) (hcols : dem.cols = dem'.cols)
    (hle : ∀ c, dem.Has c → dem.get c ≤ dem'.get c + e ∧ dem'.get c ≤ dem.get c + e)
    (h : Returns (Fill.fillTerrain dem) (.ok r)) (h' : Returns (Fill.fillTerrain dem') (.ok r')) :
    ∀ c, dem.Has c → r.get c ≤ r'.get c + e ∧ r'.get c ≤ r.get c + e := by
  have one : ∀ (d d' s s' : Raster (WithTop K)), d.rows = d'.rows → d.cols = d'.cols →
      (∀ c, d.Has c → d.get c ≤ d'.get c + e) → Returns (Fill.fillTerrain d) (.ok s) →
      Returns (Fill.fillTerrain d') (.ok s') → ∀ c, d.Has c → s.get c ≤ s'.get c + e := by
    intro d d' s s' hr hc hd hs hs' c hcell
    have hmap : Returns (Fill.fillTerrain (d'.map (raise e))) (.ok (s'.map (raise e))) := by
      obtain ⟨n, hn⟩ := hs'
      refine ⟨n, fun m hm => ?_⟩
      rw [Fill.fillTerrain_map (raise_strictMono e) rfl, hn m hm]
      rfl
    exact C05_fill_monotone d (d'.map (raise e)) s (s'.map (raise e)) hr hc hd hs hmap c hcell
  intro c hc
  refine ⟨one dem dem' r r' hrows hcols (fun c hc => (hle c hc).1) h h' c hc, ?_⟩
  refine one dem' dem r' r hrows.symm hcols.symm (fun c hc => (hle c ?_).2) h' h c ?_
  · unfold Raster.Has at *; rwa [hrows, hcols]
  · unfold Raster.Has at *; rwa [← hrows, ← hcols]

/-- Two runs of the command of which the second has all elevations raised by `k`: both fail in the same way, or the
filled elevations are raised by `k` and everything else is the same. -/
def SameButRaised (k : K) (x x' : Run (Complete.Out (WithTop K) K)) : Prop :=
  (∀ e, x.Yields (.error e) → x'.Yields (.error e)) ∧
  ∀ out, x.Yields (.ok out) → ∃ out', x'.Yields (.ok out') ∧
    (∀ c, out'.dem.filled.get c = out.dem.filled.get c + k) ∧
    out'.dem.filled.rows = out.dem.filled.rows ∧ out'.dem.filled.cols = out.dem.filled.cols ∧
    out'.dem.depths = out.dem.depths ∧ out'.dem.flowdir = out.dem.flowdir ∧ out'.dem.accum = out.dem.accum ∧
    out'.bluespots = out.bluespots ∧ out'.nodes = out.nodes ∧ out'.streams = out.streams ∧
    out'.volumes = out.volumes ∧ out'.final = out.final

theorem sameButRaised_of_map {k : K} {x x' : Run (Complete.Out (WithTop K) K)}
    (h : x' = Complete.Out.map (raise k) <$> x) : SameButRaised k x x' := by
  subst h
  have key : ∀ n, (Complete.Out.map (raise k) <$> x : Run _) n =
      Option.map (Except.map (Complete.Out.map (raise k))) (x n) := by
    intro n
    show (ExceptT.map (Complete.Out.map (raise k)) (x n) : ExceptT PyErr Option (Complete.Out (WithTop K) K)) = _
    rcases x n with _ | _ | a <;> rfl
  refine ⟨fun e ⟨n, hn⟩ => ⟨n, fun m hm => ?_⟩, fun out ⟨n, hn⟩ => ⟨out.map (raise k), ⟨n, fun m hm => ?_⟩, ?_⟩⟩
  · show (Complete.Out.map (raise k) <$> x : Run _) m = _
    rw [key, show x m = some (.error e) from hn m hm]; rfl
  · show (Complete.Out.map (raise k) <$> x : Run _) m = _
    rw [key, show x m = some (.ok out) from hn m hm]; rfl
  · exact ⟨fun _ => rfl, rfl, rfl, rfl, rfl, rfl, rfl, rfl, rfl, rfl, rfl⟩

/-- C85: raising all elevations by a constant raises the filled elevations by it and changes nothing else that `complete`
writes up to the final state, with the Python and with the compiled functions. -/
theorem C85_datum (k short diag : K) (scale fl : K → K) (junk : Int × Int) (cc : Raster Bool → Raster Int × Nat)
    (gt : GeoTransform K) (dem : Raster (WithTop K)) (want : Bool) (f : Option (Bluespots.StatUnits K → Bool)) (mm : K) :
    SameButRaised k
      (Complete.processAllFl fl cc (Dem.python exactDiff scale) (Bluespots.pythonFl fl) exactDiff (exactSafe short diag) gt
        dem want f mm)
      (Complete.processAllFl fl cc (Dem.python exactDiff scale) (Bluespots.pythonFl fl) exactDiff (exactSafe short diag) gt
        (dem.map (raise k)) want f mm) ∧
    SameButRaised k
      (Complete.processAllFl fl cc (Dem.compiled junk exactDiff scale) (Bluespots.compiledFl fl junk) exactDiff
        (exactSafe short diag) gt dem want f mm)
      (Complete.processAllFl fl cc (Dem.compiled junk exactDiff scale) (Bluespots.compiledFl fl junk) exactDiff
        (exactSafe short diag) gt (dem.map (raise k)) want f mm) := by
  have hg := raise_strictMono k
  have ht : raise k ⊤ = ⊤ := rfl
  have h1 := Complete.processAll_map (K := K) (Dem.python_commutes (scale := scale) hg ht (exactDiff_raise k) fun _ => rfl)
    (Bluespots.python_commutes hg ht fl) fl cc (exactDiff_raise k) (safe := exactSafe short diag)
    (safe' := exactSafe short diag) dem (safe_raise short k) (safe_raise diag k) gt want f mm
  have h2 := Complete.processAll_map (K := K) (Dem.compiled_commutes (scale := scale) hg ht junk (exactDiff_raise k) fun _ => rfl)
    (Bluespots.compiled_commutes hg ht fl junk) fl cc (exactDiff_raise k) (safe := exactSafe short diag)
    (safe' := exactSafe short diag) dem (safe_raise short k) (safe_raise diag k) gt want f mm
  exact ⟨sameButRaised_of_map h1, sameButRaised_of_map h2⟩

/-- What becomes of the results of DemTool in another unit of elevation. -/
def SameInUnit (a : K) (x x' : Nat → Option (Except PyErr (Dem.Out (WithTop K) K))) : Prop :=
  (∀ e, Returns x (.error e) → Returns x' (.error e)) ∧
  ∀ out, Returns x (.ok out) → ∃ out', Returns x' (.ok out') ∧
    (∀ c, out'.filled.get c = rescale a (out.filled.get c)) ∧
    out'.filled.rows = out.filled.rows ∧ out'.filled.cols = out.filled.cols ∧
    (∀ c, out'.depths.get c = a * out.depths.get c) ∧
    out'.depths.rows = out.depths.rows ∧ out'.depths.cols = out.depths.cols ∧
    out'.flowdir = out.flowdir ∧ out'.accum = out.accum

theorem sameInUnit_of_map {a : K} {x x' : Nat → Option (Except PyErr (Dem.Out (WithTop K) K))}
    (h : ∀ n, x' n = (x n).map (Except.map (Dem.Out.map (rescale a) (a * ·)))) : SameInUnit a x x' := by
  refine ⟨fun e ⟨n, hn⟩ => ⟨n, fun m hm => ?_⟩, fun out ⟨n, hn⟩ => ⟨out.map (rescale a) (a * ·), ⟨n, fun m hm => ?_⟩, ?_⟩⟩
  · rw [h, hn m hm]; rfl
  · rw [h, hn m hm]; rfl
  · exact ⟨fun _ => rfl, rfl, rfl, fun _ => rfl, rfl, rfl, rfl, rfl⟩

/-- C85: expressing elevations (and the increments `short` and `diag`) in another unit expresses filled elevations and
depths in that unit and leaves flow directions and accumulated flow as they are. -/
theorem C85_unit {a : K} (ha : 0 < a) (short diag q : K) (junk : Int × Int) (dem : Raster (WithTop K)) (square want : Bool) :
    SameInUnit a
      (Dem.process (Dem.python exactDiff (· * q)) exactDiff (exactSafe short diag) square want dem)
      (Dem.process (Dem.python exactDiff (· * q)) exactDiff (exactSafe (a * short) (a * diag)) square want
        (dem.map (rescale a))) ∧
    SameInUnit a
      (Dem.process (Dem.compiled junk exactDiff (· * q)) exactDiff (exactSafe short diag) square want dem)
      (Dem.process (Dem.compiled junk exactDiff (· * q)) exactDiff (exactSafe (a * short) (a * diag)) square want
        (dem.map (rescale a))) := by
  have hg := rescale_strictMono ha
  have ht : rescale a ⊤ = ⊤ := rfl
  have hh : StrictMono (a * ·) := fun x y h => mul_lt_mul_of_pos_left h ha
  have hq : ∀ x : K, (a * x) * q = a * (x * q) := fun x => mul_assoc _ _ _
  exact ⟨sameInUnit_of_map fun n => Dem.process_map hh (mul_zero a) (Dem.python_commutes hg ht (exactDiff_rescale a) hq)
      (exactDiff_rescale a) dem (safe_rescale short a) (safe_rescale diag a) square want n,
    sameInUnit_of_map fun n => Dem.process_map hh (mul_zero a) (Dem.compiled_commutes hg ht junk (exactDiff_rescale a) hq)
      (exactDiff_rescale a) dem (safe_rescale short a) (safe_rescale diag a) square want n⟩

end Exact

/-! ### The increments matter -/

/-- A flat between two outlets, the left one lower by 1/2000. -/
def demoFlat : Raster Rat :=
  Raster.ofRows [[9,9,9,9,9,9,9],[0,0,0,0,0,0,1/2000],[9,9,9,9,9,9,9]]

theorem process_of_fuel {β γ : Type*} [LinearOrder β] [OrderTop β] [LT γ] [DecidableLT γ] [Zero γ] {drop sub : β → β → γ}
    {scale : γ → γ} {safe : Raster β → (β → β) × (β → β)} {dem : Raster β} {n : Nat} {o : Dem.Out β γ}
    (h : Dem.process (Dem.python drop scale) sub safe true false dem n = some (.ok o)) :
    Returns (Dem.process (Dem.python drop scale) sub safe true false dem) (.ok o) := by
  refine ⟨n, fun m hm => ?_⟩
  rw [← h]
  have h1 : ∀ r, Fill.fillTerrain dem n = some (.ok r) → Fill.fillTerrain dem m = some (.ok r) := by
    intro r hr
    unfold Fill.fillTerrain at hr ⊢
    split_ifs at hr ⊢ with hsz
    · cases hr
    · obtain ⟨q, hq, hq'⟩ := Option.map_eq_some_iff.1 hr
      rw [Fill.fillTerrainLoop] at hq ⊢
      rw [doWhile_mono hq hm, ← hq']; rfl
  have h2 : ∀ s d r, Fill.fillTerrainNoFlats s d dem n = some (.ok r) → Fill.fillTerrainNoFlats s d dem m = some (.ok r) := by
    intro s d r hr
    unfold Fill.fillTerrainNoFlats at hr ⊢
    split_ifs at hr ⊢ with hsz
    · cases hr
    · obtain ⟨q, hq, hq'⟩ := Option.map_eq_some_iff.1 hr
      rw [Fill.fillTerrainNoFlatsLoop] at hq ⊢
      rw [doWhile_mono hq hm, ← hq']; rfl
  unfold Dem.process at h ⊢
  simp only [not_true_eq_false, if_false, Dem.python] at h ⊢
  rcases hf : Fill.fillTerrain dem n with _ | _ | r
  · rw [hf] at h; cases h
  · rw [hf] at h; cases h
  · rw [h1 r hf]
    rw [hf] at h
    simp only at h ⊢
    rcases hn : Fill.fillTerrainNoFlats (safe dem).1 (safe dem).2 dem n with _ | _ | q
    · rw [hn] at h; cases h
    · rw [hn] at h; cases h
    · rw [h2 _ _ q hn]
      simp

/-- C85 needs the same increments in both runs: `minimum_safe_short_and_diag` derives them from the largest elevation, and on
this DEM increments of 1/1000 send the last cells of the flat to the right outlet, increments of 1/100000 to the left one. -/
theorem C85_increments_matter :
    ∃ o o', Returns (Dem.process (Dem.python exactDiff (· * (7/10))) exactDiff (exactSafe (1/1000) (14/10000)) true false
        (finiteDem demoFlat)) (.ok o) ∧
      Returns (Dem.process (Dem.python exactDiff (· * (7/10))) exactDiff (exactSafe (1/100000) (14/1000000)) true false
        (finiteDem demoFlat)) (.ok o') ∧
      o.flowdir.get (1, 4) = 2 ∧ o'.flowdir.get (1, 4) = 6 := by
  have key : ∀ {x : Nat → Option (Except PyErr (Dem.Out (WithTop Rat) Rat))} {v : Nat},
      ((x 20).bind Except.toOption).map (fun o => o.flowdir.get (1, 4)) = some v →
      ∃ o, x 20 = some (.ok o) ∧ o.flowdir.get (1, 4) = v := by
    intro x v h
    rcases hx : x 20 with _ | _ | o
    · rw [hx] at h; cases h
    · rw [hx] at h; cases h
    · rw [hx] at h; exact ⟨o, rfl, Option.some.inj h⟩
  obtain ⟨o, h, hv⟩ := key (x := Dem.process (Dem.python exactDiff (· * (7/10))) exactDiff (exactSafe (1/1000) (14/10000)) true
    false (finiteDem demoFlat)) (v := 2) (by decide +kernel)
  obtain ⟨o', h', hv'⟩ := key (x := Dem.process (Dem.python exactDiff (· * (7/10))) exactDiff
    (exactSafe (1/100000) (14/1000000)) true false (finiteDem demoFlat)) (v := 6) (by decide +kernel)
  exact ⟨o, o', process_of_fuel h, process_of_fuel h', hv, hv'⟩

/-- The valley of `Props/Complete.lean`, 100 higher: the same water in its bluespot. -/
example : ((Complete.processAll demoValleyCC (Dem.python exactDiff (· * (7/10))) Bluespots.python exactDiff
      (exactSafe (1/1000) (14/10000)) ⟨0, 2, 0, 0, 0, -2⟩ ((finiteDem demoValley).map (raise 100)) false (some fun _ => true)
        (2000 : Rat)).run 40).run.map
        (fun r => r.toOption.map fun o => (o.dem.filled.get (1, 3), o.final.map fun f => [Dict.get? f.properties "nodeid",
          Dict.get? f.properties "dstrnodeid", Dict.get? f.properties "v", Dict.get? f.properties "spillv"])) =
    some (some (104, [[some (.int 0), some .none, some (.num 0), some (.num 112)],
      [some (.int 1), some .none, some (.num 40), some (.num 8)]])) := by
  decide +kernel

/-- Filling a DEM rounded down to whole numbers. -/
example : ∃ r r', Returns (Fill.fillTerrain (finiteDem demoFlat)) (.ok r) ∧
    Returns (Fill.fillTerrain ((finiteDem demoFlat).map (WithTop.map fun x : Rat => (x.floor : Rat)))) (.ok r') ∧
    r'.Same (r.map (WithTop.map fun x : Rat => (x.floor : Rat))) ∧
    Monotone (WithTop.map fun x : Rat => (x.floor : Rat)) := by
  have hm : Monotone (WithTop.map fun x : Rat => (x.floor : Rat)) :=
    WithTop.monotone_map_iff.2 fun x y h => by exact_mod_cast Rat.floor_monotone h
  obtain ⟨r, h, _⟩ := (C01_fill_returns (finiteDem demoFlat)).1 (by decide) (by decide)
  obtain ⟨r', h', _⟩ := (C01_fill_returns ((finiteDem demoFlat).map (WithTop.map fun x : Rat => (x.floor : Rat)))).1
    (by decide) (by decide)
  exact ⟨r, r', h, h', C85_fill_commutes hm _ r r' h h', hm⟩

end Malstroem
