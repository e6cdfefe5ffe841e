/-
Properties C01-C12: the fill algorithms.
-/
import Verif.Proofs.FillOrient
import Verif.Proofs.FillCython
import Verif.Model.Dem
import Mathlib.Algebra.Order.Monoid.Unbundled.WithTop
import Mathlib.Algebra.Order.Monoid.WithTop
import Mathlib.Data.Int.Cast.Basic

set_option linter.unusedSectionVars false

namespace Malstroem
open Spec

/-! ### Concrete rasters used to show that hypotheses can be met -/

/-- A 4x4 DEM with a two-step depression that drains over the lower left corner. -/
def demoDem : Raster (WithTop Int) := Raster.ofRows [[10,10,10,10],[10,10,0,10],[10,0,0,10],[1,10,10,10]]

/-- Like `demoDem` with a peak in (1,1). -/
def demoDem2 : Raster (WithTop Int) := Raster.ofRows [[10,10,10,10],[10,20,0,10],[10,0,0,10],[1,10,10,10]]

/-- A DEM with a flat-bottomed depression. -/
def demoPit : Raster (WithTop Int) := Raster.ofRows [[9,9,9,9,9],[9,3,2,1,9],[9,2,5,2,4],[9,9,9,9,9]]

variable {β : Type*} [LinearOrder β] [OrderTop β]

/-! ### C01 -/

/-- C01: `fill_terrain` returns for every DEM with at least two rows and columns (elevations from any linear order with
a top element `inf`); smaller arrays raise IndexError. -/
theorem C01_fill_returns (dem : Raster β) :
    (2 ≤ dem.rows → 2 ≤ dem.cols → ∃ r, Returns (Fill.fillTerrain dem) (.ok r) ∧
      r.rows = dem.rows ∧ r.cols = dem.cols) ∧
    ((dem.rows < 2 ∨ dem.cols < 2) → Returns (Fill.fillTerrain dem) (.error .indexError)) := by
  constructor
  · intro hr hc
    obtain ⟨r, h, hI, _⟩ := Fill.fillTerrain_returns dem hr hc
    exact ⟨r, h, hI.rows, hI.cols⟩
  · intro h
    exact ⟨0, fun m _ => by unfold Fill.fillTerrain; rw [if_pos h]⟩

/-- Array accesses made by `fill_terrain` are in bounds: whenever the eight neighbours of a visited cell are read, the
cell is not on the edge (in any state the loop can be in, i.e. while edge cells equal the DEM). -/
theorem C01_reads_in_bounds (dem f : Raster β) (hr : 2 ≤ dem.rows) (hc : 2 ≤ dem.cols)
    (hedge : ∀ c, OnEdge dem.rows dem.cols c → f.get c = dem.get c)
    (a b c d : Int)
    (hab : (a = 1 ∧ b = (dem.rows : Int) - 2) ∨ (a = (dem.rows : Int) - 2 ∧ b = 1))
    (hcd : (c = 1 ∧ d = (dem.cols : Int) - 2) ∨ (c = (dem.cols : Int) - 2 ∧ d = 1)) :
    ∀ x ∈ Fill.sweepCells a b c d, dem.Has x ∧
      (¬ f.get x ≤ dem.get x → ∀ y, Adj x y → dem.Has y) := by
  intro x hx
  have hx' := (Fill.pySweep_cells hr hc a b c d hab hcd).1 x hx
  refine ⟨hx', fun h y hy => ?_⟩
  rcases edge_or_interior hx' with he | hi
  · exact absurd (hedge x he).le h
  · exact interior_adj_inGrid hi hy

set_option maxRecDepth 100000 in
example : ((Fill.fillTerrain demoPit 9).map fun r => r.toOption.map Raster.toRows) =
    some (some [[9,9,9,9,9],[9,4,4,4,9],[9,4,5,4,4],[9,9,9,9,9]]) := by decide +kernel

/-! ### C02 -/

/-- C02: filling never digs and keeps the raster edge. -/
theorem C02_fill_ge_dem_edge (dem r : Raster β) (h : Returns (Fill.fillTerrain dem) (.ok r)) :
    (∀ c, dem.Has c → dem.get c ≤ r.get c) ∧ (∀ c, OnEdge dem.rows dem.cols c → r.get c = dem.get c) :=
  ⟨(Fill.inv_of_returns h).1.ge, (Fill.inv_of_returns h).1.edge⟩

/-! ### C03 -/

/-- C03: the filled terrain is depressionless. -/
theorem C03_fill_depressionless (dem r : Raster β) (h : Returns (Fill.fillTerrain dem) (.ok r)) :
    Depressionless dem.rows dem.cols r.get :=
  Fill.inv_depressionless (Fill.inv_of_returns h).1 Fill.id_good

/-! ### C04 -/

/-- C04: every filled value is the spill level of its cell. -/
theorem C04_fill_eq_spill_level (dem r : Raster β) (h : Returns (Fill.fillTerrain dem) (.ok r)) :
    ∀ c, dem.Has c → IsSpillLevel dem.rows dem.cols dem.get c (r.get c) :=
  fun _ hc => Fill.fill_spill h hc

theorem highest_of_nonrising {s : Cell → β} {rows cols : Nat} {c : Cell} {p : List Cell}
    (hp : IsEscape rows cols c p) (hd : p.IsChain (fun a b => s b ≤ s a)) : ∀ x ∈ p, s x ≤ s c := by
  refine IsEscape.rec' (motive := fun c p => p.IsChain (fun a b => s b ≤ s a) → ∀ x ∈ p, s x ≤ s c) ?_ ?_ hp hd
  · intro e _ _ x hx
    simp at hx; rw [hx]
  · intro a b q _ _ _ ih hd x hx
    rw [List.isChain_cons_cons] at hd
    rcases List.mem_cons.1 hx with rfl | hx
    · exact le_rfl
    · exact (ih hd.2 x hx).trans hd.1

/-- C04: the result is the lowest depressionless surface that is nowhere below the DEM. -/
theorem C04_fill_lowest_depressionless (dem r : Raster β) (h : Returns (Fill.fillTerrain dem) (.ok r)) :
    (Depressionless dem.rows dem.cols r.get ∧ ∀ c, dem.Has c → dem.get c ≤ r.get c) ∧
    ∀ s : Cell → β, Depressionless dem.rows dem.cols s → (∀ c, dem.Has c → dem.get c ≤ s c) →
      ∀ c, dem.Has c → r.get c ≤ s c := by
  refine ⟨⟨C03_fill_depressionless dem r h, (C02_fill_ge_dem_edge dem r h).1⟩, ?_⟩
  intro s hs hge c hc
  obtain ⟨p, hp, hd⟩ := hs c hc
  have hne : p ≠ [] := by obtain ⟨q, rfl⟩ := hp.exists_cons; simp
  have hh := Fill.isHighest_climb dem.get hne
  refine ((C04_fill_eq_spill_level dem r h c hc).2 ⟨p, hp, hh⟩).trans ?_
  obtain ⟨x, hx, hx2⟩ := hh.1
  rw [← hx2]
  exact (hge x (hp.inside x hx)).trans (highest_of_nonrising hp hd x hx)

/-! ### C05 -/

/-- C05: filling an already filled terrain changes nothing. -/
theorem C05_fill_idempotent (dem r r2 : Raster β) (h : Returns (Fill.fillTerrain dem) (.ok r))
    (h2 : Returns (Fill.fillTerrain r) (.ok r2)) : r2.Same r := by
  have hI := (Fill.inv_of_returns h).1
  have hI2 := (Fill.inv_of_returns h2).1
  refine ⟨hI2.rows, hI2.cols, fun c hc => ?_⟩
  have hcr : r.Has c := by unfold Raster.Has at *; rwa [hI2.rows, hI2.cols] at hc
  apply le_antisymm
  · refine (C04_fill_lowest_depressionless r r2 h2).2 r.get ?_ (fun _ _ => le_rfl) c hcr
    rw [hI.rows, hI.cols]
    exact C03_fill_depressionless dem r h
  · exact hI2.ge c hcr

/-- C05: raising DEM cells never lowers a filled cell. -/
theorem C05_fill_monotone (dem dem' r r' : Raster β) (hrows : dem.rows = dem'.rows) (hcols : dem.cols = dem'.cols)
    (hle : ∀ c, dem.Has c → dem.get c ≤ dem'.get c)
    (h : Returns (Fill.fillTerrain dem) (.ok r)) (h' : Returns (Fill.fillTerrain dem') (.ok r')) :
    ∀ c, dem.Has c → r.get c ≤ r'.get c := by
  have hd := C03_fill_depressionless dem' r' h'
  have hge := (C02_fill_ge_dem_edge dem' r' h').1
  rw [← hrows, ← hcols] at hd
  refine (C04_fill_lowest_depressionless dem r h).2 r'.get hd (fun c hc => (hle c hc).trans (hge c ?_))
  unfold Raster.Has at *; rwa [← hrows, ← hcols]

/-- C05: transposing or flipping the DEM transposes or flips the result. -/
theorem C05_fill_orientation (dem r : Raster β) (h : Returns (Fill.fillTerrain dem) (.ok r)) :
    (∀ r', Returns (Fill.fillTerrain dem.transpose) (.ok r') → r'.Same r.transpose) ∧
    (∀ r', Returns (Fill.fillTerrain dem.flipud) (.ok r') → r'.Same r.flipud) ∧
    (∀ r', Returns (Fill.fillTerrain dem.fliplr) (.ok r') → r'.Same r.fliplr) := by
  have hI := (Fill.inv_of_returns h).1
  have hsp := C04_fill_eq_spill_level dem r h
  refine ⟨fun r' h' => ?_, fun r' h' => ?_, fun r' h' => ?_⟩
  · have hI' := (Fill.inv_of_returns h').1
    refine ⟨by rw [hI'.rows]; simp [Raster.transpose, hI.cols], by rw [hI'.cols]; simp [Raster.transpose, hI.rows],
      fun c hc => ?_⟩
    have hcd : dem.transpose.Has c := by unfold Raster.Has at *; rwa [hI'.rows, hI'.cols] at hc
    have h2 := C04_fill_eq_spill_level _ r' h' c hcd
    have hcd' : dem.Has (c.2, c.1) := (gridMap_transpose _ _).grid c hcd
    have h3 := (gridMap_transpose dem.rows dem.cols).spill (dem' := dem.transpose.get)
      (gridMap_transpose dem.cols dem.rows)
      (fun _ _ => rfl) (fun _ _ => rfl) (fun _ _ => rfl) hcd' (hsp _ hcd')
    exact h2.unique h3
  · have hI' := (Fill.inv_of_returns h').1
    refine ⟨by rw [hI'.rows]; simp [Raster.flipud, hI.rows], by rw [hI'.cols]; simp [Raster.flipud, hI.cols],
      fun c hc => ?_⟩
    have hcd : dem.flipud.Has c := by unfold Raster.Has at *; rwa [hI'.rows, hI'.cols] at hc
    have h2 := C04_fill_eq_spill_level _ r' h' c hcd
    have hcd' : dem.Has ((dem.rows : Int) - 1 - c.1, c.2) := (gridMap_flipud dem.rows dem.cols).grid c hcd
    have h3 := (gridMap_flipud dem.rows dem.cols).spill (dem' := dem.flipud.get)
      (gridMap_flipud dem.rows dem.cols)
      (fun _ _ => by simp) (fun _ _ => by simp [Raster.flipud]) (fun _ _ => by simp [Raster.flipud]) hcd' (hsp _ hcd')
    have h4 : ((dem.rows : Int) - 1 - ((dem.rows : Int) - 1 - c.1), c.2) = c := by simp
    simp only [h4] at h3
    rw [h2.unique h3]
    simp [Raster.flipud, hI.rows]
  · have hI' := (Fill.inv_of_returns h').1
    refine ⟨by rw [hI'.rows]; simp [Raster.fliplr, hI.rows], by rw [hI'.cols]; simp [Raster.fliplr, hI.cols],
      fun c hc => ?_⟩
    have hcd : dem.fliplr.Has c := by unfold Raster.Has at *; rwa [hI'.rows, hI'.cols] at hc
    have h2 := C04_fill_eq_spill_level _ r' h' c hcd
    have hcd' : dem.Has (c.1, (dem.cols : Int) - 1 - c.2) := (gridMap_fliplr dem.rows dem.cols).grid c hcd
    have h3 := (gridMap_fliplr dem.rows dem.cols).spill (dem' := dem.fliplr.get)
      (gridMap_fliplr dem.rows dem.cols)
      (fun _ _ => by simp) (fun _ _ => by simp [Raster.fliplr]) (fun _ _ => by simp [Raster.fliplr]) hcd' (hsp _ hcd')
    have h4 : (c.1, (dem.cols : Int) - 1 - ((dem.cols : Int) - 1 - c.2)) = c := by simp
    simp only [h4] at h3
    rw [h2.unique h3]
    simp [Raster.fliplr, hI.cols]

/-! ### C06-C08: no-flats fill

`short` and `diag` are the functions adding the constants to an elevation. Floating point addition of a non-negative
constant is monotone and never lowers the argument; that is all that is assumed. -/

/-- C06: `fill_terrain_no_flats` returns, keeps the edge, never digs and is never below `fill_terrain`. -/
theorem C06_noflats_returns_bracketed (short diag : β → β) (hs : Monotone short) (hd : Monotone diag)
    (hs' : ∀ x, x ≤ short x) (hd' : ∀ x, x ≤ diag x) (dem : Raster β) (hr : 2 ≤ dem.rows) (hc : 2 ≤ dem.cols) :
    ∃ r, Returns (Fill.fillTerrainNoFlats short diag dem) (.ok r) ∧ r.rows = dem.rows ∧ r.cols = dem.cols ∧
      (∀ c, OnEdge dem.rows dem.cols c → r.get c = dem.get c) ∧
      (∀ c, dem.Has c → dem.get c ≤ r.get c) ∧
      (∀ f, Returns (Fill.fillTerrain dem) (.ok f) → ∀ c, dem.Has c → f.get c ≤ r.get c) := by
  obtain ⟨r, hR, hI, _⟩ := Fill.fillTerrainNoFlats_returns short diag hs hd hs' hd' dem hr hc
  refine ⟨r, hR, hI.rows, hI.cols, hI.edge, hI.ge, fun f hf => ?_⟩
  exact (C04_fill_lowest_depressionless dem f hf).2 r.get
    (Fill.inv_depressionless hI (Fill.sd_good hs hd hs' hd')) hI.ge

theorem descends_finite {step : Cell → Cell → β → β} (hstep : Fill.GoodStep step) {s : Cell → β} {rows cols : Nat}
    {c : Cell} {p : List Cell} (hp : IsEscape rows cols c p) (hd : Fill.Descends step s p) :
    ∀ x ∈ p, s x ≤ s c :=
  highest_of_nonrising hp (List.IsChain.imp (fun a b h => (hstep.infl a b _).trans h) hd)

theorem strict_of_descends {short diag : β → β} {s : Cell → β} {rows cols : Nat}
    (hstrict : ∀ x, InGrid rows cols x → s x < ⊤ → s x < short (s x) ∧ s x < diag (s x))
    {c : Cell} {p : List Cell} (hp : IsEscape rows cols c p)
    (hd : Fill.Descends (Fill.stepSD short diag) s p) (hfin : ∀ x ∈ p, s x < ⊤) :
    p.IsChain (fun a b => s b < s a ∧ (Orth a b → short (s b) ≤ s a) ∧ (¬ Orth a b → diag (s b) ≤ s a)) := by
  refine IsEscape.rec' (motive := fun c p => Fill.Descends (Fill.stepSD short diag) s p → (∀ x ∈ p, s x < ⊤) →
    p.IsChain (fun a b => s b < s a ∧ (Orth a b → short (s b) ≤ s a) ∧ (¬ Orth a b → diag (s b) ≤ s a)))
    ?_ ?_ hp hd hfin
  · intro e _ _ _; simp
  · intro a b q ha hab hq ih hd hfin
    rw [Fill.Descends, List.isChain_cons_cons] at hd
    rw [List.isChain_cons_cons]
    refine ⟨?_, ih hd.2 fun x hx => hfin x (List.mem_cons_of_mem _ hx)⟩
    have hb := hstrict b (hq.inside b (by simp)) (hfin b (by simp))
    have h1 := hd.1
    unfold Fill.stepSD at h1
    split_ifs at h1 with ho
    · exact ⟨hb.1.trans_le h1, fun _ => h1, fun hn => absurd ho hn⟩
    · exact ⟨hb.2.trans_le h1, fun hn => absurd hn ho, fun _ => h1⟩

/-- C07: if the DEM is finite, the additions do not overflow, and adding `short`/`diag` strictly raises every finite
elevation occurring in the result, every cell has a strictly downslope path to the edge that falls by at least `short`
per orthogonal and `diag` per diagonal step. -/
theorem C07_noflats_strictly_downslope (short diag : β → β) (hs : Monotone short) (hd : Monotone diag)
    (hs' : ∀ x, x ≤ short x) (hd' : ∀ x, x ≤ diag x) (dem r : Raster β)
    (hfin : ∀ c, dem.Has c → dem.get c < ⊤) (hsfin : ∀ x, x < ⊤ → short x < ⊤) (hdfin : ∀ x, x < ⊤ → diag x < ⊤)
    (h : Returns (Fill.fillTerrainNoFlats short diag dem) (.ok r))
    (hstrict : ∀ c, dem.Has c → r.get c < ⊤ → r.get c < short (r.get c) ∧ r.get c < diag (r.get c)) :
    ∀ c, dem.Has c → r.get c < ⊤ ∧ ∃ p, IsEscape dem.rows dem.cols c p ∧
      p.IsChain (fun a b => r.get b < r.get a ∧ (Orth a b → short (r.get b) ≤ r.get a) ∧
        (¬ Orth a b → diag (r.get b) ≤ r.get a)) := by
  obtain ⟨hI, hF⟩ := Fill.inv_of_returns_nf hs hd hs' hd' h
  have hgood := Fill.sd_good hs hd hs' hd'
  have hrfin : ∀ c, dem.Has c → r.get c < ⊤ := by
    intro c hc
    obtain ⟨p, hp⟩ := exists_escape hc
    refine (Fill.fix_le_climb hgood hI hF hp).trans_lt ?_
    refine IsEscape.rec' (motive := fun c p => Fill.climbS (Fill.stepSD short diag) dem.get p < ⊤) ?_ ?_ hp
    · intro e he; exact hfin e he.1
    · intro a b q ha _ _ ih
      rw [Fill.climbS_cons a rfl]
      refine max_lt (hfin a ha) ?_
      unfold Fill.stepSD
      split_ifs
      exacts [hsfin _ ih, hdfin _ ih]
  intro c hc
  refine ⟨hrfin c hc, ?_⟩
  obtain ⟨p, hp, hdesc⟩ := (hI.desc c hc).resolve_left (hrfin c hc).ne
  exact ⟨p, hp, strict_of_descends hstrict hp hdesc (fun x hx => hrfin x (hp.inside x hx))⟩

/-- C08: the no-flats level is the cheapest climb. -/
theorem C08_noflats_cheapest_climb (short diag : β → β) (hs : Monotone short) (hd : Monotone diag)
    (hs' : ∀ x, x ≤ short x) (hd' : ∀ x, x ≤ diag x) (dem r : Raster β)
    (h : Returns (Fill.fillTerrainNoFlats short diag dem) (.ok r)) :
    ∀ c, dem.Has c →
      IsLeast {z | ∃ p, IsEscape dem.rows dem.cols c p ∧ climb short diag dem.get p = z} (r.get c) := by
  obtain ⟨hI, hF⟩ := Fill.inv_of_returns_nf hs hd hs' hd' h
  intro c hc
  simp only [Fill.climbS_eq]
  exact Fill.fix_isLeast (Fill.sd_good hs hd hs' hd') hI hF hc

set_option maxRecDepth 100000 in
/-- Non-vacuity for C06-C08: a concrete run with `short = 1`, `diag = 2`. -/
example : ((Fill.fillTerrainNoFlats (· + 1) (· + 2) demoPit 9).map fun r => r.toOption.map Raster.toRows) =
    some (some [[9,9,9,9,9],[9,8,7,6,9],[9,7,6,5,4],[9,9,9,9,9]]) := by decide +kernel

example : Monotone (· + 1 : WithTop Int → WithTop Int) ∧ (∀ x : WithTop Int, x ≤ x + 1) ∧
    (∀ x : WithTop Int, x < ⊤ → x < x + 1) := by
  refine ⟨fun a b h => add_le_add_left h 1, fun x => ?_, fun x hx => ?_⟩
  · induction x using WithTop.recTopCoe with
    | top => simp
    | coe a => norm_cast; omega
  · lift x to Int using hx.ne
    norm_cast; omega

/-! ### C09, C10: the compiled sweeps stop too early -/

set_option maxRecDepth 100000 in
/-- C09 is false: on `demoDem` both versions return, but different surfaces. -/
theorem C09_compiled_fill_differs :
    ((Fill.fillTerrain demoDem 9).map fun r => r.toOption.map Raster.toRows) =
      some (some [[10,10,10,10],[10,10,1,10],[10,1,1,10],[1,10,10,10]]) ∧
    ((FillCython.fillTerrain demoDem 9).map fun r => r.toOption.map Raster.toRows) =
      some (some [[10,10,10,10],[10,10,10,10],[10,1,10,10],[1,10,10,10]]) := by
  constructor <;> decide +kernel

theorem doWhile_mono {σ : Type*} {body : σ → σ × Bool} {n m : Nat} {s r : σ} (h : doWhile body n s = some r)
    (hnm : n ≤ m) : doWhile body m s = some r := by
  induction n generalizing s m with
  | zero => simp [doWhile] at h
  | succ n ih =>
    obtain ⟨k, rfl⟩ : ∃ k, m = k + 1 := ⟨m - 1, by omega⟩
    unfold doWhile at h ⊢
    revert h
    generalize body s = b
    obtain ⟨s', keep⟩ := b
    simp only
    split_ifs
    · intro h; exact ih h (by omega)
    · exact id

set_option maxRecDepth 100000 in
/-- C09 is false, stated with `Returns`: no surface is returned by both versions on `demoDem`. -/
theorem C09_compiled_fill_eq_python_false :
    ¬ ∀ (dem : Raster (WithTop Int)) (r r' : Raster (WithTop Int)),
      Returns (Fill.fillTerrain dem) (.ok r) → Returns (FillCython.fillTerrain dem) (.ok r') → r'.Same r := by
  intro hall
  obtain ⟨r, hr, _⟩ := (C01_fill_returns demoDem).1 (by decide) (by decide)
  obtain ⟨r', hr', _⟩ := FillCython.fillTerrain_returns demoDem (by decide)
  have hsame := hall demoDem r r' hr hr'
  have e1 : r.get (2, 2) = 1 := by
    obtain ⟨n, hn⟩ := hr
    have h := hn (max n 9) (le_max_left _ _)
    have h9 : ((Fill.fillTerrainLoop demoDem 9).map fun r => r.get (2, 2)) = some 1 := by decide +kernel
    obtain ⟨q, hq, hq2⟩ := Option.map_eq_some_iff.1 h9
    have hq' : Fill.fillTerrainLoop demoDem (max n 9) = some q := doWhile_mono hq (le_max_right _ _)
    unfold Fill.fillTerrain at h
    rw [if_neg (by decide), hq'] at h
    simp only [Option.map_some, Option.some.injEq, Except.ok.injEq] at h
    rw [← h]; exact hq2
  have e2 : r'.get (2, 2) = 10 := by
    obtain ⟨n, hn⟩ := hr'
    have h := hn (max n 9) (le_max_left _ _)
    have h9 : ((doWhile (Fill.iteration (FillCython.fillTerrainSweep demoDem) demoDem) 9
      (Fill.initializeFilled demoDem)).map fun r => r.get (2, 2)) = some 10 := by decide +kernel
    obtain ⟨q, hq, hq2⟩ := Option.map_eq_some_iff.1 h9
    have hq' := doWhile_mono hq (le_max_right n 9)
    have hs : FillCython.shapeError demoDem.rows demoDem.cols = none := by decide
    unfold FillCython.fillTerrain at h
    rw [hs] at h
    simp only [hq'] at h
    simp only [Option.map_some, Option.some.injEq, Except.ok.injEq] at h
    rw [← h]; exact hq2
  have hin : r'.Has (2, 2) := by
    have hI := (FillCython.fillTerrain_returns demoDem (by decide)).choose_spec
    have := hr'.unique hI.1
    simp only [Except.ok.injEq] at this
    unfold Raster.Has
    rw [this, hI.2.1.rows, hI.2.1.cols]; decide
  have := hsame.2.2 (2, 2) hin
  rw [e1, e2] at this
  exact absurd this (by decide)

/-- C09/C10: the compiled version rejects (ValueError) three-row or three-column DEMs that the Python version fills. -/
theorem C09_compiled_rejects_three_rows (dem : Raster β) (hr : 2 ≤ dem.rows) (hc : 2 ≤ dem.cols)
    (h3 : dem.rows = 3 ∨ dem.cols = 3) :
    Returns (FillCython.fillTerrain dem) (.error .valueError) ∧ ∃ r, Returns (Fill.fillTerrain dem) (.ok r) := by
  constructor
  · refine ⟨0, fun m _ => ?_⟩
    have : FillCython.shapeError dem.rows dem.cols = some .valueError := by
      unfold FillCython.shapeError
      rw [if_neg (by omega), if_neg (by omega), if_pos h3]
    unfold FillCython.fillTerrain
    rw [this]
  · obtain ⟨r, h, _⟩ := (C01_fill_returns dem).1 hr hc
    exact ⟨r, h⟩

/-- C09, the part that holds: when the compiled fill returns and its result happens to be stable under one more
relaxation of every interior cell, it is the Python result. Missing (and false in general): stability. -/
theorem C09_compiled_fill_eq_python_partial (dem r r' : Raster β)
    (h : Returns (Fill.fillTerrain dem) (.ok r)) (h' : Returns (FillCython.fillTerrain dem) (.ok r'))
    (hstable : ∀ c, Interior dem.rows dem.cols c → ∀ b, Adj c b → r'.get c ≤ max (dem.get c) (r'.get b)) :
    r'.Same r := by
  have hs : FillCython.shapeError dem.rows dem.cols = none := by
    obtain ⟨n, hn⟩ := h'
    have := hn n le_rfl
    unfold FillCython.fillTerrain at this
    split at this
    · simp at this
    · assumption
  obtain ⟨q, hq, hI, _⟩ := FillCython.fillTerrain_returns dem hs
  have := h'.unique hq
  simp only [Except.ok.injEq] at this
  subst this
  have hI0 := Fill.inv_of_returns h
  refine ⟨by rw [hI.rows, hI0.1.rows], by rw [hI.cols, hI0.1.cols], fun c hc => ?_⟩
  have hc' : dem.Has c := by unfold Raster.Has at *; rwa [hI.rows, hI.cols] at hc
  exact (Fill.fix_isLeast Fill.id_good hI hstable hc').unique (Fill.fix_isLeast Fill.id_good hI0.1 hI0.2 hc')

set_option maxRecDepth 100000 in
/-- C10 is false: on `demoDem2` with `short = 1`, `diag = 2` both versions return, but different surfaces. -/
theorem C10_compiled_noflats_differs :
    ((Fill.fillTerrainNoFlats (· + 1) (· + 2) demoDem2 9).map fun r => r.toOption.map Raster.toRows) =
      some (some [[10,10,10,10],[10,20,5,10],[10,3,4,10],[1,10,10,10]]) ∧
    ((FillCython.fillTerrainNoFlats (· + 1) (· + 2) demoDem2 9).map fun r => r.toOption.map Raster.toRows) =
      some (some [[10,10,10,10],[10,20,11,10],[10,3,11,10],[1,10,10,10]]) := by
  constructor <;> decide +kernel

/-- C10, the part that holds (see C09). -/
theorem C10_compiled_noflats_eq_python_partial (short diag : β → β) (hs : Monotone short) (hd : Monotone diag)
    (hs' : ∀ x, x ≤ short x) (hd' : ∀ x, x ≤ diag x) (dem r r' : Raster β)
    (h : Returns (Fill.fillTerrainNoFlats short diag dem) (.ok r))
    (h' : Returns (FillCython.fillTerrainNoFlats short diag dem) (.ok r'))
    (hstable : ∀ c, Interior dem.rows dem.cols c → ∀ b, Adj c b →
      r'.get c ≤ max (dem.get c) ((if Orth c b then short else diag) (r'.get b))) :
    r'.Same r := by
  have hse : FillCython.shapeError dem.rows dem.cols = none := by
    obtain ⟨n, hn⟩ := h'
    have := hn n le_rfl
    unfold FillCython.fillTerrainNoFlats at this
    split at this
    · simp at this
    · assumption
  obtain ⟨q, hq, hI, _⟩ := FillCython.fillTerrainNoFlats_returns short diag hs hd hs' hd' dem hse
  have := h'.unique hq
  simp only [Except.ok.injEq] at this
  subst this
  have hI0 := Fill.inv_of_returns_nf hs hd hs' hd' h
  refine ⟨by rw [hI.rows, hI0.1.rows], by rw [hI.cols, hI0.1.cols], fun c hc => ?_⟩
  have hc' : dem.Has c := by unfold Raster.Has at *; rwa [hI.rows, hI.cols] at hc
  exact (Fill.fix_isLeast (Fill.sd_good hs hd hs' hd') hI hstable hc').unique
    (Fill.fix_isLeast (Fill.sd_good hs hd hs' hd') hI0.1 hI0.2 hc')

/-! ### C11 -/

/-- C11: the compiled fill returns (unless a dimension is three) a depressionless surface that keeps the edge, is
nowhere below the DEM or the Python result, and is finite if the DEM is. -/
theorem C11_compiled_fill_valid (dem : Raster β) (hr : 2 ≤ dem.rows ∧ dem.rows ≠ 3)
    (hc : 2 ≤ dem.cols ∧ dem.cols ≠ 3) :
    ∃ r, Returns (FillCython.fillTerrain dem) (.ok r) ∧ r.rows = dem.rows ∧ r.cols = dem.cols ∧
      (∀ c, OnEdge dem.rows dem.cols c → r.get c = dem.get c) ∧
      (∀ c, dem.Has c → dem.get c ≤ r.get c) ∧
      (∀ f, Returns (Fill.fillTerrain dem) (.ok f) → ∀ c, dem.Has c → f.get c ≤ r.get c) ∧
      Depressionless dem.rows dem.cols r.get ∧
      ((∀ c, dem.Has c → dem.get c < ⊤) → ∀ c, dem.Has c → r.get c < ⊤) := by
  obtain ⟨r, hR, hI, hfin⟩ := FillCython.fillTerrain_returns dem
    (FillCython.shapeError_none.2 ⟨by omega, by omega, by omega, by omega⟩)
  have hdep := Fill.inv_depressionless hI Fill.id_good
  exact ⟨r, hR, hI.rows, hI.cols, hI.edge, hI.ge,
    fun f hf => (C04_fill_lowest_depressionless dem f hf).2 r.get hdep hI.ge, hdep, hfin⟩

/-- C11: the compiled no-flats fill, same, and with a strictly falling path from every cell. -/
theorem C11_compiled_noflats_valid (short diag : β → β) (hs : Monotone short) (hd : Monotone diag)
    (hs' : ∀ x, x ≤ short x) (hd' : ∀ x, x ≤ diag x) (dem : Raster β) (hr : 2 ≤ dem.rows ∧ dem.rows ≠ 3)
    (hc : 2 ≤ dem.cols ∧ dem.cols ≠ 3)
    (hfin : ∀ c, dem.Has c → dem.get c < ⊤) (hsfin : ∀ x, x < ⊤ → short x < ⊤) (hdfin : ∀ x, x < ⊤ → diag x < ⊤) :
    ∃ r, Returns (FillCython.fillTerrainNoFlats short diag dem) (.ok r) ∧ r.rows = dem.rows ∧ r.cols = dem.cols ∧
      (∀ c, OnEdge dem.rows dem.cols c → r.get c = dem.get c) ∧
      (∀ c, dem.Has c → dem.get c ≤ r.get c) ∧
      (∀ f, Returns (Fill.fillTerrainNoFlats short diag dem) (.ok f) → ∀ c, dem.Has c → f.get c ≤ r.get c) ∧
      (∀ c, dem.Has c → r.get c < ⊤) ∧
      ((∀ c, dem.Has c → r.get c < ⊤ → r.get c < short (r.get c) ∧ r.get c < diag (r.get c)) →
        ∀ c, dem.Has c → ∃ p, IsEscape dem.rows dem.cols c p ∧
          p.IsChain (fun a b => r.get b < r.get a ∧ (Orth a b → short (r.get b) ≤ r.get a) ∧
            (¬ Orth a b → diag (r.get b) ≤ r.get a))) := by
  obtain ⟨r, hR, hI, hf⟩ := FillCython.fillTerrainNoFlats_returns short diag hs hd hs' hd' dem
    (FillCython.shapeError_none.2 ⟨by omega, by omega, by omega, by omega⟩)
  have hrfin := hf hfin hsfin hdfin
  refine ⟨r, hR, hI.rows, hI.cols, hI.edge, hI.ge, fun f hf c hc => ?_, hrfin, fun hstrict c hc => ?_⟩
  · have hl := C08_noflats_cheapest_climb short diag hs hd hs' hd' dem f hf c hc
    obtain ⟨p, hp, _, hcl, _⟩ := (hI.wit c hc).resolve_left (hrfin c hc).ne
    exact hl.2 ⟨p, hp, by rw [Fill.climbS_eq]; exact hcl⟩
  · obtain ⟨p, hp, hdesc⟩ := (hI.desc c hc).resolve_left (hrfin c hc).ne
    exact ⟨p, hp, strict_of_descends hstrict hp hdesc (fun x hx => hrfin x (hp.inside x hx))⟩

/-! ### C12 -/

/-- C12: depths are non-negative and zero on the edge, and all cells of a connected wet area share one filled level.
`sub` is the subtraction used; all that is assumed is that `a - b` is non-negative when `b ≤ a` and zero exactly when
`a = b` (true for exact and for IEEE subtraction of finite numbers). -/
theorem C12_depths {γ : Type*} [LinearOrder γ] [Zero γ] (sub : β → β → γ)
    (hnonneg : ∀ a b, b ≤ a → 0 ≤ sub a b) (hzero : ∀ a b, sub a b = 0 ↔ a = b)
    (dem filled : Raster β) (h : Returns (Fill.fillTerrain dem) (.ok filled)) :
    (∀ c, dem.Has c → 0 ≤ (Dem.depths sub filled dem).get c) ∧
    (∀ c, OnEdge dem.rows dem.cols c → (Dem.depths sub filled dem).get c = 0) ∧
    (∀ a b, ConnectedIn (fun c => dem.Has c ∧ 0 < (Dem.depths sub filled dem).get c) a b →
      filled.get a = filled.get b) := by
  obtain ⟨hI, hF⟩ := Fill.inv_of_returns h
  have hwet : ∀ c, dem.Has c → 0 < sub (filled.get c) (dem.get c) →
      Interior dem.rows dem.cols c ∧ dem.get c < filled.get c := by
    intro c hc hpos
    refine ⟨⟨hc, fun he => ?_⟩, lt_of_le_of_ne (hI.ge c hc) fun he => ?_⟩
    · rw [(hzero _ _).2 (hI.edge c he)] at hpos; exact lt_irrefl _ hpos
    · rw [(hzero _ _).2 he.symm] at hpos; exact lt_irrefl _ hpos
  have hadj : ∀ a b, Adj a b → dem.Has a → 0 < sub (filled.get a) (dem.get a) → filled.get a ≤ filled.get b := by
    intro a b hab ha hpos
    obtain ⟨hi, hlt⟩ := hwet a ha hpos
    have := hF a hi b hab
    rcases le_max_iff.1 this with h | h
    · exact absurd h (not_le.2 hlt)
    · exact h
  refine ⟨fun c hc => hnonneg _ _ (hI.ge c hc), fun c hc => (hzero _ _).2 (hI.edge c hc), ?_⟩
  rintro a b ⟨p, hhead, hlast, hch, hS⟩
  induction p generalizing a with
  | nil => simp at hhead
  | cons x q ih =>
    simp only [List.head?_cons, Option.some.injEq] at hhead
    subst hhead
    cases q with
    | nil => simp at hlast; rw [hlast]
    | cons y q' =>
      rw [List.isChain_cons_cons] at hch
      have hx := hS x (by simp)
      have hy := hS y (by simp)
      have hxy : filled.get x = filled.get y :=
        le_antisymm (hadj x y hch.1 hx.1 hx.2) (hadj y x (adj_symm hch.1) hy.1 hy.2)
      rw [hxy]
      exact ih y rfl (by rwa [List.getLast?_cons_cons] at hlast) hch.2 (fun z hz => hS z (List.mem_cons_of_mem _ hz))

/-- Non-vacuity for C12: in `demoPit` the wet cells (1,1) and (2,3) are connected around the dry cell (2,2). -/
example : ConnectedIn (fun c => c ∈ [((1 : Int), (1 : Int)), (1, 2), (1, 3), (2, 3), (2, 1)]) (1, 1) (2, 3) :=
  ⟨[(1, 1), (1, 2), (2, 3)], rfl, rfl, by decide, by decide⟩

end Malstroem
