/-
Properties C09, C10 and C80: rasters on which the compiled fill agrees with the Python fill, and level water surfaces
with the compiled fill.
-/
import Verif.Proofs.FillStable
import Verif.Props.Fill

set_option linter.unusedSectionVars false

namespace Malstroem
open Spec

variable {β : Type*} [LinearOrder β] [OrderTop β]

/-- The interior cells next to the edge: first and last interior row and column. -/
def NextToEdge (rows cols : Nat) (c : Cell) : Prop :=
  Interior rows cols c ∧ (c.1 = 1 ∨ c.1 = (rows : Int) - 2 ∨ c.2 = 1 ∨ c.2 = (cols : Int) - 2)

theorem nextToEdge_of {rows cols : Nat} {c : Cell} (h : Interior rows cols c) (hf : ¬ FillCython.Far rows cols c) :
    NextToEdge rows cols c := by
  refine ⟨h, ?_⟩
  rw [interior_iff] at h
  unfold FillCython.Far at hf
  omega

/-- C09, what holds for a property of the input: if every cell next to the edge is at least as high as one of its
neighbours on the edge (as on a DEM surrounded by lower or no-data cells) the compiled fill returns the Python
result. Missing (and false in general, `C09_compiled_fill_eq_python_false`): other DEMs. -/
theorem C09_open_edge_partial (dem r r' : Raster β)
    (h : Returns (Fill.fillTerrain dem) (.ok r)) (h' : Returns (FillCython.fillTerrain dem) (.ok r'))
    (hfin : ∀ c, dem.Has c → dem.get c < ⊤)
    (hopen : ∀ c, NextToEdge dem.rows dem.cols c →
      ∃ e, OnEdge dem.rows dem.cols e ∧ Adj c e ∧ dem.get e ≤ dem.get c) :
    r'.Same r := by
  obtain ⟨hI, hk, hf, hfin'⟩ := FillCython.stable_of_returns h'
  exact C09_compiled_fill_eq_python_partial dem r r' h h'
    (FillCython.stable_of_outlets hI hk hf (hfin' hfin) fun c hc hn => hopen c (nextToEdge_of hc hn))

/-- C10, the same for the fill without flats: some neighbour on the edge must be lower by the increment. -/
theorem C10_open_edge_partial (short diag : β → β) (hs : Monotone short) (hd : Monotone diag)
    (hs' : ∀ x, x ≤ short x) (hd' : ∀ x, x ≤ diag x) (hsfin : ∀ x, x < ⊤ → short x < ⊤)
    (hdfin : ∀ x, x < ⊤ → diag x < ⊤) (dem r r' : Raster β)
    (h : Returns (Fill.fillTerrainNoFlats short diag dem) (.ok r))
    (h' : Returns (FillCython.fillTerrainNoFlats short diag dem) (.ok r'))
    (hfin : ∀ c, dem.Has c → dem.get c < ⊤)
    (hopen : ∀ c, NextToEdge dem.rows dem.cols c → ∃ e, OnEdge dem.rows dem.cols e ∧ Adj c e ∧
      (if Orth c e then short else diag) (dem.get e) ≤ dem.get c) :
    r'.Same r := by
  obtain ⟨hI, hk, hf, hfin'⟩ := FillCython.stable_of_returns_nf hs hd hs' hd' h'
  exact C10_compiled_noflats_eq_python_partial short diag hs hd hs' hd' dem r r' h h'
    (FillCython.stable_of_outlets hI hk hf (hfin' hfin hsfin hdfin) fun c hc hn => hopen c (nextToEdge_of hc hn))

/-- C09: in general the two results can differ only if the compiled one is too high in some cell next to the edge:
if no such cell could be lowered further, the results agree. -/
theorem C09_only_next_to_edge_partial (dem r r' : Raster β)
    (h : Returns (Fill.fillTerrain dem) (.ok r)) (h' : Returns (FillCython.fillTerrain dem) (.ok r'))
    (hedge : ∀ c, NextToEdge dem.rows dem.cols c → ∀ b, Adj c b → r'.get c ≤ max (dem.get c) (r'.get b)) :
    r'.Same r := by
  obtain ⟨hI, hk, hf, hfin'⟩ := FillCython.stable_of_returns h'
  refine C09_compiled_fill_eq_python_partial dem r r' h h' fun c hc b hb => ?_
  by_cases hfar : FillCython.Far dem.rows dem.cols c
  · exact hf c hfar b hb
  · exact hedge c (nextToEdge_of hc hfar) b hb

/-- A DEM with a pit in the middle and open edges. -/
def openDem : Raster (WithTop Int) :=
  Raster.ofRows [[-9,-9,-9,-9,-9],[-9,5,6,5,-9],[-9,7,0,4,-9],[-9,5,8,5,-9],[-9,-9,-9,-9,-9]]

set_option maxRecDepth 100000 in
/-- Non-vacuity of C09 and C10 here: `openDem` is finite, its edge is open, and its pit is filled. -/
example : (∀ c ∈ openDem.cells, openDem.get c < ⊤) ∧
    (∀ c, NextToEdge openDem.rows openDem.cols c → ∃ e, OnEdge openDem.rows openDem.cols e ∧ Adj c e ∧
      openDem.get e + 2 ≤ openDem.get c) ∧
    ((FillCython.fillTerrain openDem 9).map fun r => r.toOption.map fun r => r.get (2, 2)) = some (some 4) := by
  refine ⟨by decide +kernel, ?_, by decide +kernel⟩
  rintro ⟨i, j⟩ ⟨h, hr⟩
  have h1 := (interior_iff (rows := 5) (cols := 5)).1 h
  have h2 : i = 1 ∨ i = 3 ∨ j = 1 ∨ j = 3 := hr
  simp only at h1
  have hi : i = 1 ∨ i = 2 ∨ i = 3 := by omega
  have hj : j = 1 ∨ j = 2 ∨ j = 3 := by omega
  refine ⟨if i = 2 then (2, if j = 1 then 0 else 4) else (if i = 1 then 0 else 4, j), ?_⟩
  rcases hi with rfl | rfl | rfl <;> rcases hj with rfl | rfl | rfl
  all_goals first
    | (exfalso; omega)
    | (refine ⟨by decide, by decide, by decide +kernel⟩)

/-! ### C80 -/

/-- Returned value of a cell, for a concrete run of the compiled fill. -/
theorem compiled_cell {dem r : Raster β} (hs : FillCython.shapeError dem.rows dem.cols = none)
    (h : Returns (FillCython.fillTerrain dem) (.ok r)) {c : Cell} {v : β} {k : Nat}
    (hk : ((doWhile (Fill.iteration (FillCython.fillTerrainSweep dem) dem) k
      (Fill.initializeFilled dem)).map fun r => r.get c) = some v) : r.get c = v := by
  obtain ⟨n, hn⟩ := h
  have h := hn (max n k) (le_max_left _ _)
  obtain ⟨q, hq, hq2⟩ := Option.map_eq_some_iff.1 hk
  have hq' := doWhile_mono hq (le_max_right n k)
  unfold FillCython.fillTerrain at h
  rw [hs] at h
  simp only [hq'] at h
  simp only [Option.map_some, Option.some.injEq, Except.ok.injEq] at h
  rw [← h]; exact hq2

set_option maxRecDepth 100000 in
/-- C80 is false: with the compiled fill a connected wet area need not have a level surface. On `demoDem` the cells
(2,1) and (2,2) are neighbours, both under water, with levels 1 and 10. -/
theorem C80_level_surface_false :
    ¬ ∀ (dem r : Raster (WithTop Int)), Returns (FillCython.fillTerrain dem) (.ok r) →
      ∀ a b, ConnectedIn (fun c => dem.Has c ∧ dem.get c < r.get c) a b → r.get a = r.get b := by
  intro hall
  obtain ⟨r, hr, _⟩ := FillCython.fillTerrain_returns demoDem (by decide)
  have e1 : r.get (2, 1) = 1 := compiled_cell (by decide) hr (k := 9) (by decide +kernel)
  have e2 : r.get (2, 2) = 10 := compiled_cell (by decide) hr (k := 9) (by decide +kernel)
  have := hall demoDem r hr (2, 1) (2, 2) ⟨[(2, 1), (2, 2)], rfl, rfl, by decide, by
    intro c hc
    simp only [List.mem_cons, List.not_mem_nil, or_false] at hc
    rcases hc with rfl | rfl
    · rw [e1]; exact ⟨by decide, by decide⟩
    · rw [e2]; exact ⟨by decide, by decide⟩⟩
  rw [e1, e2] at this
  exact absurd this (by decide)

/-- Neighbouring wet cells at which the surface is stable have the same level. -/
theorem level_of_stable {dem r : Raster β} (P : Cell → Prop)
    (hstable : ∀ c, P c → ∀ b, Adj c b → r.get c ≤ max (dem.get c) (r.get b)) {a b : Cell}
    (h : ConnectedIn (fun c => P c ∧ dem.get c < r.get c) a b) : r.get a = r.get b := by
  have hle : ∀ x y, (P x ∧ dem.get x < r.get x) → Adj x y → r.get x ≤ r.get y := by
    rintro x y ⟨hx, hlt⟩ hxy
    rcases le_max_iff.1 (hstable x hx y hxy) with h | h
    · exact absurd h (not_le.2 hlt)
    · exact h
  obtain ⟨p, hhead, hlast, hch, hS⟩ := h
  induction p generalizing a with
  | nil => simp at hhead
  | cons x q ih =>
    simp at hhead; subst hhead
    cases q with
    | nil => simp at hlast; rw [hlast]
    | cons y q =>
      rw [List.isChain_cons_cons] at hch
      have hxy : r.get x = r.get y :=
        le_antisymm (hle x y (hS x (by simp)) hch.1) (hle y x (hS y (by simp)) (adj_symm hch.1))
      rw [hxy]
      exact ih rfl (by rwa [List.getLast?_cons_cons] at hlast) hch.2 (fun z hz => hS z (List.mem_cons_of_mem _ hz))

/-- C80, the part that holds: wet cells connected through wet cells at least two cells from the edge have one level;
and on DEMs with open edges (see `C09_open_edge_partial`) all connected wet cells have. Missing (and false): wet cells
next to the edge of other DEMs. -/
theorem C80_level_surface_partial (dem r : Raster β) (h : Returns (FillCython.fillTerrain dem) (.ok r)) :
    (∀ a b, ConnectedIn (fun c => (2 ≤ c.1 ∧ c.1 ≤ (dem.rows : Int) - 3 ∧ 2 ≤ c.2 ∧ c.2 ≤ (dem.cols : Int) - 3) ∧
      dem.get c < r.get c) a b → r.get a = r.get b) ∧
    ((∀ c, dem.Has c → dem.get c < ⊤) → (∀ c, NextToEdge dem.rows dem.cols c →
        ∃ e, OnEdge dem.rows dem.cols e ∧ Adj c e ∧ dem.get e ≤ dem.get c) →
      ∀ a b, ConnectedIn (fun c => dem.Has c ∧ dem.get c < r.get c) a b → r.get a = r.get b) := by
  obtain ⟨hI, hk, hf, hfin'⟩ := FillCython.stable_of_returns h
  refine ⟨fun a b hab => level_of_stable (fun c => FillCython.Far dem.rows dem.cols c) hf hab, ?_⟩
  intro hfin hopen a b hab
  have hst := FillCython.stable_of_outlets hI hk hf (hfin' hfin) fun c hc hn => hopen c (nextToEdge_of hc hn)
  refine level_of_stable (Interior dem.rows dem.cols) hst ?_
  obtain ⟨p, h1, h2, h3, h4⟩ := hab
  refine ⟨p, h1, h2, h3, fun x hx => ⟨⟨(h4 x hx).1, fun he => ?_⟩, (h4 x hx).2⟩⟩
  have := (h4 x hx).2
  rw [hI.edge x he] at this
  exact lt_irrefl _ this

/-- A DEM with a depression of two cells away from the edge. -/
def farDem : Raster (WithTop Int) :=
  Raster.ofRows [[9,9,9,9,9,9],[9,8,8,8,8,9],[9,8,2,1,8,9],[9,8,8,7,8,9],[9,9,9,6,9,9]]

set_option maxRecDepth 100000 in
/-- Non-vacuity of C80: in `farDem` the cells (2,2) and (2,3) are two cells from the edge, connected, and under water
at level 7. -/
example : ((FillCython.fillTerrain farDem 9).map fun r => r.toOption.map fun r => [r.get (2, 2), r.get (2, 3)]) =
      some (some [7, 7]) ∧
    ConnectedIn (fun c => (2 ≤ c.1 ∧ c.1 ≤ (farDem.rows : Int) - 3 ∧ 2 ≤ c.2 ∧ c.2 ≤ (farDem.cols : Int) - 3) ∧
      farDem.get c < 7) (2, 2) (2, 3) := by
  refine ⟨by decide +kernel, ⟨[(2, 2), (2, 3)], rfl, rfl, by decide, by decide +kernel⟩⟩

end Malstroem
