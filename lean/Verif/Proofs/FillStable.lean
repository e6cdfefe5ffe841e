/-
Where the result of the compiled fill is stable: at the cells every sweep visits, and next to the edge wherever water
can leave over the edge directly.
-/
import Verif.Proofs.FillCython

set_option linter.unusedSectionVars false

namespace Malstroem
open Spec

namespace Fill
variable {β : Type*} [LinearOrder β]

/-- A visit leaves the cell no higher than its elevation or any neighbour. -/
theorem fillCell_best (dtm f : Raster β) (c b : Cell) (hb : Adj c b) :
    (fillCell dtm f c).1.get c ≤ max (dtm.get c) (f.get b) := by
  cases h : (fillCell dtm f c).2 with
  | false =>
    rw [(fillCell_relax dtm).unchanged f c h]
    exact (fillCell_relax dtm).fix f c h b hb
  | true =>
    revert h
    unfold fillCell
    dsimp only
    split_ifs with h1 h2
    · simp
    · simp
    · intro _
      simp only [Raster.set, Function.update_self]
      rw [max_comm]
      refine max_le_max le_rfl ?_
      rw [adj_iff] at hb
      rcases hb with rfl | rfl | rfl | rfl | rfl | rfl | rfl | rfl
      all_goals simp

/-- The same for the fill without flats. -/
theorem fillCellNoFlats_best (short diag : β → β) (hs : Monotone short) (hd : Monotone diag) (dtm f : Raster β)
    (c b : Cell) (hb : Adj c b) :
    (fillCellNoFlats short diag dtm f c).1.get c ≤ max (dtm.get c) (stepSD short diag c b (f.get b)) := by
  cases h : (fillCellNoFlats short diag dtm f c).2 with
  | false =>
    rw [(fillCellNoFlats_relax short diag hs hd dtm).unchanged f c h]
    exact (fillCellNoFlats_relax short diag hs hd dtm).fix f c h b hb
  | true =>
    revert h
    unfold fillCellNoFlats
    dsimp only
    split_ifs with h1 h2
    · simp
    · simp
    · intro _
      simp only [Raster.set, Function.update_self]
      rw [max_comm]
      refine max_le_max le_rfl ((min_le_left _ _).trans ?_)
      unfold stepSD
      rw [adj_iff] at hb
      rcases hb with rfl | rfl | rfl | rfl | rfl | rfl | rfl | rfl
      all_goals simp only [orth_iff]
      all_goals simp
      all_goals first
        | (left; apply hd; simp)
        | (right; apply hs; simp)

/-- A property kept by every visit is kept by an iteration. -/
theorem iteration_keeps {cell : Raster β → Cell → Raster β × Bool} (cs : Int → Int → Int → Int → List Cell)
    (dtm : Raster β) (K : Raster β → Prop) (hK : ∀ f c, K f → K (cell f c).1) (f : Raster β) (hf : K f) :
    K (iteration (fun f a b c d => sweepWith cell (cs a b c d) f) dtm f).1 := by
  have hsw : ∀ (l : List Cell) (f : Raster β), K f → K (sweepWith cell l f).1 := by
    intro l f hf
    have key : ∀ (l : List Cell) (st : Raster β × Bool), K st.1 →
        K (l.foldl (fun st c =>
          let (filled', ch) := cell st.1 c
          (filled', if ch then true else st.2)) st).1 := by
      intro l
      induction l with
      | nil => intro st h; exact h
      | cons c l ih => intro st h; exact ih _ (hK st.1 c h)
    exact key l (f, false) hf
  unfold iteration
  dsimp only
  split_ifs <;> exact_mod_cast by
    first
      | exact hsw _ _ (hsw _ _ (hsw _ _ (hsw _ _ hf)))
      | exact hsw _ _ (hsw _ _ (hsw _ _ hf))
      | exact hsw _ _ (hsw _ _ hf)
      | exact hsw _ _ hf

end Fill

namespace FillCython
section
variable {β : Type*} [LinearOrder β] [OrderTop β] {step : Cell → Cell → β → β} {dtm : Raster β}

/-- At least two cells away from the edge. -/
def Far (rows cols : Nat) (c : Cell) : Prop :=
  2 ≤ c.1 ∧ c.1 ≤ (rows : Int) - 3 ∧ 2 ≤ c.2 ∧ c.2 ≤ (cols : Int) - 3

/-- Water that reaches the cell can leave over the edge directly. -/
def Outlet (step : Cell → Cell → β → β) (dtm : Raster β) (c : Cell) : Prop :=
  ∃ e, OnEdge dtm.rows dtm.cols e ∧ Adj c e ∧ step c e (dtm.get e) ≤ dtm.get c

/-- What the compiled loop keeps: edge values, and outlet cells are unvisited or at their elevation. -/
def Kept (step : Cell → Cell → β → β) (dtm f : Raster β) : Prop :=
  (∀ e, OnEdge dtm.rows dtm.cols e → f.get e = dtm.get e) ∧
    ∀ c, Outlet step dtm c → f.get c = ⊤ ∨ f.get c ≤ dtm.get c

theorem kept_cell {cell : Raster β → Cell → Raster β × Bool} (hcell : Fill.IsRelax step dtm cell)
    (hbest : ∀ f c b, Adj c b → (cell f c).1.get c ≤ max (dtm.get c) (step c b (f.get b)))
    (f : Raster β) (c : Cell) (h : Kept step dtm f) : Kept step dtm (cell f c).1 := by
  obtain ⟨h1, h2⟩ := h
  cases hch : (cell f c).2 with
  | false => rw [hcell.unchanged f c hch]; exact ⟨h1, h2⟩
  | true =>
    obtain ⟨hlt, b, _, heq, _⟩ := hcell.changed f c hch
    have hne : ∀ x, x ≠ c → (cell f c).1.get x = f.get x := by
      intro x hx
      rw [heq]; simp [Raster.set, Function.update_of_ne hx]
    constructor
    · intro e he
      by_cases hec : e = c
      · subst hec; rw [h1 e he] at hlt; exact absurd hlt (lt_irrefl _)
      · rw [hne e hec]; exact h1 e he
    · intro x hx
      by_cases hxc : x = c
      · subst hxc
        right
        obtain ⟨e, he, hadj, hle⟩ := hx
        have := hbest f x e hadj
        rw [h1 e he] at this
        exact this.trans (max_le le_rfl hle)
      · rw [hne x hxc]; exact h2 x hx

/-- When the compiled loop ends, cells far from the edge are stable, and outlet cells are unvisited or at their
elevation. -/
theorem loop_stable (hr : 2 ≤ dtm.rows) (hc : 2 ≤ dtm.cols) (hr3 : dtm.rows ≠ 3) (hc3 : dtm.cols ≠ 3)
    {cell : Raster β → Cell → Raster β × Bool} (hcell : Fill.IsRelax step dtm cell) (hstep : Fill.GoodStep step)
    (hbest : ∀ f c b, Adj c b → (cell f c).1.get c ≤ max (dtm.get c) (step c b (f.get b))) :
    ∃ r, Returns (fun n => doWhile (Fill.iteration
        (fun f a b c d => Fill.sweepWith cell (sweepCells a b c d) f) dtm) n (Fill.initializeFilled dtm)) r ∧
      Kept step dtm r ∧
      ∀ c, Far dtm.rows dtm.cols c → ∀ b, Adj c b → r.get c ≤ max (dtm.get c) (step c b (r.get b)) := by
  set sw := fun (f : Raster β) (a b c d : Int) => Fill.sweepWith cell (sweepCells a b c d) f with hsw
  have hit := fun (f : Raster β) (hI : Fill.Inv step dtm f) =>
    Fill.iteration_spec hstep hcell sweepCells sw
      (fun _ _ _ _ _ => rfl) (fun l => ∀ x, Far dtm.rows dtm.cols x → x ∈ l)
      (fun a b c d hab hcd => ⟨fun x hx => by
        rw [mem_sweepCells] at hx
        unfold Raster.Has InGrid
        omega, fun x hx => by
        rw [mem_sweepCells]
        unfold Far at hx
        omega⟩) hI
  have hkeep : ∀ f, Kept step dtm f → Kept step dtm (Fill.iteration sw dtm f).1 :=
    Fill.iteration_keeps sweepCells dtm (Kept step dtm) (kept_cell hcell hbest)
  have hkept0 : Kept step dtm (Fill.initializeFilled dtm) := by
    refine ⟨(Fill.inv_init step dtm).edge, fun c hc => ?_⟩
    unfold Fill.initializeFilled
    dsimp only
    split_ifs
    · exact .inr le_rfl
    · exact .inl rfl
  refine doWhile_returns _ (fun f => Fill.Inv step dtm f ∧ Kept step dtm f)
    (Fill.measure step dtm) (fun r => Kept step dtm r ∧
      ∀ c, Far dtm.rows dtm.cols c → ∀ b, Adj c b → r.get c ≤ max (dtm.get c) (step c b (r.get b))) ?_ ?_ _
    ⟨Fill.inv_init step dtm, hkept0⟩
  · intro s hs h
    exact ⟨⟨(hit s hs.1).1, hkeep s hs.2⟩, (hit s hs.1).2.2.1 h⟩
  · intro s hs h
    obtain ⟨l, hl, hfix⟩ := (hit s hs.1).2.2.2 h
    exact ⟨hkeep s hs.2, fun c hc b hb => hfix c (hl c hc) b hb⟩

theorem shape_of_returns {r : Raster β} (h : Returns (fillTerrain dtm) (.ok r)) :
    shapeError dtm.rows dtm.cols = none := by
  obtain ⟨n, hn⟩ := h
  have := hn n le_rfl
  unfold fillTerrain at this
  split at this
  · simp at this
  · assumption

theorem shape_of_returns_nf {short diag : β → β} {r : Raster β}
    (h : Returns (fillTerrainNoFlats short diag dtm) (.ok r)) : shapeError dtm.rows dtm.cols = none := by
  obtain ⟨n, hn⟩ := h
  have := hn n le_rfl
  unfold fillTerrainNoFlats at this
  split at this
  · simp at this
  · assumption

/-- What is known about a surface the compiled fill returned. -/
theorem stable_of_returns {r : Raster β} (h : Returns (fillTerrain dtm) (.ok r)) :
    Fill.Inv (fun _ _ => id) dtm r ∧ Kept (fun _ _ => id) dtm r ∧
    (∀ c, Far dtm.rows dtm.cols c → ∀ b, Adj c b → r.get c ≤ max (dtm.get c) (r.get b)) ∧
    ((∀ c, dtm.Has c → dtm.get c < ⊤) → AllFin dtm r) := by
  have hs := shape_of_returns h
  obtain ⟨h1, h2, h3, h4⟩ := shapeError_none.1 hs
  obtain ⟨q, hq, hk, hf⟩ := loop_stable h1 h2 h3 h4 (Fill.fillCell_relax dtm) Fill.id_good
    (fun f c b hb => Fill.fillCell_best dtm f c b hb)
  obtain ⟨r', hr', hI, hfin⟩ := fillTerrain_returns dtm hs
  have e1 := h.unique hr'
  simp only [Except.ok.injEq] at e1
  subst e1
  have hq' : Returns (fillTerrain dtm) (.ok q) := by
    obtain ⟨n, hn⟩ := hq.map (Except.ok (ε := PyErr))
    refine ⟨n, fun m hm => ?_⟩
    unfold fillTerrain
    rw [hs]
    have heq : fillTerrainSweep dtm = fun f a b c d => Fill.sweepWith (Fill.fillCell dtm) (sweepCells a b c d) f := by
      funext f a b c d; rw [fillTerrainSweep, fillCell_eq]
    rw [heq]
    exact hn m hm
  have e2 := h.unique hq'
  simp only [Except.ok.injEq] at e2
  subst e2
  exact ⟨hI, hk, hf, hfin⟩

theorem stable_of_returns_nf {short diag : β → β} (hs : Monotone short) (hd : Monotone diag)
    (hs' : ∀ x, x ≤ short x) (hd' : ∀ x, x ≤ diag x) {r : Raster β}
    (h : Returns (fillTerrainNoFlats short diag dtm) (.ok r)) :
    Fill.Inv (Fill.stepSD short diag) dtm r ∧ Kept (Fill.stepSD short diag) dtm r ∧
    (∀ c, Far dtm.rows dtm.cols c → ∀ b, Adj c b →
      r.get c ≤ max (dtm.get c) (Fill.stepSD short diag c b (r.get b))) ∧
    ((∀ c, dtm.Has c → dtm.get c < ⊤) → (∀ x, x < ⊤ → short x < ⊤) → (∀ x, x < ⊤ → diag x < ⊤) →
        AllFin dtm r) := by
  have hse := shape_of_returns_nf h
  obtain ⟨h1, h2, h3, h4⟩ := shapeError_none.1 hse
  obtain ⟨q, hq, hk, hf⟩ := loop_stable h1 h2 h3 h4 (Fill.fillCellNoFlats_relax short diag hs hd dtm)
    (Fill.sd_good hs hd hs' hd') (fun f c b hb => Fill.fillCellNoFlats_best short diag hs hd dtm f c b hb)
  obtain ⟨hI, hfin⟩ := noFlats_of_returns hs hd hs' hd' h
  have hq' : Returns (fillTerrainNoFlats short diag dtm) (.ok q) := by
    obtain ⟨n, hn⟩ := hq.map (Except.ok (ε := PyErr))
    refine ⟨n, fun m hm => ?_⟩
    unfold fillTerrainNoFlats
    rw [hse]
    have heq : fillTerrainNoFlatsSweep short diag dtm = fun f a b c d =>
        Fill.sweepWith (Fill.fillCellNoFlats short diag dtm) (sweepCells a b c d) f := by
      funext f a b c d; rw [fillTerrainNoFlatsSweep, fillCellNoFlats_eq]
    rw [heq]
    exact hn m hm
  have e2 := h.unique hq'
  simp only [Except.ok.injEq] at e2
  subst e2
  exact ⟨hI, hk, hf, hfin⟩

/-- If every cell next to the edge can drain over the edge directly the result is stable everywhere. -/
theorem stable_of_outlets {r : Raster β} (hI : Fill.Inv step dtm r) (hk : Kept step dtm r)
    (hf : ∀ c, Far dtm.rows dtm.cols c → ∀ b, Adj c b → r.get c ≤ max (dtm.get c) (step c b (r.get b)))
    (hfin : AllFin dtm r)
    (hout : ∀ c, Interior dtm.rows dtm.cols c → ¬ Far dtm.rows dtm.cols c → Outlet step dtm c) :
    ∀ c, Interior dtm.rows dtm.cols c → ∀ b, Adj c b → r.get c ≤ max (dtm.get c) (step c b (r.get b)) := by
  intro c hc b hb
  by_cases hfar : Far dtm.rows dtm.cols c
  · exact hf c hfar b hb
  · rcases hk.2 c (hout c hc hfar) with h | h
    · exact absurd h (hfin c hc.1).ne
    · exact h.trans (le_max_left _ _)

end
end FillCython
end Malstroem
