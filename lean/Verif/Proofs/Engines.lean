/-
The same results from the Python and from the compiled functions: cells outside the raster are never touched, so rasters
that agree in every cell are equal, and everything calculated from them is.
-/
import Verif.Proofs.Scripts
import Verif.Props.FillStable
import Verif.Props.Complete

set_option linter.unusedSectionVars false

namespace Malstroem
open Spec

theorem Raster.Same.eq {α : Type*} {a b : Raster α} (h : a.Same b) (hout : ∀ c, ¬ a.Has c → a.get c = b.get c) : a = b := by
  have : a.get = b.get := by
    funext c
    by_cases hc : a.Has c
    · exact h.2.2 c hc
    · exact hout c hc
  cases a; cases b
  obtain ⟨h1, h2, _⟩ := h
  simp only at h1 h2 this
  rw [h1, h2, this]

theorem doWhile_keeps {σ : Type*} {body : σ → σ × Bool} (I : σ → Prop) (hI : ∀ s, I s → I (body s).1) :
    ∀ (n : Nat) (s r : σ), I s → doWhile body n s = some r → I r := by
  intro n
  induction n with
  | zero => intro s r _ h; cases h
  | succ n ih =>
    intro s r hs h
    unfold doWhile at h
    dsimp only at h
    split_ifs at h
    · exact ih _ _ (hI s hs) h
    · cases h; exact hI s hs

namespace Fill
variable {β : Type*} [LinearOrder β] [OrderTop β]

/-- Nothing was written outside the raster. -/
def Untouched (dtm f : Raster β) : Prop := ∀ c, ¬ dtm.Has c → f.get c = (initializeFilled dtm).get c

theorem sweep_untouched {step : Cell → Cell → β → β} {dtm : Raster β} {cell : Raster β → Cell → Raster β × Bool}
    (hcell : IsRelax step dtm cell) (l : List Cell) (hl : ∀ c ∈ l, dtm.Has c) {f : Raster β} (hf : Untouched dtm f) :
    Untouched dtm (sweepWith cell l f).1 := by
  have key : ∀ (l : List Cell) (st : Raster β × Bool), (∀ c ∈ l, dtm.Has c) → Untouched dtm st.1 →
      Untouched dtm (l.foldl (fun st c =>
        let (filled', ch) := cell st.1 c
        (filled', if ch then true else st.2)) st).1 := by
    intro l
    induction l with
    | nil => intro st _ h; exact h
    | cons c l ih =>
      intro st hl h
      refine ih _ (fun x hx => hl x (List.mem_cons_of_mem _ hx)) fun x hx => ?_
      show (cell st.1 c).1.get x = _
      have hne : x ≠ c := by rintro rfl; exact hx (hl x (by simp))
      cases hch : (cell st.1 c).2 with
      | false => rw [hcell.unchanged st.1 c hch]; exact h x hx
      | true =>
        obtain ⟨_, b, _, heq, _⟩ := hcell.changed st.1 c hch
        rw [heq]
        simp only [Raster.set, Function.update_of_ne hne]
        exact h x hx
  exact key l (f, false) hl hf

theorem iteration_untouched {step : Cell → Cell → β → β} {dtm : Raster β} {cell : Raster β → Cell → Raster β × Bool}
    (hcell : IsRelax step dtm cell) (cs : Int → Int → Int → Int → List Cell)
    (hcs : ∀ a b c d, ((a = 1 ∧ b = (dtm.rows : Int) - 2) ∨ (a = (dtm.rows : Int) - 2 ∧ b = 1)) →
      ((c = 1 ∧ d = (dtm.cols : Int) - 2) ∨ (c = (dtm.cols : Int) - 2 ∧ d = 1)) → ∀ x ∈ cs a b c d, dtm.Has x)
    {f : Raster β} (hf : Untouched dtm f) :
    Untouched dtm (iteration (fun f a b c d => sweepWith cell (cs a b c d) f) dtm f).1 := by
  have h1 := hcs _ _ _ _ (.inl ⟨rfl, rfl⟩) (.inl ⟨rfl, rfl⟩)
  have h2 := hcs _ _ _ _ (.inr ⟨rfl, rfl⟩) (.inr ⟨rfl, rfl⟩)
  have h3 := hcs _ _ _ _ (.inl ⟨rfl, rfl⟩) (.inr ⟨rfl, rfl⟩)
  have h4 := hcs _ _ _ _ (.inr ⟨rfl, rfl⟩) (.inl ⟨rfl, rfl⟩)
  have k1 := sweep_untouched hcell _ h1 hf
  have k2 := sweep_untouched hcell _ h2 k1
  have k3 := sweep_untouched hcell _ h3 k2
  have k4 := sweep_untouched hcell _ h4 k3
  unfold iteration
  dsimp only
  split_ifs
  all_goals first
    | exact k1
    | exact k2
    | exact k3
    | exact k4
    | simp_all

theorem fillTerrain_untouched {dtm r : Raster β} (h : Returns (fillTerrain dtm) (.ok r)) : Untouched dtm r := by
  obtain ⟨hr, hc⟩ := shape_of_returns h
  obtain ⟨n, hn⟩ := h
  have := hn n le_rfl
  unfold fillTerrain at this
  rw [if_neg (by omega)] at this
  obtain ⟨q, hq, he⟩ := Option.map_eq_some_iff.1 this
  cases he
  exact doWhile_keeps (Untouched dtm) (fun s hs => iteration_untouched (fillCell_relax dtm) sweepCells
    (fun a b c d hab hcd => (pySweep_cells hr hc a b c d hab hcd).1) hs) n _ _ (fun _ _ => rfl) hq

theorem noFlats_untouched {short diag : β → β} (hs : Monotone short) (hd : Monotone diag) {dtm r : Raster β}
    (h : Returns (fillTerrainNoFlats short diag dtm) (.ok r)) : Untouched dtm r := by
  obtain ⟨hr, hc⟩ := shape_of_returns_nf h
  obtain ⟨n, hn⟩ := h
  have := hn n le_rfl
  unfold fillTerrainNoFlats at this
  rw [if_neg (by omega)] at this
  obtain ⟨q, hq, he⟩ := Option.map_eq_some_iff.1 this
  cases he
  exact doWhile_keeps (Untouched dtm) (fun s hs' => iteration_untouched (fillCellNoFlats_relax short diag hs hd dtm) sweepCells
    (fun a b c d hab hcd => (pySweep_cells hr hc a b c d hab hcd).1) hs') n _ _ (fun _ _ => rfl) hq

end Fill

namespace FillCython
variable {β : Type*} [LinearOrder β] [OrderTop β]

theorem sweep_has {dtm : Raster β} (hr : 2 ≤ dtm.rows) (hc : 2 ≤ dtm.cols) (a b c d : Int)
    (hab : (a = 1 ∧ b = (dtm.rows : Int) - 2) ∨ (a = (dtm.rows : Int) - 2 ∧ b = 1))
    (hcd : (c = 1 ∧ d = (dtm.cols : Int) - 2) ∨ (c = (dtm.cols : Int) - 2 ∧ d = 1)) : ∀ x ∈ sweepCells a b c d, dtm.Has x := by
  intro x hx
  rw [mem_sweepCells] at hx
  unfold Raster.Has InGrid
  omega

theorem fillTerrain_untouched {dtm r : Raster β} (h : Returns (fillTerrain dtm) (.ok r)) : Fill.Untouched dtm r := by
  have hse := shape_of_returns h
  obtain ⟨h1, h2, _, _⟩ := shapeError_none.1 hse
  obtain ⟨n, hn⟩ := h
  have := hn n le_rfl
  unfold fillTerrain at this
  rw [hse] at this
  obtain ⟨q, hq, he⟩ := Option.map_eq_some_iff.1 this
  cases he
  have heq : fillTerrainSweep dtm = fun f a b c d => Fill.sweepWith (Fill.fillCell dtm) (sweepCells a b c d) f := by
    funext f a b c d; rw [fillTerrainSweep, fillCell_eq]
  rw [heq] at hq
  exact doWhile_keeps (Fill.Untouched dtm) (fun s hs => Fill.iteration_untouched (Fill.fillCell_relax dtm) sweepCells
    (sweep_has h1 h2) hs) n _ _ (fun _ _ => rfl) hq

theorem noFlats_untouched {short diag : β → β} (hs : Monotone short) (hd : Monotone diag) {dtm r : Raster β}
    (h : Returns (fillTerrainNoFlats short diag dtm) (.ok r)) : Fill.Untouched dtm r := by
  have hse := shape_of_returns_nf h
  obtain ⟨h1, h2, _, _⟩ := shapeError_none.1 hse
  obtain ⟨n, hn⟩ := h
  have := hn n le_rfl
  unfold fillTerrainNoFlats at this
  rw [hse] at this
  obtain ⟨q, hq, he⟩ := Option.map_eq_some_iff.1 this
  cases he
  have heq : fillTerrainNoFlatsSweep short diag dtm = fun f a b c d =>
      Fill.sweepWith (Fill.fillCellNoFlats short diag dtm) (sweepCells a b c d) f := by
    funext f a b c d; rw [fillTerrainNoFlatsSweep, fillCellNoFlats_eq]
  rw [heq] at hq
  exact doWhile_keeps (Fill.Untouched dtm) (fun s hs' => Fill.iteration_untouched
    (Fill.fillCellNoFlats_relax short diag hs hd dtm) sweepCells (sweep_has h1 h2) hs') n _ _ (fun _ _ => rfl) hq

end FillCython

namespace Flow
variable {flowdir : Raster Nat}

theorem trace_untouched : ∀ (n : Nat) (A B : Raster Int) (c : Cell), trace flowdir n A c = some B →
    ∀ x, ¬ flowdir.Has x → B.get x = A.get x := by
  intro n
  induction n with
  | zero => intro A B c h; cases h
  | succ n ih =>
    intro A B c h x hx
    unfold trace at h
    split_ifs at h with h1 h2
    · rw [ih _ _ _ h x hx]
      simp only [Raster.set]
      rw [Function.update_of_ne]
      rintro rfl; exact hx h1
    · cases h; rfl
    · cases h; rfl

theorem traceAll_untouched {sel : Cell → Bool} {n : Nat} : ∀ (l : List Cell) (A B : Raster Int),
    traceAll flowdir sel n l A = some B → ∀ x, ¬ flowdir.Has x → B.get x = A.get x := by
  intro l
  induction l with
  | nil => intro A B h x _; cases h; rfl
  | cons c l ih =>
    intro A B h x hx
    unfold traceAll at h
    split_ifs at h
    · cases ht : trace flowdir n A c with
      | none => rw [ht] at h; cases h
      | some A1 =>
        rw [ht] at h
        rw [ih _ _ h x hx, trace_untouched n A A1 c ht x hx]
    · exact ih _ _ h x hx

/-- The two versions of `accumulated_flow` return the same raster. -/
theorem accum_same (junk : Int × Int) (hcodes : ∀ c, flowdir.Has c → flowdir.get c < 8) :
    ∃ A, Returns (accumulatedFlow flowdir) (.ok A) ∧ Returns (FlowCython.accumulatedFlow junk flowdir) A := by
  obtain ⟨A, B, hA, hB, hs⟩ := C20_compiled_accum_eq_python junk flowdir hcodes
  have hAB : A = B := by
    have h2 : A.rows = flowdir.rows ∧ A.cols = flowdir.cols := by
      obtain ⟨A', h1, h2, h3, _⟩ := accumulatedFlow_returns hcodes
      have := hA.unique h1
      cases this
      exact ⟨h2, h3⟩
    refine hs.eq fun c hc => ?_
    have hc : ¬ flowdir.Has c := by
      intro h
      apply hc
      show InGrid A.rows A.cols c
      rw [h2.1, h2.2]; exact h
    obtain ⟨n, hn⟩ := hA
    obtain ⟨m, hm⟩ := hB
    have e1 := hn n le_rfl
    have e2 := hm m le_rfl
    rw [accumulatedFlow, accumLoop_eq hcodes] at e1
    rw [FlowCython.accumulatedFlow, FlowCython.accumLoop_eq junk hcodes] at e2
    obtain ⟨q, hq, he⟩ := Option.map_eq_some_iff.1 e1
    cases he
    rw [traceAll_untouched _ _ _ hq c hc, traceAll_untouched _ _ _ e2 c hc]
  subst hAB
  exact ⟨A, hA, hB⟩

end Flow

namespace Dem
variable {β γ : Type*} [LinearOrder β] [OrderTop β] [LT γ] [DecidableLT γ] [Zero γ]

/-- DemTool looks at nothing but the results of the functions. -/
theorem process_congr {e₁ e₂ : Engine β γ} {sub : β → β → γ} {safe : Raster β → (β → β) × (β → β)} {square want : Bool}
    {dem : Raster β} {n : Nat} (h1 : e₁.fillTerrain dem n = e₂.fillTerrain dem n)
    (h2 : e₁.fillTerrainNoFlats (safe dem).1 (safe dem).2 dem n = e₂.fillTerrainNoFlats (safe dem).1 (safe dem).2 dem n)
    (h3 : ∀ nf, e₁.fillTerrainNoFlats (safe dem).1 (safe dem).2 dem n = some (.ok nf) →
      Flow.terrainFlowdirection e₁.drop e₁.scale nf true = Flow.terrainFlowdirection e₂.drop e₂.scale nf true ∧
      (want = true → e₁.accumulatedFlow (Flow.terrainFlowdirection e₁.drop e₁.scale nf true) n =
        e₂.accumulatedFlow (Flow.terrainFlowdirection e₁.drop e₁.scale nf true) n)) :
    process e₁ sub safe square want dem n = process e₂ sub safe square want dem n := by
  unfold process
  rw [← h1]
  cases square
  · rfl
  rcases e₁.fillTerrain dem n with _ | (e | filled)
  · rfl
  · rfl
  dsimp only
  rw [← h2]
  rcases hnf : e₁.fillTerrainNoFlats (safe dem).1 (safe dem).2 dem n with _ | (e | nf)
  · rfl
  · rfl
  dsimp only
  obtain ⟨h4, h5⟩ := h3 nf hnf
  rw [← h4]
  cases want
  · rfl
  · rw [h5 rfl]

end Dem

namespace Bluespots
variable {K : Type} [Field K] [LinearOrder K] [IsStrictOrderedRing K] {fl : K → K} {β : Type} [LinearOrder β] [OrderTop β]

/-- BluespotTool gives the same result with the Python and with the compiled functions, if the fill without flats does. -/
theorem process_congr {cc : Raster Bool → Raster Int × Nat} (hcc : LabelContract cc) {e₁ e₂ : Engine β K}
    (h₁ : IsEngineFl fl e₁) (h₂ : IsEngineFl fl e₂) {safe : Raster β → (β → β) × (β → β)} {gt : GeoTransform K}
    {depths : Raster K} (hr : 0 < depths.rows) (hc : 0 < depths.cols) {f : StatUnits K → Bool} {flowdir : Raster Nat}
    {acc : Option (Raster Int)} {dem : Raster β} {n : Nat}
    (hnf : acc = none → e₁.fillTerrainNoFlats (safe dem).1 (safe dem).2 dem n =
      e₂.fillTerrainNoFlats (safe dem).1 (safe dem).2 dem n)
    (hsh : ∀ nf, e₁.fillTerrainNoFlats (safe dem).1 (safe dem).2 dem n = some (.ok nf) →
      nf.rows = depths.rows ∧ nf.cols = depths.cols) {b : Out K}
    (h : processFl fl cc e₁ safe gt depths (some f) flowdir acc (some dem) n = some (.ok b)) :
    processFl fl cc e₂ safe gt depths (some f) flowdir acc (some dem) n = some (.ok b) := by
  have hstats : ∀ (D : Raster Bool), D.rows = depths.rows → D.cols = depths.cols →
      e₁.labelStats depths (cc D).1 none = e₂.labelStats depths (cc D).1 none := by
    intro D d1 d2
    obtain ⟨l1, l2, hL⟩ := hcc D
    have hL' : IsLabelling (cc D).1.rows (cc D).1.cols (fun c => D.get c = true) (cc D).1.get (cc D).2 := by
      rw [l1, l2]; exact hL
    have hsh : depths.rows = (cc D).1.rows ∧ depths.cols = (cc D).1.cols := ⟨by omega, by omega⟩
    rw [h₁.stats hsh (hL'.topLabel (by omega) (by omega)) hL'.labelsIn,
      h₂.stats hsh (hL'.topLabel (by omega) (by omega)) hL'.labelsIn]
  have hmin : ∀ (D : Raster Bool) (nf : Raster β), D.rows = depths.rows → D.cols = depths.cols →
      nf.rows = depths.rows ∧ nf.cols = depths.cols →
      e₁.labelMinIndex nf (cc D).1 (some ((cc D).2 : Int)) = e₂.labelMinIndex nf (cc D).1 (some ((cc D).2 : Int)) := by
    intro D nf d1 d2 hn
    obtain ⟨l1, l2, hL⟩ := hcc D
    have hL' : IsLabelling (cc D).1.rows (cc D).1.cols (fun c => D.get c = true) (cc D).1.get (cc D).2 := by
      rw [l1, l2]; exact hL
    have hsh : nf.rows = (cc D).1.rows ∧ nf.cols = (cc D).1.cols := ⟨by omega, by omega⟩
    rw [h₁.minIndex hsh (hL'.topLabel' (by omega) (by omega)) hL'.labelsIn,
      h₂.minIndex hsh (hL'.topLabel' (by omega) (by omega)) hL'.labelsIn]
  have hkeep : ∀ keepers keep, Label.keepLabels (connectedComponents cc depths).1 keepers 0 = .ok keep →
      keep.rows = depths.rows ∧ keep.cols = depths.cols := by
    intro keepers keep hk
    obtain ⟨c1, c2, _⟩ := hcc { rows := depths.rows, cols := depths.cols, get := fun c => depths.get c ≠ 0 }
    change (connectedComponents cc depths).1.rows = depths.rows at c1
    change (connectedComponents cc depths).1.cols = depths.cols at c2
    unfold Label.keepLabels at hk
    split at hk
    · cases hk
    · simp only at hk
      split at hk
      · cases hk; exact ⟨c1, c2⟩
      · cases hk
  unfold processFl at h ⊢
  rw [if_neg (by simp)] at h ⊢
  dsimp only at h ⊢
  by_cases hsq : ¬ |fl (|gt.t1| - |gt.t5|)| < fl (fl (1 / 100) * |(|gt.t1|)|)
  · rw [if_pos hsq] at h; exact absurd h Run.fail_ok
  rw [if_neg hsq] at h ⊢
  rw [Run.bind_ok] at h ⊢
  obtain ⟨raw, g1, h⟩ := h
  refine ⟨raw, ?_, ?_⟩
  · rw [← g1, Run.ofExcept, Run.ofExcept]
    exact congrArg some (hstats { rows := depths.rows, cols := depths.cols, get := fun c => depths.get c ≠ 0 } rfl rfl).symm
  rw [Run.bind_ok] at h ⊢
  obtain ⟨keep, g2, h⟩ := h
  refine ⟨keep, g2, ?_⟩
  obtain ⟨k1, k2⟩ := hkeep _ keep (Run.ofExcept_ok.1 g2)
  rw [Run.bind_ok] at h ⊢
  obtain ⟨st, g3, h⟩ := h
  refine ⟨st, ?_, ?_⟩
  · rw [← g3, Run.ofExcept, Run.ofExcept, hstats keep k1 k2]
  rw [h₁.watersheds] at h
  rw [h₂.watersheds]
  rw [Run.bind_ok] at h ⊢
  obtain ⟨ws, g4, h⟩ := h
  refine ⟨ws, g4, ?_⟩
  rw [Run.bind_ok] at h ⊢
  obtain ⟨ct, g5, h⟩ := h
  refine ⟨ct, g5, ?_⟩
  cases acc with
  | some a => exact h
  | none =>
    dsimp only at h ⊢
    rw [Run.bind_ok] at h ⊢
    obtain ⟨nf, g6, h⟩ := h
    have g6' := Run.ofFuel_ok.1 g6
    refine ⟨nf, ?_, ?_⟩
    · rw [Run.ofFuel_ok, ← hnf rfl]; exact g6'
    rw [Run.bind_ok] at h ⊢
    obtain ⟨pix, g7, h⟩ := h
    refine ⟨pix, ?_, h⟩
    rw [← g7, Run.ofExcept, Run.ofExcept, hmin keep nf k1 k2 (hsh nf g6')]

end Bluespots
end Malstroem
