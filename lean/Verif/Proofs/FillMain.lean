import Verif.Proofs.FillCore
import Verif.Model.FillCython

set_option linter.unusedSectionVars false

namespace Malstroem
open Spec

theorem Returns.unique {ρ : Type*} {f : Nat → Option ρ} {r r' : ρ} (h : Returns f r) (h' : Returns f r') : r = r' := by
  obtain ⟨n, hn⟩ := h
  obtain ⟨m, hm⟩ := h'
  have h1 := hn (max n m) (le_max_left _ _)
  have h2 := hm (max n m) (le_max_right _ _)
  rw [h1] at h2
  exact Option.some.inj h2

theorem Returns.map {ρ τ : Type*} {f : Nat → Option ρ} {r : ρ} (g : ρ → τ) (h : Returns f r) :
    Returns (fun n => (f n).map g) (g r) := by
  obtain ⟨n, hn⟩ := h
  exact ⟨n, fun m hm => by simp [hn m hm]⟩

theorem doWhile_returns {σ : Type*} (body : σ → σ × Bool) (I : σ → Prop) (μ : σ → Nat) (Q : σ → Prop)
    (h1 : ∀ s, I s → (body s).2 = true → I (body s).1 ∧ μ (body s).1 < μ s)
    (h2 : ∀ s, I s → (body s).2 = false → Q (body s).1) (s : σ) (hs : I s) :
    ∃ r, Returns (fun n => doWhile body n s) r ∧ Q r := by
  induction hn : μ s using Nat.strong_induction_on generalizing s with
  | _ n ih =>
    cases hb : (body s).2 with
    | false =>
      refine ⟨(body s).1, ⟨1, fun m hm => ?_⟩, h2 s hs hb⟩
      obtain ⟨k, rfl⟩ : ∃ k, m = k + 1 := ⟨m - 1, by omega⟩
      simp [doWhile, hb]
    | true =>
      obtain ⟨hi, hlt⟩ := h1 s hs hb
      obtain ⟨r, ⟨k, hk⟩, hQ⟩ := ih (μ (body s).1) (hn ▸ hlt) (body s).1 hi rfl
      refine ⟨r, ⟨k + 1, fun m hm => ?_⟩, hQ⟩
      obtain ⟨j, rfl⟩ : ∃ j, m = j + 1 := ⟨m - 1, by omega⟩
      simp only [doWhile, hb, if_true]
      exact hk j (by omega)

theorem mem_pyRange_pos {a b x : Int} : x ∈ pyRange a b 1 ↔ a ≤ x ∧ x < b := by
  unfold pyRange
  simp only [zero_lt_one, if_true, List.mem_map, List.mem_range]
  constructor
  · rintro ⟨i, hi, rfl⟩; omega
  · rintro ⟨h1, h2⟩
    exact ⟨(x - a).toNat, by omega, by omega⟩

theorem mem_pyRange_neg {a b x : Int} : x ∈ pyRange a b (-1) ↔ b < x ∧ x ≤ a := by
  unfold pyRange
  have h1 : ¬ (0 : Int) < -1 := by omega
  have h2 : (-1 : Int) < 0 := by omega
  simp only [h1, if_false, h2, if_true, List.mem_map, List.mem_range, neg_neg, Int.ediv_one]
  constructor
  · rintro ⟨i, hi, rfl⟩; omega
  · rintro ⟨h1, h2⟩
    exact ⟨(a - x).toNat, by omega, by omega⟩

namespace Fill

theorem mem_steprange {a b x : Int} :
    x ∈ pyRange a (b + (if b > a then 1 else -1)) (if b > a then 1 else -1) ↔ min a b ≤ x ∧ x ≤ max a b := by
  split_ifs with h
  · rw [mem_pyRange_pos]; omega
  · rw [mem_pyRange_neg]; omega

theorem mem_sweepCells {r1 r2 c1 c2 : Int} {c : Cell} : c ∈ sweepCells r1 r2 c1 c2 ↔
    (min r1 r2 ≤ c.1 ∧ c.1 ≤ max r1 r2) ∧ (min c1 c2 ≤ c.2 ∧ c.2 ≤ max c1 c2) := by
  unfold sweepCells
  simp only [List.mem_flatMap, List.mem_map, mem_steprange]
  constructor
  · rintro ⟨a, ha, b, hb, rfl⟩; exact ⟨ha, hb⟩
  · rintro ⟨h1, h2⟩; exact ⟨c.1, h1, c.2, h2, rfl⟩

variable {β : Type*} [LinearOrder β] [OrderTop β]
variable {step : Cell → Cell → β → β} {dtm : Raster β}

/-- What one iteration of the `while keep_going` loop does, for any sweep orders. -/
theorem iteration_spec (hstep : GoodStep step) {cell : Raster β → Cell → Raster β × Bool}
    (hcell : IsRelax step dtm cell) (cs : Int → Int → Int → Int → List Cell)
    (sweep : Raster β → Int → Int → Int → Int → Raster β × Bool)
    (hsweep : ∀ f a b c d, sweep f a b c d = sweepWith cell (cs a b c d) f)
    (P : List Cell → Prop)
    (hcs : ∀ a b c d, ((a = 1 ∧ b = (dtm.rows : Int) - 2) ∨ (a = (dtm.rows : Int) - 2 ∧ b = 1)) →
      ((c = 1 ∧ d = (dtm.cols : Int) - 2) ∨ (c = (dtm.cols : Int) - 2 ∧ d = 1)) →
      (∀ x ∈ cs a b c d, dtm.Has x) ∧ P (cs a b c d))
    {f : Raster β} (hI : Inv step dtm f) :
    Inv step dtm (iteration sweep dtm f).1 ∧ (∀ c, (iteration sweep dtm f).1.get c ≤ f.get c) ∧
    ((iteration sweep dtm f).2 = true →
      measure step dtm (iteration sweep dtm f).1 < measure step dtm f) ∧
    ((iteration sweep dtm f).2 = false → ∃ l, P l ∧
      ∀ c ∈ l, ∀ b, Adj c b → (iteration sweep dtm f).1.get c ≤
        max (dtm.get c) (step c b ((iteration sweep dtm f).1.get b))) := by
  set maxrow : Int := (dtm.rows : Int) - 2 with hmr
  set maxcol : Int := (dtm.cols : Int) - 2 with hmc
  have hit : iteration sweep dtm f =
    let s1 := sweep f 1 maxrow 1 maxcol
    let s2 := if s1.2 then sweep s1.1 maxrow 1 maxcol 1 else (s1.1, false)
    let s3 := if s2.2 then sweep s2.1 1 maxrow maxcol 1 else (s2.1, false)
    if s3.2 then sweep s3.1 maxrow 1 1 maxcol else (s3.1, false) := rfl
  have h1 := sweep_spec hstep hcell (cs 1 maxrow 1 maxcol)
    (hcs 1 maxrow 1 maxcol (.inl ⟨rfl, rfl⟩) (.inl ⟨rfl, rfl⟩)).1 hI
  rw [← hsweep] at h1
  have step' : ∀ (s : Raster β × Bool) (a b c d : Int),
      ((a = 1 ∧ b = maxrow) ∨ (a = maxrow ∧ b = 1)) → ((c = 1 ∧ d = maxcol) ∨ (c = maxcol ∧ d = 1)) →
      ∀ (g : Raster β),
      (Inv step dtm s.1 ∧ (∀ c, s.1.get c ≤ f.get c) ∧ (s.2 = true → measure step dtm s.1 < measure step dtm f) ∧
        (s.2 = false → ∃ l, P l ∧ ∀ c ∈ l, ∀ b, Adj c b → s.1.get c ≤ max (dtm.get c) (step c b (s.1.get b)))) →
      ∀ s', s' = (if s.2 then sweep s.1 a b c d else (s.1, false)) →
      (Inv step dtm s'.1 ∧ (∀ c, s'.1.get c ≤ f.get c) ∧ (s'.2 = true → measure step dtm s'.1 < measure step dtm f) ∧
        (s'.2 = false → ∃ l, P l ∧ ∀ c ∈ l, ∀ b, Adj c b → s'.1.get c ≤ max (dtm.get c) (step c b (s'.1.get b)))) := by
    rintro s a b c d hab hcd g ⟨hI1, hle, hm, hf⟩ s' hs'
    cases hs2 : s.2 with
    | false =>
      rw [hs2] at hs'
      simp only [Bool.false_eq_true, if_false] at hs'
      subst hs'
      exact ⟨hI1, hle, by simp, fun _ => hf hs2⟩
    | true =>
      rw [hs2] at hs'
      simp only [if_true] at hs'
      have hh := sweep_spec hstep hcell (cs a b c d) (hcs a b c d hab hcd).1 hI1
      rw [← hsweep, ← hs'] at hh
      refine ⟨hh.inv, fun x => (hh.le x).trans (hle x), fun ht => (hh.changed ht).trans (hm hs2), fun hfalse => ?_⟩
      obtain ⟨heq, hfix⟩ := hh.unchanged hfalse
      refine ⟨cs a b c d, (hcs a b c d hab hcd).2, ?_⟩
      rw [heq]; exact hfix
  have base : (Inv step dtm (sweep f 1 maxrow 1 maxcol).1 ∧ (∀ c, (sweep f 1 maxrow 1 maxcol).1.get c ≤ f.get c) ∧
      ((sweep f 1 maxrow 1 maxcol).2 = true → measure step dtm (sweep f 1 maxrow 1 maxcol).1 < measure step dtm f) ∧
        ((sweep f 1 maxrow 1 maxcol).2 = false → ∃ l, P l ∧ ∀ c ∈ l, ∀ b, Adj c b →
          (sweep f 1 maxrow 1 maxcol).1.get c ≤ max (dtm.get c) (step c b ((sweep f 1 maxrow 1 maxcol).1.get b)))) := by
    refine ⟨h1.inv, h1.le, h1.changed, fun hfalse => ?_⟩
    obtain ⟨heq, hfix⟩ := h1.unchanged hfalse
    refine ⟨_, (hcs 1 maxrow 1 maxcol (.inl ⟨rfl, rfl⟩) (.inl ⟨rfl, rfl⟩)).2, ?_⟩
    rw [heq]; exact hfix
  rw [hit]
  exact step' _ maxrow 1 1 maxcol (.inr ⟨rfl, rfl⟩) (.inl ⟨rfl, rfl⟩) f
    (step' _ 1 maxrow maxcol 1 (.inl ⟨rfl, rfl⟩) (.inr ⟨rfl, rfl⟩) f
      (step' _ maxrow 1 maxcol 1 (.inr ⟨rfl, rfl⟩) (.inr ⟨rfl, rfl⟩) f base _ rfl) _ rfl) _ rfl

/-- Fixpoint condition on all interior cells. -/
def IsFix (step : Cell → Cell → β → β) (dtm f : Raster β) : Prop :=
  ∀ c, Interior dtm.rows dtm.cols c → ∀ b, Adj c b → f.get c ≤ max (dtm.get c) (step c b (f.get b))

theorem pySweep_cells (hr : 2 ≤ dtm.rows) (hc : 2 ≤ dtm.cols) (a b c d : Int)
    (hab : (a = 1 ∧ b = (dtm.rows : Int) - 2) ∨ (a = (dtm.rows : Int) - 2 ∧ b = 1))
    (hcd : (c = 1 ∧ d = (dtm.cols : Int) - 2) ∨ (c = (dtm.cols : Int) - 2 ∧ d = 1)) :
    (∀ x ∈ sweepCells a b c d, dtm.Has x) ∧ (∀ x, Interior dtm.rows dtm.cols x → x ∈ sweepCells a b c d) := by
  constructor
  · intro x hx
    rw [mem_sweepCells] at hx
    unfold Raster.Has InGrid
    omega
  · intro x hx
    rw [mem_sweepCells]
    rw [interior_iff] at hx
    omega

/-- The Python loop returns a fixpoint, for any relaxation. -/
theorem pyLoop_returns (hstep : GoodStep step) {cell : Raster β → Cell → Raster β × Bool}
    (hcell : IsRelax step dtm cell) (hr : 2 ≤ dtm.rows) (hc : 2 ≤ dtm.cols) :
    ∃ r, Returns (fun n => doWhile (iteration
        (fun f a b c d => sweepWith cell (sweepCells a b c d) f) dtm) n (initializeFilled dtm)) r ∧
      Inv step dtm r ∧ IsFix step dtm r := by
  have hit := fun (f : Raster β) (hI : Inv step dtm f) =>
    iteration_spec hstep hcell sweepCells (fun f a b c d => sweepWith cell (sweepCells a b c d) f)
      (fun _ _ _ _ _ => rfl) (fun l => ∀ x, Interior dtm.rows dtm.cols x → x ∈ l)
      (fun a b c d hab hcd => pySweep_cells hr hc a b c d hab hcd) hI
  refine doWhile_returns _ (Inv step dtm) (measure step dtm) (fun r => Inv step dtm r ∧ IsFix step dtm r)
    ?_ ?_ _ (inv_init step dtm)
  · intro s hs h
    exact ⟨(hit s hs).1, (hit s hs).2.2.1 h⟩
  · intro s hs h
    obtain ⟨l, hl, hfix⟩ := (hit s hs).2.2.2 h
    exact ⟨(hit s hs).1, fun c hc b hb => hfix c (hl c hc) b hb⟩

theorem id_good : GoodStep (fun _ _ => id : Cell → Cell → β → β) :=
  ⟨fun _ _ => monotone_id, fun _ _ x => le_refl x⟩

theorem sd_good {short diag : β → β} (hs : Monotone short) (hd : Monotone diag) (hs' : ∀ x, x ≤ short x)
    (hd' : ∀ x, x ≤ diag x) : GoodStep (stepSD short diag) := by
  constructor
  · intro a b; unfold stepSD; split_ifs <;> assumption
  · intro a b x; unfold stepSD; split_ifs; exacts [hs' x, hd' x]

theorem fillTerrain_returns (dtm : Raster β) (hr : 2 ≤ dtm.rows) (hc : 2 ≤ dtm.cols) :
    ∃ r, Returns (fillTerrain dtm) (.ok r) ∧ Inv (fun _ _ => id) dtm r ∧ IsFix (fun _ _ => id) dtm r := by
  obtain ⟨r, hR, h⟩ := pyLoop_returns id_good (fillCell_relax dtm) hr hc
  refine ⟨r, ?_, h⟩
  have := hR.map (Except.ok (ε := PyErr))
  obtain ⟨n, hn⟩ := this
  refine ⟨n, fun m hm => ?_⟩
  unfold fillTerrain
  rw [if_neg (by omega)]
  exact hn m hm

theorem fillTerrainNoFlats_returns (short diag : β → β) (hs : Monotone short) (hd : Monotone diag)
    (hs' : ∀ x, x ≤ short x) (hd' : ∀ x, x ≤ diag x) (dtm : Raster β) (hr : 2 ≤ dtm.rows) (hc : 2 ≤ dtm.cols) :
    ∃ r, Returns (fillTerrainNoFlats short diag dtm) (.ok r) ∧ Inv (stepSD short diag) dtm r ∧
      IsFix (stepSD short diag) dtm r := by
  obtain ⟨r, hR, h⟩ := pyLoop_returns (sd_good hs hd hs' hd') (fillCellNoFlats_relax short diag hs hd dtm) hr hc
  refine ⟨r, ?_, h⟩
  have := hR.map (Except.ok (ε := PyErr))
  obtain ⟨n, hn⟩ := this
  refine ⟨n, fun m hm => ?_⟩
  unfold fillTerrainNoFlats
  rw [if_neg (by omega)]
  exact hn m hm

theorem shape_of_returns {r : Raster β} (h : Returns (fillTerrain dtm) (.ok r)) : 2 ≤ dtm.rows ∧ 2 ≤ dtm.cols := by
  obtain ⟨n, hn⟩ := h
  have := hn n le_rfl
  unfold fillTerrain at this
  split_ifs at this with h
  · simp at this
  · omega

theorem shape_of_returns_nf {short diag : β → β} {r : Raster β}
    (h : Returns (fillTerrainNoFlats short diag dtm) (.ok r)) : 2 ≤ dtm.rows ∧ 2 ≤ dtm.cols := by
  obtain ⟨n, hn⟩ := h
  have := hn n le_rfl
  unfold fillTerrainNoFlats at this
  split_ifs at this with h
  · simp at this
  · omega

theorem inv_of_returns {r : Raster β} (h : Returns (fillTerrain dtm) (.ok r)) :
    Inv (fun _ _ => id) dtm r ∧ IsFix (fun _ _ => id) dtm r := by
  obtain ⟨hr, hc⟩ := shape_of_returns h
  obtain ⟨r', h1, h2⟩ := fillTerrain_returns dtm hr hc
  have := h.unique h1
  simp only [Except.ok.injEq] at this
  rw [this]; exact h2

theorem inv_of_returns_nf {short diag : β → β} (hs : Monotone short) (hd : Monotone diag)
    (hs' : ∀ x, x ≤ short x) (hd' : ∀ x, x ≤ diag x) {r : Raster β}
    (h : Returns (fillTerrainNoFlats short diag dtm) (.ok r)) :
    Inv (stepSD short diag) dtm r ∧ IsFix (stepSD short diag) dtm r := by
  obtain ⟨hr, hc⟩ := shape_of_returns_nf h
  obtain ⟨r', h1, h2⟩ := fillTerrainNoFlats_returns short diag hs hd hs' hd' dtm hr hc
  have := h.unique h1
  simp only [Except.ok.injEq] at this
  rw [this]; exact h2

/-- At a fixpoint a descending path exists from every cell where `x ≤ y` is all that is needed at the top value. -/
theorem inv_depressionless {f : Raster β} (hI : Inv step dtm f) (hstep : GoodStep step) :
    Depressionless dtm.rows dtm.cols f.get := by
  have hdown : ∀ p, Descends step f.get p → p.IsChain (fun a b => f.get b ≤ f.get a) := fun p hp =>
    List.IsChain.imp (fun a b h => (hstep.infl a b _).trans h) hp
  intro c hc
  obtain ⟨p, hp⟩ := exists_escape hc
  refine IsEscape.rec' (motive := fun c _ => ∃ p, IsEscape dtm.rows dtm.cols c p ∧
    p.IsChain (fun a b => f.get b ≤ f.get a)) ?_ ?_ hp
  · intro e he
    exact ⟨[e], ⟨rfl, by simp, by simpa using he.1, e, rfl, he⟩, by simp⟩
  · rintro a b q ha hab _ ⟨p, hp, hd⟩
    rcases hI.desc a ha with h | ⟨p', hp', hd'⟩
    · refine ⟨a :: p, hp.cons ha hab, ?_⟩
      obtain ⟨q', rfl⟩ := hp.exists_cons
      rw [List.isChain_cons_cons]
      exact ⟨by rw [h]; exact le_top, hd⟩
    · exact ⟨p', hp', hdown p' hd'⟩

/-- Highest cell of a path as a recursive maximum. -/
theorem isHighest_climb (dem : Cell → β) {p : List Cell} (hp : p ≠ []) :
    IsHighest dem p (climbS (fun _ _ => id) dem p) := by
  induction p with
  | nil => exact absurd rfl hp
  | cons a q ih =>
    cases q with
    | nil =>
      constructor
      · exact ⟨a, by simp, rfl⟩
      · rintro h ⟨x, hx, rfl⟩
        simp at hx; rw [hx]; exact le_rfl
    | cons b r =>
      have := ih (by simp)
      constructor
      · rcases le_total (dem a) (climbS (fun _ _ => id) dem (b :: r)) with h | h
        · obtain ⟨x, hx, hx2⟩ := this.1
          refine ⟨x, List.mem_cons_of_mem _ hx, ?_⟩
          simp only [climbS, id]; rw [max_eq_right h]; exact hx2
        · refine ⟨a, by simp, ?_⟩
          simp only [climbS, id]; rw [max_eq_left h]
      · rintro h ⟨x, hx, rfl⟩
        simp only [climbS, id]
        rcases List.mem_cons.1 hx with rfl | hx
        · exact le_max_left _ _
        · exact le_max_of_le_right (this.2 ⟨x, hx, rfl⟩)

theorem fill_spill {r : Raster β} (h : Returns (fillTerrain dtm) (.ok r)) {c : Cell} (hc : dtm.Has c) :
    IsSpillLevel dtm.rows dtm.cols dtm.get c (r.get c) := by
  obtain ⟨hI, hF⟩ := inv_of_returns h
  obtain ⟨⟨p, hp, hcl⟩, hlow⟩ := fix_isLeast id_good hI hF hc
  constructor
  · refine ⟨p, hp, ?_⟩
    rw [← hcl]
    apply isHighest_climb
    obtain ⟨q, rfl⟩ := hp.exists_cons; simp
  · rintro z ⟨p, hp, hz⟩
    refine hlow ⟨p, hp, ?_⟩
    have : p ≠ [] := by obtain ⟨q, rfl⟩ := hp.exists_cons; simp
    exact (isHighest_climb dtm.get this).unique hz

end Fill
end Malstroem
