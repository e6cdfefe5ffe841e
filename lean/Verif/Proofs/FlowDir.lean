/-
Flow directions: the eight-way comparison is a first argmax; edges; draining of strictly descending surfaces.
-/
import Verif.Proofs.FlowWatershed
import Mathlib.Order.Basic

set_option linter.unusedSectionVars false

namespace Malstroem
open Spec

namespace Flow
variable {β γ : Type*} [LinearOrder γ] [Zero γ]

/-- Running maximum over the first `n` directions. -/
def best (s : Nat → γ) : Nat → Nat × γ
  | 0 => (8, 0)
  | n + 1 => if s n > (best s n).2 then (n, s n) else best s n

theorem best_spec (s : Nat → γ) (n : Nat) (hn : n ≤ 8) :
    ((best s n).1 = 8 ∧ (best s n).2 = 0 ∧ ∀ k < n, s k ≤ 0) ∨
    ((best s n).1 < n ∧ (best s n).2 = s (best s n).1 ∧ 0 < s (best s n).1 ∧
      (∀ k < n, s k ≤ s (best s n).1) ∧ ∀ k < (best s n).1, s k < s (best s n).1) := by
  induction n with
  | zero => exact .inl ⟨rfl, rfl, by simp⟩
  | succ n ih =>
    rw [best]
    rcases ih (by omega) with ⟨h1, h2, h3⟩ | ⟨h1, h2, h3, h4, h5⟩
    · split_ifs with h
      · right
        rw [h2] at h
        refine ⟨by simp, rfl, h, fun k hk => ?_, fun k hk => (h3 k hk).trans_lt h⟩
        rcases Nat.lt_succ_iff_lt_or_eq.1 hk with hk | rfl
        · exact ((h3 k hk).trans_lt h).le
        · exact le_rfl
      · left
        refine ⟨h1, h2, fun k hk => ?_⟩
        rcases Nat.lt_succ_iff_lt_or_eq.1 hk with hk | rfl
        · exact h3 k hk
        · rw [h2] at h; exact not_lt.1 h
    · split_ifs with h
      · right
        rw [h2] at h
        refine ⟨by simp, rfl, h3.trans h, fun k hk => ?_, fun k hk => (h4 k hk).trans_lt h⟩
        rcases Nat.lt_succ_iff_lt_or_eq.1 hk with hk | rfl
        · exact ((h4 k hk).trans_lt h).le
        · exact le_rfl
      · right
        rw [h2] at h
        refine ⟨by omega, h2, h3, fun k hk => ?_, h5⟩
        rcases Nat.lt_succ_iff_lt_or_eq.1 hk with hk | rfl
        · exact h4 k hk
        · exact not_lt.1 h

theorem neighbour_eq (c : Cell) (k : Nat) : neighbour c k = move c k := rfl

theorem cellFlow_eq (sub : β → β → γ) (scale : γ → γ) (t : Raster β) (c : Cell) :
    cellFlow sub scale t c.1 c.2 = (best (slope sub scale t.get c) 8).1 := by
  obtain ⟨r, k⟩ := c
  simp only [cellFlow, best, slope, neighbour, offset, Option.getD_some, sub_eq_add_neg, add_zero]
  rfl

theorem cellFlow_spec (sub : β → β → γ) (scale : γ → γ) (t : Raster β) (c : Cell) :
    let d := cellFlow sub scale t c.1 c.2
    let s := slope sub scale t.get c
    (d = 8 ∧ ∀ k < 8, s k ≤ 0) ∨ (d < 8 ∧ 0 < s d ∧ (∀ k < 8, s k ≤ s d) ∧ ∀ k < d, s k < s d) := by
  simp only [cellFlow_eq]
  rcases best_spec (slope sub scale t.get c) 8 le_rfl with ⟨h1, _, h3⟩ | ⟨h1, _, h3, h4, h5⟩
  · exact .inl ⟨h1, h3⟩
  · exact .inr ⟨h1, h3, h4, h5⟩

theorem mem_range_interior {rows cols : Nat} {c : Cell} :
    (c.1 ∈ pyRange 1 ((rows : Int) - 2 + 1) 1 ∧ c.2 ∈ pyRange 1 ((cols : Int) - 2 + 1) 1) ↔
      Interior rows cols c := by
  rw [mem_pyRange_pos, mem_pyRange_pos, interior_iff]
  omega

theorem setEdges_get (f : Raster Nat) (c : Cell) (hc : f.Has c) : (setEdgesFlowOutward f).get c =
    if OnEdge f.rows f.cols c then
      (if c.1 = (f.rows : Int) - 1 ∧ c.2 = (f.cols : Int) - 1 then 3
      else if c.1 = (f.rows : Int) - 1 ∧ c.2 = 0 then 5
      else if c.1 = 0 ∧ c.2 = (f.cols : Int) - 1 then 1
      else if c.1 = 0 ∧ c.2 = 0 then 7
      else if c.2 = (f.cols : Int) - 1 then 2
      else if c.2 = 0 then 6
      else if c.1 = (f.rows : Int) - 1 then 4
      else 0)
    else f.get c := by
  obtain ⟨r, k⟩ := c
  simp only [setEdgesFlowOutward, Raster.set, setRow, setCol, Function.update_apply, Prod.mk.injEq, OnEdge]
  split_ifs <;> first | rfl | (exfalso; simp only [Raster.Has] at hc; omega) | skip
  all_goals (exfalso; simp_all)

theorem setEdges_flowsOut (f : Raster Nat) (c : Cell) (hc : OnEdge f.rows f.cols c) :
    FlowsOut f.rows f.cols (setEdgesFlowOutward f).get c := by
  have hget := setEdges_get f c hc.1
  rw [if_pos hc] at hget
  refine ⟨hc.1, move c ((setEdgesFlowOutward f).get c), flowsTo_iff.2 ⟨?_, rfl⟩, ?_⟩
  · rw [hget]; split_ifs <;> decide
  · rw [hget]
    obtain ⟨r, k⟩ := c
    simp only [OnEdge, InGrid] at hc ⊢
    split_ifs <;> simp [move, off, offset] at * <;> omega

end Flow

namespace Flow
variable {β : Type*} [LinearOrder β]

/-- A surface on which every interior cell has a strictly lower neighbour. -/
def NoPits (rows cols : Nat) (z : Cell → β) : Prop :=
  ∀ c, Interior rows cols c → ∃ b, Adj c b ∧ z b < z c

variable {rows cols : Nat} {fd : Cell → Nat} {z : Cell → β}

/-- Directions that lead strictly down from interior cells and outward from edge cells drain. -/
theorem drains_of_descent (hedge : ∀ c, OnEdge rows cols c → FlowsOut rows cols fd c)
    (hint : ∀ c, Interior rows cols c → ∃ b, FlowsTo fd c b ∧ z b < z c) :
    ∀ c, InGrid rows cols c → Drains rows cols fd c := by
  have hfin := inGrid_finite rows cols
  have key : ∀ (n : Nat) c, InGrid rows cols c →
      {b | InGrid rows cols b ∧ z b < z c}.ncard = n → Drains rows cols fd c := by
    intro n
    induction n using Nat.strong_induction_on with
    | _ n ih =>
      intro c hc hn
      rcases edge_or_interior hc with he | hi
      · exact ⟨c, .refl, hedge c he⟩
      · obtain ⟨b, hb, hlt⟩ := hint c hi
        have hbg := interior_adj_inGrid hi (flowsTo_adj hb)
        have hs : Step rows cols fd c b := ⟨hc, hbg, hb⟩
        have hcard : {x | InGrid rows cols x ∧ z x < z b}.ncard < n := by
          rw [← hn]
          apply Set.ncard_lt_ncard _ (hfin.subset fun x hx => hx.1)
          refine ⟨fun x hx => ⟨hx.1, hx.2.trans hlt⟩, fun hsub => ?_⟩
          have : b ∈ {x | InGrid rows cols x ∧ z x < z b} := hsub ⟨hbg, hlt⟩
          exact lt_irrefl _ this.2
        exact Drains.up (.single hs) (ih _ hcard b hbg rfl)
  intro c hc
  exact key _ c hc rfl

variable {γ : Type*} [LinearOrder γ] [Zero γ]

theorem flowdirection_rows (sub : β → β → γ) (scale : γ → γ) (t : Raster β) (b : Bool) :
    (terrainFlowdirection sub scale t b).rows = t.rows ∧ (terrainFlowdirection sub scale t b).cols = t.cols := by
  cases b <;> exact ⟨rfl, rfl⟩

theorem flowdirection_interior (sub : β → β → γ) (scale : γ → γ) (t : Raster β) (b : Bool) {c : Cell}
    (hc : Interior t.rows t.cols c) :
    (terrainFlowdirection sub scale t b).get c = cellFlow sub scale t c.1 c.2 := by
  have h : (terrainFlow sub scale t).get c = cellFlow sub scale t c.1 c.2 := by
    simp only [terrainFlow]
    rw [if_pos (mem_range_interior.2 hc)]
  cases b
  · simpa [terrainFlowdirection] using h
  · simp only [terrainFlowdirection, if_true]
    rw [setEdges_get _ c hc.1, if_neg (show ¬ OnEdge (terrainFlow sub scale t).rows (terrainFlow sub scale t).cols c from hc.2), h]

theorem flowdirection_edge (sub : β → β → γ) (scale : γ → γ) (t : Raster β) {c : Cell}
    (hc : OnEdge t.rows t.cols c) :
    FlowsOut t.rows t.cols (terrainFlowdirection sub scale t true).get c ∧
    (terrainFlowdirection sub scale t false).get c = 8 := by
  refine ⟨?_, ?_⟩
  · exact setEdges_flowsOut (terrainFlow sub scale t) c hc
  · have : (terrainFlow sub scale t).get c = 8 := by
      simp only [terrainFlow]
      rw [if_neg (by rw [mem_range_interior]; exact fun h => h.2 hc)]
    simpa [terrainFlowdirection] using this

theorem slope_pos_iff {sub : β → β → γ} {scale : γ → γ} {z : Cell → β} {c : Cell} {k : Nat}
    (hsub : 0 < sub (z c) (z (move c k)) ↔ z (move c k) < z c)
    (hscale : ∀ a b, 0 < scale (sub a b) ↔ 0 < sub a b) :
    0 < slope sub scale z c k ↔ z (move c k) < z c := by
  unfold slope
  split_ifs
  · exact hsub
  · rw [hscale]; exact hsub

theorem interior_move_inGrid {c : Cell} {k : Nat} (hc : Interior rows cols c) (hk : k < 8) :
    InGrid rows cols (move c k) := interior_adj_inGrid hc (move_adj c hk)

/-- On a surface without pits, interior cells flow strictly downwards. -/
theorem flowdirection_descends {sub : β → β → γ} {scale : γ → γ} (t : Raster β)
    (hsub : ∀ a b, t.Has a → t.Has b → (0 < sub (t.get a) (t.get b) ↔ t.get b < t.get a))
    (hscale : ∀ a b, 0 < scale (sub a b) ↔ 0 < sub a b) (h : NoPits t.rows t.cols t.get) (b : Bool) {c : Cell}
    (hc : Interior t.rows t.cols c) :
    ∃ d, FlowsTo (terrainFlowdirection sub scale t b).get c d ∧ t.get d < t.get c := by
  have hget := flowdirection_interior sub scale t b hc
  rcases cellFlow_spec sub scale t c with ⟨_, h2⟩ | ⟨h1, h2, _, _⟩
  · obtain ⟨d, hd, hlt⟩ := h c hc
    obtain ⟨k, hk, rfl⟩ := exists_move_of_adj hd
    have := (slope_pos_iff (hsub _ _ hc.1 (interior_move_inGrid hc hk)) hscale).2 hlt
    exact absurd (h2 k hk) (not_le.2 this)
  · refine ⟨move c (cellFlow sub scale t c.1 c.2), flowsTo_iff.2 ⟨by rw [hget]; exact h1, by rw [hget]⟩, ?_⟩
    exact (slope_pos_iff (hsub _ _ hc.1 (interior_move_inGrid hc h1)) hscale).1 h2

end Flow
end Malstroem
