/-
Flow graph: determinism, upstream lists, upstream counts.
-/
import Verif.Spec.Flow
import Verif.Model.Flow
import Verif.Proofs.FillCore
import Mathlib.Tactic.IntervalCases
import Mathlib.Data.Set.Finite.List

set_option linter.unusedSectionVars false

namespace Malstroem
open Spec

namespace Flow

/-- Offset of a code, `(0, 0)` for codes that do not flow. -/
def off (d : Nat) : Int × Int := (offset d).getD (0, 0)

theorem offset_lt {d : Nat} (h : d < 8) : offset d = some (off d) := by
  interval_cases d <;> rfl

theorem offset_ge {d : Nat} (h : 8 ≤ d) : offset d = none := by
  match d, h with
  | 0, h | 1, h | 2, h | 3, h | 4, h | 5, h | 6, h | 7, h => omega
  | n + 8, _ => rfl

theorem off_opp {d : Nat} (h : d < 8) : off ((d + 4) % 8) = (-(off d).1, -(off d).2) := by
  interval_cases d <;> rfl

theorem off_inj {d e : Nat} (h : d < 8) (h' : e < 8) (heq : off d = off e) : d = e := by
  interval_cases d <;> interval_cases e <;> first | rfl | (exact absurd heq (by decide))

theorem off_ne {d : Nat} (h : d < 8) : off d ≠ (0, 0) := by
  interval_cases d <;> decide

/-- The cell `c` moved in direction `d`. -/
def move (c : Cell) (d : Nat) : Cell := (c.1 + (off d).1, c.2 + (off d).2)

theorem move_adj (c : Cell) {d : Nat} (h : d < 8) : Adj c (move c d) := by
  rw [adj_iff]
  obtain ⟨r, k⟩ := c
  interval_cases d <;> simp [move, off, offset] <;> omega

theorem exists_move_of_adj {c b : Cell} (h : Adj c b) : ∃ d < 8, move c d = b := by
  obtain ⟨r, k⟩ := c
  obtain ⟨r', k'⟩ := b
  have h := h
  simp only [Adj, ne_eq, Prod.mk.injEq, not_and, abs_le] at h
  have h1 : r' = r - 1 ∨ r' = r ∨ r' = r + 1 := by omega
  have h2 : k' = k - 1 ∨ k' = k ∨ k' = k + 1 := by omega
  rcases h1 with rfl | rfl | rfl <;> rcases h2 with rfl | rfl | rfl
  · exact ⟨7, by decide, by simp [move, off, offset]; omega⟩
  · exact ⟨0, by decide, by simp [move, off, offset]; omega⟩
  · exact ⟨1, by decide, by simp [move, off, offset]; omega⟩
  · exact ⟨6, by decide, by simp [move, off, offset]; omega⟩
  · omega
  · exact ⟨2, by decide, by simp [move, off, offset]⟩
  · exact ⟨5, by decide, by simp [move, off, offset]; omega⟩
  · exact ⟨4, by decide, by simp [move, off, offset]⟩
  · exact ⟨3, by decide, by simp [move, off, offset]⟩

theorem flowsTo_iff {fd : Cell → Nat} {a b : Cell} : FlowsTo fd a b ↔ fd a < 8 ∧ b = move a (fd a) := by
  unfold FlowsTo
  constructor
  · rintro ⟨o, ho, hb⟩
    have h : fd a < 8 := by
      by_contra h
      rw [offset_ge (by omega)] at ho
      cases ho
    rw [offset_lt h, Option.some.injEq] at ho
    exact ⟨h, by rw [hb, ← ho]; rfl⟩
  · rintro ⟨h, hb⟩
    exact ⟨off (fd a), offset_lt h, hb⟩

theorem flowsTo_adj {fd : Cell → Nat} {a b : Cell} (h : FlowsTo fd a b) : Adj a b := by
  obtain ⟨h1, rfl⟩ := flowsTo_iff.1 h
  exact move_adj a h1

theorem flowsTo_det {fd : Cell → Nat} {a b b' : Cell} (h : FlowsTo fd a b) (h' : FlowsTo fd a b') : b = b' := by
  rw [(flowsTo_iff.1 h).2, (flowsTo_iff.1 h').2]

theorem cellInRaster_iff {rows cols : Nat} {c : Cell} : cellInRaster rows cols c = true ↔ InGrid rows cols c := by
  unfold cellInRaster InGrid
  split_ifs <;> simp <;> omega

theorem directionToDelta_lt {d : Nat} (h : d < 8) : directionToDelta d = .ok (some (off d)) := by
  interval_cases d <;> rfl

theorem directionToDelta_8 : directionToDelta 8 = .ok none := rfl

theorem directionToDelta_gt {d : Nat} (h : 8 < d) : directionToDelta d = .error .unknownDirection := by
  unfold directionToDelta
  split_ifs <;> first | omega | rfl

theorem cellInDirection_lt {d : Nat} (h : d < 8) (c : Cell) : cellInDirection c d = .ok (move c d) := by
  unfold cellInDirection
  rw [directionToDelta_lt h]
  rfl

/-- The neighbour in direction `d` flows into `c`. -/
def isUp (flowdir : Raster Nat) (c : Cell) (d : Nat) : Bool :=
  cellInRaster flowdir.rows flowdir.cols (move c d) && decide (flowdir.get (move c d) ≠ 8) &&
    decide ((d + 4) % 8 = flowdir.get (move c d))

theorem isUpstreamCell_lt {flowdir : Raster Nat} {d : Nat} (h : d < 8) (c : Cell) :
    isUpstreamCell flowdir c d = .ok (isUp flowdir c d) := by
  unfold isUpstreamCell
  rw [cellInDirection_lt h]
  simp only [bind, Except.bind, pure, Except.pure]
  unfold isUp
  split_ifs <;> simp_all

/-- The upstream list, without the exception monad. -/
def up (flowdir : Raster Nat) (c : Cell) : List Cell :=
  ((List.range 8).filter (isUp flowdir c)).map (move c)

theorem upstreamCells_eq (flowdir : Raster Nat) (c : Cell) : upstreamCells flowdir c = .ok (up flowdir c) := by
  have key : ∀ (l : List Nat) (acc : List Cell), (∀ d ∈ l, d < 8) →
      l.foldlM (fun upstream direction => do
        if ← isUpstreamCell flowdir c direction then
          pure (upstream ++ [← cellInDirection c direction])
        else pure upstream) acc = (.ok (acc ++ (l.filter (isUp flowdir c)).map (move c)) : Except PyErr _) := by
    intro l
    induction l with
    | nil => intro acc _; simp [pure, Except.pure]
    | cons d l ih =>
      intro acc hl
      have hd : d < 8 := hl d (by simp)
      rw [List.foldlM_cons, isUpstreamCell_lt hd, cellInDirection_lt hd]
      have ih' := fun acc => ih acc (fun x hx => hl x (by simp [hx]))
      cases hb : isUp flowdir c d
      · simp [bind, Except.bind, pure, Except.pure] at ih' ⊢
        rw [ih', List.filter_cons_of_neg (by simp [hb])]
      · simp [bind, Except.bind, pure, Except.pure] at ih' ⊢
        rw [ih', List.filter_cons_of_pos hb]
        simp
  have := key (List.range 8) [] (fun d hd => List.mem_range.1 hd)
  simpa [upstreamCells, up] using this

theorem mem_up {flowdir : Raster Nat} {c x : Cell} :
    x ∈ up flowdir c ↔ InGrid flowdir.rows flowdir.cols x ∧ FlowsTo flowdir.get x c := by
  simp only [up, List.mem_map, List.mem_filter, List.mem_range, isUp, Bool.and_eq_true, cellInRaster_iff,
    decide_eq_true_eq, flowsTo_iff]
  constructor
  · rintro ⟨d, ⟨hd, ⟨h1, h2⟩, h3⟩, rfl⟩
    refine ⟨h1, by omega, ?_⟩
    rw [← h3]
    simp only [move, off_opp hd]
    ext <;> simp
  · rintro ⟨hx, hlt, hc⟩
    have hd : (flowdir.get x + 4) % 8 < 8 := by omega
    have hm : move c ((flowdir.get x + 4) % 8) = x := by
      rw [hc]
      simp only [move, off_opp hlt]
      ext <;> simp
    refine ⟨(flowdir.get x + 4) % 8, ⟨hd, ?_⟩, hm⟩
    rw [hm]
    exact ⟨⟨hx, by omega⟩, by omega⟩

theorem nodup_up (flowdir : Raster Nat) (c : Cell) : (up flowdir c).Nodup := by
  unfold up
  apply List.Nodup.map_on
  · intro d hd e he h
    simp only [List.mem_filter, List.mem_range] at hd he
    apply off_inj hd.1 he.1
    simp only [move, Prod.mk.injEq, add_right_inj] at h
    exact Prod.ext h.1 h.2
  · exact List.nodup_range.filter _

/-! ### The flow graph -/

section Graph
variable {rows cols : Nat} {fd : Cell → Nat}

theorem step_det {a b b' : Cell} (h : Step rows cols fd a b) (h' : Step rows cols fd a b') : b = b' :=
  flowsTo_det h.2.2 h'.2.2

/-- No flow cycle lies upstream of the cell. -/
def NoCycleAbove (rows cols : Nat) (fd : Cell → Nat) (c : Cell) : Prop :=
  ∀ a, Downstream rows cols fd a c → ¬ OnCycle rows cols fd a

theorem NoCycleAbove.up {c u : Cell} (h : NoCycleAbove rows cols fd c) (hu : Step rows cols fd u c) :
    NoCycleAbove rows cols fd u := fun a ha => h a (ha.tail hu)

theorem noCycleAbove_of_up {c : Cell} (h : ∀ u, Step rows cols fd u c → NoCycleAbove rows cols fd u) :
    NoCycleAbove rows cols fd c := by
  have aux : ∀ a, Downstream rows cols fd a c → OnCycle rows cols fd a →
      ∃ u, Step rows cols fd u c ∧ ∃ b, Downstream rows cols fd b u ∧ OnCycle rows cols fd b := by
    intro a ha hc
    rcases Relation.ReflTransGen.cases_tail ha with rfl | ⟨u, hau, huc⟩
    · obtain ⟨u, h1, h2⟩ := Relation.TransGen.tail'_iff.1 hc
      exact ⟨u, h2, u, .refl, Relation.TransGen.head' h2 h1⟩
    · exact ⟨u, huc, a, hau, hc⟩
  intro a ha hc
  obtain ⟨u, hu, b, hb, hbc⟩ := aux a ha hc
  exact h u hu b hb hbc

theorem downstream_total {a b c : Cell} (h1 : Downstream rows cols fd a b) (h2 : Downstream rows cols fd a c) :
    Downstream rows cols fd b c ∨ Downstream rows cols fd c b :=
  Relation.ReflTransGen.total_of_right_unique (fun _ _ _ h h' => step_det h h') h1 h2

theorem downstream_inGrid {a b : Cell} (h : Downstream rows cols fd a b) (ha : InGrid rows cols a) :
    InGrid rows cols b := by
  rcases Relation.ReflTransGen.cases_tail h with rfl | ⟨u, _, hu⟩
  · exact ha
  · exact hu.2.1

theorem downstream_inGrid' {a b : Cell} (h : Downstream rows cols fd a b) (hb : InGrid rows cols b) :
    InGrid rows cols a := by
  rcases Relation.ReflTransGen.cases_head h with rfl | ⟨u, hu, _⟩
  · exact hb
  · exact hu.1

/-- The cells whose trace passes through `c`. -/
def upSet (rows cols : Nat) (fd : Cell → Nat) (c : Cell) : Set Cell :=
  {a | InGrid rows cols a ∧ Downstream rows cols fd a c}

theorem upSet_finite (c : Cell) : (upSet rows cols fd c).Finite :=
  (inGrid_finite rows cols).subset fun _ h => h.1

theorem upstreamCount_eq (c : Cell) : upstreamCount rows cols fd c = (upSet rows cols fd c).ncard := rfl

theorem upSet_disjoint {c u v : Cell} (hc : NoCycleAbove rows cols fd c) (hu : Step rows cols fd u c)
    (hv : Step rows cols fd v c) (huv : u ≠ v) : Disjoint (upSet rows cols fd u) (upSet rows cols fd v) := by
  rw [Set.disjoint_left]
  rintro x ⟨_, hxu⟩ ⟨_, hxv⟩
  have key : ∀ u v, u ≠ v → Step rows cols fd u c → Step rows cols fd v c → ¬ Downstream rows cols fd u v := by
    intro u v huv hu hv h
    rcases Relation.ReflTransGen.cases_head h with rfl | ⟨w, huw, hwv⟩
    · exact huv rfl
    · rw [step_det huw hu] at hwv
      exact hc c .refl (Relation.TransGen.tail' hwv hv)
  rcases downstream_total hxu hxv with h | h
  · exact key u v huv hu hv h
  · exact key v u huv.symm hv hu h

theorem upstreamCount_pos {c : Cell} (h : InGrid rows cols c) : 0 < upstreamCount rows cols fd c := by
  rw [upstreamCount_eq, Set.ncard_pos (upSet_finite c)]
  exact ⟨c, h, .refl⟩

theorem upstreamCount_le {a b : Cell} (h : Downstream rows cols fd a b) :
    upstreamCount rows cols fd a ≤ upstreamCount rows cols fd b :=
  Set.ncard_le_ncard (fun _ hx => ⟨hx.1, hx.2.trans h⟩) (upSet_finite b)

theorem upstreamCount_lt {a b : Cell} (h : Step rows cols fd a b) (hb : ¬ OnCycle rows cols fd b) :
    upstreamCount rows cols fd a < upstreamCount rows cols fd b := by
  apply Set.ncard_lt_ncard _ (upSet_finite b)
  refine ⟨fun x hx => ⟨hx.1, hx.2.tail h⟩, fun hsub => ?_⟩
  have : b ∈ upSet rows cols fd a := hsub ⟨h.2.1, .refl⟩
  exact hb (Relation.TransGen.tail' this.2 h)

theorem ncard_iUnion_list (S : Cell → Set Cell) (hf : ∀ u, (S u).Finite) : ∀ (l : List Cell), l.Nodup →
    (∀ u ∈ l, ∀ v ∈ l, u ≠ v → Disjoint (S u) (S v)) →
    (⋃ u ∈ l, S u).Finite ∧ (⋃ u ∈ l, S u).ncard = (l.map fun u => (S u).ncard).sum := by
  intro l
  induction l with
  | nil => intro _ _; simp
  | cons a l ih =>
    intro hnd hd
    obtain ⟨h1, h2⟩ := ih (List.nodup_cons.1 hnd).2 (fun u hu v hv => hd u (by simp [hu]) v (by simp [hv]))
    have heq : (⋃ u ∈ a :: l, S u) = S a ∪ ⋃ u ∈ l, S u := by
      ext x; simp
    rw [heq]
    refine ⟨(hf a).union h1, ?_⟩
    rw [Set.ncard_union_eq _ (hf a) h1, h2]
    · simp
    · rw [Set.disjoint_left]
      intro x hx hx'
      simp only [Set.mem_iUnion] at hx'
      obtain ⟨u, hu, hxu⟩ := hx'
      have hne : a ≠ u := fun h => (List.nodup_cons.1 hnd).1 (h ▸ hu)
      exact Set.disjoint_left.1 (hd a (by simp) u (by simp [hu]) hne) hx hxu

end Graph

theorem step_iff_mem_up {flowdir : Raster Nat} {c x : Cell} (hc : flowdir.Has c) :
    Step flowdir.rows flowdir.cols flowdir.get x c ↔ x ∈ up flowdir c := by
  rw [mem_up]
  exact ⟨fun h => ⟨h.1, h.2.2⟩, fun h => ⟨h.1, hc, h.2⟩⟩

/-- Number of upstream cells of a cell of a raster. -/
noncomputable abbrev N (flowdir : Raster Nat) (c : Cell) : Nat := upstreamCount flowdir.rows flowdir.cols flowdir.get c

/-- Recurrence of the upstream count. -/
theorem upstreamCount_rec {flowdir : Raster Nat} {c : Cell} (hc : flowdir.Has c)
    (h : NoCycleAbove flowdir.rows flowdir.cols flowdir.get c) :
    N flowdir c = ((up flowdir c).map (N flowdir)).sum + 1 := by
  have hst : ∀ u, u ∈ up flowdir c → Step flowdir.rows flowdir.cols flowdir.get u c :=
    fun u hu => (step_iff_mem_up hc).2 hu
  obtain ⟨h1, h2⟩ := ncard_iUnion_list (upSet flowdir.rows flowdir.cols flowdir.get) upSet_finite (up flowdir c)
    (nodup_up flowdir c) (fun u hu v hv hne => upSet_disjoint h (hst u hu) (hst v hv) hne)
  have heq : upSet flowdir.rows flowdir.cols flowdir.get c =
      insert c (⋃ u ∈ up flowdir c, upSet flowdir.rows flowdir.cols flowdir.get u) := by
    ext x
    simp only [Set.mem_insert_iff, Set.mem_iUnion]
    constructor
    · rintro ⟨hx, hxc⟩
      rcases Relation.ReflTransGen.cases_tail hxc with rfl | ⟨u, hxu, huc⟩
      · exact .inl rfl
      · exact .inr ⟨u, (step_iff_mem_up hc).1 huc, hx, hxu⟩
    · rintro (rfl | ⟨u, hu, hx, hxu⟩)
      · exact ⟨hc, .refl⟩
      · exact ⟨hx, hxu.tail (hst u hu)⟩
  have hni : c ∉ ⋃ u ∈ up flowdir c, upSet flowdir.rows flowdir.cols flowdir.get u := by
    simp only [Set.mem_iUnion, not_exists]
    rintro u hu ⟨_, hcu⟩
    exact h c .refl (Relation.TransGen.tail' hcu (hst u hu))
  show (upSet flowdir.rows flowdir.cols flowdir.get c).ncard = _
  rw [heq, Set.ncard_insert_of_notMem hni h1, h2]
  rfl

theorem ncard_grid (rows cols : Nat) : {c : Cell | InGrid rows cols c}.ncard = rows * cols := by
  have : {c : Cell | InGrid rows cols c} =
      ((Finset.Ico (0 : Int) rows) ×ˢ (Finset.Ico (0 : Int) cols) : Finset Cell) := by
    ext ⟨r, c⟩
    simp [InGrid, and_assoc]
  rw [this, Set.ncard_coe_finset, Finset.card_product]
  simp

theorem upstreamCount_le_total {rows cols : Nat} {fd : Cell → Nat} (c : Cell) :
    upstreamCount rows cols fd c ≤ rows * cols := by
  rw [← ncard_grid]
  exact Set.ncard_le_ncard (fun _ h => h.1) (inGrid_finite rows cols)

end Flow
end Malstroem
