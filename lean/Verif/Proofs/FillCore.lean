/-
Relaxation theory used for all fill algorithms (plain, no-flats; Python and compiled sweeps).
-/
import Verif.Model.Fill
import Mathlib.Data.Fintype.List
import Mathlib.Data.Fintype.Prod
import Mathlib.Data.Set.Finite.Basic
import Mathlib.Data.Set.Finite.Lattice
import Mathlib.Data.Finite.Prod
import Mathlib.Algebra.BigOperators.Group.Finset.Basic
import Mathlib.Algebra.Order.BigOperators.Group.Finset
import Mathlib.Order.Interval.Finset.Basic
import Mathlib.Data.Int.Interval
import Mathlib.Tactic.Push
import Mathlib.Tactic.Tauto
import Mathlib.Tactic.SplitIfs
import Mathlib.Tactic.ByContra
import Mathlib.Tactic.Linarith

namespace Malstroem
open Spec

theorem adj_symm {a b : Cell} (h : Adj a b) : Adj b a := by
  obtain ⟨h1, h2, h3⟩ := h
  exact ⟨fun e => h1 e.symm, by rwa [abs_sub_comm], by rwa [abs_sub_comm]⟩

theorem adj_iff {a b : Cell} : Adj a b ↔
    (b = (a.1 - 1, a.2 - 1) ∨ b = (a.1 - 1, a.2) ∨ b = (a.1 - 1, a.2 + 1) ∨ b = (a.1, a.2 - 1) ∨
      b = (a.1, a.2 + 1) ∨ b = (a.1 + 1, a.2 - 1) ∨ b = (a.1 + 1, a.2) ∨ b = (a.1 + 1, a.2 + 1)) := by
  obtain ⟨r, c⟩ := a
  obtain ⟨r', c'⟩ := b
  unfold Adj
  simp only [Prod.mk.injEq, ne_eq, abs_le]
  constructor
  · rintro ⟨h1, h2, h3⟩
    have : r' = r - 1 ∨ r' = r ∨ r' = r + 1 := by omega
    have : c' = c - 1 ∨ c' = c ∨ c' = c + 1 := by omega
    have h1' : r = r' → c = c' → False := fun a b => h1 ⟨a, b⟩
    omega
  · intro h
    refine ⟨fun hh => ?_, ?_, ?_⟩ <;> omega

theorem orth_iff {a b : Cell} : Orth a b ↔
    (b = (a.1 - 1, a.2) ∨ b = (a.1, a.2 - 1) ∨ b = (a.1, a.2 + 1) ∨ b = (a.1 + 1, a.2)) := by
  unfold Orth
  rw [adj_iff]
  obtain ⟨r, c⟩ := a
  obtain ⟨r', c'⟩ := b
  simp only [Prod.mk.injEq]
  omega

theorem interior_iff {rows cols : Nat} {c : Cell} : Interior rows cols c ↔
    1 ≤ c.1 ∧ c.1 ≤ (rows : Int) - 2 ∧ 1 ≤ c.2 ∧ c.2 ≤ (cols : Int) - 2 := by
  unfold Interior OnEdge InGrid
  constructor
  · rintro ⟨h1, h2⟩
    have h3 : ¬ (c.1 = 0 ∨ c.1 = (rows : Int) - 1 ∨ c.2 = 0 ∨ c.2 = (cols : Int) - 1) := fun h => h2 ⟨h1, h⟩
    omega
  · intro h
    refine ⟨by omega, fun hh => ?_⟩
    omega

theorem interior_adj_inGrid {rows cols : Nat} {c b : Cell} (hc : Interior rows cols c) (hb : Adj c b) :
    InGrid rows cols b := by
  rw [interior_iff] at hc
  obtain ⟨_, h2, h3⟩ := hb
  rw [abs_le] at h2 h3
  unfold InGrid
  omega

theorem edge_or_interior {rows cols : Nat} {c : Cell} (h : InGrid rows cols c) :
    OnEdge rows cols c ∨ Interior rows cols c := by
  by_cases he : OnEdge rows cols c
  · exact .inl he
  · exact .inr ⟨h, he⟩

theorem inGrid_finite (rows cols : Nat) : {c : Cell | InGrid rows cols c}.Finite := by
  apply Set.Finite.subset ((Set.toFinite (Set.Icc (0 : Int) rows)).prod (Set.toFinite (Set.Icc (0 : Int) cols)))
  rintro ⟨r, c⟩ h
  have h : InGrid rows cols (r, c) := h
  simp only [InGrid] at h
  simp only [Set.mem_prod, Set.mem_Icc]
  omega

/-- Every cell has an escape path: go straight up. -/
theorem exists_escape {rows cols : Nat} {c : Cell} (h : InGrid rows cols c) :
    ∃ p, IsEscape rows cols c p := by
  obtain ⟨r, k⟩ := c
  have key : ∀ (n : Nat), InGrid rows cols ((n : Int), k) → ∃ p, IsEscape rows cols ((n : Int), k) p := by
    intro n
    induction n with
    | zero =>
      intro h
      exact ⟨[(0, k)], rfl, by simp, by simpa using h, (0, k), rfl, by simpa using h, Or.inl rfl⟩
    | succ n ih =>
      intro h
      have h' : InGrid rows cols ((n : Int), k) := by
        unfold InGrid at *; push_cast at *; omega
      obtain ⟨p, hp⟩ := ih h'
      obtain ⟨q, rfl⟩ : ∃ q, p = ((n : Int), k) :: q := by
        cases p with
        | nil => have := hp.head; simp at this
        | cons a q => have := hp.head; simp at this; exact ⟨q, by rw [this]⟩
      refine ⟨(((n + 1 : Nat) : Int), k) :: ((n : Int), k) :: q, rfl, ?_, ?_, ?_⟩
      · refine List.IsChain.cons_cons ?_ hp.chain
        rw [adj_iff]; simp
      · intro x hx
        rcases List.mem_cons.1 hx with rfl | hx
        · exact h
        · exact hp.inside x hx
      · obtain ⟨e, he, he2⟩ := hp.exit
        exact ⟨e, by rw [List.getLast?_cons_cons]; exact he, he2⟩
  have h0 : 0 ≤ r := h.1
  have := key r.toNat (by rw [Int.toNat_of_nonneg h0]; exact h)
  rwa [Int.toNat_of_nonneg h0] at this

theorem Spec.IsEscape.tail {rows cols : Nat} {a b : Cell} {q : List Cell}
    (h : IsEscape rows cols a (a :: b :: q)) : IsEscape rows cols b (b :: q) where
  head := rfl
  chain := h.chain.tail
  inside := fun x hx => h.inside x (List.mem_cons_of_mem _ hx)
  exit := by
    obtain ⟨e, he, he2⟩ := h.exit
    exact ⟨e, by rwa [List.getLast?_cons_cons] at he, he2⟩

theorem Spec.IsEscape.cons {rows cols : Nat} {a b : Cell} {p : List Cell}
    (ha : InGrid rows cols a) (hab : Adj a b)
    (h : IsEscape rows cols b p) : IsEscape rows cols a (a :: p) := by
  cases p with
  | nil => have := h.head; simp at this
  | cons b' q =>
    have := h.head; simp at this; subst this
    exact ⟨rfl, List.IsChain.cons_cons hab h.chain,
      fun x hx => by
        rcases List.mem_cons.1 hx with rfl | hx
        · exact ha
        · exact h.inside x hx,
      by
        obtain ⟨e, he, he2⟩ := h.exit
        exact ⟨e, by rw [List.getLast?_cons_cons]; exact he, he2⟩⟩

theorem Spec.IsEscape.exists_cons {rows cols : Nat} {a : Cell} {p : List Cell} (h : IsEscape rows cols a p) :
    ∃ q, p = a :: q := by
  cases p with
  | nil => have := h.head; simp at this
  | cons b q => have := h.head; simp at this; exact ⟨q, by rw [this]⟩

/-- Induction over escape paths. -/
theorem Spec.IsEscape.rec' {rows cols : Nat} {motive : Cell → List Cell → Prop}
    (edge : ∀ e, OnEdge rows cols e → motive e [e])
    (step : ∀ a b q, InGrid rows cols a → Adj a b → IsEscape rows cols b (b :: q) → motive b (b :: q) →
      motive a (a :: b :: q))
    {c p} (h : IsEscape rows cols c p) : motive c p := by
  induction p generalizing c with
  | nil => have := h.head; simp at this
  | cons a q ih =>
    have := h.head; simp at this; subst this
    cases q with
    | nil =>
      obtain ⟨e, he, he2⟩ := h.exit
      simp at he; subst he
      exact edge _ he2
    | cons b q =>
      refine step a b q (h.inside a (by simp)) ?_ h.tail (ih h.tail)
      have := h.chain
      rw [List.isChain_cons_cons] at this
      exact this.1

namespace Fill

variable {β : Type*} [LinearOrder β] [OrderTop β]

/-- Generalised climb with an arbitrary step function. -/
def climbS (step : Cell → Cell → β → β) (dem : Cell → β) : List Cell → β
  | [] => ⊤
  | [e] => dem e
  | a :: b :: rest => max (dem a) (step a b (climbS step dem (b :: rest)))

/-- Step function of the no-flats fill. -/
def stepSD (short diag : β → β) (a b : Cell) : β → β := if Orth a b then short else diag

theorem climbS_eq (short diag : β → β) (dem : Cell → β) (p : List Cell) :
    climb short diag dem p = climbS (stepSD short diag) dem p := by
  induction p with
  | nil => rfl
  | cons a q ih =>
    cases q with
    | nil => rfl
    | cons b r => simp only [climb, climbS, ih, stepSD]

/-- A cell update is a relaxation step. -/
structure IsRelax (step : Cell → Cell → β → β) (dtm : Raster β)
    (cell : Raster β → Cell → Raster β × Bool) : Prop where
  unchanged : ∀ f c, (cell f c).2 = false → (cell f c).1 = f
  changed : ∀ f c, (cell f c).2 = true → dtm.get c < f.get c ∧
    ∃ b, Adj c b ∧ (cell f c).1 = f.set c (max (dtm.get c) (step c b (f.get b))) ∧
      max (dtm.get c) (step c b (f.get b)) < f.get c
  fix : ∀ f c, (cell f c).2 = false → ∀ b, Adj c b → f.get c ≤ max (dtm.get c) (step c b (f.get b))

structure GoodStep (step : Cell → Cell → β → β) : Prop where
  mono : ∀ a b, Monotone (step a b)
  infl : ∀ a b x, x ≤ step a b x

omit [OrderTop β] in
theorem or_min (a b : β) : min a b = a ∨ min a b = b := min_choice a b

omit [OrderTop β] in
theorem fillCell_relax (dtm : Raster β) : IsRelax (fun _ _ => id) dtm (fillCell dtm) := by
  constructor
  · intro f c
    unfold fillCell
    dsimp only
    split_ifs <;> simp
  · intro f c
    unfold fillCell
    dsimp only
    split_ifs with h1 h2
    · simp
    · simp
    · intro _
      push Not at h1
      refine ⟨h1, ?_⟩
      set D := dtm.get (c.1, c.2) with hD
      set F := f.get (c.1, c.2) with hF
      generalize hM : min (f.get (c.1 + 1, c.2 + 1)) _ = M at *
      have hMF : M ≤ F := by
        rw [← hM]; simp
      have hMne : M < F := by
        rcases lt_or_eq_of_le hMF with h | h
        · exact h
        · exfalso; apply h2; rw [h]; exact max_eq_left h1.le
      have hb : ∃ b, Adj c b ∧ M = f.get b := by
        simp only [adj_iff]
        have : M = f.get (c.1 + 1, c.2 + 1) ∨ M = f.get (c.1 + 1, c.2) ∨ M = f.get (c.1 + 1, c.2 - 1) ∨
          M = f.get (c.1, c.2 + 1) ∨ M = f.get (c.1, c.2 - 1) ∨ M = f.get (c.1 - 1, c.2 + 1) ∨
          M = f.get (c.1 - 1, c.2) ∨ M = f.get (c.1 - 1, c.2 - 1) ∨ M = F := by
          rw [← hM]
          refine (or_min _ _).imp_right fun h => ?_
          rw [h]
          refine (or_min _ _).imp_right fun h => ?_
          rw [h]
          refine (or_min _ _).imp_right fun h => ?_
          rw [h]
          refine (or_min _ _).imp_right fun h => ?_
          rw [h]
          refine (or_min _ _).imp_right fun h => ?_
          rw [h]
          refine (or_min _ _).imp_right fun h => ?_
          rw [h]
          refine (or_min _ _).imp_right fun h => ?_
          rw [h]
          exact or_min _ _
        rcases this with h | h | h | h | h | h | h | h | h
        all_goals first
          | exact ⟨_, by tauto, h⟩
          | exact absurd h hMne.ne
      obtain ⟨b, hb, hMb⟩ := hb
      refine ⟨b, hb, ?_, ?_⟩
      · rw [max_comm, hMb]; rfl
      · rw [id, ← hMb]; exact max_lt h1 hMne
  · intro f c
    unfold fillCell
    dsimp only
    split_ifs with h1 h2
    · intro _ b _
      exact le_max_of_le_left h1
    · intro _ b hb
      rw [max_comm] at h2
      refine (le_of_eq h2.symm).trans (max_le_max le_rfl ?_)
      rw [adj_iff] at hb
      rcases hb with rfl | rfl | rfl | rfl | rfl | rfl | rfl | rfl <;> simp
    · simp

omit [OrderTop β] in
theorem fillCellNoFlats_relax (short diag : β → β) (hs : Monotone short) (hd : Monotone diag) (dtm : Raster β) :
    IsRelax (stepSD short diag) dtm (fillCellNoFlats short diag dtm) := by
  constructor
  · intro f c
    unfold fillCellNoFlats
    dsimp only
    split_ifs <;> simp
  · intro f c
    unfold fillCellNoFlats
    dsimp only
    split_ifs with h1 h2
    · simp
    · simp
    · intro _
      push Not at h1
      refine ⟨h1, ?_⟩
      set D := dtm.get (c.1, c.2) with hD
      set F := f.get (c.1, c.2) with hF
      generalize hMd : min (f.get (c.1 - 1, c.2 - 1)) _ = Md at *
      generalize hMs : min (f.get (c.1 - 1, c.2)) _ = Ms at *
      generalize hM : min (diag Md) (short Ms) = M at *
      have hMne : M < F := by
        by_contra h
        push Not at h
        apply h2; rw [min_eq_right h]; exact max_eq_left h1.le
      have hb : ∃ b, Adj c b ∧ M = stepSD short diag c b (f.get b) := by
        have hd : ∃ b, Adj c b ∧ ¬ Orth c b ∧ Md = f.get b := by
          simp only [adj_iff, orth_iff]
          have : Md = f.get (c.1 - 1, c.2 - 1) ∨ Md = f.get (c.1 - 1, c.2 + 1) ∨ Md = f.get (c.1 + 1, c.2 - 1) ∨
            Md = f.get (c.1 + 1, c.2 + 1) := by
            rw [← hMd]
            simp only [min_def]
            split_ifs <;> simp
          rcases this with h | h | h | h
          all_goals exact ⟨_, by simp, by simp, h⟩
        have hs : ∃ b, Adj c b ∧ Orth c b ∧ Ms = f.get b := by
          simp only [adj_iff, orth_iff]
          have : Ms = f.get (c.1 - 1, c.2) ∨ Ms = f.get (c.1, c.2 - 1) ∨ Ms = f.get (c.1, c.2 + 1) ∨
            Ms = f.get (c.1 + 1, c.2) := by
            rw [← hMs]
            simp only [min_def]
            split_ifs <;> simp
          rcases this with h | h | h | h
          all_goals exact ⟨_, by simp, by simp, h⟩
        rcases le_total (diag Md) (short Ms) with h | h
        · obtain ⟨b, hb1, hb2, hb3⟩ := hd
          exact ⟨b, hb1, by rw [← hM, min_eq_left h, stepSD, if_neg hb2, hb3]⟩
        · obtain ⟨b, hb1, hb2, hb3⟩ := hs
          exact ⟨b, hb1, by rw [← hM, min_eq_right h, stepSD, if_pos hb2, hb3]⟩
      obtain ⟨b, hb, hMb⟩ := hb
      refine ⟨b, hb, ?_, ?_⟩
      · rw [max_comm, min_eq_left hMne.le, hMb]
      · rw [← hMb]; exact max_lt h1 hMne
  · intro f c
    unfold fillCellNoFlats
    dsimp only
    split_ifs with h1 h2
    · intro _ b _
      exact le_max_of_le_left h1
    · intro _ b hb
      rw [max_comm] at h2
      refine (le_of_eq h2.symm).trans (max_le_max le_rfl ((min_le_left _ _).trans ?_))
      unfold stepSD
      rw [adj_iff] at hb
      rcases hb with rfl | rfl | rfl | rfl | rfl | rfl | rfl | rfl
      all_goals simp only [orth_iff]
      all_goals simp
      all_goals first
        | (left; apply hd; simp)
        | (right; apply hs; simp)
    · simp

/-- Descending path w.r.t. the step function. -/
def Descends (step : Cell → Cell → β → β) (s : Cell → β) (p : List Cell) : Prop :=
  p.IsChain fun a b => step a b (s b) ≤ s a

/-- Invariant of the fill loops. -/
structure Inv (step : Cell → Cell → β → β) (dtm f : Raster β) : Prop where
  rows : f.rows = dtm.rows
  cols : f.cols = dtm.cols
  edge : ∀ c, OnEdge dtm.rows dtm.cols c → f.get c = dtm.get c
  ge : ∀ c, dtm.Has c → dtm.get c ≤ f.get c
  desc : ∀ c, dtm.Has c → f.get c = ⊤ ∨
    ∃ p, IsEscape dtm.rows dtm.cols c p ∧ Descends step f.get p
  wit : ∀ c, dtm.Has c → f.get c = ⊤ ∨
    ∃ p, IsEscape dtm.rows dtm.cols c p ∧ p.Nodup ∧ climbS step dtm.get p = f.get c ∧
      ∀ s x q, s <:+ p → s = x :: q → f.get x ≤ climbS step dtm.get s

theorem inv_init (step : Cell → Cell → β → β) (dtm : Raster β) : Inv step dtm (initializeFilled dtm) := by
  have hedge : ∀ c, OnEdge dtm.rows dtm.cols c → (initializeFilled dtm).get c = dtm.get c := by
    intro c hc
    unfold initializeFilled
    have := hc.2
    simp only
    rw [if_pos]; tauto
  have hint : ∀ c, Interior dtm.rows dtm.cols c → (initializeFilled dtm).get c = ⊤ := by
    intro c hc
    unfold initializeFilled
    rw [interior_iff] at hc
    simp only
    rw [if_neg]; omega
  refine ⟨rfl, rfl, hedge, ?_, ?_, ?_⟩
  · intro c hc
    rcases edge_or_interior hc with h | h
    · rw [hedge c h]
    · rw [hint c h]; exact le_top
  · intro c hc
    rcases edge_or_interior hc with h | h
    · right
      exact ⟨[c], ⟨rfl, by simp, by simpa using hc, c, rfl, h⟩, by simp [Descends]⟩
    · exact .inl (hint c h)
  · intro c hc
    rcases edge_or_interior hc with h | h
    · right
      refine ⟨[c], ⟨rfl, by simp, by simpa using hc, c, rfl, h⟩, by simp, ?_, ?_⟩
      · simp [climbS, hedge c h]
      · intro s x q hs hsx
        subst hsx
        have := List.IsSuffix.eq_of_length_le hs (by simp)
        simp at this
        obtain ⟨rfl, rfl⟩ := this
        simp [climbS, hedge x h]
    · exact .inl (hint c h)

section
variable {step : Cell → Cell → β → β} {dtm f : Raster β}

theorem climbS_cons (a : Cell) {p : List Cell} {b : Cell} {q : List Cell} (h : p = b :: q) :
    climbS step dtm.get (a :: p) = max (dtm.get a) (step a b (climbS step dtm.get p)) := by
  subst h; rfl

/-- One effective relaxation keeps the invariant. -/
theorem Inv.update (hstep : GoodStep step) (hI : Inv step dtm f) {c b : Cell} (hc : Interior dtm.rows dtm.cols c)
    (hb : Adj c b) (hlt : max (dtm.get c) (step c b (f.get b)) < f.get c) :
    Inv step dtm (f.set c (max (dtm.get c) (step c b (f.get b)))) := by
  set v := max (dtm.get c) (step c b (f.get b)) with hv
  have hbg : dtm.Has b := interior_adj_inGrid hc hb
  have hcg : dtm.Has c := hc.1
  have hbv : f.get b ≤ v := (hstep.infl c b _).trans (le_max_right _ _)
  have hbtop : f.get b ≠ ⊤ := by
    intro h; rw [h, top_le_iff] at hbv; rw [hbv] at hlt; exact not_top_lt hlt
  have hget : ∀ x, x ≠ c → (f.set c v).get x = f.get x := fun x hx => by
    simp [Raster.set, Function.update_of_ne hx]
  have hgetc : (f.set c v).get c = v := by simp [Raster.set]
  have hle : ∀ x, (f.set c v).get x ≤ f.get x := fun x => by
    by_cases hx : x = c
    · subst hx; rw [hgetc]; exact hlt.le
    · rw [hget x hx]
  -- descending path of b avoids c
  obtain ⟨pb, hpb, hdb⟩ := (hI.desc b hbg).resolve_left hbtop
  have hdescle : ∀ {x p}, IsEscape dtm.rows dtm.cols x p → Descends step f.get p → ∀ y ∈ p, f.get y ≤ f.get x := by
    intro x p hp
    refine IsEscape.rec' (motive := fun x p => Descends step f.get p → ∀ y ∈ p, f.get y ≤ f.get x) ?_ ?_ hp
    · intro e _ _ y hy
      simp at hy; rw [hy]
    · intro a b' q _ _ _ ih hd y hy
      rw [Descends, List.isChain_cons_cons] at hd
      rcases List.mem_cons.1 hy with rfl | hy
      · exact le_rfl
      · exact (ih hd.2 y hy).trans ((hstep.infl a b' _).trans hd.1)
  have hcpb : c ∉ pb := fun hmem => absurd (hdescle hpb hdb c hmem) (not_le.2 (hbv.trans_lt hlt))
  have hdb' : Descends step (f.set c v).get pb := by
    have hch : ∀ l : List Cell, c ∉ l → Descends step f.get l → Descends step (f.set c v).get l := by
      intro l
      induction l with
      | nil => intro _ _; simp [Descends]
      | cons a q ih =>
        intro hcl hd
        cases q with
        | nil => simp [Descends]
        | cons b' r =>
          rw [Descends, List.isChain_cons_cons] at hd ⊢
          simp only [List.mem_cons, not_or] at hcl
          refine ⟨?_, ih (by simp [hcl]) hd.2⟩
          rw [hget a (Ne.symm hcl.1), hget b' (Ne.symm hcl.2.1)]; exact hd.1
    exact hch pb hcpb hdb
  have hcesc : IsEscape dtm.rows dtm.cols c (c :: pb) := hpb.cons hcg hb
  have hcdesc : Descends step (f.set c v).get (c :: pb) := by
    obtain ⟨q, rfl⟩ := hpb.exists_cons
    rw [Descends, List.isChain_cons_cons]
    refine ⟨?_, hdb'⟩
    rw [hgetc, hget b (fun h => hb.1 h.symm)]
    exact le_max_right _ _
  refine ⟨hI.rows, hI.cols, ?_, ?_, ?_, ?_⟩
  · intro x hx
    rw [hget x (fun h => by subst h; exact hc.2 hx)]; exact hI.edge x hx
  · intro x hx
    by_cases h : x = c
    · subst h; rw [hgetc]; exact le_max_left _ _
    · rw [hget x h]; exact hI.ge x hx
  · intro x hx
    by_cases h : x = c
    · subst h; exact .inr ⟨_, hcesc, hcdesc⟩
    · rw [hget x h]
      rcases hI.desc x hx with ht | ⟨p, hp, hd⟩
      · exact .inl ht
      · right
        refine IsEscape.rec' (motive := fun x p => Descends step f.get p → ∃ p', IsEscape dtm.rows dtm.cols x p' ∧
          Descends step (f.set c v).get p') ?_ ?_ hp hd
        · intro e he _
          exact ⟨[e], ⟨rfl, by simp, by simpa using he.1, e, rfl, he⟩, by simp [Descends]⟩
        · intro a b' q ha hab hq ih hd
          by_cases hac : a = c
          · subst hac; exact ⟨_, hcesc, hcdesc⟩
          · rw [Descends, List.isChain_cons_cons] at hd
            obtain ⟨p', hp', hd'⟩ := ih hd.2
            refine ⟨a :: p', hp'.cons ha hab, ?_⟩
            obtain ⟨q', rfl⟩ := hp'.exists_cons
            rw [Descends, List.isChain_cons_cons]
            refine ⟨?_, hd'⟩
            rw [hget a hac]
            exact (hstep.mono a b' (hle b')).trans hd.1
  · intro x hx
    by_cases h : x = c
    · subst h
      right
      obtain ⟨p, hp, hnd, hcl, hsuf⟩ := (hI.wit b hbg).resolve_left hbtop
      have hxp : x ∉ p := by
        intro hmem
        -- the suffix starting at x costs at least f x but at most climb p = f b
        obtain ⟨s, t, rfl⟩ := List.append_of_mem hmem
        have h1 := hsuf (x :: t) x t ⟨s, rfl⟩ rfl
        have h2 : ∀ s : List Cell, climbS step dtm.get (x :: t) ≤ climbS step dtm.get (s ++ x :: t) := by
          intro s
          induction s with
          | nil => exact le_rfl
          | cons a s ih =>
            obtain ⟨b', q', hbq⟩ : ∃ b' q', s ++ x :: t = b' :: q' := by
              cases s with
              | nil => exact ⟨_, _, rfl⟩
              | cons b' q' => exact ⟨_, _, rfl⟩
            rw [List.cons_append, climbS_cons a hbq]
            exact ih.trans ((hstep.infl a b' _).trans (le_max_right _ _))
        have h3 := h2 s
        rw [hcl] at h3
        exact absurd ((h1.trans h3).trans hbv) (not_le.2 hlt)
      obtain ⟨q, rfl⟩ := hp.exists_cons
      have hclx : climbS step dtm.get (x :: b :: q) = v := by
        rw [climbS_cons x rfl, hcl]
      refine ⟨x :: b :: q, hp.cons hx hb, ?_, by rw [hclx, hgetc], ?_⟩
      · rw [List.nodup_cons]; exact ⟨hxp, hnd⟩
      · intro s y q' hs hsy
        rw [List.suffix_cons_iff] at hs
        rcases hs with hs | hs
        · rw [hs, hclx]
          rw [hs] at hsy
          simp only [List.cons.injEq] at hsy
          rw [← hsy.1, hgetc]
        · exact (hle y).trans (hsuf s y q' hs hsy)
    · rw [hget x h]
      rcases hI.wit x hx with ht | ⟨p, hp, hnd, hcl, hsuf⟩
      · exact .inl ht
      · right
        exact ⟨p, hp, hnd, hcl, fun s y q hs hsy => (hle y).trans (hsuf s y q hs hsy)⟩

/-- Candidate values: climbs of simple paths in the raster. -/
def candidates (step : Cell → Cell → β → β) (dtm : Raster β) : Set β :=
  insert ⊤ {v | ∃ p : List Cell, p.Nodup ∧ (∀ x ∈ p, dtm.Has x) ∧ climbS step dtm.get p = v}

theorem candidates_finite (step : Cell → Cell → β → β) (dtm : Raster β) : (candidates step dtm).Finite := by
  classical
  apply Set.Finite.insert
  have : Fintype {c : Cell // dtm.Has c} := (inGrid_finite dtm.rows dtm.cols).fintype
  have : (Set.range fun l : {l : List {c : Cell // dtm.Has c} // l.Nodup} =>
      climbS step dtm.get (l.1.map Subtype.val)).Finite := Set.finite_range _
  refine this.subset ?_
  rintro v ⟨p, hnd, hin, rfl⟩
  refine ⟨⟨p.attach.map (fun x => ⟨x.1, hin x.1 x.2⟩), ?_⟩, ?_⟩
  · apply List.Nodup.map
    · intro a b h
      simp only [Subtype.mk.injEq] at h
      exact Subtype.ext h
    · exact List.nodup_attach.2 hnd
  · simp only [List.map_map]
    congr 1
    conv_rhs => rw [← List.attach_map_subtype_val p]
    rfl

/-- Termination measure. -/
noncomputable def measure (step : Cell → Cell → β → β) (dtm f : Raster β) : Nat :=
  ∑ c ∈ (inGrid_finite dtm.rows dtm.cols).toFinset,
    ((candidates_finite step dtm).toFinset.filter (fun v => v < f.get c)).card

theorem Inv.mem_candidates (hI : Inv step dtm f) {c : Cell} (hc : dtm.Has c) : f.get c ∈ candidates step dtm := by
  rcases hI.wit c hc with h | ⟨p, hp, hnd, hcl, _⟩
  · exact Set.mem_insert_iff.2 (.inl h)
  · exact Set.mem_insert_iff.2 (.inr ⟨p, hnd, hp.inside, hcl⟩)

theorem measure_set_lt {c : Cell} {v : β} (hc : dtm.Has c) (hlt : v < f.get c)
    (hv : v ∈ candidates step dtm) :
    measure step dtm (f.set c v) < measure step dtm f := by
  unfold measure
  apply Finset.sum_lt_sum
  · intro x _
    apply Finset.card_le_card
    intro w hw
    simp only [Finset.mem_filter] at hw ⊢
    refine ⟨hw.1, hw.2.trans_le ?_⟩
    by_cases hx : x = c
    · subst hx; simp [Raster.set, hlt.le]
    · simp [Raster.set, Function.update_of_ne hx]
  · refine ⟨c, by simpa using hc, ?_⟩
    apply Finset.card_lt_card
    rw [Finset.ssubset_iff_of_subset]
    · refine ⟨v, ?_, ?_⟩
      · simp only [Finset.mem_filter, Set.Finite.mem_toFinset]; exact ⟨hv, hlt⟩
      · simp [Raster.set]
    · intro w hw
      simp only [Finset.mem_filter] at hw ⊢
      refine ⟨hw.1, hw.2.trans ?_⟩
      simp [Raster.set, hlt]

/-- Result of a sweep over in-raster cells. -/
structure SweepSpec (step : Cell → Cell → β → β) (dtm : Raster β) (cs : List Cell) (f : Raster β)
    (res : Raster β × Bool) : Prop where
  inv : Inv step dtm res.1
  le : ∀ c, res.1.get c ≤ f.get c
  unchanged : res.2 = false → res.1 = f ∧
    ∀ c ∈ cs, ∀ b, Adj c b → f.get c ≤ max (dtm.get c) (step c b (f.get b))
  changed : res.2 = true → measure step dtm res.1 < measure step dtm f

theorem cell_interior {cell : Raster β → Cell → Raster β × Bool} (hcell : IsRelax step dtm cell)
    (hI : Inv step dtm f) {c : Cell} (hc : dtm.Has c) (h : (cell f c).2 = true) : Interior dtm.rows dtm.cols c := by
  refine ⟨hc, fun he => ?_⟩
  have := (hcell.changed f c h).1
  rw [hI.edge c he] at this
  exact lt_irrefl _ this

theorem sweep_spec (hstep : GoodStep step) {cell : Raster β → Cell → Raster β × Bool}
    (hcell : IsRelax step dtm cell) (cs : List Cell) (hcs : ∀ c ∈ cs, dtm.Has c) (hI : Inv step dtm f) :
    SweepSpec step dtm cs f (sweepWith cell cs f) := by
  -- generalised over the accumulator
  have key : ∀ (cs : List Cell) (g : Raster β) (ch : Bool), (∀ c ∈ cs, dtm.Has c) → Inv step dtm g →
      let res := cs.foldl (fun st c =>
        let (filled', ch) := cell st.1 c
        (filled', if ch then true else st.2)) (g, ch)
      Inv step dtm res.1 ∧ (∀ c, res.1.get c ≤ g.get c) ∧
      (res.2 = false → ch = false ∧ res.1 = g ∧
        ∀ c ∈ cs, ∀ b, Adj c b → g.get c ≤ max (dtm.get c) (step c b (g.get b))) ∧
      (res.1 = g ∧ res.2 = ch ∨ res.2 = true ∧ measure step dtm res.1 < measure step dtm g) := by
    intro cs
    induction cs with
    | nil => intro g ch _ hI; exact ⟨hI, fun _ => le_rfl, by simp, by simp⟩
    | cons c cs ih =>
      intro g ch hcs hI
      simp only [List.foldl_cons]
      cases hr : (cell g c).2 with
      | false =>
        have hun := hcell.unchanged g c hr
        have hpair : cell g c = (g, false) := Prod.ext hun hr
        have hfix := hcell.fix g c hr
        rw [hpair]
        simp only
        have := ih g ch (fun c hc => hcs c (List.mem_cons_of_mem _ hc)) hI
        refine ⟨this.1, this.2.1, fun h => ?_, ?_⟩
        · obtain ⟨h1, h2, h3⟩ := this.2.2.1 h
          refine ⟨h1, h2, fun c' hc' b hb => ?_⟩
          rcases List.mem_cons.1 hc' with rfl | hc'
          · exact hfix b hb
          · exact h3 c' hc' b hb
        · exact this.2.2.2
      | true =>
        have hcint := cell_interior hcell hI (hcs c (by simp)) hr
        obtain ⟨_, b, hb, heq, hlt⟩ := hcell.changed g c hr
        have hI' := hI.update hstep hcint hb hlt
        have hmem := hI'.mem_candidates hcint.1
        have hm := measure_set_lt (f := g) hcint.1 hlt (by simpa [Raster.set] using hmem)
        have hpair : cell g c = (g.set c (max (dtm.get c) (step c b (g.get b))), true) := Prod.ext heq hr
        rw [hpair]
        simp only [if_true]
        have := ih _ true (fun c hc => hcs c (List.mem_cons_of_mem _ hc)) hI'
        refine ⟨this.1, fun x => (this.2.1 x).trans ?_, fun h => ?_, .inr ?_⟩
        · by_cases hx : x = c
          · subst hx; simpa [Raster.set] using hlt.le
          · simp [Raster.set, Function.update_of_ne hx]
        · have := (this.2.2.1 h).1; simp at this
        · rcases this.2.2.2 with ⟨h1, h2⟩ | ⟨h1, h2⟩
          · refine ⟨h2, ?_⟩; rw [h1]; exact hm
          · exact ⟨h1, h2.trans hm⟩
  have := key cs f false hcs hI
  refine ⟨this.1, this.2.1, fun h => (this.2.2.1 h).2, fun h => ?_⟩
  rcases this.2.2.2 with ⟨_, h2⟩ | ⟨_, h2⟩
  · unfold sweepWith at h; rw [h2] at h; simp at h
  · exact h2

/-- A fixpoint is below the climb of every escape path. -/
theorem fix_le_climb (hstep : GoodStep step) (hI : Inv step dtm f)
    (hfix : ∀ c, Interior dtm.rows dtm.cols c → ∀ b, Adj c b → f.get c ≤ max (dtm.get c) (step c b (f.get b)))
    {c : Cell} {p : List Cell} (hp : IsEscape dtm.rows dtm.cols c p) : f.get c ≤ climbS step dtm.get p := by
  refine IsEscape.rec' (motive := fun c p => f.get c ≤ climbS step dtm.get p) ?_ ?_ hp
  · intro e he
    rw [hI.edge e he]; exact le_rfl
  · intro a b q ha hab _ ih
    rw [climbS_cons a rfl]
    rcases edge_or_interior ha with h | h
    · rw [hI.edge a h]; exact le_max_left _ _
    · exact (hfix a h b hab).trans (max_le_max le_rfl (hstep.mono a b ih))

/-- A fixpoint satisfying the invariant is the cheapest climb. -/
theorem fix_isLeast (hstep : GoodStep step) (hI : Inv step dtm f)
    (hfix : ∀ c, Interior dtm.rows dtm.cols c → ∀ b, Adj c b → f.get c ≤ max (dtm.get c) (step c b (f.get b)))
    {c : Cell} (hc : dtm.Has c) :
    IsLeast {h | ∃ p, IsEscape dtm.rows dtm.cols c p ∧ climbS step dtm.get p = h} (f.get c) := by
  constructor
  · rcases hI.wit c hc with h | ⟨p, hp, _, hcl, _⟩
    · obtain ⟨p, hp⟩ := exists_escape hc
      refine ⟨p, hp, ?_⟩
      rw [h]
      have := fix_le_climb hstep hI hfix hp
      rw [h, top_le_iff] at this
      exact this
    · exact ⟨p, hp, hcl⟩
  · rintro h ⟨p, hp, rfl⟩
    exact fix_le_climb hstep hI hfix hp

end
end Fill
end Malstroem
