/-
Accumulated flow: correctness of the pure Python and the compiled loops.
-/
import Verif.Proofs.FlowCore
import Verif.Proofs.FillMain
import Verif.Model.FlowCython

set_option linter.unusedSectionVars false

namespace Malstroem
open Spec

namespace Flow
variable {flowdir : Raster Nat}

/-- The trace, without exceptions. -/
def trace (flowdir : Raster Nat) : Nat → Raster Int → Cell → Option (Raster Int)
  | 0, _, _ => none
  | fuel + 1, accum, cell =>
    if InGrid flowdir.rows flowdir.cols cell then
      if ∀ u ∈ up flowdir cell, 0 < accum.get u then
        trace flowdir fuel (accum.set cell (((up flowdir cell).map accum.get).sum + 1)) (move cell (flowdir.get cell))
      else some accum
    else some accum

theorem sumCells_of_pos (g : Cell → Int) : ∀ (l : List Cell) (s : Int), (∀ u ∈ l, 0 < g u) →
    sumCells l g s = s + (l.map g).sum := by
  intro l
  induction l with
  | nil => intro s _; simp [sumCells]
  | cons a l ih =>
    intro s h
    have ha : 0 < g a := h a (by simp)
    rw [sumCells, if_neg (by omega), ih _ (fun u hu => h u (by simp [hu]))]
    simp [add_assoc]

theorem sumCells_of_not_pos (g : Cell → Int) : ∀ (l : List Cell) (s : Int), ¬ (∀ u ∈ l, 0 < g u) →
    sumCells l g s = -1 := by
  intro l
  induction l with
  | nil => intro s h; simp at h
  | cons a l ih =>
    intro s h
    rw [sumCells]
    split_ifs with ha
    · rfl
    · apply ih
      intro hl
      apply h
      intro u hu
      rcases List.mem_cons.1 hu with rfl | hu
      · omega
      · exact hl u hu

theorem sum_nonneg_of_pos (g : Cell → Int) : ∀ (l : List Cell), (∀ u ∈ l, 0 < g u) →
    0 ≤ (l.map g).sum ∧ (l ≠ [] → 0 < (l.map g).sum) := by
  intro l
  induction l with
  | nil => intro _; simp
  | cons a l ih =>
    intro h
    have ha : 0 < g a := h a (by simp)
    have := ih (fun u hu => h u (by simp [hu]))
    simp only [List.map_cons, List.sum_cons]
    exact ⟨by omega, fun _ => by omega⟩

theorem trace_python (hcodes : ∀ c, flowdir.Has c → flowdir.get c < 8) : ∀ (n : Nat) (A : Raster Int) (c : Cell),
    traceAccumulatedFlow flowdir n A c = (trace flowdir n A c).map .ok := by
  intro n
  induction n with
  | zero => intro A c; rfl
  | succ n ih =>
    intro A c
    rw [traceAccumulatedFlow, trace]
    by_cases hc : InGrid flowdir.rows flowdir.cols c
    · rw [if_pos (cellInRaster_iff.2 hc), if_pos hc, upstreamCells_eq]
      simp only
      by_cases hp : ∀ u ∈ up flowdir c, 0 < A.get u
      · have hs := sum_nonneg_of_pos A.get _ hp
        have heq : (if up flowdir c ≠ [] then sumCells (up flowdir c) A.get 0 else 0) =
            ((up flowdir c).map A.get).sum := by
          split_ifs with h
          · rw [sumCells_of_pos _ _ _ hp, zero_add]
          · simp only [ne_eq, not_not] at h
            rw [h]; rfl
        rw [heq, if_neg (by intro ⟨h1, h2⟩; have := hs.2 h1; omega), if_pos hp,
          cellInDirection_lt (hcodes c hc)]
        exact ih _ _
      · have hne : up flowdir c ≠ [] := by
          rintro h
          apply hp
          rw [h]
          simp
        rw [if_pos hne, sumCells_of_not_pos _ _ _ hp, if_pos ⟨hne, by omega⟩, if_neg hp]
        rfl
    · rw [if_neg (by rw [cellInRaster_iff]; exact hc), if_neg hc]
      rfl

/-- Resolved cells are correct. -/
def Sound (flowdir : Raster Nat) (A : Raster Int) : Prop :=
  ∀ c, flowdir.Has c → A.get c = 0 ∨
    (NoCycleAbove flowdir.rows flowdir.cols flowdir.get c ∧ A.get c = N flowdir c)

/-- Every unresolved cell, other than possibly `x`, is a leaf or has an unresolved upstream cell. -/
def Blocked (flowdir : Raster Nat) (A : Raster Int) (x : Option Cell) : Prop :=
  ∀ d, flowdir.Has d → some d ≠ x → A.get d = 0 → up flowdir d = [] ∨ ∃ u ∈ up flowdir d, A.get u = 0

theorem Sound.pos_iff {A : Raster Int} (h : Sound flowdir A) {c : Cell} (hc : flowdir.Has c) :
    0 < A.get c ↔ A.get c ≠ 0 := by
  rcases h c hc with h0 | ⟨_, h1⟩
  · simp [h0]
  · have := upstreamCount_pos (fd := flowdir.get) hc
    omega

theorem Sound.set {A : Raster Int} (h : Sound flowdir A) {c : Cell} (hc : flowdir.Has c)
    (hp : ∀ u ∈ up flowdir c, 0 < A.get u) :
    NoCycleAbove flowdir.rows flowdir.cols flowdir.get c ∧
    ((up flowdir c).map A.get).sum + 1 = (N flowdir c : Int) ∧
    Sound flowdir (A.set c (((up flowdir c).map A.get).sum + 1)) := by
  have hu : ∀ u ∈ up flowdir c, NoCycleAbove flowdir.rows flowdir.cols flowdir.get u ∧ A.get u = N flowdir u := by
    intro u hu
    have := hp u hu
    rcases h u (mem_up.1 hu).1 with h0 | h1
    · omega
    · exact h1
  have hnc : NoCycleAbove flowdir.rows flowdir.cols flowdir.get c :=
    noCycleAbove_of_up fun u hs => (hu u ((step_iff_mem_up hc).1 hs)).1
  have hsum : ((up flowdir c).map A.get).sum + 1 = (N flowdir c : Int) := by
    rw [upstreamCount_rec hc hnc]
    have : (up flowdir c).map A.get = ((up flowdir c).map (N flowdir)).map (fun n : Nat => (n : Int)) := by
      rw [List.map_map]
      exact List.map_congr_left fun u h => (hu u h).2
    rw [this]
    generalize (up flowdir c).map (N flowdir) = l
    clear this hp hu
    induction l with
    | nil => rfl
    | cons a l ih => simp at ih ⊢; omega
  refine ⟨hnc, hsum, fun d hd => ?_⟩
  by_cases hdc : d = c
  · subst hdc
    right
    refine ⟨hnc, ?_⟩
    simp [Raster.set, hsum]
  · simpa [Raster.set, Function.update_of_ne hdc] using h d hd

theorem trace_spec (hcodes : ∀ c, flowdir.Has c → flowdir.get c < 8) : ∀ (n : Nat) (A : Raster Int) (c : Cell)
    (k : Nat), Sound flowdir A → Blocked flowdir A (some c) → k ≤ flowdir.rows * flowdir.cols →
    (flowdir.Has c → NoCycleAbove flowdir.rows flowdir.cols flowdir.get c → k < N flowdir c) →
    flowdir.rows * flowdir.cols < n + k →
    ∃ A', trace flowdir n A c = some A' ∧ Sound flowdir A' ∧ Blocked flowdir A' none ∧
      (A'.rows = A.rows ∧ A'.cols = A.cols) ∧
      (∀ d, flowdir.Has d → A.get d ≠ 0 → A'.get d ≠ 0) ∧
      (flowdir.Has c → up flowdir c = [] → A'.get c ≠ 0) := by
  intro n
  induction n with
  | zero => intro A c k _ _ _ _ h; omega
  | succ n ih =>
    intro A c k hS hB hk hkc hn
    rw [trace]
    by_cases hc : InGrid flowdir.rows flowdir.cols c
    · rw [if_pos hc]
      by_cases hp : ∀ u ∈ up flowdir c, 0 < A.get u
      · rw [if_pos hp]
        obtain ⟨hnc, hsum, hS'⟩ := hS.set hc hp
        have hpos : 0 < N flowdir c := upstreamCount_pos hc
        have hget : ∀ d, d ≠ c → (A.set c (((up flowdir c).map A.get).sum + 1)).get d = A.get d := by
          intro d hd
          simp [Raster.set, Function.update_of_ne hd]
        have hgetc : (A.set c (((up flowdir c).map A.get).sum + 1)).get c = N flowdir c := by
          simp [Raster.set, hsum]
        have hB' : Blocked flowdir (A.set c (((up flowdir c).map A.get).sum + 1))
            (some (move c (flowdir.get c))) := by
          intro d hd hdx h0
          have hdc : d ≠ c := by
            rintro rfl
            rw [hgetc] at h0
            omega
          rw [hget d hdc] at h0
          rcases hB d hd (by simpa using hdc) h0 with hl | ⟨u, hu, hu0⟩
          · exact .inl hl
          · right
            refine ⟨u, hu, ?_⟩
            have huc : u ≠ c := by
              rintro rfl
              exact hdx (by rw [(flowsTo_iff.1 (mem_up.1 hu).2).2])
            rw [hget u huc, hu0]
        have hlt := hkc hc hnc
        obtain ⟨A', h1, h2, h3, hsh, h4, h5⟩ := ih _ (move c (flowdir.get c)) (N flowdir c) hS' hB'
          (upstreamCount_le_total c) (by
            intro hd hdn
            refine upstreamCount_lt ⟨hc, hd, ?_⟩ (hdn _ .refl)
            exact flowsTo_iff.2 ⟨hcodes c hc, rfl⟩) (by omega)
        refine ⟨A', h1, h2, h3, ⟨hsh.1, hsh.2⟩, ?_, ?_⟩
        · intro d hd hne
          apply h4 d hd
          by_cases hdc : d = c
          · subst hdc
            rw [hgetc]
            omega
          · rw [hget d hdc]
            exact hne
        · intro _ _
          apply h4 c hc
          rw [hgetc]
          omega
      · rw [if_neg hp]
        refine ⟨A, rfl, hS, ?_, ⟨rfl, rfl⟩, fun _ _ h => h, ?_⟩
        · intro d hd _ h0
          by_cases hdc : d = c
          · subst hdc
            right
            push Not at hp
            obtain ⟨u, hu, hu0⟩ := hp
            refine ⟨u, hu, ?_⟩
            by_contra hne
            have := (hS.pos_iff (mem_up.1 hu).1).2 hne
            omega
          · exact hB d hd (by simpa using hdc) h0
        · intro _ hnil
          exact absurd (by rw [hnil]; simp) hp
    · rw [if_neg hc]
      refine ⟨A, rfl, hS, ?_, ⟨rfl, rfl⟩, fun _ _ h => h, fun h => absurd h hc⟩
      intro d hd _ h0
      apply hB d hd _ h0
      intro h
      simp only [Option.some.injEq] at h
      exact hc (h ▸ hd)

/-- Start a trace at every listed cell selected by `sel`. -/
def traceAll (flowdir : Raster Nat) (sel : Cell → Bool) (fuel : Nat) : List Cell → Raster Int → Option (Raster Int)
  | [], A => some A
  | c :: rest, A =>
    if sel c then
      match trace flowdir fuel A c with
      | some A => traceAll flowdir sel fuel rest A
      | none => none
    else traceAll flowdir sel fuel rest A

theorem traceAll_spec (hcodes : ∀ c, flowdir.Has c → flowdir.get c < 8) (sel : Cell → Bool)
    (hsel : ∀ c, up flowdir c = [] → sel c = true) {n : Nat} (hn : flowdir.rows * flowdir.cols < n) :
    ∀ (l : List Cell) (A : Raster Int), (∀ c ∈ l, flowdir.Has c) → Sound flowdir A → Blocked flowdir A none →
    ∃ A', traceAll flowdir sel n l A = some A' ∧ Sound flowdir A' ∧ Blocked flowdir A' none ∧
      (A'.rows = A.rows ∧ A'.cols = A.cols) ∧
      (∀ d, flowdir.Has d → A.get d ≠ 0 → A'.get d ≠ 0) ∧ (∀ c ∈ l, up flowdir c = [] → A'.get c ≠ 0) := by
  intro l
  induction l with
  | nil => intro A _ hS hB; exact ⟨A, rfl, hS, hB, ⟨rfl, rfl⟩, fun _ _ h => h, by simp⟩
  | cons c l ih =>
    intro A hl hS hB
    have hc := hl c (by simp)
    have hl' : ∀ c ∈ l, flowdir.Has c := fun x hx => hl x (by simp [hx])
    rw [traceAll]
    by_cases hs : sel c
    · rw [if_pos hs]
      obtain ⟨A1, h1, h2, h3, hsh1, h4, h5⟩ := trace_spec hcodes n A c 0 hS (fun d hd _ h0 => hB d hd (by simp) h0)
        (Nat.zero_le _) (fun h _ => upstreamCount_pos h) (by omega)
      obtain ⟨A', g1, g2, g3, hsh, g4, g5⟩ := ih A1 hl' h2 h3
      refine ⟨A', by rw [h1]; exact g1, g2, g3, ⟨hsh.1.trans hsh1.1, hsh.2.trans hsh1.2⟩,
        fun d hd h => g4 d hd (h4 d hd h), ?_⟩
      intro x hx hnil
      rcases List.mem_cons.1 hx with rfl | hx
      · exact g4 x hc (h5 hc hnil)
      · exact g5 x hx hnil
    · rw [if_neg hs]
      obtain ⟨A', g1, g2, g3, hsh, g4, g5⟩ := ih A hl' hS hB
      refine ⟨A', g1, g2, g3, hsh, g4, ?_⟩
      intro x hx hnil
      rcases List.mem_cons.1 hx with rfl | hx
      · exact absurd (hsel x hnil) hs
      · exact g5 x hx hnil

theorem mem_cellList {rows cols : Nat} {c : Cell} : c ∈ Raster.cellList rows cols ↔ InGrid rows cols c := by
  obtain ⟨r, k⟩ := c
  simp only [Raster.cellList, List.mem_flatMap, List.mem_range, List.mem_map, Prod.mk.injEq, InGrid]
  constructor
  · rintro ⟨a, ha, b, hb, rfl, rfl⟩
    omega
  · intro h
    exact ⟨r.toNat, by omega, k.toNat, by omega, by omega, by omega⟩

theorem nodup_cellList (rows cols : Nat) : (Raster.cellList rows cols).Nodup := by
  unfold Raster.cellList
  rw [List.nodup_flatMap]
  constructor
  · intro r _
    apply List.Nodup.map _ List.nodup_range
    intro a b h
    simpa using h
  · apply List.Nodup.pairwise_of_forall_ne List.nodup_range
    intro a _ b _ hab
    simp only [Function.onFun, List.disjoint_left, List.mem_map]
    rintro x ⟨i, _, rfl⟩ ⟨j, _, h⟩
    simp only [Prod.mk.injEq, Nat.cast_inj] at h
    exact hab h.1.symm

theorem length_cellList (rows cols : Nat) : (Raster.cellList rows cols).length = rows * cols := by
  simp [Raster.cellList, List.length_flatMap]

/-- The final raster: the upstream count where no cycle lies upstream, 0 elsewhere. -/
def AccumSpec (flowdir : Raster Nat) (A : Raster Int) : Prop :=
  A.rows = flowdir.rows ∧ A.cols = flowdir.cols ∧
  ∀ c, flowdir.Has c →
    (NoCycleAbove flowdir.rows flowdir.cols flowdir.get c → A.get c = N flowdir c) ∧
    (¬ NoCycleAbove flowdir.rows flowdir.cols flowdir.get c → A.get c = 0)

theorem traceAll_accum (hcodes : ∀ c, flowdir.Has c → flowdir.get c < 8) (sel : Cell → Bool)
    (hsel : ∀ c, up flowdir c = [] → sel c = true) {n : Nat} (hn : flowdir.rows * flowdir.cols < n) :
    ∃ A, traceAll flowdir sel n (Raster.cellList flowdir.rows flowdir.cols)
      (zeros flowdir.rows flowdir.cols) = some A ∧ AccumSpec flowdir A := by
  obtain ⟨A, h1, hS, hB, hsh, _, h5⟩ := traceAll_spec hcodes sel hsel hn
    (Raster.cellList flowdir.rows flowdir.cols) (zeros flowdir.rows flowdir.cols)
    (fun c hc => mem_cellList.1 hc) (fun c _ => .inl rfl) (by
      intro d hd _ _
      rcases h : up flowdir d with _ | ⟨u, l⟩
      · exact .inl rfl
      · exact .inr ⟨u, by simp, rfl⟩)
  refine ⟨A, h1, hsh.1, hsh.2, fun c hc => ⟨?_, ?_⟩⟩
  · have key : ∀ m c, flowdir.Has c → NoCycleAbove flowdir.rows flowdir.cols flowdir.get c → N flowdir c = m →
        A.get c ≠ 0 := by
      intro m
      induction m using Nat.strong_induction_on with
      | _ m ih =>
        intro c hc hnc hm h0
        rcases hB c hc (by simp) h0 with hl | ⟨u, hu, hu0⟩
        · exact h5 c (mem_cellList.2 hc) hl h0
        · have hs := (step_iff_mem_up hc).2 hu
          have hlt := upstreamCount_lt hs (hnc c .refl)
          exact ih (N flowdir u) (by rw [← hm]; exact hlt) u hs.1 (hnc.up hs) rfl hu0
    intro hnc
    rcases hS c hc with h0 | h
    · exact absurd h0 (key _ c hc hnc rfl)
    · exact h.2
  · intro hnc
    rcases hS c hc with h0 | h
    · exact h0
    · exact absurd h.1 hnc

theorem accumLoop_eq (hcodes : ∀ c, flowdir.Has c → flowdir.get c < 8) (n : Nat) : ∀ (l : List Cell) (A : Raster Int),
    accumulatedFlowLoop flowdir n l A =
      (traceAll flowdir (fun c => (up flowdir c).isEmpty) n l A).map .ok := by
  intro l
  induction l with
  | nil => intro A; rfl
  | cons c l ih =>
    intro A
    rw [accumulatedFlowLoop, traceAll, upstreamCells_eq]
    simp only
    by_cases h : up flowdir c = []
    · rw [if_pos h, h, trace_python hcodes]
      simp only [List.isEmpty_nil, if_true]
      cases trace flowdir n A c with
      | none => rfl
      | some A1 => exact ih A1
    · rw [if_neg h, if_neg (by simpa using h)]
      exact ih A

theorem trace_mono : ∀ n A c A', trace flowdir n A c = some A' → ∀ m, n ≤ m → trace flowdir m A c = some A' := by
  intro n
  induction n with
  | zero => intro A c A' h; cases h
  | succ n ih =>
    intro A c A' h m hm
    obtain ⟨m, rfl⟩ : ∃ k, m = k + 1 := ⟨m - 1, by omega⟩
    rw [trace] at h ⊢
    split_ifs at h ⊢ with h1 h2
    · exact ih _ _ _ h m (by omega)
    · exact h
    · exact h

theorem traceAll_mono (sel : Cell → Bool) : ∀ n l A A', traceAll flowdir sel n l A = some A' → ∀ m, n ≤ m →
    traceAll flowdir sel m l A = some A' := by
  intro n l
  induction l with
  | nil => intro A A' h m _; exact h
  | cons c l ih =>
    intro A A' h m hm
    rw [traceAll] at h ⊢
    split_ifs at h ⊢ with hc
    · cases ht : trace flowdir n A c with
      | none => rw [ht] at h; cases h
      | some A1 =>
        rw [ht] at h
        rw [trace_mono n A c A1 ht m hm]
        exact ih A1 A' h m hm
    · exact ih A A' h m hm

theorem accumulatedFlow_returns (hcodes : ∀ c, flowdir.Has c → flowdir.get c < 8) :
    ∃ A, Returns (accumulatedFlow flowdir) (.ok A) ∧ AccumSpec flowdir A := by
  obtain ⟨A, hA, hspec⟩ := traceAll_accum hcodes (fun c => (up flowdir c).isEmpty) (fun c h => by simp [h])
    (n := flowdir.rows * flowdir.cols + 1) (by omega)
  refine ⟨A, ⟨flowdir.rows * flowdir.cols + 1, fun m hm => ?_⟩, hspec⟩
  rw [accumulatedFlow, accumLoop_eq hcodes, traceAll_mono _ _ _ _ _ hA m hm]
  rfl

end Flow

namespace FlowCython
open Flow
variable {flowdir : Raster Nat}

theorem cellInDirection_lt (junk : Int × Int) (c : Cell) {d : Nat} (h : d < 8) :
    cellInDirection junk c d = move c d := by
  interval_cases d <;> rfl

theorem isUp_eq (junk : Int × Int) (c : Cell) {d : Nat} (h : d < 8) :
    (isInRaster flowdir.rows flowdir.cols (cellInDirection junk c d) &&
      isUpstream flowdir d (cellInDirection junk c d)) = isUp flowdir c d := by
  rw [cellInDirection_lt junk c h, isUp, Bool.and_assoc]
  have h1 : isInRaster flowdir.rows flowdir.cols (move c d) =
      cellInRaster flowdir.rows flowdir.cols (move c d) := by
    rw [Bool.eq_iff_iff, cellInRaster_iff, isInRaster]
    simp [InGrid, and_assoc]
  rw [h1]
  congr 1
  unfold isUpstream
  rw [Bool.eq_iff_iff]
  simp only [Bool.and_eq_true, decide_eq_true_eq]
  split_ifs with h2
  · simp; omega
  · simp; omega

theorem upstreamSum_eq (junk : Int × Int) (A : Raster Int) (c : Cell) : ∀ (l : List Nat) (s : Int),
    (∀ d ∈ l, d < 8) → upstreamSum junk flowdir A c l s =
      if ∀ u ∈ (l.filter (isUp flowdir c)).map (move c), 0 < A.get u then
        some (s + (((l.filter (isUp flowdir c)).map (move c)).map A.get).sum) else none := by
  intro l
  induction l with
  | nil => intro s _; simp [upstreamSum]
  | cons d l ih =>
    intro s hl
    have hd := hl d (by simp)
    have ih' := fun s => ih s (fun x hx => hl x (by simp [hx]))
    rw [upstreamSum]
    have hup := isUp_eq (flowdir := flowdir) junk c hd
    rw [cellInDirection_lt junk c hd] at hup
    simp only [cellInDirection_lt junk c hd, hup, ih']
    by_cases hb : isUp flowdir c d = true
    · rw [if_pos hb, List.filter_cons_of_pos hb]
      simp only [List.map_cons, List.forall_mem_cons, List.sum_cons]
      by_cases h0 : A.get (move c d) ≤ 0
      · rw [if_pos h0, if_neg (by intro h; omega)]
      · rw [if_neg h0]
        by_cases hall : ∀ u ∈ (l.filter (isUp flowdir c)).map (move c), 0 < A.get u
        · rw [if_pos hall, if_pos ⟨by omega, hall⟩, add_assoc]
        · rw [if_neg hall, if_neg (fun h => hall h.2)]
    · rw [if_neg hb, List.filter_cons_of_neg hb]

theorem trace_cython (junk : Int × Int) (hcodes : ∀ c, flowdir.Has c → flowdir.get c < 8) :
    ∀ (n : Nat) (A : Raster Int) (c : Cell), traceAccumulatedFlow junk flowdir n A c = trace flowdir n A c := by
  intro n
  induction n with
  | zero => intro A c; rfl
  | succ n ih =>
    intro A c
    rw [traceAccumulatedFlow, trace, upstreamSum_eq junk A c _ _ (fun d hd => List.mem_range.1 hd)]
    have h1 : isInRaster flowdir.rows flowdir.cols c = true ↔ InGrid flowdir.rows flowdir.cols c := by
      simp [isInRaster, InGrid, and_assoc]
    by_cases hc : InGrid flowdir.rows flowdir.cols c
    · rw [if_pos (h1.2 hc), if_pos hc]
      change (match (if ∀ u ∈ up flowdir c, 0 < A.get u then some (0 + ((up flowdir c).map A.get).sum) else none) with
        | none => _ | some s => _) = _
      by_cases hp : ∀ u ∈ up flowdir c, 0 < A.get u
      · rw [if_pos hp, if_pos hp]
        simp only [zero_add]
        rw [cellInDirection_lt junk c (hcodes c hc)]
        exact ih _ _
      · rw [if_neg hp, if_neg hp]
    · rw [if_neg (by rw [h1]; exact hc), if_neg hc]

theorem accumLoop_eq (junk : Int × Int) (hcodes : ∀ c, flowdir.Has c → flowdir.get c < 8) (n : Nat) :
    ∀ (l : List Cell) (A : Raster Int),
    accumulatedFlowLoop junk flowdir n l A = traceAll flowdir (fun _ => true) n l A := by
  intro l
  induction l with
  | nil => intro A; rfl
  | cons c l ih =>
    intro A
    rw [accumulatedFlowLoop, traceAll, trace_cython junk hcodes, if_pos rfl]
    cases trace flowdir n A c with
    | none => rfl
    | some A1 => exact ih A1

theorem accumulatedFlow_returns (junk : Int × Int) (hcodes : ∀ c, flowdir.Has c → flowdir.get c < 8) :
    ∃ A, Returns (accumulatedFlow junk flowdir) A ∧ AccumSpec flowdir A := by
  obtain ⟨A, hA, hspec⟩ := traceAll_accum hcodes (fun _ => true) (fun c _ => rfl)
    (n := flowdir.rows * flowdir.cols + 1) (by omega)
  refine ⟨A, ⟨flowdir.rows * flowdir.cols + 1, fun m hm => ?_⟩, hspec⟩
  rw [accumulatedFlow, accumLoop_eq junk hcodes, traceAll_mono _ _ _ _ _ hA m hm]

end FlowCython
end Malstroem
