/-
Lemmas about the label functions.
-/
import Verif.Model.LabelCython
import Verif.Spec.Label
import Verif.Proofs.FlowAccum

set_option linter.unusedSectionVars false

namespace Malstroem
open Spec

theorem pyIdx_of_range {n : Nat} {i : Int} (h0 : 0 ≤ i) (h1 : i < n) : pyIdx n i = some i.toNat := by
  unfold pyIdx; rw [if_pos h0, if_pos h1]

theorem pyGet_of_range {α : Type} {l : List α} {i : Nat} {x : α} (h : l[i]? = some x) : pyGet l (i : Int) = .ok x := by
  have hi : i < l.length := by
    rcases Nat.lt_or_ge i l.length with h' | h'
    · exact h'
    · rw [List.getElem?_eq_none h'] at h; cases h
  unfold pyGet
  rw [pyIdx_of_range (by omega) (by omega)]
  simp [h]

theorem before_trans {a b c : Cell} (h1 : Before a b) (h2 : Before b c) : Before a c := by
  unfold Before at *; omega

theorem before_irrefl (a : Cell) : ¬ Before a a := by unfold Before; omega

theorem before_total {a b : Cell} (h : a ≠ b) : Before a b ∨ Before b a := by
  unfold Before
  by_cases h1 : a.1 = b.1
  · have : a.2 ≠ b.2 := fun h2 => h (Prod.ext h1 h2)
    omega
  · omega

theorem pairwise_cellList (rows cols : Nat) : (Raster.cellList rows cols).Pairwise Before := by
  unfold Raster.cellList
  rw [List.pairwise_flatMap]
  constructor
  · intro r _
    rw [List.pairwise_map]
    exact List.pairwise_lt_range.imp (fun {a b} h => .inr ⟨rfl, by simpa using h⟩)
  · refine List.pairwise_lt_range.imp (fun {a b} h => ?_)
    intro x hx y hy
    simp only [List.mem_map] at hx hy
    obtain ⟨_, _, rfl⟩ := hx
    obtain ⟨_, _, rfl⟩ := hy
    left; simpa using h

theorem Spec.Lists.nodup {rows cols : Nat} {P : Cell → Prop} {cs : List Cell} (h : Lists rows cols P cs) : cs.Nodup :=
  h.1.imp (fun {a b} hab e => by subst e; exact before_irrefl _ hab)

theorem lists_unique {rows cols : Nat} {P : Cell → Prop} {cs ds : List Cell} (h1 : Lists rows cols P cs)
    (h2 : Lists rows cols P ds) : cs = ds := by
  have hp : cs.Perm ds := (List.perm_ext_iff_of_nodup h1.nodup h2.nodup).2 fun c => by rw [h1.2, h2.2]
  refine hp.eq_of_pairwise (le := Before) ?_ h1.1 h2.1
  intro a b _ _ hab hba
  exact absurd (before_trans hab hba) (before_irrefl _)

theorem lists_filter (rows cols : Nat) (P : Cell → Prop) [DecidablePred P] :
    Lists rows cols P ((Raster.cellList rows cols).filter P) := by
  refine ⟨(pairwise_cellList rows cols).filter _, fun c => ?_⟩
  rw [List.mem_filter, Flow.mem_cellList]; simp

theorem cellsOf_iff {rows cols : Nat} {lab : Cell → Int} {l : Int} {cs : List Cell} :
    CellsOf rows cols lab l cs ↔ cs = (Raster.cellList rows cols).filter (fun c => lab c = l) :=
  ⟨fun h => lists_unique h (lists_filter rows cols _), fun h => h ▸ lists_filter rows cols _⟩

theorem cellsOf_ncard {rows cols : Nat} {lab : Cell → Int} {l : Int} {cs : List Cell}
    (h : CellsOf rows cols lab l cs) : cs.length = {c | InGrid rows cols c ∧ lab c = l}.ncard := by
  have : {c | InGrid rows cols c ∧ lab c = l} = {c | c ∈ cs} := by
    ext c; exact (h.2 c).symm
  rw [this]
  have h2 : {c | c ∈ cs} = (cs.toFinset : Set Cell) := by ext; simp
  rw [h2, Set.ncard_coe_finset, List.toFinset_card_of_nodup h.nodup]

namespace Label

theorem scan_ok {ρ : Type} (upd : Cell → ρ → ρ) (lab : Raster Int) : ∀ (cs : List Cell) (st : List ρ),
    (∀ c ∈ cs, 0 ≤ lab.get c ∧ lab.get c < st.length) →
    ∃ st', scan upd lab cs st = .ok st' ∧ st'.length = st.length ∧ ∀ l : Nat,
      st'[l]? = st[l]?.map fun r => (cs.filter fun c => lab.get c = (l : Int)).foldl (fun r c => upd c r) r := by
  intro cs
  induction cs with
  | nil => intro st _; exact ⟨st, rfl, rfl, fun l => by simp⟩
  | cons c cs ih =>
    intro st h
    have hc := h c (by simp)
    obtain ⟨st', h1, h2, h3⟩ := ih (st.modify (lab.get c).toNat (upd c)) (fun d hd => by
      rw [List.length_modify]; exact h d (by simp [hd]))
    refine ⟨st', ?_, by rw [h2, List.length_modify], fun l => ?_⟩
    · rw [scan, pyIdx_of_range hc.1 hc.2]; exact h1
    · rw [h3 l, List.getElem?_modify]
      by_cases hl : lab.get c = (l : Int)
      · have : (lab.get c).toNat = l := by omega
        rw [List.filter_cons_of_pos (by simpa using hl)]
        cases st[l]? <;> simp [this]
      · have : ¬ (lab.get c).toNat = l := by omega
        rw [List.filter_cons_of_neg (by simpa using hl)]
        cases st[l]? <;> simp [this]

theorem npMax_spec {lab : Raster Int} {n : Int}
    (h : IsGreatest {l | ∃ c, InGrid lab.rows lab.cols c ∧ lab.get c = l} n) : npMax lab = .ok n := by
  have key : ∀ (xs : List Int) (x : Int), xs.foldl max x ∈ x :: xs ∧ ∀ y ∈ x :: xs, y ≤ xs.foldl max x := by
    intro xs
    induction xs with
    | nil => intro x; simp
    | cons a xs ih =>
      intro x
      obtain ⟨h1, h2⟩ := ih (max x a)
      simp only [List.foldl_cons]
      constructor
      · rcases List.mem_cons.1 h1 with h | h
        · rw [h]; rcases max_choice x a with h | h <;> rw [h] <;> simp
        · simp [h]
      · intro y hy
        have := h2 (max x a) (by simp)
        rcases List.mem_cons.1 hy with rfl | hy
        · exact le_trans (le_max_left _ _) this
        · rcases List.mem_cons.1 hy with rfl | hy
          · exact le_trans (le_max_right _ _) this
          · exact h2 y (by simp [hy])
  unfold npMax
  have hm : ∀ v, v ∈ lab.cells.map lab.get ↔ ∃ c, InGrid lab.rows lab.cols c ∧ lab.get c = v := by
    intro v
    simp only [List.mem_map, Raster.cells, Flow.mem_cellList]
  cases hl : lab.cells.map lab.get with
  | nil =>
    obtain ⟨c, hc, hv⟩ := h.1
    have := (hm n).2 ⟨c, hc, hv⟩
    rw [hl] at this; simp at this
  | cons x xs =>
    have hk := key xs x
    rw [← hl] at hk
    simp only
    congr 1
    exact le_antisymm (h.2 ((hm _).1 hk.1)) (hk.2 _ ((hm n).2 h.1))

theorem resolve_ok {lab : Raster Int} {nl : Option Int} {n : Int}
    (h : TopLabel lab.rows lab.cols lab.get nl n) : resolve lab nl = .ok n := by
  rcases h with ⟨rfl, hn⟩ | ⟨h | h, hg⟩
  · unfold resolve
    split
    · simp_all
    · simp_all
    · simp_all
  · subst h; exact npMax_spec hg
  · subst h; exact npMax_spec hg

theorem table_ok {ρ : Type} {n : Int} (h : 0 ≤ n) (r : ρ) : table n r = .ok (List.replicate (n + 1).toNat r) := by
  unfold table; rw [if_neg (by omega)]

theorem topLabel_nonneg {rows cols : Nat} {lab : Cell → Int} {nl : Option Int} {n : Int}
    (h : TopLabel rows cols lab nl n) (hr : LabelsIn rows cols lab n) (hnl : ∀ m, nl = some m → 0 ≤ m) : 0 ≤ n := by
  rcases h with ⟨h, _⟩ | ⟨_, ⟨c, hc, hl⟩, _⟩
  · exact hnl n h
  · have := hr c hc; omega

/-- All the scanning functions: one table entry per label, folded over the cells of that label in row-major order. -/
theorem scanAll_ok {ρ : Type} (upd : Cell → ρ → ρ) (init : ρ) {lab : Raster Int} {nl : Option Int} {n : Nat}
    {rows cols : Nat} (hs : rows = lab.rows ∧ cols = lab.cols) (hn : TopLabel lab.rows lab.cols lab.get nl n)
    (hr : LabelsIn lab.rows lab.cols lab.get n) :
    ∃ st, (do let nlabels ← resolve lab nl
              let t ← table nlabels init
              scan upd lab (Raster.cellList rows cols) t) = .ok st ∧ st.length = n + 1 ∧
      ∀ (l : Nat) (cs : List Cell), l ≤ n → CellsOf lab.rows lab.cols lab.get l cs →
        st[l]? = some (cs.foldl (fun r c => upd c r) init) := by
  obtain ⟨st, h1, h2, h3⟩ := scan_ok upd lab (Raster.cellList rows cols) (List.replicate (n + 1) init)
    (fun c hc => by
      have := hr c (by rw [← hs.1, ← hs.2]; exact Flow.mem_cellList.1 hc)
      rw [List.length_replicate]; omega)
  refine ⟨st, ?_, by rw [h2, List.length_replicate], fun l cs hl hcs => ?_⟩
  · rw [resolve_ok hn]
    simp only [bind, Except.bind]
    rw [table_ok (by omega)]
    simpa using h1
  · rw [h3 l, List.getElem?_replicate, if_pos (by omega)]
    rw [cellsOf_iff.1 hcs, hs.1, hs.2]
    rfl

theorem fold_statFl {α : Type} [LinearOrder α] [Zero α] [Add α] (fl : α → α) (data : Raster α) (cs : List Cell) :
    let s := cs.foldl (fun r c => statUpdFl fl data c r) (Stat.init : Stat α)
    s.count = cs.length ∧ s.sum = (cs.map data.get).foldl (fun a b => fl (a + b)) 0 ∧
    (∀ c ∈ cs, s.min ≤ (data.get c : WithTop α) ∧ (data.get c : WithBot α) ≤ s.max) ∧
    (cs = [] ∧ s.min = ⊤ ∧ s.max = ⊥ ∨
      (∃ c ∈ cs, s.min = (data.get c : WithTop α)) ∧ ∃ c ∈ cs, s.max = (data.get c : WithBot α)) := by
  induction cs using List.reverseRecOn with
  | nil => simp [Stat.init]
  | append_singleton cs c ih =>
    simp only [List.foldl_append, List.foldl_cons, List.foldl_nil, List.map_append, List.map_cons, List.map_nil,
      List.length_append, List.length_cons, List.length_nil] at ih ⊢
    set s := cs.foldl (fun r c => statUpdFl fl data c r) (Stat.init : Stat α) with hs
    obtain ⟨h1, h2, h3, h4⟩ := ih
    have e1 : (statUpdFl fl data c s).count = s.count + 1 := by unfold statUpdFl; dsimp only; split_ifs <;> rfl
    have e2 : (statUpdFl fl data c s).sum = fl (s.sum + data.get c) := by unfold statUpdFl; dsimp only; split_ifs <;> rfl
    have e3 : (statUpdFl fl data c s).min = if (data.get c : WithTop α) < s.min then (data.get c : WithTop α) else s.min := by
      unfold statUpdFl; dsimp only; split_ifs <;> rfl
    have e4 : (statUpdFl fl data c s).max = if s.max < (data.get c : WithBot α) then (data.get c : WithBot α) else s.max := by
      unfold statUpdFl; dsimp only; split_ifs <;> simp_all
    refine ⟨by rw [e1, h1]; simp, by rw [e2, h2], ?_, .inr ⟨?_, ?_⟩⟩
    · intro d hd
      rw [e3, e4]
      rcases List.mem_append.1 hd with hd | hd
      · obtain ⟨ha, hb⟩ := h3 d hd
        constructor
        · split_ifs with h
          · exact h.le.trans ha
          · exact ha
        · split_ifs with h
          · exact hb.trans h.le
          · exact hb
      · have : d = c := by simpa using hd
        subst this
        constructor <;> split_ifs with h
        · exact le_rfl
        · exact not_lt.1 h
        · exact le_rfl
        · exact not_lt.1 h
    · rw [e3]
      split_ifs with h
      · exact ⟨c, by simp, rfl⟩
      · rcases h4 with ⟨_, h4, _⟩ | ⟨⟨d, hd, h4⟩, _⟩
        · rw [h4] at h; exact absurd (WithTop.coe_lt_top _) h
        · exact ⟨d, by simp [hd], h4⟩
    · rw [e4]
      split_ifs with h
      · exact ⟨c, by simp, rfl⟩
      · rcases h4 with ⟨_, _, h4⟩ | ⟨_, ⟨d, hd, h4⟩⟩
        · rw [h4] at h; exact absurd (WithBot.bot_lt_coe _) h
        · exact ⟨d, by simp [hd], h4⟩

theorem fold_stat {α : Type} [LinearOrder α] [Zero α] [Add α] (data : Raster α) (cs : List Cell) :
    let s := cs.foldl (fun r c => statUpd data c r) (Stat.init : Stat α)
    s.count = cs.length ∧ s.sum = (cs.map data.get).foldl (· + ·) 0 ∧
    (∀ c ∈ cs, s.min ≤ (data.get c : WithTop α) ∧ (data.get c : WithBot α) ≤ s.max) ∧
    (cs = [] ∧ s.min = ⊤ ∧ s.max = ⊥ ∨
      (∃ c ∈ cs, s.min = (data.get c : WithTop α)) ∧ ∃ c ∈ cs, s.max = (data.get c : WithBot α)) :=
  fold_statFl id data cs

theorem fold_min {β : Type} [LinearOrder β] [OrderTop β] (data : Raster β) (cs : List Cell) (hp : cs.Pairwise Before) :
    let s := cs.foldl (fun r c => minUpd data c r) ({ value := ⊤, row := -1, col := -1 } : Index β)
    (∀ c ∈ cs, s.value ≤ data.get c) ∧
    (s = { value := ⊤, row := -1, col := -1 } ∨ (s.row, s.col) ∈ cs ∧ data.get (s.row, s.col) = s.value ∧ s.value < ⊤ ∧
      ∀ c ∈ cs, data.get c = s.value → c = (s.row, s.col) ∨ Before (s.row, s.col) c) := by
  induction cs using List.reverseRecOn with
  | nil => simp
  | append_singleton cs c ih =>
    have hp' := List.pairwise_append.1 hp
    have ih := ih hp'.1
    simp only [List.foldl_append, List.foldl_cons, List.foldl_nil] at ih ⊢
    set s := cs.foldl (fun r c => minUpd data c r) ({ value := ⊤, row := -1, col := -1 } : Index β) with hs
    obtain ⟨h1, h2⟩ := ih
    unfold minUpd
    dsimp only
    split_ifs with hlt
    · refine ⟨?_, .inr ⟨by simp, rfl, hlt.trans_le le_top, ?_⟩⟩
      · intro d hd
        rcases List.mem_append.1 hd with hd | hd
        · exact hlt.le.trans (h1 d hd)
        · rw [show d = c by simpa using hd]
      · intro d hd he
        rcases List.mem_append.1 hd with hd | hd
        · exact absurd (h1 d hd) (by simpa using (show data.get d = data.get c from he) ▸ hlt)
        · left; simpa using hd
    · refine ⟨?_, ?_⟩
      · intro d hd
        rcases List.mem_append.1 hd with hd | hd
        · exact h1 d hd
        · rw [show d = c by simpa using hd]; exact not_lt.1 hlt
      · rcases h2 with h2 | ⟨h2, h3, h4, h5⟩
        · exact .inl h2
        · refine .inr ⟨by simp [h2], h3, h4, fun d hd he => ?_⟩
          rcases List.mem_append.1 hd with hd | hd
          · exact h5 d hd he
          · exact .inr (hp'.2.2 _ h2 _ hd)

theorem fold_max {β : Type} [LinearOrder β] [OrderBot β] (data : Raster β) (cs : List Cell) (hp : cs.Pairwise Before) :
    let s := cs.foldl (fun r c => maxUpd data c r) ({ value := ⊥, row := -1, col := -1 } : Index β)
    (∀ c ∈ cs, data.get c ≤ s.value) ∧
    (s = { value := ⊥, row := -1, col := -1 } ∨ (s.row, s.col) ∈ cs ∧ data.get (s.row, s.col) = s.value ∧ ⊥ < s.value ∧
      ∀ c ∈ cs, data.get c = s.value → c = (s.row, s.col) ∨ Before (s.row, s.col) c) := by
  induction cs using List.reverseRecOn with
  | nil => simp
  | append_singleton cs c ih =>
    have hp' := List.pairwise_append.1 hp
    have ih := ih hp'.1
    simp only [List.foldl_append, List.foldl_cons, List.foldl_nil] at ih ⊢
    set s := cs.foldl (fun r c => maxUpd data c r) ({ value := ⊥, row := -1, col := -1 } : Index β) with hs
    obtain ⟨h1, h2⟩ := ih
    unfold maxUpd
    dsimp only
    split_ifs with hlt
    · refine ⟨?_, .inr ⟨by simp, rfl, bot_le.trans_lt hlt, ?_⟩⟩
      · intro d hd
        rcases List.mem_append.1 hd with hd | hd
        · exact (h1 d hd).trans hlt.le
        · rw [show d = c by simpa using hd]
      · intro d hd he
        rcases List.mem_append.1 hd with hd | hd
        · exact absurd (h1 d hd) (by simpa using (show data.get d = data.get c from he) ▸ hlt)
        · left; simpa using hd
    · refine ⟨?_, ?_⟩
      · intro d hd
        rcases List.mem_append.1 hd with hd | hd
        · exact h1 d hd
        · rw [show d = c by simpa using hd]; exact not_lt.1 hlt
      · rcases h2 with h2 | ⟨h2, h3, h4, h5⟩
        · exact .inl h2
        · refine .inr ⟨by simp [h2], h3, h4, fun d hd he => ?_⟩
          rcases List.mem_append.1 hd with hd | hd
          · exact h5 d hd he
          · exact .inr (hp'.2.2 _ h2 _ hd)

/-- `label_data`. -/
theorem dataLoop_ok {α : Type} (data : Raster α) (lab : Raster Int) (bg : Int) : ∀ (cs : List Cell) (st : List (List α)),
    (∀ c ∈ cs, lab.get c ≠ bg → 0 ≤ lab.get c ∧ lab.get c < st.length) →
    ∃ st', dataLoop data lab bg cs st = .ok st' ∧ st'.length = st.length ∧ ∀ l : Nat,
      st'[l]? = st[l]?.map fun r => r ++
        (if (l : Int) = bg then [] else (cs.filter fun c => lab.get c = (l : Int)).map data.get) := by
  intro cs
  induction cs with
  | nil => intro st _; exact ⟨st, rfl, rfl, fun l => by simp⟩
  | cons c cs ih =>
    intro st h
    by_cases hb : lab.get c = bg
    · obtain ⟨st', h1, h2, h3⟩ := ih st (fun d hd => h d (by simp [hd]))
      refine ⟨st', by rw [dataLoop]; simp only [hb, if_true]; exact h1, h2, fun l => ?_⟩
      rw [h3 l]
      by_cases hl : (l : Int) = bg
      · simp [hl]
      · rw [if_neg hl, if_neg hl, List.filter_cons_of_neg (by simp; omega)]
    · have hc := h c (by simp) hb
      obtain ⟨st', h1, h2, h3⟩ := ih (st.modify (lab.get c).toNat (· ++ [data.get c])) (fun d hd => by
        rw [List.length_modify]; exact h d (by simp [hd]))
      refine ⟨st', ?_, by rw [h2, List.length_modify], fun l => ?_⟩
      · rw [dataLoop]; simp only [if_neg hb]; rw [pyIdx_of_range hc.1 hc.2]; exact h1
      · rw [h3 l, List.getElem?_modify]
        by_cases hl : lab.get c = (l : Int)
        · have : (lab.get c).toNat = l := by omega
          rw [List.filter_cons_of_pos (by simpa using hl), if_neg (by omega), if_neg (by omega)]
          cases st[l]? <;> simp [this]
        · have : ¬ (lab.get c).toNat = l := by omega
          rw [List.filter_cons_of_neg (by simpa using hl)]
          cases st[l]? <;> simp [this]

theorem cython_scan_eq {ρ : Type} (upd : Cell → ρ → ρ) (lab : Raster Int) : ∀ (cs : List Cell) (st : List ρ),
    (∀ c ∈ cs, 0 ≤ lab.get c ∧ lab.get c < st.length) → LabelCython.scan upd lab cs st = scan upd lab cs st := by
  intro cs
  induction cs with
  | nil => intro st _; rfl
  | cons c cs ih =>
    intro st h
    have hc := h c (by simp)
    have hi : (lab.get c).toNat < st.length := by omega
    rw [LabelCython.scan, scan, pyIdx_of_range hc.1 hc.2]
    simp only [List.getElem?_eq_getElem hi]
    rw [ih _ (fun d hd => by rw [List.length_set]; exact h d (by simp [hd]))]
    congr 1
    rw [List.modify_eq_set_getElem? , List.getElem?_eq_getElem hi]
    rfl

theorem cython_labelStats {α : Type} [LinearOrder α] [Zero α] [Add α] (fl : α → α) (data : Raster α) {lab : Raster Int}
    {nlabels : Option Int} {n : Nat}
    (hshape : data.rows = lab.rows ∧ data.cols = lab.cols) (hn : TopLabel lab.rows lab.cols lab.get nlabels n)
    (hr : LabelsIn lab.rows lab.cols lab.get n) :
    LabelCython.labelStatsFl fl data lab nlabels = Label.labelStatsFl fl data lab nlabels := by
  unfold LabelCython.labelStatsFl Label.labelStatsFl
  rw [Label.resolve_ok hn]
  simp only [bind, Except.bind, Label.table_ok (Int.natCast_nonneg n)]
  refine Label.cython_scan_eq _ lab _ _ fun c hc => ?_
  have := hr c (by rw [← hshape.1, ← hshape.2]; exact Flow.mem_cellList.1 hc)
  simp only [List.length_replicate]
  omega

theorem cython_labelMinIndex {β : Type} [LinearOrder β] [OrderTop β] (data : Raster β) {lab : Raster Int}
    {nlabels : Option Int} {n : Nat}
    (hshape : data.rows = lab.rows ∧ data.cols = lab.cols) (hn : TopLabel lab.rows lab.cols lab.get nlabels n)
    (hr : LabelsIn lab.rows lab.cols lab.get n) :
    LabelCython.labelMinIndex data lab nlabels = Label.labelMinIndex data lab nlabels := by
  unfold LabelCython.labelMinIndex Label.labelMinIndex
  rw [Label.resolve_ok hn]
  simp only [bind, Except.bind, Label.table_ok (Int.natCast_nonneg n)]
  refine Label.cython_scan_eq _ lab _ _ fun c hc => ?_
  have := hr c (by rw [← hshape.1, ← hshape.2]; exact Flow.mem_cellList.1 hc)
  simp only [List.length_replicate]
  omega

theorem cython_dataLoop_eq {α : Type} (data : Raster α) (lab : Raster Int) : ∀ (cs : List Cell) (st : List (List α)),
    LabelCython.dataLoop data lab cs st = dataLoop data lab 0 cs st := by
  intro cs
  induction cs with
  | nil => intro st; rfl
  | cons c cs ih =>
    intro st
    rw [LabelCython.dataLoop, dataLoop]
    split_ifs
    · exact ih st
    · cases pyIdx st.length (lab.get c) with
      | none => rfl
      | some i => exact ih _

end Label
end Malstroem

namespace Malstroem
open Spec
namespace Label

theorem fold_min_first {β : Type} [LinearOrder β] [OrderTop β] (data : Raster β) (cs : List Cell)
    (hp : cs.Pairwise Before) (hne : cs ≠ []) (hlt : ∀ c ∈ cs, data.get c < ⊤) :
    let s := cs.foldl (fun r c => minUpd data c r) ({ value := ⊤, row := -1, col := -1 } : Index β)
    IsFirstMin data.get cs (s.row, s.col) ∧ s.value = data.get (s.row, s.col) := by
  obtain ⟨h1, h2⟩ := fold_min data cs hp
  set s := cs.foldl (fun r c => minUpd data c r) ({ value := ⊤, row := -1, col := -1 } : Index β) with hs
  rcases h2 with h2 | ⟨h2, h3, h4, h5⟩
  · obtain ⟨c, hc⟩ := List.exists_mem_of_ne_nil cs hne
    have := (h1 c hc).trans_lt (hlt c hc)
    rw [h2] at this
    exact absurd this (lt_irrefl _)
  · exact ⟨⟨h2, fun c hc => h3 ▸ h1 c hc, fun c hc he => h5 c hc (he.trans h3)⟩, h3.symm⟩

theorem fold_max_first {β : Type} [LinearOrder β] [OrderBot β] (data : Raster β) (cs : List Cell)
    (hp : cs.Pairwise Before) (hne : cs ≠ []) (hlt : ∀ c ∈ cs, ⊥ < data.get c) :
    let s := cs.foldl (fun r c => maxUpd data c r) ({ value := ⊥, row := -1, col := -1 } : Index β)
    IsFirstMax data.get cs (s.row, s.col) ∧ s.value = data.get (s.row, s.col) := by
  obtain ⟨h1, h2⟩ := fold_max data cs hp
  set s := cs.foldl (fun r c => maxUpd data c r) ({ value := ⊥, row := -1, col := -1 } : Index β) with hs
  rcases h2 with h2 | ⟨h2, h3, h4, h5⟩
  · obtain ⟨c, hc⟩ := List.exists_mem_of_ne_nil cs hne
    have := (hlt c hc).trans_le (h1 c hc)
    rw [h2] at this
    exact absurd this (lt_irrefl _)
  · exact ⟨⟨h2, fun c hc => h3 ▸ h1 c hc, fun c hc he => h5 c hc (he.trans h3)⟩, h3.symm⟩

end Label
end Malstroem
