/-
BluespotTool.process: runs, filtering, statistics of bluespots and watersheds.
-/
import Verif.Spec.Bluespots
import Verif.Proofs.Label
import Verif.Proofs.FlowWatershed
import Verif.Proofs.Connected

set_option linter.unusedSectionVars false

namespace Malstroem
open Spec

namespace Run
variable {α β : Type}

theorem yields_bind {x : Run α} {f : α → Run β} {a : α} {r : Except PyErr β} (hx : x.Yields (.ok a))
    (hf : (f a).Yields r) : (x >>= f).Yields r := by
  obtain ⟨n, hn⟩ := hx
  obtain ⟨m, hm⟩ := hf
  refine ⟨max n m, fun k hk => ?_⟩
  have h1 := hn k (le_trans (le_max_left _ _) hk)
  have h2 := hm k (le_trans (le_max_right _ _) hk)
  simp only [bind, ReaderT.bind, ExceptT.bind, ExceptT.mk, Option.bind] at *
  rw [h1]
  simpa [ExceptT.bindCont] using h2

theorem yields_bind_error {x : Run α} {f : α → Run β} {e : PyErr} (hx : x.Yields (.error e)) :
    (x >>= f).Yields (.error e) := by
  obtain ⟨n, hn⟩ := hx
  refine ⟨n, fun k hk => ?_⟩
  have h1 := hn k hk
  simp only [bind, ReaderT.bind, ExceptT.bind, ExceptT.mk, Option.bind] at *
  rw [h1]
  rfl

theorem yields_pure (a : α) : (pure a : Run α).Yields (.ok a) := ⟨0, fun _ _ => rfl⟩

theorem yields_ofExcept (x : Except PyErr α) : (Run.ofExcept x).Yields x := ⟨0, fun _ _ => rfl⟩

theorem yields_ofExcept' {x : Except PyErr α} {r : Except PyErr α} (h : x = r) : (Run.ofExcept x).Yields r :=
  h ▸ yields_ofExcept x

theorem yields_fail (e : PyErr) : (Run.fail e : Run α).Yields (.error e) := ⟨0, fun _ _ => rfl⟩

theorem yields_ofFuel {f : Nat → Option (Except PyErr α)} {r : Except PyErr α} (h : Returns f r) :
    (Run.ofFuel f).Yields r := h

theorem Yields.unique {x : Run α} {r s : Except PyErr α} (h1 : x.Yields r) (h2 : x.Yields s) : r = s :=
  Returns.unique h1 h2

end Run

namespace Label

theorem labelStats_ok {α : Type} [LinearOrder α] [Zero α] [Add α] (fl : α → α) (data : Raster α) {lab : Raster Int}
    {nl : Option Int} {n : Nat} (hs : data.rows = lab.rows ∧ data.cols = lab.cols)
    (hn : TopLabel lab.rows lab.cols lab.get nl n) (hr : LabelsIn lab.rows lab.cols lab.get n) :
    ∃ st, labelStatsFl fl data lab nl = .ok st ∧ st.length = n + 1 ∧
      ∀ (l : Nat) (cs : List Cell), l ≤ n → CellsOf lab.rows lab.cols lab.get l cs →
        st[l]? = some (cs.foldl (fun r c => statUpdFl fl data c r) Stat.init) :=
  scanAll_ok (statUpdFl fl data) Stat.init hs hn hr

theorem labelMinIndex_ok {β : Type} [LinearOrder β] [OrderTop β] (data : Raster β) {lab : Raster Int}
    {nl : Option Int} {n : Nat} (hs : data.rows = lab.rows ∧ data.cols = lab.cols)
    (hn : TopLabel lab.rows lab.cols lab.get nl n) (hr : LabelsIn lab.rows lab.cols lab.get n) :
    ∃ st, labelMinIndex data lab nl = .ok st ∧ st.length = n + 1 ∧
      ∀ (l : Nat) (cs : List Cell), l ≤ n → CellsOf lab.rows lab.cols lab.get l cs →
        st[l]? = some (cs.foldl (fun r c => minUpd data c r) { value := ⊤, row := -1, col := -1 }) :=
  scanAll_ok (minUpd data) _ hs hn hr

theorem labelMaxIndex_ok {β : Type} [LinearOrder β] [OrderBot β] (data : Raster β) {lab : Raster Int}
    {nl : Option Int} {n : Nat} (hs : data.rows = lab.rows ∧ data.cols = lab.cols)
    (hn : TopLabel lab.rows lab.cols lab.get nl n) (hr : LabelsIn lab.rows lab.cols lab.get n) :
    ∃ st, labelMaxIndex data lab nl = .ok st ∧ st.length = n + 1 ∧
      ∀ (l : Nat) (cs : List Cell), l ≤ n → CellsOf lab.rows lab.cols lab.get l cs →
        st[l]? = some (cs.foldl (fun r c => maxUpd data c r) { value := ⊥, row := -1, col := -1 }) :=
  scanAll_ok (maxUpd data) _ hs hn hr

theorem foldl_max_spec : ∀ (xs : List Int) (x : Int), xs.foldl max x ∈ x :: xs ∧ ∀ y ∈ x :: xs, y ≤ xs.foldl max x := by
  intro xs
  induction xs with
  | nil => intro x; simp
  | cons a xs ih =>
    intro x
    obtain ⟨h1, h2⟩ := ih (max x a)
    simp only [List.foldl_cons]
    constructor
    · rcases List.mem_cons.1 h1 with h | h
      · rw [h]; rcases max_choice x a with h | h <;> rw [h] <;> simp
      · simp [h]
    · intro y hy
      have := h2 (max x a) (by simp)
      rcases List.mem_cons.1 hy with rfl | hy
      · exact le_trans (le_max_left _ _) this
      · rcases List.mem_cons.1 hy with rfl | hy
        · exact le_trans (le_max_right _ _) this
        · exact h2 y (by simp [hy])

/-- `label_count` on a non-empty raster with non-negative labels. -/
theorem labelCount_ok {lab : Raster Int} {n : Nat} (hn : TopLabel lab.rows lab.cols lab.get none n)
    (hr : LabelsIn lab.rows lab.cols lab.get n) :
    ∃ ct, labelCount lab = .ok ct ∧ ct.length = n + 1 ∧
      ∀ (l : Nat) (cs : List Cell), l ≤ n → CellsOf lab.rows lab.cols lab.get l cs → ct[l]? = some (cs.length : Int) := by
  have hg : IsGreatest {l | ∃ c, InGrid lab.rows lab.cols c ∧ lab.get c = l} (n : Int) := by
    rcases hn with ⟨h, _⟩ | ⟨_, h⟩
    · cases h
    · exact h
  have hm : ∀ v, v ∈ lab.cells.map lab.get ↔ ∃ c, InGrid lab.rows lab.cols c ∧ lab.get c = v := by
    intro v
    simp only [List.mem_map, Raster.cells, Flow.mem_cellList]
  have hneg : (lab.cells.map lab.get).any (· < 0) = false := by
    rw [List.any_eq_false]
    intro x hx
    obtain ⟨c, hc, rfl⟩ := (hm x).1 hx
    have := (hr c hc).1
    simpa using this
  unfold labelCount
  simp only [hneg, Bool.false_eq_true, if_false]
  cases hl : lab.cells.map lab.get with
  | nil =>
    have := (hm n).2 hg.1
    rw [hl] at this; simp at this
  | cons x xs =>
    have hk := foldl_max_spec xs x
    rw [← hl] at hk
    have hmax : xs.foldl max x = n := le_antisymm (hg.2 ((hm _).1 hk.1)) (hk.2 _ ((hm n).2 hg.1))
    simp only [hmax]
    rw [← hl]
    refine ⟨_, rfl, by simp, fun l cs hle hcs => ?_⟩
    rw [List.getElem?_map, List.getElem?_range (by omega)]
    simp only [Option.map_some, Option.some.injEq, Nat.cast_inj]
    rw [cellsOf_iff.1 hcs, List.count_eq_countP, List.countP_map, List.countP_eq_length_filter]
    rfl

theorem keepLabels_ok {lab : Raster Int} {keep : List Bool} {n : Nat} (hlen : keep.length = n + 1)
    (hr : LabelsIn lab.rows lab.cols lab.get n) :
    ∃ k, keepLabels lab keep 0 = .ok k ∧ k.rows = lab.rows ∧ k.cols = lab.cols ∧
      ∀ c, lab.Has c → (k.get c = true ↔ lab.get c ≠ 0 ∧ keep[(lab.get c).toNat]? = some true) := by
  unfold keepLabels
  have h0 : pyIdx keep.length 0 = some 0 := by unfold pyIdx; rw [if_pos le_rfl, if_pos (by omega)]; rfl
  simp only [h0, List.length_set]
  have hidx : ∀ c, lab.Has c → pyIdx keep.length (lab.get c) = some (lab.get c).toNat := by
    intro c hc
    have := hr c hc
    exact pyIdx_of_range this.1 (by omega)
  rw [if_pos]
  · refine ⟨_, rfl, rfl, rfl, fun c hc => ?_⟩
    simp only [hidx c hc, Option.bind_some]
    have hrc := hr c hc
    rw [List.getElem?_set]
    have hlt : (lab.get c).toNat < keep.length := by omega
    by_cases hz : lab.get c = 0
    · simp [hz, hlen]
    · rw [if_neg (by omega), List.getElem?_eq_getElem hlt]
      simp [hz]
  · rw [List.all_eq_true]
    intro c hc
    rw [hidx c (Flow.mem_cellList.1 hc)]; rfl

end Label

/-- The external labelling function satisfies its contract on every raster. -/
def LabelContract (cc : Raster Bool → Raster Int × Nat) : Prop :=
  ∀ r : Raster Bool, (cc r).1.rows = r.rows ∧ (cc r).1.cols = r.cols ∧
    IsLabelling r.rows r.cols (fun c => r.get c = true) (cc r).1.get (cc r).2

theorem Spec.IsLabelling.topLabel {rows cols : Nat} {wet : Cell → Prop} {lab : Cell → Int} {n : Nat}
    (h : IsLabelling rows cols wet lab n) (hr : 0 < rows) (hc : 0 < cols) : TopLabel rows cols lab none n := by
  refine .inr ⟨.inl rfl, ?_, ?_⟩
  · rcases Nat.eq_zero_or_pos n with rfl | hn
    · refine ⟨(0, 0), ⟨by omega, by simpa using hr, by omega, by simpa using hc⟩, ?_⟩
      have := h.range (0, 0) ⟨by omega, by simpa using hr, by omega, by simpa using hc⟩
      simp only [Nat.cast_zero] at this ⊢
      omega
    · exact h.used n hn le_rfl
  · rintro l ⟨c, hc, rfl⟩
    exact (h.range c hc).2

theorem Spec.IsLabelling.topLabel' {rows cols : Nat} {wet : Cell → Prop} {lab : Cell → Int} {n : Nat}
    (h : IsLabelling rows cols wet lab n) (hr : 0 < rows) (hc : 0 < cols) : TopLabel rows cols lab (some (n : Int)) n := by
  rcases Nat.eq_zero_or_pos n with rfl | hn
  · rcases h.topLabel hr hc with ⟨h, _⟩ | ⟨_, h⟩
    · cases h
    · exact .inr ⟨.inr rfl, h⟩
  · exact .inl ⟨rfl, by omega⟩

theorem Spec.IsLabelling.labelsIn {rows cols : Nat} {wet : Cell → Prop} {lab : Cell → Int} {n : Nat}
    (h : IsLabelling rows cols wet lab n) : LabelsIn rows cols lab n := h.range

/-- Keeping whole components neither splits nor merges them. -/
theorem connected_kept {rows cols : Nat} {wet kept : Cell → Prop} {lab : Cell → Int} {n : Nat}
    (h : IsLabelling rows cols wet lab n)
    (hk : ∀ c, InGrid rows cols c → kept c → wet c)
    (hl : ∀ a b, InGrid rows cols a → InGrid rows cols b → wet b → lab a = lab b → kept a → kept b) {a b : Cell}
    (ha : kept a) :
    ConnectedIn (fun x => InGrid rows cols x ∧ kept x) a b ↔ ConnectedIn (fun x => InGrid rows cols x ∧ wet x) a b := by
  constructor
  · exact fun hc => hc.mono fun x hx => ⟨hx.1, hk x hx.1 hx.2⟩
  · intro hc
    obtain ⟨h1, h2⟩ := connectedIn_iff.1 hc
    refine connectedIn_iff.2 ⟨⟨h1.1, ha⟩, ?_⟩
    have key : ∀ x, Relation.ReflTransGen (AdjIn fun x => InGrid rows cols x ∧ wet x) a x →
        Relation.ReflTransGen (AdjIn fun x => InGrid rows cols x ∧ kept x) a x ∧ InGrid rows cols x ∧ kept x := by
      intro x hx
      induction hx with
      | refl => exact ⟨.refl, h1.1, ha⟩
      | @tail x y hax hxy ih =>
        have hky : kept y := hl x y hxy.2.1.1 hxy.2.2.1 hxy.2.2.2 ((h.same x y hxy.2.1.1 hxy.2.2.1 hxy.2.1.2
          hxy.2.2.2).2 (connectedIn_iff.2 ⟨hxy.2.1, .single hxy⟩)) ih.2.2
        exact ⟨ih.1.tail ⟨hxy.1, ih.2, hxy.2.2.1, hky⟩, hxy.2.2.1, hky⟩
    exact (key b h2).1

end Malstroem

namespace Malstroem
open Spec
namespace Bluespots
variable {K : Type} [Field K] [LinearOrder K] [IsStrictOrderedRing K]

theorem foldl_add_eq_sum (l : List K) : l.foldl (· + ·) 0 = l.sum := by
  rw [List.sum_eq_foldl]

/-- The statistics computed for a non-empty label are those of its cells. -/
theorem stat_isStats (fl : K → K) (depths : Raster K) (area : K) {cs : List Cell} (hne : cs ≠ []) :
    let s := cs.foldl (fun r c => Label.statUpdFl fl depths c r) (Label.Stat.init : Label.Stat K)
    IsStatsFl fl depths.get area cs ⟨s.min, s.max, s.sum, s.count, fl (s.sum * area), fl (fl (s.count : K) * area)⟩ := by
  obtain ⟨h1, h2, h3, h4⟩ := Label.fold_statFl fl depths cs
  set s := cs.foldl (fun r c => Label.statUpdFl fl depths c r) (Label.Stat.init : Label.Stat K) with hs
  change s.sum = sumFl fl _ at h2
  rcases h4 with ⟨h4, _⟩ | ⟨⟨c, hc, h4⟩, d, hd, h5⟩
  · exact absurd h4 hne
  · exact {
      min := ⟨⟨c, hc, h4⟩, by rintro x ⟨e, he, rfl⟩; exact (h3 e he).1⟩
      max := ⟨⟨d, hd, h5⟩, by rintro x ⟨e, he, rfl⟩; exact (h3 e he).2⟩
      sum := h2
      count := h1
      volume := by simp only [h2]
      area := by simp only [h1]; norm_cast }

theorem isStats_unique {fl : K → K} {depth : Cell → K} {area : K} {cs : List Cell} {u v : StatUnits K}
    (hu : IsStatsFl fl depth area cs u) (hv : IsStatsFl fl depth area cs v) : u = v := by
  obtain ⟨a1, a2, a3, a4, a5, a6⟩ := hu
  obtain ⟨b1, b2, b3, b4, b5, b6⟩ := hv
  cases u; cases v
  simp only at *
  rw [a1.unique b1, a2.unique b2, a3, b3, a4, b4, a5, b5, a6, b6]

/-- The part of `process` that both pour point rules share. -/
theorem filter_ok_python {cc : Raster Bool → Raster Int × Nat} (hcc : LabelContract cc) (fl : K → K) (area : K) (depths : Raster K)
    (hr : 0 < depths.rows) (hc : 0 < depths.cols) (f : StatUnits K → Bool) :
    ∃ raw keep, Label.labelStatsFl fl depths (connectedComponents cc depths).1 none = .ok raw ∧
      Label.keepLabels (connectedComponents cc depths).1 (filterbluespotsFl fl f area raw) 0 = .ok keep ∧
      keep.rows = depths.rows ∧ keep.cols = depths.cols ∧
      (∀ c, depths.Has c → (keep.get c = true ↔ depths.get c ≠ 0 ∧ PassesFl fl depths.rows depths.cols depths.get area f c)) ∧
      (∀ a b, depths.Has a → depths.Has b → keep.get a = true → keep.get b = true →
        (ConnectedIn (fun x => InGrid depths.rows depths.cols x ∧ keep.get x = true) a b ↔
          ConnectedIn (fun x => InGrid depths.rows depths.cols x ∧ depths.get x ≠ 0) a b)) := by
  obtain ⟨e1, e2, hL⟩ := hcc { rows := depths.rows, cols := depths.cols, get := fun c => depths.get c ≠ 0 }
  change (connectedComponents cc depths).1.rows = depths.rows at e1
  change (connectedComponents cc depths).1.cols = depths.cols at e2
  change IsLabelling depths.rows depths.cols (fun c => decide (depths.get c ≠ 0) = true)
    (connectedComponents cc depths).1.get (connectedComponents cc depths).2 at hL
  simp only [decide_eq_true_eq] at hL
  set lab := (connectedComponents cc depths).1 with hlab
  set n := (connectedComponents cc depths).2 with hn
  have hL' : IsLabelling lab.rows lab.cols (fun c => depths.get c ≠ 0) lab.get n := by rw [e1, e2]; exact hL
  obtain ⟨raw, h1, h2, h3⟩ := Label.labelStats_ok fl depths (lab := lab) ⟨e1.symm, e2.symm⟩
    (hL'.topLabel (by omega) (by omega)) hL'.labelsIn
  obtain ⟨keep, k1, k2, k3, k4⟩ := Label.keepLabels_ok (keep := filterbluespotsFl fl f area raw) (n := n)
    (by simp [filterbluespotsFl, h2]) hL'.labelsIn
  have hkeep : ∀ c, depths.Has c →
      (keep.get c = true ↔ depths.get c ≠ 0 ∧ PassesFl fl depths.rows depths.cols depths.get area f c) := by
    intro c hcc
    have hcc' : lab.Has c := by show InGrid lab.rows lab.cols c; rw [e1, e2]; exact hcc
    rw [k4 c hcc']
    have hbg := hL.background c hcc
    by_cases hz : depths.get c = 0
    · have h0 : lab.get c = 0 := hbg.2 (by simpa using hz)
      simp [hz, h0]
    · have h0 : lab.get c ≠ 0 := fun h => (hbg.1 h) hz
      simp only [ne_eq, h0, not_false_eq_true, true_and, hz]
      have hrange := hL.range c hcc
      set cs := (Raster.cellList lab.rows lab.cols).filter (fun x => lab.get x = (((lab.get c).toNat : Nat) : Int)) with hcs
      have hcs' : CellsOf lab.rows lab.cols lab.get ((lab.get c).toNat : Nat) cs := lists_filter _ _ _
      have hst := h3 (lab.get c).toNat cs (by omega) hcs'
      have hmem : c ∈ cs := (hcs'.2 c).2 ⟨hcc', by omega⟩
      have hne : cs ≠ [] := List.ne_nil_of_mem hmem
      have hstats := stat_isStats fl depths area hne
      have hcomp : Lists depths.rows depths.cols
          (fun x => ConnectedIn (fun y => InGrid depths.rows depths.cols y ∧ depths.get y ≠ 0) c x) cs := by
        refine ⟨hcs'.1, fun x => ?_⟩
        rw [hcs'.2 x, e1, e2]
        constructor
        · rintro ⟨hx, hlx⟩
          have hx0 : depths.get x ≠ 0 := fun h => h0 (by
            have := (hL.background x hx).2 (by simpa using h)
            omega)
          exact ⟨hx, (hL.same c x hcc hx hz hx0).1 (by omega)⟩
        · rintro ⟨hx, hcx⟩
          have := (hL.same c x hcc hx hz hcx.right.2).2 hcx
          exact ⟨hx, show lab.get x = _ by omega⟩
      obtain ⟨u, hu, hget⟩ : ∃ u, IsStatsFl fl depths.get area cs u ∧
          (filterbluespotsFl fl f area raw)[(lab.get c).toNat]? = some (f u) := by
        refine ⟨_, hstats, ?_⟩
        simp only [filterbluespotsFl, List.getElem?_map, hst, Option.map_some]
      rw [hget]
      simp only [Option.some.injEq]
      constructor
      · intro hf
        exact ⟨cs, u, hcomp, hu, hf⟩
      · rintro ⟨cs', v, hcs'', hv, hf⟩
        have := lists_unique hcs'' hcomp
        subst this
        rw [isStats_unique hu hv]
        exact hf
  refine ⟨raw, keep, h1, k1, k2.trans e1, k3.trans e2, hkeep, fun a b ha hb hka hkb => ?_⟩
  refine connected_kept hL (kept := fun c => keep.get c = true) (fun c hc' hk => ((hkeep c hc').1 hk).1) ?_ hka
  intro x y hx hy hwy hxy hkx
  have hx' : lab.Has x := by show InGrid lab.rows lab.cols x; rw [e1, e2]; exact hx
  have hy' : lab.Has y := by show InGrid lab.rows lab.cols y; rw [e1, e2]; exact hy
  rw [k4 y hy', ← hxy]
  exact (k4 x hx').1 hkx

end Bluespots
end Malstroem
