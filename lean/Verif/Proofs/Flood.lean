import Verif.Proofs.LevelRun

set_option linter.unusedSectionVars false

namespace Malstroem
open Spec

variable {K : Type} [Field K] [LinearOrder K] [IsStrictOrderedRing K] [FloorRing K]

theorem labelvaluedict_ok {α : Type} {levels : Dict Int α} {background : Int} {m : Nat} (h : Covers levels background m)
    (x : α) : ∃ l, Approx.labelvaluedictToList levels background x = .ok l ∧ l.length = m + 1 ∧
      ∀ i : Nat, i ≤ m → ((i : Int) = background → l[i]? = some x) ∧
        ((i : Int) ≠ background → l[i]? = levels.get? (i : Int)) := by
  have hmax := pyMax_ok h.mem h.le
  have hrange : ((m : Int) + 1).toNat = m + 1 := by omega
  obtain ⟨l, h1, h2⟩ := mapM_exists (f := fun (ix : Nat) =>
      if (ix : Int) = background then (.ok x : Except PyErr α) else Dict.getItem levels (ix : Int))
    (l := List.range (m + 1)) (by
      intro i hi
      by_cases hb : (i : Int) = background
      · exact ⟨x, by simp [hb]⟩
      · obtain ⟨z, hz⟩ := h.has i (by simpa [Nat.lt_succ_iff] using hi) hb
        exact ⟨z, by simp only [if_neg hb]; exact Dict.getItem_ok.2 hz⟩)
  refine ⟨l, ?_, by rw [← h2.length_eq, List.length_range], fun i hi => ?_⟩
  · unfold Approx.labelvaluedictToList
    rw [hmax]
    simp only [bind, Except.bind]
    rw [hrange]
    exact h1
  · obtain ⟨y, e1, e2⟩ := forall₂_get h2 (i := i) (x := i) (by simp [Nat.lt_succ_iff.2 hi])
    rw [e1]
    constructor
    · intro hb
      rw [if_pos hb] at e2
      rw [Except.ok.inj e2]
    · intro hb
      rw [if_neg hb] at e2
      exact (Dict.getItem_ok.1 e2).symm

theorem flood_ok {lab : Raster Int} {dem : Raster K} {background : Int} {m : Nat} {values : List K} {level : Int → K}
    (hr : LabelsIn lab.rows lab.cols lab.get m) (hlen : values.length = m + 1)
    (hv : ∀ i : Nat, i ≤ m → ((i : Int) = background → values[i]? = some (-999)) ∧
      ((i : Int) ≠ background → values[i]? = some (level i))) :
    ∃ wl, @Label.setLabelToValue K ⟨0⟩ lab values = .ok wl ∧
      IsFlooded lab dem background level
        (Approx.maskLabels lab (Approx.depthsAndBelow wl dem).2 background) (Approx.depthsAndBelow wl dem).1 := by
  have hidx : ∀ c, InGrid lab.rows lab.cols c → pyIdx values.length (lab.get c) = some (lab.get c).toNat := by
    intro c hc
    obtain ⟨h0, h1⟩ := hr c hc
    exact pyIdx_of_range h0 (by omega)
  unfold Label.setLabelToValue
  rw [if_pos (by
    rw [List.all_eq_true]
    intro c hc
    rw [hidx c (Flow.mem_cellList.1 hc)]; rfl)]
  refine ⟨_, rfl, ?_⟩
  have hnat : ∀ c, InGrid lab.rows lab.cols c → (((lab.get c).toNat : Nat) : Int) = lab.get c ∧ (lab.get c).toNat ≤ m := by
    intro c hc
    obtain ⟨h0, h1⟩ := hr c hc
    omega
  refine ⟨⟨rfl, rfl, rfl, rfl⟩, fun c hc hb => ?_, fun c hc hb => ?_, fun c hc hb => ?_, fun c hc hb hd => ?_⟩
  all_goals
    obtain ⟨e1, e2⟩ := hnat c hc
    have hvc := hv _ e2
    rw [e1] at hvc
    simp only [Approx.maskLabels, Approx.depthsAndBelow, hidx c hc, Option.bind_some]
  · rw [hvc.2 hb]
    simp only [Option.getD_some, decide_eq_true_eq, sub_neg]
    by_cases h : dem.get c ≤ level (lab.get c)
    · rw [if_neg (not_lt.2 h), if_pos h]
    · rw [if_pos (not_le.1 h), if_neg h]
  · rw [hvc.2 hb]
    simp only [Option.getD_some, decide_eq_true_eq]
    by_cases h : level (lab.get c) - dem.get c < 0
    · rw [if_pos h, max_eq_left h.le]
    · rw [if_neg h, max_eq_right (not_lt.1 h)]
  · rw [hb]; simp
  · rw [hvc.1 hb]
    simp only [Option.getD_some, decide_eq_true_eq]
    split
    · rfl
    · linarith

theorem fold_levels {α β : Type} {f : Dict Int β → α → Except PyErr (Dict Int β)} {l : List α} {kvs : List (Int × β)}
    (hf : ∀ x kv, (x, kv) ∈ l.zip kvs → ∀ d, f d x = .ok (Dict.set d kv.1 kv.2)) (hlen : l.length = kvs.length)
    (d : Dict Int β) (hnd : (d.map (·.1) ++ kvs.map (·.1)).Nodup) : l.foldlM f d = .ok (d ++ kvs) := by
  induction l generalizing kvs d with
  | nil =>
    cases kvs with
    | nil => simp; rfl
    | cons _ _ => simp at hlen
  | cons x l ih =>
    cases kvs with
    | nil => simp at hlen
    | cons kv kvs =>
      rw [List.foldlM_cons, hf x kv (by simp) d]
      have hk : kv.1 ∉ d.map (·.1) := fun hm => (List.nodup_append.1 hnd).2.2 _ hm _ (by simp) rfl
      show List.foldlM f (Dict.set d kv.1 kv.2) l = _
      rw [Dict.set_new hk, ih (kvs := kvs) (fun y kw h d => hf y kw (by simp [h]) d) (by simpa using hlen) _ (by simpa using hnd)]
      simp

end Malstroem
