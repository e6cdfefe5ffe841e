import Verif.Model.Hyps
import Verif.Proofs.Dict
import Mathlib.Data.Nat.Digits.Lemmas
import Mathlib.Data.List.DropRight
import Mathlib.Tactic.IntervalCases

set_option linter.unusedSectionVars false

namespace Malstroem

theorem digitVal_digitChar {d : Nat} (h : d < 10) : digitVal (Nat.digitChar d) = some d := by
  interval_cases d <;> decide

theorem digitChar_ne {d : Nat} (h : d < 10) : Nat.digitChar d ≠ '-' ∧ Nat.digitChar d ≠ '+' ∧
    Nat.digitChar d ≠ '|' ∧ pyIsSpace (Nat.digitChar d) = false := by
  interval_cases d <;> decide

theorem parse_digits : ∀ (ds : List Nat), (∀ d ∈ ds, d < 10) →
    (ds.map Nat.digitChar).reverse.foldl (fun acc c => do let a ← acc; let d ← digitVal c; pure (a * 10 + d)) (some 0) =
      some (Nat.ofDigits 10 ds) := by
  intro ds
  induction ds with
  | nil => intro _; rfl
  | cons d ds ih =>
    intro h
    rw [List.map_cons, List.reverse_cons, List.foldl_append, ih fun e he => h e (by simp [he]), List.foldl_cons,
      List.foldl_nil, Nat.ofDigits_cons]
    simp only [bind, Option.bind, digitVal_digitChar (h d (by simp)), pure]
    congr 1
    omega

/-- A decimal string: non-empty, digits only. -/
theorem pyStrNat_chars (n : Nat) : ∀ c ∈ pyStrNat n, ∃ d < 10, c = Nat.digitChar d := by
  intro c hc
  unfold pyStrNat at hc
  split at hc
  · exact ⟨0, by omega, (List.mem_singleton.1 hc).trans (by decide)⟩
  · rw [List.mem_reverse, List.mem_map] at hc
    obtain ⟨d, hd, rfl⟩ := hc
    exact ⟨d, Nat.digits_lt_base (by omega) hd, rfl⟩

theorem pyStrNat_ne (n : Nat) : pyStrNat n ≠ [] := by
  unfold pyStrNat
  split
  · simp
  · next h =>
    rw [ne_eq, List.reverse_eq_nil_iff, List.map_eq_nil_iff]
    exact Nat.digits_ne_nil_iff_ne_zero.2 h

theorem pyParseNat_str (n : Nat) : pyParseNat (pyStrNat n) = some n := by
  have : ∀ cs, cs ≠ [] → pyParseNat cs =
      cs.foldl (fun acc c => do let a ← acc; let d ← digitVal c; pure (a * 10 + d)) (some 0) := by
    intro cs h
    cases cs with
    | nil => exact absurd rfl h
    | cons c cs => rfl
  rw [this _ (pyStrNat_ne n)]
  unfold pyStrNat
  split
  · next h => subst h; decide
  · rw [parse_digits _ fun d hd => Nat.digits_lt_base (by omega) hd, Nat.ofDigits_digits]

theorem pyStr_chars (n : Int) : ∀ c ∈ pyStr n, c ≠ '|' ∧ pyIsSpace c = false := by
  intro c hc
  have key : ∀ m : Nat, c ∈ pyStrNat m → c ≠ '|' ∧ pyIsSpace c = false := by
    intro m hm
    obtain ⟨d, hd, rfl⟩ := pyStrNat_chars m c hm
    exact ⟨(digitChar_ne hd).2.2.1, (digitChar_ne hd).2.2.2⟩
  unfold pyStr at hc
  split at hc
  · rcases List.mem_cons.1 hc with rfl | hc
    · decide
    · exact key _ hc
  · exact key _ hc

theorem dropWhile_none {α : Type} {p : α → Bool} {l : List α} (h : ∀ c ∈ l, p c = false) : l.dropWhile p = l := by
  cases l with
  | nil => rfl
  | cons c l => rw [List.dropWhile_cons_of_neg]; simpa using h c (by simp)

theorem pyParseInt_str (n : Int) : pyParseInt (pyStr n) = .ok n := by
  unfold pyParseInt pyStrip
  have h1 : (pyStr n).dropWhile pyIsSpace = pyStr n := dropWhile_none fun c hc => (pyStr_chars n c hc).2
  have h2 : (pyStr n).reverse.dropWhile pyIsSpace = (pyStr n).reverse :=
    dropWhile_none fun c hc => (pyStr_chars n c (by simpa using hc)).2
  simp only [h1, h2, List.reverse_reverse]
  unfold pyStr
  by_cases hn : n < 0
  · simp only [if_pos hn, pyParseNat_str, Option.map_some]
    congr 1; omega
  · simp only [if_neg hn]
    have hne := pyStrNat_ne n.natAbs
    have hc := pyStrNat_chars n.natAbs
    have hp := pyParseNat_str n.natAbs
    generalize pyStrNat n.natAbs = s at hne hc hp
    cases s with
    | nil => exact absurd rfl hne
    | cons c cs =>
      obtain ⟨d, hd, rfl⟩ := hc c (by simp)
      have := digitChar_ne hd
      split
      · next i hi =>
        split at hi
        · next heq => exact absurd (List.cons.inj heq).1 this.1
        · next heq => exact absurd (List.cons.inj heq).1 this.2.1
        · rw [hp, Option.map_some, Option.some.injEq] at hi
          congr 1; omega
      · next hi =>
        split at hi
        · next heq => exact absurd (List.cons.inj heq).1 this.1
        · next heq => exact absurd (List.cons.inj heq).1 this.2.1
        · rw [hp] at hi; simp at hi

theorem pySplit_ne (sep : Char) (s : List Char) : pySplit sep s ≠ [] := by
  cases s with
  | nil => simp [pySplit]
  | cons c cs =>
    unfold pySplit
    split
    · simp
    · split <;> simp

theorem pySplit_word {sep : Char} : ∀ {w : List Char}, (∀ c ∈ w, c ≠ sep) → pySplit sep w = [w] := by
  intro w
  induction w with
  | nil => intro _; rfl
  | cons c cs ih =>
    intro h
    rw [pySplit, if_neg (h c (by simp)), ih fun d hd => h d (by simp [hd])]

theorem pySplit_append {sep : Char} : ∀ {w : List Char}, (∀ c ∈ w, c ≠ sep) → ∀ rest,
    pySplit sep (w ++ sep :: rest) = w :: pySplit sep rest := by
  intro w
  induction w with
  | nil => intro _ rest; simp [pySplit]
  | cons c cs ih =>
    intro h rest
    rw [List.cons_append, pySplit, if_neg (h c (by simp)), ih fun d hd => h d (by simp [hd])]

theorem pySplit_join {sep : Char} : ∀ {l : List (List Char)}, l ≠ [] → (∀ w ∈ l, ∀ c ∈ w, c ≠ sep) →
    pySplit sep (pyJoin sep l) = l := by
  intro l
  induction l with
  | nil => intro h; exact absurd rfl h
  | cons w ws ih =>
    intro _ h
    cases ws with
    | nil => exact pySplit_word (h w (by simp))
    | cons v vs =>
      rw [pyJoin.eq_3 _ _ _ (by simp), pySplit_append (h w (by simp)), ih (by simp) fun x hx => h x (by simp_all)]

variable {K : Type} [Field K] [LinearOrder K] [FloorRing K]

/-- The seven attributes determine the record. -/
theorem fromFlatdict_of_get {d : Props K} {h : Hyps.Stats K}
    (hlen : (h.zhistogram.counts.length : Int) = h.zhistogram.bins.num_bins)
    (hd : ∀ kv ∈ Hyps.toFlatdict h, Dict.get? d kv.1 = some kv.2) : Hyps.fromFlatdict d = .ok h := by
  unfold Hyps.toFlatdict at hd
  simp only [List.forall_mem_cons, List.not_mem_nil, false_imp_iff, implies_true, and_true] at hd
  obtain ⟨h1, h2, h3, h4, h5, h6, h7⟩ := hd
  obtain ⟨⟨counts, nb, lo, hi, res⟩, zmin, zmax⟩ := h
  simp only at h1 h2 h3 h4 h5 h6 h7 hlen
  unfold Hyps.fromFlatdict
  simp only [Dict.getItem, h1, h2, h3, h4, h5, h6, h7, bind, Except.bind, Val.toInt, Val.float]
  have e3 : counts ≠ [] → (pySplit '|' (String.ofList (pyJoin '|' (counts.map pyStr))).toList).mapM pyParseInt =
      .ok counts := by
    intro hne
    rw [String.toList_ofList, pySplit_join (by simpa using hne)]
    · rw [List.mapM_map]
      have := mapM_ok (f := pyParseInt ∘ pyStr) (g := id) (l := counts) fun n _ => pyParseInt_str n
      simpa using this
    · intro w hw c hc
      rw [List.mem_map] at hw
      obtain ⟨n, _, rfl⟩ := hw
      exact (pyStr_chars n c hc).1
  cases counts with
  | nil =>
    have hz : nb = 0 := by simpa using hlen.symm
    subst hz
    simp only [gt_iff_lt, lt_self_iff_false, if_false, pure, Except.pure]
    cases zmin <;> cases zmax <;> rfl
  | cons c cs =>
    have hz : nb > 0 := by simp at hlen; omega
    rw [if_pos hz, e3 (by simp)]
    simp only [pure, Except.pure]
    cases zmin <;> cases zmax <;> rfl

end Malstroem
