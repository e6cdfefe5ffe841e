import Verif.Spec.Filter
import Mathlib.Data.List.Infix
import Mathlib.Data.List.TakeWhile
import Mathlib.Tactic.Common

namespace Malstroem
open Spec

/-! ### `str.replace` -/

theorem replaceFrom_drop (old new : List Char) : ∀ (k : Nat) (s : List Char),
    pyReplaceFrom old new k s = pyReplaceFrom old new 0 (s.drop k) := by
  intro k
  induction k with
  | zero => intro s; rfl
  | succ k ih =>
    intro s
    cases s with
    | nil => simp [pyReplaceFrom]
    | cons c s => rw [pyReplaceFrom, ih]; rfl

theorem replace_nil (w new : List Char) : pyReplace [] w new = [] := rfl

theorem replace_match {w : List Char} (hw : w ≠ []) (new rest : List Char) :
    pyReplace (w ++ rest) w new = new ++ pyReplace rest w new := by
  obtain ⟨c, w', rfl⟩ := List.exists_cons_of_ne_nil hw
  unfold pyReplace
  rw [List.cons_append, pyReplaceFrom, if_pos (by simp [List.isPrefixOf_iff_prefix, List.cons_prefix_cons]),
    replaceFrom_drop]
  simp

theorem replace_step {w : List Char} {c : Char} {s : List Char} (new : List Char) (h : ¬ w <+: c :: s) :
    pyReplace (c :: s) w new = c :: pyReplace s w new := by
  unfold pyReplace
  rw [pyReplaceFrom, if_neg (by simpa [List.isPrefixOf_iff_prefix] using h)]

theorem replace_skip {w : List Char} (new : List Char) : ∀ (t rest : List Char),
    (∀ u, u ≠ [] → u <:+ t → ¬ w <+: u ++ rest) → pyReplace (t ++ rest) w new = t ++ pyReplace rest w new := by
  intro t
  induction t with
  | nil => intro rest _; rfl
  | cons c t ih =>
    intro rest h
    rw [List.cons_append, replace_step (s := t ++ rest) _ (h (c :: t) (by simp) List.suffix_rfl),
      ih rest fun u hu hs => h u hu (hs.trans (List.suffix_cons c t))]
    rfl

/-- No match of `w` can begin inside `t`. -/
def NoOverlap (w t : List Char) : Prop := ∀ u ∈ t.tails, u ≠ [] → ¬ u <+: w ∧ ¬ w <+: u

instance (w t : List Char) : Decidable (NoOverlap w t) := by unfold NoOverlap; infer_instance

theorem replace_noOverlap {w t : List Char} (h : NoOverlap w t) (new rest : List Char) :
    pyReplace (t ++ rest) w new = t ++ pyReplace rest w new := by
  refine replace_skip new t rest fun u hu hs hp => ?_
  obtain ⟨h1, h2⟩ := h u ((List.mem_tails u t).2 hs) hu
  rcases List.prefix_or_prefix_of_prefix hp (List.prefix_append u rest) with h' | h'
  · exact h2 h'
  · exact h1 h'

theorem replace_flatMap {α : Type} {w : List Char} (hw : w ≠ []) (new : List Char) {f : α → List Char} : ∀ {ps : List α},
    (∀ p ∈ ps, f p = w ∨ NoOverlap w (f p)) →
    pyReplace (ps.flatMap f) w new = ps.flatMap fun p => if f p = w then new else f p := by
  intro ps
  induction ps with
  | nil => intro _; rfl
  | cons p ps ih =>
    intro h
    rw [List.flatMap_cons, List.flatMap_cons, ← ih fun q hq => h q (by simp [hq])]
    rcases h p (by simp) with h | h
    · rw [if_pos h, h, replace_match hw]
    · rw [replace_noOverlap h]
      split
      · rename_i he
        exfalso
        exact (h (f p) (by simp) (by rw [he]; exact hw)).2 (by rw [he])
      · rfl

/-- Matches do not cross a character that is not in the word. -/
theorem replace_delim {w : List Char} (hw : w ≠ []) {c : Char} (hc : c ∉ w) (new y : List Char) : ∀ (n : Nat) (x : List Char),
    x.length ≤ n → pyReplace (x ++ c :: y) w new = pyReplace x w new ++ c :: pyReplace y w new := by
  intro n
  induction n with
  | zero =>
    intro x hx
    obtain rfl : x = [] := List.length_eq_zero_iff.1 (by omega)
    rw [List.nil_append, replace_step, replace_nil, List.nil_append]
    intro hp
    obtain ⟨d, w', rfl⟩ := List.exists_cons_of_ne_nil hw
    rw [List.cons_prefix_cons] at hp
    exact hc (by simp [hp.1])
  | succ n ih =>
    intro x hx
    cases x with
    | nil => exact ih [] (by simp)
    | cons d x =>
      by_cases hp : w <+: d :: x
      · obtain ⟨x', hx'⟩ := hp
        rw [← hx', List.append_assoc, replace_match hw, replace_match hw, List.append_assoc, ih x']
        have h1 := congrArg List.length hx'
        have h2 := List.length_pos_iff.2 hw
        simp only [List.length_append, List.length_cons] at h1 hx
        omega
      · rw [replace_step _ hp, List.cons_append, replace_step, ih x (by simpa using hx)]
        · rfl
        · intro hq
          refine hp ?_
          rcases List.prefix_or_prefix_of_prefix hq (List.prefix_append (d :: x) (c :: y)) with h | h
          · exact h
          · obtain ⟨z, rfl⟩ := h
            cases z with
            | nil => simp
            | cons e z =>
              obtain ⟨q, hq⟩ := hq
              have : e = c := by simpa using congrArg (fun l => l[(d :: x).length]?) hq
              exact absurd (by simp [this]) hc

theorem replace_none {w : List Char} (new : List Char) {s : List Char} (h : ¬ Occurs w s) : pyReplace s w new = s := by
  have := replace_skip (w := w) new s [] fun u _ hs hp => by
    obtain ⟨a, ha⟩ := hs
    obtain ⟨b, hb⟩ := hp
    rw [List.append_nil] at hb
    exact h ⟨a, b, by rw [List.append_assoc, hb, ha]⟩
  simpa [replace_nil] using this

theorem mem_replace {w : List Char} (hw : w ≠ []) {new : List Char} {c : Char} (hc : c ∉ w) : ∀ (n : Nat) {s : List Char},
    s.length ≤ n → c ∈ s → c ∈ pyReplace s w new := by
  intro n
  induction n with
  | zero =>
    intro s hs hm
    obtain rfl : s = [] := List.length_eq_zero_iff.1 (by omega)
    simp at hm
  | succ n ih =>
    intro s hs hm
    cases s with
    | nil => simp at hm
    | cons d s =>
      by_cases hp : w <+: d :: s
      · obtain ⟨r, hr⟩ := hp
        rw [← hr] at hm ⊢
        rw [replace_match hw]
        have h1 := congrArg List.length hr
        have h2 := List.length_pos_iff.2 hw
        simp only [List.length_append, List.length_cons] at h1 hs
        exact List.mem_append_right _ (ih (by omega) ((List.mem_append.1 hm).resolve_left hc))
      · rw [replace_step _ hp]
        rcases List.mem_cons.1 hm with rfl | hm
        · simp
        · exact List.mem_cons_of_mem _ (ih (by simpa using hs) hm)

theorem of_mem_replace {w : List Char} (hw : w ≠ []) {c : Char} : ∀ (n : Nat) {s : List Char},
    s.length ≤ n → c ∈ pyReplace s w [] → c ∈ s := by
  intro n
  induction n with
  | zero =>
    intro s hs hm
    obtain rfl : s = [] := List.length_eq_zero_iff.1 (by omega)
    exact hm
  | succ n ih =>
    intro s hs hm
    cases s with
    | nil => exact hm
    | cons d s =>
      by_cases hp : w <+: d :: s
      · obtain ⟨r, hr⟩ := hp
        rw [← hr] at hm ⊢
        rw [replace_match hw] at hm
        have h1 := congrArg List.length hr
        have h2 := List.length_pos_iff.2 hw
        simp only [List.length_append, List.length_cons] at h1 hs
        exact List.mem_append_right _ (ih (by omega) (by simpa using hm))
      · rw [replace_step _ hp] at hm
        rcases List.mem_cons.1 hm with rfl | hm
        · simp
        · exact List.mem_cons_of_mem _ (ih (by simpa using hs) hm)

theorem replace_char (c : Char) (s : List Char) : pyReplace s [c] [] = s.filter (· ≠ c) := by
  induction s with
  | nil => rfl
  | cons d s ih =>
    by_cases h : d = c
    · subst h
      have := replace_match (w := [d]) (by simp) [] s
      rw [List.singleton_append] at this
      rw [this, List.filter_cons_of_neg (by simp), ih]; rfl
    · rw [replace_step, List.filter_cons_of_pos (by simpa using h), ih]
      simpa [List.cons_prefix_cons] using Ne.symm h

theorem dropWhile_nil_iff {p : Char → Bool} (l : List Char) : l.dropWhile p = [] ↔ ∀ c ∈ l, p c = true := by
  induction l with
  | nil => simp
  | cons c l ih =>
    by_cases h : p c = true
    · rw [List.dropWhile_cons_of_pos h, ih]; simp [h]
    · rw [List.dropWhile_cons_of_neg h]; simp [h]

theorem isWhite_iff (c : Char) : pyIsSpace c = true ↔ IsWhite c := by
  unfold pyIsSpace IsWhite
  generalize c.toNat = n
  simp only [Bool.or_eq_true, Bool.and_eq_true, decide_eq_true_eq, beq_iff_eq, List.mem_cons, List.not_mem_nil, or_false]
  omega

theorem strip_eq_nil (s : List Char) : pyStrip s = [] ↔ ∀ c ∈ s, pyIsSpace c = true := by
  unfold pyStrip
  rw [List.reverse_eq_nil_iff, dropWhile_nil_iff]
  constructor
  · intro h c hc
    rw [← List.takeWhile_append_dropWhile (p := pyIsSpace) (l := s), List.mem_append] at hc
    rcases hc with hc | hc
    · exact List.mem_takeWhile_imp hc
    · exact h c (by simpa using hc)
  · intro h c hc
    exact h c ((List.dropWhile_sublist _).subset (by simpa using hc))

/-! ### `check_filter` -/

namespace Filter

/-- Removal of the five words, one after the other. -/
def removeWords (s : List Char) : List Char := allowedWords.foldl (fun f w => pyReplace f w []) s

theorem filter_fold (cs : List Char) : ∀ s : List Char,
    cs.foldl (fun f c => pyReplace f [c] []) s = s.filter (· ∉ cs) := by
  induction cs with
  | nil => intro s; simp
  | cons c cs ih =>
    intro s
    rw [List.foldl_cons, ih, replace_char, List.filter_filter]
    refine List.filter_congr fun d _ => ?_
    simp [Bool.and_comm]

theorem isFilterChar_iff (c : Char) : IsFilterChar c ↔ c ∈ allowedChars := by
  have hd : c.isDigit = true ↔ c ∈ ['0', '1', '2', '3', '4', '5', '6', '7', '8', '9'] := by
    constructor
    · intro h
      simp only [Char.isDigit, Bool.and_eq_true, decide_eq_true_eq] at h
      have h1 : 48 ≤ c.toNat := h.1
      have h2 : c.toNat ≤ 57 := h.2
      have hc : c = Char.ofNat c.toNat := (Char.ofNat_toNat c).symm
      rw [hc]
      generalize c.toNat = n at *
      have : n = 48 ∨ n = 49 ∨ n = 50 ∨ n = 51 ∨ n = 52 ∨ n = 53 ∨ n = 54 ∨ n = 55 ∨ n = 56 ∨ n = 57 := by omega
      rcases this with rfl | rfl | rfl | rfl | rfl | rfl | rfl | rfl | rfl | rfl <;> decide
    · intro h
      have : ∀ c ∈ ['0', '1', '2', '3', '4', '5', '6', '7', '8', '9'], c.isDigit = true := by decide
      exact this c h
  unfold IsFilterChar
  rw [hd, show allowedChars = ['<', '>', '=', '!', '0', '1', '2', '3', '4', '5', '6', '7', '8', '9', '.', '(', ')'] from
    by decide]
  simp only [List.mem_cons, List.not_mem_nil, or_false]
  tauto

theorem check_iff (s : List Char) :
    checkFilter s = .ok () ↔ ∀ c ∈ removeWords s, IsFilterChar c ∨ IsWhite c := by
  simp only [← isWhite_iff]
  unfold checkFilter
  simp only
  rw [filter_fold]
  show (if pyStrip ((removeWords s).filter _) ≠ [] then _ else _) = _ ↔ _
  rw [← not_iff_not, ← ite_not]
  constructor
  · intro h h'
    refine h ?_
    rw [if_pos]
    rw [not_not, strip_eq_nil]
    intro c hc
    rw [List.mem_filter] at hc
    refine (h' c hc.1).resolve_left fun hf => ?_
    rw [isFilterChar_iff] at hf
    simpa [hf] using hc.2
  · intro h h'
    refine h fun c hc => ?_
    by_cases hs : pyStrip ((removeWords s).filter fun x => decide (x ∉ allowedChars)) = []
    · by_cases hf : c ∈ allowedChars
      · exact .inl ((isFilterChar_iff c).2 hf)
      · exact .inr ((strip_eq_nil _).1 hs c (List.mem_filter.2 ⟨hc, by simpa using hf⟩))
    · rw [if_neg (by simpa using hs)] at h'
      cases h'

theorem words_ne : ∀ w ∈ allowedWords, w ≠ [] := by decide

theorem words_other : ∀ w ∈ allowedWords, ∀ c ∈ w, IsOther c := by
  have : ∀ w ∈ allowedWords, ∀ c ∈ w, c ∉ allowedChars ∧ ¬ IsWhite c := by decide
  intro w hw c hc
  obtain ⟨h1, h2⟩ := this w hw c hc
  exact ⟨fun h => h1 ((isFilterChar_iff c).1 h), h2⟩

/-! The removal works on each run separately. -/

theorem fold_delim {c : Char} (hc : ¬ IsOther c) : ∀ (ws : List (List Char)), (∀ w ∈ ws, w ∈ allowedWords) →
    ∀ x y : List Char, ws.foldl (fun f w => pyReplace f w []) (x ++ c :: y) =
      ws.foldl (fun f w => pyReplace f w []) x ++ c :: ws.foldl (fun f w => pyReplace f w []) y := by
  intro ws
  induction ws with
  | nil => intro _ x y; rfl
  | cons w ws ih =>
    intro h x y
    have hw := h w (by simp)
    rw [List.foldl_cons, List.foldl_cons, List.foldl_cons,
      replace_delim (words_ne w hw) (fun hm => hc (words_other w hw c hm)) [] y x.length x le_rfl,
      ih fun v hv => h v (by simp [hv])]

theorem remove_delim {c : Char} (hc : ¬ IsOther c) (x y : List Char) :
    removeWords (x ++ c :: y) = removeWords x ++ c :: removeWords y :=
  fold_delim hc allowedWords (fun _ h => h) x y

theorem mem_of_mem_remove {c : Char} {s : List Char} (h : c ∈ removeWords s) : c ∈ s := by
  unfold removeWords at h
  revert h
  have : ∀ (ws : List (List Char)), (∀ w ∈ ws, w ≠ []) → ∀ s : List Char,
      c ∈ ws.foldl (fun f w => pyReplace f w []) s → c ∈ s := by
    intro ws
    induction ws with
    | nil => intro _ s h; exact h
    | cons w ws ih =>
      intro hws s h
      exact of_mem_replace (hws w (by simp)) s.length le_rfl (ih (fun v hv => hws v (by simp [hv])) _ h)
  exact this allowedWords words_ne s

/-- A run delimited in `s` is treated as if it stood alone. -/
theorem remove_run {a run b : List Char} (ha : ∀ c, a.getLast? = some c → ¬ IsOther c)
    (hb : ∀ c, b.head? = some c → ¬ IsOther c) : ∃ a' b', removeWords (a ++ run ++ b) = a' ++ removeWords run ++ b' := by
  have h1 : ∃ b', ∀ x, removeWords (x ++ run ++ b) = removeWords (x ++ run) ++ b' := by
    cases b with
    | nil => exact ⟨[], fun x => by simp⟩
    | cons c b => exact ⟨c :: removeWords b, fun x => remove_delim (hb c rfl) _ _⟩
  obtain ⟨b', h1⟩ := h1
  rcases List.eq_nil_or_concat a with rfl | ⟨a, c, rfl⟩
  · exact ⟨[], b', by rw [h1]; simp⟩
  · refine ⟨removeWords a ++ [c], b', ?_⟩
    have hc := ha c (by simp)
    rw [h1, List.concat_eq_append, List.append_assoc a, List.singleton_append, remove_delim hc]
    simp

theorem check_run {s : List Char} (h : checkFilter s = .ok ()) {run : List Char} (hr : IsRun run s) :
    removeWords run = [] := by
  obtain ⟨_, ho, a, b, rfl, ha, hb⟩ := hr
  rw [check_iff] at h
  obtain ⟨a', b', e⟩ := remove_run (run := run) ha hb
  rw [e] at h
  rw [List.eq_nil_iff_forall_not_mem]
  intro c hc
  obtain ⟨h1, h2⟩ := ho c (mem_of_mem_remove hc)
  rcases h c (by simp [hc]) with h' | h'
  · exact h1 h'
  · exact h2 h'

theorem remove_nil_ok {run : List Char} (h : removeWords run = []) : checkFilter run = .ok () := by
  rw [check_iff, h]; simp

theorem check_of_runs : ∀ (n : Nat) {s : List Char}, s.length ≤ n → (∀ run, IsRun run s → removeWords run = []) →
    checkFilter s = .ok () := by
  classical
  intro n
  induction n with
  | zero =>
    intro s hs _
    obtain rfl : s = [] := List.length_eq_zero_iff.1 (by omega)
    rfl
  | succ n ih =>
    intro s hs h
    by_cases hall : ∀ c ∈ s, IsOther c
    · by_cases hne : s = []
      · subst hne; rfl
      · exact remove_nil_ok (h s ⟨hne, hall, [], [], by simp, by simp, by simp⟩)
    · simp only [not_forall] at hall
      obtain ⟨d, hd, hdo⟩ := hall
      -- the first delimiter
      obtain ⟨x, c, y, rfl, hx, hc⟩ : ∃ x c y, s = x ++ c :: y ∧ (∀ e ∈ x, IsOther e) ∧ ¬ IsOther c := by
        clear h hs ih
        induction s with
        | nil => simp at hd
        | cons e s ih =>
          by_cases he : IsOther e
          · have hd' : d ∈ s := by
              rcases List.mem_cons.1 hd with rfl | h
              · exact absurd he hdo
              · exact h
            obtain ⟨x, c, y, rfl, h1, h2⟩ := ih hd'
            refine ⟨e :: x, c, y, rfl, ?_, h2⟩
            intro f hf
            rcases List.mem_cons.1 hf with rfl | hf
            · exact he
            · exact h1 f hf
          · exact ⟨[], e, s, rfl, by simp, he⟩
      have hy : checkFilter y = .ok () := by
        refine ih (by simp at hs; omega) fun run hr => h run ?_
        obtain ⟨h1, h2, a, b, rfl, ha, hb⟩ := hr
        refine ⟨h1, h2, x ++ c :: a, b, by simp, ?_, hb⟩
        intro e he
        cases a with
        | nil =>
          have : e = c := by simpa using he.symm
          rw [this]; exact hc
        | cons f a =>
          refine ha e ?_
          rw [← he]; simp [List.getLast?_cons, List.getLast?_append]
      have hxr : removeWords x = [] := by
        by_cases hne : x = []
        · subst hne; rfl
        · refine h x ⟨hne, hx, [], c :: y, by simp, by simp, ?_⟩
          intro e he
          have : c = e := by simpa using he
          rw [← this]; exact hc
      rw [check_iff] at hy ⊢
      rw [remove_delim hc, hxr]
      intro e he
      rcases List.mem_cons.1 (by simpa using he) with rfl | he
      · unfold IsOther at hc
        by_cases h1 : IsFilterChar e
        · exact .inl h1
        · refine .inr ?_
          by_contra h2
          exact hc ⟨h1, h2⟩
      · exact hy e he

theorem remove_none {run : List Char} (h : ∀ w ∈ allowedWords, ¬ Occurs w run) : removeWords run = run := by
  unfold removeWords
  revert h
  generalize allowedWords = ws
  induction ws with
  | nil => intro _; rfl
  | cons w ws ih =>
    intro h
    rw [List.foldl_cons, replace_none _ (h w (by simp))]
    exact ih fun v hv => h v (by simp [hv])

/-! Sequences of words and characters. -/

/-- The text of a piece once the first `k` words have been removed. -/
def textAfter (k : Nat) : Piece → List Char
  | .area => if 1 ≤ k then [] else "area".toList
  | .maxdepth => if 2 ≤ k then [] else "maxdepth".toList
  | .volume => if 3 ≤ k then [] else "volume".toList
  | .and => if 4 ≤ k then [] else "and".toList
  | .or => if 5 ≤ k then [] else "or".toList
  | .char c => [c]

theorem noOverlap_char {w : List Char} (hw : w ∈ allowedWords) {c : Char} (hc : IsFilterChar c ∨ IsWhite c) :
    NoOverlap w [c] := by
  intro u hu hne
  rw [List.mem_tails, List.suffix_cons_iff] at hu
  obtain rfl : u = [c] := by
    rcases hu with rfl | hu
    · rfl
    · exact absurd (List.suffix_nil.1 hu) hne
  have hcw : c ∉ w := fun hm => by
    obtain ⟨h1, h2⟩ := words_other w hw c hm
    rcases hc with h | h
    · exact h1 h
    · exact h2 h
  constructor
  · rintro ⟨r, rfl⟩; exact hcw (by simp)
  · rintro ⟨r, hr⟩
    obtain ⟨d, w', rfl⟩ := List.exists_cons_of_ne_nil (words_ne w hw)
    have : d = c := by simpa using congrArg List.head? hr
    exact hcw (by simp [this])

theorem removeWords_pieces {ps : List Piece} (h : ∀ p ∈ ps, p.Allowed) :
    removeWords (ps.flatMap Piece.text) = ps.flatMap (textAfter 5) := by
  have h0 : Piece.text = textAfter 0 := by funext p; cases p <;> rfl
  have step : ∀ (k : Nat) (w : List Char), w ∈ allowedWords →
      (∀ p : Piece, (∀ c, p ≠ .char c) → textAfter k p = w ∨ NoOverlap w (textAfter k p)) →
      (∀ p : Piece, (∀ c, p ≠ .char c) → textAfter (k + 1) p = if textAfter k p = w then [] else textAfter k p) →
      pyReplace (ps.flatMap (textAfter k)) w [] = ps.flatMap (textAfter (k + 1)) := by
    intro k w hw h1 h2
    rw [replace_flatMap (words_ne w hw)]
    · refine List.flatMap_congr fun p hp => ?_
      cases p with
      | char c =>
        have hcw := noOverlap_char hw (h _ hp)
        rw [if_neg]
        · rfl
        · intro he
          have he : [c] = w := he
          exact (hcw [c] (by simp) (by simp)).2 (by rw [he])
      | _ => exact (h2 _ (by simp)).symm
    · intro p hp
      cases p with
      | char c => exact .inr (noOverlap_char hw (h _ hp))
      | _ => exact h1 _ (by simp)
  rw [h0]
  show pyReplace (pyReplace (pyReplace (pyReplace (pyReplace (ps.flatMap (textAfter 0)) _ []) _ []) _ []) _ []) _ [] = _
  rw [step 0 "area".toList (by decide), step 1 "maxdepth".toList (by decide), step 2 "volume".toList (by decide),
    step 3 "and".toList (by decide), step 4 "or".toList (by decide)]
  all_goals
    intro p hp
    cases p with
    | char c => exact absurd rfl (hp c)
    | _ => decide

theorem check_sequence {s : List Char} (h : IsSequence s) : checkFilter s = .ok () := by
  obtain ⟨ps, hps, rfl⟩ := h
  rw [check_iff, removeWords_pieces hps]
  intro c hc
  obtain ⟨p, hp, hcp⟩ := List.mem_flatMap.1 hc
  cases p with
  | char d =>
    have : c = d := by simpa [textAfter] using hcp
    rw [this]; exact hps _ hp
  | _ => simp [textAfter] at hcp

/-! ### `parse_filter` -/

/-- The text of a piece once the first `k` replacements have been made. -/
def pythonAfter (k : Nat) : Piece → List Char
  | .area => if 1 ≤ k then "stats[\"area\"]".toList else "area".toList
  | .maxdepth => if 2 ≤ k then "stats[\"max\"]".toList else "maxdepth".toList
  | .volume => if 3 ≤ k then "stats[\"volume\"]".toList else "volume".toList
  | p => p.text

theorem replace_pieces {ps : List Piece} (h : ∀ p ∈ ps, p.Allowed) :
    pyReplace (pyReplace (pyReplace (ps.flatMap Piece.text) "area".toList "stats[\"area\"]".toList)
      "maxdepth".toList "stats[\"max\"]".toList) "volume".toList "stats[\"volume\"]".toList = ps.flatMap Piece.python := by
  have h0 : Piece.text = pythonAfter 0 := by funext p; cases p <;> rfl
  have h3 : Piece.python = pythonAfter 3 := by funext p; cases p <;> rfl
  have step : ∀ (k : Nat) (w new : List Char), w ∈ allowedWords →
      (∀ p : Piece, (∀ c, p ≠ .char c) → pythonAfter k p = w ∨ NoOverlap w (pythonAfter k p)) →
      (∀ p : Piece, (∀ c, p ≠ .char c) →
        pythonAfter (k + 1) p = if pythonAfter k p = w then new else pythonAfter k p) →
      pyReplace (ps.flatMap (pythonAfter k)) w new = ps.flatMap (pythonAfter (k + 1)) := by
    intro k w new hw h1 h2
    rw [replace_flatMap (words_ne w hw)]
    · refine List.flatMap_congr fun p hp => ?_
      cases p with
      | char c =>
        have hcw := noOverlap_char hw (h _ hp)
        rw [if_neg]
        · rfl
        · intro he
          have he : [c] = w := he
          exact (hcw [c] (by simp) (by simp)).2 (by rw [he])
      | _ => exact (h2 _ (by simp)).symm
    · intro p hp
      cases p with
      | char c => exact .inr (noOverlap_char hw (h _ hp))
      | _ => exact h1 _ (by simp)
  rw [h0, h3, step 0 "area".toList _ (by decide), step 1 "maxdepth".toList _ (by decide),
    step 2 "volume".toList _ (by decide)]
  all_goals
    intro p hp
    cases p with
    | char c => exact absurd rfl (hp c)
    | _ => decide

/-! Expressions are sequences. -/

/-- The parts of an expression. -/
def pieces : FilterExpr → List Piece
  | .compare q op n m =>
    (match q with | .area => .area | .maxdepth => .maxdepth | .volume => .volume) :: .char ' ' ::
      op.text.map .char ++ .char ' ' :: (Nat.toDigits 10 n).map .char ++ .char '.' :: (Nat.toDigits 10 m).map .char
  | .and a b => pieces a ++ [.char ' ', .and, .char ' '] ++ pieces b
  | .or a b => pieces a ++ [.char ' ', .or, .char ' '] ++ pieces b
  | .paren a => .char '(' :: pieces a ++ [.char ')']

theorem flatMap_char {f : Piece → List Char} (hf : ∀ c, f (.char c) = [c]) (s : List Char) :
    (s.map Piece.char).flatMap f = s := by
  rw [List.flatMap_map]
  simp [hf]

theorem compare_flatMap {f : Piece → List Char} (hf : ∀ c, f (.char c) = [c]) (x : Piece) (o dn dm : List Char) :
    (x :: .char ' ' :: o.map Piece.char ++ Piece.char ' ' :: dn.map Piece.char ++ Piece.char '.' :: dm.map Piece.char).flatMap f =
      f x ++ ' ' :: o ++ ' ' :: dn ++ '.' :: dm := by
  simp [List.flatMap_append, List.flatMap_cons, flatMap_char hf, hf]

theorem pieces_text (e : FilterExpr) : (pieces e).flatMap Piece.text = e.text Quantity.name := by
  induction e with
  | compare q op n m =>
    cases q with
    | area => exact compare_flatMap (f := Piece.text) (fun _ => rfl) _ _ _ _
    | maxdepth => exact compare_flatMap (f := Piece.text) (fun _ => rfl) _ _ _ _
    | volume => exact compare_flatMap (f := Piece.text) (fun _ => rfl) _ _ _ _
  | and a b iha ihb =>
    simp only [pieces, FilterExpr.text, List.flatMap_append, iha, ihb]; rfl
  | or a b iha ihb =>
    simp only [pieces, FilterExpr.text, List.flatMap_append, iha, ihb]; rfl
  | paren a ih =>
    simp only [pieces, FilterExpr.text, List.flatMap_append, List.flatMap_cons, ih]; rfl

theorem pieces_python (e : FilterExpr) : (pieces e).flatMap Piece.python = e.text Quantity.stats := by
  induction e with
  | compare q op n m =>
    cases q with
    | area => exact compare_flatMap (f := Piece.python) (fun _ => rfl) _ _ _ _
    | maxdepth => exact compare_flatMap (f := Piece.python) (fun _ => rfl) _ _ _ _
    | volume => exact compare_flatMap (f := Piece.python) (fun _ => rfl) _ _ _ _
  | and a b iha ihb =>
    simp only [pieces, FilterExpr.text, List.flatMap_append, iha, ihb]; rfl
  | or a b iha ihb =>
    simp only [pieces, FilterExpr.text, List.flatMap_append, iha, ihb]; rfl
  | paren a ih =>
    simp only [pieces, FilterExpr.text, List.flatMap_append, List.flatMap_cons, ih]; rfl

theorem digits_allowed (n : Nat) : ∀ p ∈ (Nat.toDigits 10 n).map Piece.char, p.Allowed := by
  intro p hp
  obtain ⟨c, hc, rfl⟩ := List.mem_map.1 hp
  exact .inl (.inr (Nat.isDigit_of_mem_toDigits (by omega) (by omega) hc))

theorem space_allowed : (Piece.char ' ').Allowed := .inr (by decide)

theorem pieces_allowed (e : FilterExpr) : ∀ p ∈ pieces e, p.Allowed := by
  induction e with
  | compare q op n m =>
    have hop : ∀ p ∈ op.text.map Piece.char, p.Allowed := by
      intro p hp
      obtain ⟨c, hc, rfl⟩ := List.mem_map.1 hp
      refine .inl (.inl ?_)
      have : ∀ c ∈ op.text, c ∈ ['<', '>', '=', '!', '.', '(', ')'] := by cases op <;> decide
      exact this c hc
    intro p hp
    simp only [pieces, List.cons_append, List.append_assoc, List.mem_cons, List.mem_append] at hp
    rcases hp with rfl | rfl | hp | rfl | hp | rfl | hp
    · cases q <;> trivial
    · exact space_allowed
    · exact hop p hp
    · exact space_allowed
    · exact digits_allowed n p hp
    · exact .inl (.inl (by decide))
    · exact digits_allowed m p hp
  | and a b iha ihb =>
    intro p hp
    simp only [pieces, List.mem_append, List.mem_cons, List.not_mem_nil, or_false] at hp
    rcases hp with (hp | rfl | rfl | rfl) | hp
    · exact iha p hp
    · exact space_allowed
    · exact True.intro
    · exact space_allowed
    · exact ihb p hp
  | or a b iha ihb =>
    intro p hp
    simp only [pieces, List.mem_append, List.mem_cons, List.not_mem_nil, or_false] at hp
    rcases hp with (hp | rfl | rfl | rfl) | hp
    · exact iha p hp
    · exact space_allowed
    · exact True.intro
    · exact space_allowed
    · exact ihb p hp
  | paren a ih =>
    intro p hp
    simp only [pieces, List.cons_append, List.mem_append, List.mem_cons, List.not_mem_nil, or_false] at hp
    rcases hp with rfl | hp | rfl
    · exact .inl (.inl (by decide))
    · exact ih p hp
    · exact .inl (.inl (by decide))

end Filter
end Malstroem
