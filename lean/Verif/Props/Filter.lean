/-
Properties C49-C51: filter expressions.
-/
import Verif.Proofs.Filter

namespace Malstroem
open Spec

/-! ### C49 -/

/-- C49: an accepted filter consists of the letters of the five words, allowed characters and white space. -/
theorem C49_alphabet {s : List Char} (h : Filter.checkFilter s = .ok ()) :
    ∀ c ∈ s, c ∈ filterLetters ∨ IsFilterChar c ∨ IsWhite c := by
  intro c hc
  by_cases hl : c ∈ filterLetters
  · exact .inl hl
  · refine .inr ((Filter.check_iff s).1 h c ?_)
    have hw : ∀ w ∈ Filter.allowedWords, ∀ d ∈ w, d ∈ filterLetters := by decide
    have : ∀ (ws : List (List Char)), (∀ w ∈ ws, w ∈ Filter.allowedWords) → ∀ s : List Char, c ∈ s →
        c ∈ ws.foldl (fun f w => pyReplace f w []) s := by
      intro ws
      induction ws with
      | nil => intro _ s h; exact h
      | cons w ws ih =>
        intro hws s h
        have hww := hws w (by simp)
        exact ih (fun v hv => hws v (by simp [hv])) _
          (mem_replace (Filter.words_ne w hww) (fun hm => hl (hw w hww c hm)) s.length le_rfl h)
    exact this _ (fun _ h => h) s hc

/-- C49: the characters needed to get at anything but the statistics - quotes, underscores, brackets, braces, commas,
colons, backslashes, operators, and the letters that spell import, exec or class - are not in an accepted filter. -/
theorem C49_no_dangerous_characters {s : List Char} (h : Filter.checkFilter s = .ok ()) :
    ∀ c ∈ "\"'_[]{},:;\\@#$%&*+-/|~^?`bcfgijkqswyzABCDEFGHIJKLMNOPQRSTUVWXYZ".toList, c ∉ s := by
  have key : ∀ c ∈ "\"'_[]{},:;\\@#$%&*+-/|~^?`bcfgijkqswyzABCDEFGHIJKLMNOPQRSTUVWXYZ".toList,
      c ∉ filterLetters ∧ c ∉ Filter.allowedChars ∧ ¬ IsWhite c := by decide
  intro c hc hs
  obtain ⟨h1, h2, h3⟩ := key c hc
  rcases C49_alphabet h c hs with h' | h' | h'
  · exact h1 h'
  · exact h2 ((Filter.isFilterChar_iff c).1 h')
  · exact h3 h'

/-- C49: every name in an accepted filter contains one of the five words, so it is not `eval`, `open`, `map` or any
other name without them. -/
theorem C49_names {s run : List Char} (h : Filter.checkFilter s = .ok ()) (hr : IsRun run s) :
    Occurs "area".toList run ∨ Occurs "maxdepth".toList run ∨ Occurs "volume".toList run ∨ Occurs "and".toList run ∨
      Occurs "or".toList run := by
  by_contra hn
  push Not at hn
  have h0 := Filter.check_run h hr
  rw [Filter.remove_none] at h0
  · exact hr.1 h0
  · intro w hw
    have : w ∈ ["area".toList, "maxdepth".toList, "volume".toList, "and".toList, "or".toList] := hw
    simp only [List.mem_cons, List.not_mem_nil, or_false] at this
    rcases this with rfl | rfl | rfl | rfl | rfl
    · exact hn.1
    · exact hn.2.1
    · exact hn.2.2.1
    · exact hn.2.2.2.1
    · exact hn.2.2.2.2

/-- C49: `parse_filter` evaluates no text before it has been checked: a rejected filter raises the exception of
`check_filter`, and for every filter that gets as far as `eval` the two statements above hold. -/
theorem C49_checked_before_eval (s : List Char) (hs : s ≠ []) :
    (∀ e, Filter.checkFilter s = .error e → Filter.parseFilter (some s) = .error e) ∧
    ∀ t, Filter.parseFilter (some s) = .ok t →
      (∀ c ∈ s, c ∈ filterLetters ∨ IsFilterChar c ∨ IsWhite c) ∧
      ∀ run, IsRun run s → ∃ w ∈ ["area", "maxdepth", "volume", "and", "or"], Occurs w.toList run := by
  obtain ⟨c, t, rfl⟩ := List.exists_cons_of_ne_nil hs
  constructor
  · intro e he
    simp only [Filter.parseFilter, he, bind, Except.bind]
  · intro t' ht
    have h : Filter.checkFilter (c :: t) = .ok () := by
      cases h : Filter.checkFilter (c :: t) with
      | ok _ => rfl
      | error e => simp [Filter.parseFilter, h, bind, Except.bind] at ht
    refine ⟨C49_alphabet h, fun run hr => ?_⟩
    rcases C49_names h hr with h' | h' | h' | h' | h'
    · exact ⟨"area", by simp, h'⟩
    · exact ⟨"maxdepth", by simp, h'⟩
    · exact ⟨"volume", by simp, h'⟩
    · exact ⟨"and", by simp, h'⟩
    · exact ⟨"or", by simp, h'⟩

/-- Non-vacuity for C49. -/
example : Filter.checkFilter "(area>2.5 and maxdepth >= 0.05)\tor volume!=3".toList = .ok () := by decide
example : Filter.checkFilter "open(area)".toList = .error .other := by decide
example : Filter.checkFilter "maxdepth > ord(1)".toList = .error .other := by decide
example : Filter.checkFilter "area.__class__".toList = .error .other := by decide

/-! ### C50 -/

/-- C50, what holds: a text with a name that contains none of the five words is rejected, and whether a text is
accepted depends on its names only: it is accepted exactly if each of its names, taken alone, is accepted. Missing: names
such as `oandr` that are not words but turn into nothing when the words are removed one after the other
(`C50_false`). -/
theorem C50_rejects_partial (s : List Char) :
    (∀ run, IsRun run s → (∀ w ∈ ["area", "maxdepth", "volume", "and", "or"], ¬ Occurs w.toList run) →
      ∃ e, Filter.checkFilter s = .error e) ∧
    (Filter.checkFilter s = .ok () ↔ ∀ run, IsRun run s → Filter.checkFilter run = .ok ()) := by
  constructor
  · intro run hr hw
    cases h : Filter.checkFilter s with
    | error e => exact ⟨e, rfl⟩
    | ok _ =>
      exfalso
      rcases C49_names h hr with h' | h' | h' | h' | h'
      · exact hw "area" (by simp) h'
      · exact hw "maxdepth" (by simp) h'
      · exact hw "volume" (by simp) h'
      · exact hw "and" (by simp) h'
      · exact hw "or" (by simp) h'
  · constructor
    · intro h run hr
      exact Filter.remove_nil_ok (Filter.check_run h hr)
    · intro h
      refine Filter.check_of_runs s.length le_rfl fun run hr => ?_
      refine Filter.check_run (h run hr) ⟨hr.1, hr.2.1, [], [], by simp, by simp, by simp⟩

/-- C50 is false: `oandr` is accepted, although it is not a sequence of allowed words and characters. -/
theorem C50_false : Filter.checkFilter "oandr".toList = .ok () ∧ ¬ IsSequence "oandr".toList := by
  refine ⟨by decide, ?_⟩
  rintro ⟨ps, hps, h⟩
  have hs : "oandr".toList = ['o', 'a', 'n', 'd', 'r'] := by decide
  rw [hs] at h
  cases ps with
  | nil => simp at h
  | cons p ps =>
    have hp := hps p (by simp)
    cases p with
    | char c =>
      rw [List.flatMap_cons, show (Piece.char c).text = [c] from rfl] at h
      simp only [List.singleton_append, List.cons.injEq] at h
      rw [← h.1] at hp
      rcases hp with hp | hp
      · rw [Filter.isFilterChar_iff] at hp
        exact absurd hp (by decide)
      · exact absurd hp (by decide)
    | area => rw [List.flatMap_cons, show Piece.area.text = ['a', 'r', 'e', 'a'] by decide] at h; simp at h
    | maxdepth =>
      rw [List.flatMap_cons, show Piece.maxdepth.text = ['m', 'a', 'x', 'd', 'e', 'p', 't', 'h'] by decide] at h
      simp at h
    | volume =>
      rw [List.flatMap_cons, show Piece.volume.text = ['v', 'o', 'l', 'u', 'm', 'e'] by decide] at h
      simp at h
    | and => rw [List.flatMap_cons, show Piece.and.text = ['a', 'n', 'd'] by decide] at h; simp at h
    | or => rw [List.flatMap_cons, show Piece.or.text = ['o', 'r'] by decide] at h; simp at h

/-- Non-vacuity for C50. -/
example : IsRun "eval".toList "area > eval(3)".toList := by
  refine ⟨by decide, ?_, "area > ".toList, "(3)".toList, by decide, ?_, ?_⟩
  · have : ∀ c ∈ "eval".toList, c ∉ Filter.allowedChars ∧ ¬ IsWhite c := by decide
    intro c hc
    exact ⟨fun h => (this c hc).1 ((Filter.isFilterChar_iff c).1 h), by simp [(this c hc).2]⟩
  · intro c hc
    have : c = ' ' := by simpa using hc.symm
    subst this
    exact fun h => h.2 (by decide)
  · intro c hc
    have : c = '(' := by simpa using hc.symm
    subst this
    exact fun h => h.1 (by rw [Filter.isFilterChar_iff]; decide)

/-! ### C51 -/

/-- C51: every sequence of the words, the allowed characters and white space passes `check_filter`, and the text handed to
`eval` is the same sequence with the quantities replaced by the entries of the statistics, after `lambda stats: `. -/
theorem C51_sequence {ps : List Piece} (h : ∀ p ∈ ps, p.Allowed) (hne : ps ≠ []) :
    Filter.checkFilter (ps.flatMap Piece.text) = .ok () ∧
    Filter.parseFilter (some (ps.flatMap Piece.text)) = .ok (some ("lambda stats: ".toList ++ ps.flatMap Piece.python)) := by
  have h1 := Filter.check_sequence ⟨ps, h, rfl⟩
  refine ⟨h1, ?_⟩
  have hne' : ps.flatMap Piece.text ≠ [] := by
    obtain ⟨p, qs, rfl⟩ := List.exists_cons_of_ne_nil hne
    rw [List.flatMap_cons]
    intro he
    have : p.text = [] := (List.append_eq_nil_iff.1 he).1
    cases p with
    | char c => exact absurd this (List.cons_ne_nil c [])
    | _ => exact absurd this (by decide)
  obtain ⟨c, t, ht⟩ := List.exists_cons_of_ne_nil hne'
  have h2 := Filter.replace_pieces h
  rw [ht] at h1 h2 ⊢
  simp only [Filter.parseFilter, h1, bind, Except.bind, h2, pure, Except.pure]

/-- C51: the same for filter expressions of any depth. -/
theorem C51_expression (e : FilterExpr) :
    Filter.checkFilter (e.text Quantity.name) = .ok () ∧
    Filter.parseFilter (some (e.text Quantity.name)) =
      .ok (some ("lambda stats: ".toList ++ e.text Quantity.stats)) := by
  rw [← Filter.pieces_text, ← Filter.pieces_python]
  refine C51_sequence (Filter.pieces_allowed e) ?_
  induction e <;> simp [Filter.pieces]

/-- C51: no filter or an empty filter accepts every bluespot. -/
theorem C51_no_filter : Filter.parseFilter none = .ok none ∧ Filter.parseFilter (some []) = .ok none := ⟨rfl, rfl⟩

/-- Non-vacuity for C51. -/
example : (FilterExpr.or (.paren (.and (.compare .area .gt 2 5) (.compare .volume .ge 10 0))) (.compare .maxdepth .ne 0 25)).text
    Quantity.name = "(area > 2.5 and volume >= 10.0) or maxdepth != 0.25".toList := by decide +kernel
example : Filter.parseFilter (some "(area > 2.5 and volume >= 10.0) or maxdepth != 0.25".toList) = .ok (some
    "lambda stats: (stats[\"area\"] > 2.5 and stats[\"volume\"] >= 10.0) or stats[\"max\"] != 0.25".toList) := by
  decide +kernel

end Malstroem
