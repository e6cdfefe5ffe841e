/-
The downstream label loop; splitting into groups; pruning the common flow.
-/
import Verif.Proofs.FlowTrace
import Verif.Spec.Net
import Verif.Proofs.Label

set_option linter.unusedSectionVars false

namespace Malstroem
open Spec

namespace Net

theorem comp_bind {α β : Type} {x : Comp α} {a : α} (h : x = (some (.ok a) : Option (Except PyErr α)))
    (f : α → Comp β) : (x >>= f) = f a := by subst h; rfl

/-- The first foreign cell of a trace. -/
def NextOf (lab : Cell → Int) (bg : Option Int) (src : Int) (l : List Cell) (d : Option Int) (g : List Cell) : Prop :=
  (∃ pre x post, l = pre ++ x :: post ∧ (∀ y ∈ pre, ¬ Foreign lab bg src y) ∧
      Foreign lab bg src x ∧ d = some (lab x) ∧ g = pre ++ [x]) ∨
  ((∀ y ∈ l, ¬ Foreign lab bg src y) ∧ d = none ∧ g = l)

theorem foreign_iff {lab : Cell → Int} {bg : Option Int} {src : Int} {x : Cell} :
    (¬ (lab x = src) ∧ (bg = none ∨ ¬ (some (lab x) = bg))) ↔ Foreign lab bg src x := by
  unfold Foreign
  cases bg with
  | none => simp
  | some b => simp

theorem loop_ok {flowdir : Raster Nat} (labeled : Raster Int) (hcodes : ∀ c, flowdir.Has c → flowdir.get c ≤ 8)
    (src : Int) (bg : Option Int) : ∀ (l : List Cell) (c : Cell),
      IsTrace flowdir.rows flowdir.cols flowdir.get c l →
      ∃ d g, NextOf labeled.get bg src l d g ∧ ∀ (geo : Bool) (geom : List Cell) (n : Nat), l.length < n →
        downstreamLoop flowdir labeled src bg geo n c geom =
          (some (.ok (d, geom ++ if geo then g else [])) : Option (Except PyErr _)) := by
  intro l
  induction l with
  | nil => intro c h; have := h.head; simp at this
  | cons x l ih =>
    intro c h
    have hx : x = c := Option.some.inj h.head
    subst hx
    have hin := h.inside x (by simp)
    have hgeo : ∀ (geo : Bool) (geom : List Cell), (if geo then geom ++ [x] else geom) =
        geom ++ if geo then [x] else [] := by intro geo geom; cases geo <;> simp
    by_cases hf : Foreign labeled.get bg src x
    · refine ⟨some (labeled.get x), [x], .inl ⟨[], x, l, rfl, by simp, hf, rfl, rfl⟩, fun geo geom n hn => ?_⟩
      obtain ⟨n, rfl⟩ : ∃ m, n = m + 1 := ⟨n - 1, by simp at hn; omega⟩
      rw [downstreamLoop, if_pos (Flow.cellInRaster_iff.2 hin)]
      dsimp only
      rw [if_pos (foreign_iff.2 hf), hgeo]
      rfl
    · rcases (hcodes x hin).lt_or_eq with hlt | h8
      · have hft : FlowsTo flowdir.get x (Flow.move x (flowdir.get x)) := Flow.flowsTo_iff.2 ⟨hlt, rfl⟩
        cases l with
        | nil =>
          refine ⟨none, [x], .inr ⟨by simpa using hf, rfl, rfl⟩, fun geo geom n hn => ?_⟩
          obtain ⟨n, rfl⟩ : ∃ m, n = m + 2 := ⟨n - 2, by simp at hn; omega⟩
          rw [downstreamLoop, if_pos (Flow.cellInRaster_iff.2 hin)]
          dsimp only
          rw [if_neg (fun hh => hf (foreign_iff.1 hh)), Flow.directionToDelta_lt hlt]
          dsimp only
          have hout : ¬ InGrid flowdir.rows flowdir.cols (Flow.move x (flowdir.get x)) := by
            obtain ⟨e, he, hs⟩ := h.stop
            have : e = x := by simpa using he.symm
            subst this
            exact hs _ hft
          have hout' : ¬ Flow.cellInRaster flowdir.rows flowdir.cols
              (x.1 + (Flow.off (flowdir.get x)).1, x.2 + (Flow.off (flowdir.get x)).2) = true := by
            rw [Flow.cellInRaster_iff]; exact hout
          rw [downstreamLoop, if_neg hout', hgeo]
          rfl
        | cons y l =>
          have hy : y = Flow.move x (flowdir.get x) := Flow.flowsTo_det (List.isChain_cons_cons.1 h.chain).1 hft
          have ht : IsTrace flowdir.rows flowdir.cols flowdir.get y (y :: l) := by
            refine ⟨rfl, (List.isChain_cons_cons.1 h.chain).2, fun z hz => h.inside z (by simp [hz]), ?_⟩
            obtain ⟨e, he, hs⟩ := h.stop
            exact ⟨e, by rw [List.getLast?_cons_cons] at he; exact he, hs⟩
          obtain ⟨d, g, h1, h2⟩ := ih y ht
          refine ⟨d, x :: g, ?_, fun geo geom n hn => ?_⟩
          · rcases h1 with ⟨pre, z, post, e1, e2, e3, e4, e5⟩ | ⟨e1, e2, e3⟩
            · refine .inl ⟨x :: pre, z, post, by rw [e1]; rfl, fun w hw => ?_, e3, e4, by rw [e5]; rfl⟩
              rcases List.mem_cons.1 hw with rfl | hw
              · exact hf
              · exact e2 w hw
            · refine .inr ⟨fun w hw => ?_, e2, by rw [e3]⟩
              rcases List.mem_cons.1 hw with rfl | hw
              · exact hf
              · exact e1 w hw
          · obtain ⟨n, rfl⟩ : ∃ m, n = m + 1 := ⟨n - 1, by simp at hn; omega⟩
            rw [downstreamLoop, if_pos (Flow.cellInRaster_iff.2 hin)]
            dsimp only
            rw [if_neg (fun hh => hf (foreign_iff.1 hh)), Flow.directionToDelta_lt hlt, hgeo]
            dsimp only
            have := h2 geo (geom ++ if geo then [x] else []) n (by simp at hn ⊢; omega)
            rw [hy] at this
            refine this.trans ?_
            cases geo <;> simp
      · have hl : l = [] := by
          cases l with
          | nil => rfl
          | cons y l =>
            have := (Flow.flowsTo_iff.1 (List.isChain_cons_cons.1 h.chain).1).1
            omega
        subst hl
        refine ⟨none, [x], .inr ⟨by simpa using hf, rfl, rfl⟩, fun geo geom n hn => ?_⟩
        obtain ⟨n, rfl⟩ : ∃ m, n = m + 1 := ⟨n - 1, by simp at hn; omega⟩
        rw [downstreamLoop, if_pos (Flow.cellInRaster_iff.2 hin)]
        dsimp only
        rw [if_neg (fun hh => hf (foreign_iff.1 hh)), h8, Flow.directionToDelta_8, hgeo]
        rfl

theorem npGet_ok {α : Type} {a : Raster α} {c : Cell} (h : a.Has c) : npGet a c = .ok (a.get c) := by
  unfold npGet
  have h := h
  unfold Raster.Has InGrid at h
  rw [pyIdx_of_range (by omega) (by omega), pyIdx_of_range (by omega) (by omega)]
  simp only
  congr 2
  ext <;> simp <;> omega

/-! ### Splitting into groups -/

/-- Two nodes share the last but one cell of geometries of more than two cells. -/
def SameKey (a b : Node) : Prop :=
  2 < a.geometry.length ∧ 2 < b.geometry.length ∧
    a.geometry[a.geometry.length - 2]? = b.geometry[b.geometry.length - 2]?

theorem SameKey.symm {a b : Node} (h : SameKey a b) : SameKey b a := ⟨h.2.1, h.1, h.2.2.symm⟩
theorem SameKey.trans {a b c : Node} (h : SameKey a b) (h' : SameKey b c) : SameKey a c :=
  ⟨h.1, h'.2.1, h.2.2.trans h'.2.2⟩

theorem collect_eq (g : List Cell) : ∀ (others : List Node) (st : List Node × List Node),
    collect g others st = (st.1 ++ others.filter (fun o => o.geometry.length > 2 ∧
        g[g.length - 2]? = o.geometry[o.geometry.length - 2]?),
      st.2.diff (others.filter (fun o => o.geometry.length > 2 ∧
        g[g.length - 2]? = o.geometry[o.geometry.length - 2]?))) := by
  intro others
  induction others with
  | nil => intro st; simp [collect]
  | cons o others ih =>
    intro st
    rw [collect, List.foldl_cons]
    by_cases h : o.geometry.length > 2 ∧ g[g.length - 2]? = o.geometry[o.geometry.length - 2]?
    · rw [if_pos h, List.filter_cons_of_pos (by simpa using h)]
      have := ih (st.1 ++ [o], st.2.erase o)
      rw [collect] at this
      rw [this]
      simp
    · rw [if_neg h, List.filter_cons_of_neg (by simpa using h)]
      exact ih st

/-- What the split returns: a partition into non-empty groups, two nodes being in one group iff they share the last but
one cell. -/
structure Groups (nodes : List Node) (gs : List (List Node)) : Prop where
  perm : gs.flatten.Perm nodes
  ne : ∀ g ∈ gs, g ≠ []
  same : ∀ g ∈ gs, ∀ a ∈ g, ∀ b ∈ g, a = b ∨ SameKey a b
  apart : gs.Pairwise fun g h => ∀ a ∈ g, ∀ b ∈ h, ¬ SameKey a b

theorem splitLoop_ok : ∀ (n : Nat) (nodes : List Node) (groups : List (List Node)), nodes.Nodup → nodes.length ≤ n →
    ∃ gs, splitLoop n nodes groups = (some (.ok (groups ++ gs)) : Option (Except PyErr _)) ∧ Groups nodes gs := by
  intro n
  induction n with
  | zero =>
    intro nodes groups _ hl
    have : nodes = [] := List.length_eq_zero_iff.1 (by omega)
    subst this
    exact ⟨[], by simp [splitLoop]; rfl, ⟨List.Perm.nil, by simp, by simp, by simp⟩⟩
  | succ n ih =>
    intro nodes groups hnd hl
    cases nodes with
    | nil => exact ⟨[], by simp [splitLoop]; rfl, ⟨List.Perm.nil, by simp, by simp, by simp⟩⟩
    | cons a rest =>
      rw [splitLoop]
      have hrest := (List.nodup_cons.1 hnd).2
      by_cases hlen : a.geometry.length > 2
      · rw [if_pos hlen, collect_eq]
        dsimp only
        generalize hp : (fun o : Node => decide (o.geometry.length > 2 ∧
          a.geometry[a.geometry.length - 2]? = o.geometry[o.geometry.length - 2]?)) = p
        have hpk : ∀ o, p o = true ↔ SameKey a o := by
          intro o; rw [← hp]; simp only [decide_eq_true_eq]
          exact ⟨fun h => ⟨hlen, h.1, h.2⟩, fun h => ⟨h.2.1, h.2.2⟩⟩
        have hdiff : rest.diff (rest.filter p) = rest.filter (fun o => !p o) := by
          rw [hrest.sdiff_eq_filter]
          apply List.filter_congr
          intro o ho
          simp [List.mem_filter, ho]
        rw [hdiff]
        obtain ⟨gs, h1, h2⟩ := ih (rest.filter fun o => !p o) (groups ++ [[a] ++ rest.filter p])
          (hrest.filter _) (le_trans (List.length_filter_le _ _) (by simpa using hl))
        refine ⟨([a] ++ rest.filter p) :: gs, by rw [h1]; simp, ?_, ?_, ?_, ?_⟩
        · rw [List.flatten_cons, List.singleton_append, List.cons_append]
          refine List.Perm.cons a ?_
          exact (List.Perm.append_left _ h2.perm).trans (List.filter_append_perm p rest)
        · intro g hg
          rcases List.mem_cons.1 hg with rfl | hg
          · simp
          · exact h2.ne g hg
        · intro g hg
          rcases List.mem_cons.1 hg with rfl | hg
          · have hk : ∀ x ∈ [a] ++ rest.filter p, x = a ∨ SameKey a x := by
              intro x hx
              simp only [List.singleton_append, List.mem_cons, List.mem_filter] at hx
              rcases hx with rfl | ⟨_, hx⟩
              · exact .inl rfl
              · exact .inr ((hpk x).1 hx)
            intro x hx y hy
            rcases hk x hx with rfl | kx <;> rcases hk y hy with rfl | ky
            · exact .inl rfl
            · exact .inr ky
            · exact .inr kx.symm
            · exact .inr (kx.symm.trans ky)
          · exact h2.same g hg
        · refine List.pairwise_cons.2 ⟨fun h hh x hx y hy hk => ?_, h2.apart⟩
          have hy' : y ∈ rest.filter fun o => !p o := h2.perm.mem_iff.1 (List.mem_flatten.2 ⟨h, hh, hy⟩)
          have hny : ¬ SameKey a y := by
            rw [← hpk]
            simpa using (List.mem_filter.1 hy').2
          simp only [List.singleton_append, List.mem_cons, List.mem_filter] at hx
          rcases hx with rfl | ⟨_, hx⟩
          · exact hny hk
          · exact hny (((hpk x).1 hx).trans hk)
      · rw [if_neg hlen]
        dsimp only
        obtain ⟨gs, h1, h2⟩ := ih rest (groups ++ [[a]]) hrest (by simpa using hl)
        refine ⟨[a] :: gs, by rw [h1]; simp, ?_, ?_, ?_, ?_⟩
        · simpa using h2.perm
        · intro g hg
          rcases List.mem_cons.1 hg with rfl | hg
          · simp
          · exact h2.ne g hg
        · intro g hg
          rcases List.mem_cons.1 hg with rfl | hg
          · intro x hx y hy
            simp only [List.mem_singleton] at hx hy
            exact .inl (hx.trans hy.symm)
          · exact h2.same g hg
        · refine List.pairwise_cons.2 ⟨fun h _ x hx y _ hk => ?_, h2.apart⟩
          simp only [List.mem_singleton] at hx
          subst hx
          exact hlen hk.1

theorem split_ok {nodes : List Node} (hne : nodes ≠ []) (hnd : nodes.Nodup) {n : Nat} (hn : nodes.length ≤ n) :
    ∃ gs, splitIntoCommonFlowGroups nodes n = (some (.ok gs) : Option (Except PyErr _)) ∧ Groups nodes gs := by
  unfold splitIntoCommonFlowGroups
  split_ifs with h
  · refine ⟨[nodes], rfl, by simp, by simpa using hne, ?_, by simp⟩
    intro g hg x hx y hy
    simp only [List.mem_singleton] at hg
    subst hg
    match g, hne, h with
    | [a], _, _ =>
      simp only [List.mem_singleton] at hx hy
      exact .inl (hx.trans hy.symm)
  · obtain ⟨gs, h1, h2⟩ := splitLoop_ok n nodes [] hnd hn
    exact ⟨gs, by simpa using h1, h2⟩

/-! ### Pruning the common flow -/

theorem fromEnd_append (g : List Cell) (x : Cell) : fromEnd (g ++ [x]) 1 = .ok x := by
  unfold fromEnd pyGet pyIdx
  simp only [List.length_append, List.length_singleton, Nat.cast_one]
  rw [if_neg (by omega), if_pos (by push_cast; omega)]
  have : ((-1 : Int) + ((g.length + 1 : Nat) : Int)).toNat = g.length := by omega
  simp only [this]
  simp

theorem fromEnd_two {g : List Cell} (h : 2 ≤ g.length) : ∃ x, g[g.length - 2]? = some x ∧ fromEnd g 2 = .ok x := by
  unfold fromEnd pyGet pyIdx
  refine ⟨g[g.length - 2], List.getElem?_eq_getElem (by omega), ?_⟩
  rw [if_neg (by omega), if_pos (by omega)]
  have : (-((2 : Nat) : Int) + (g.length : Int)).toNat = g.length - 2 := by omega
  simp only [this]
  rw [List.getElem?_eq_getElem (by omega)]

theorem mapM_ok {α β : Type} (f : α → Except PyErr β) (h : α → β) : ∀ (l : List α), (∀ a ∈ l, f a = .ok (h a)) →
    l.mapM f = .ok (l.map h) := by
  intro l
  induction l with
  | nil => intro _; rfl
  | cons a l ih =>
    intro hf
    rw [List.mapM_cons, hf a (by simp), ih fun b hb => hf b (by simp [hb])]
    rfl

theorem allShare_ok {k : Nat} {g0 : List Cell} {geoms : List (List Cell)} {x0 : Cell} (h0 : fromEnd g0 k = .ok x0)
    (x : List Cell → Cell) (hx : ∀ g ∈ geoms, fromEnd g k = .ok (x g)) :
    allShare k g0 geoms = .ok (decide (∀ g ∈ geoms, x0 = x g)) := by
  unfold allShare
  rw [mapM_ok _ (fun g => decide (x0 = x g)) geoms]
  · simp only [bind, Except.bind, pure, Except.pure]
    congr 1
    rw [Bool.eq_iff_iff]
    simp
  · intro g hg
    rw [h0, hx g hg]
    rfl

theorem pruneLoop_ok : ∀ (rs : List Cell) (pres : List (List Cell)) (p0 : List Cell) (shared : List Cell) (n : Nat),
    pres.head? = some p0 → (∀ p ∈ pres, p ≠ []) → (∃ p ∈ pres, p.getLast? ≠ p0.getLast?) → rs.length < n →
    pruneLoop n (pres.map (· ++ rs.reverse)) shared =
      (some (.ok (pres, shared ++ rs)) : Option (Except PyErr _)) := by
  intro rs
  induction rs with
  | nil =>
    intro pres p0 shared n h0 hne hd hn
    obtain ⟨n, rfl⟩ : ∃ m, n = m + 1 := ⟨n - 1, by simp at hn; omega⟩
    have hlast : ∀ p : List Cell, p ≠ [] → fromEnd p 1 = .ok (p.getLast?.getD (0, 0)) := by
      intro p hp
      obtain ⟨q, x, rfl⟩ : ∃ q x, p = q ++ [x] := ⟨p.dropLast, p.getLast hp, (List.dropLast_append_getLast hp).symm⟩
      rw [fromEnd_append]; simp
    have hp0 : p0 ∈ pres := List.mem_of_mem_head? (by rw [h0]; rfl)
    have hmap : pres.map (· ++ ([] : List Cell).reverse) = pres := by simp
    have hhead : pres.headD [] = p0 := by
      cases pres with
      | nil => simp at h0
      | cons a l => simpa using h0
    rw [hmap, pruneLoop, hhead, allShare_ok (hlast p0 (hne p0 hp0)) _ (fun p hp => hlast p (hne p hp))]
    have hfalse : ¬ ∀ g ∈ pres, p0.getLast?.getD (0, 0) = g.getLast?.getD (0, 0) := by
      intro hall
      obtain ⟨p, hp, hpd⟩ := hd
      apply hpd
      have := hall p hp
      rw [List.getLast?_eq_getLast_of_ne_nil (hne p hp), List.getLast?_eq_getLast_of_ne_nil (hne p0 hp0)] at this ⊢
      simpa using this.symm
    rw [decide_eq_false hfalse]
    simp only [List.append_nil]
    rfl
  | cons x rs ih =>
    intro pres p0 shared n h0 hne hd hn
    obtain ⟨n, rfl⟩ : ∃ m, n = m + 1 := ⟨n - 1, by simp at hn; omega⟩
    have hmap : pres.map (· ++ (x :: rs).reverse) = (pres.map (· ++ rs.reverse)).map (· ++ [x]) := by
      rw [List.map_map]
      apply List.map_congr_left
      intro p _
      simp
    have hhead : ((pres.map (· ++ rs.reverse)).map (· ++ [x])).headD [] = (p0 ++ rs.reverse) ++ [x] := by
      cases pres with
      | nil => simp at h0
      | cons a l => simp only [List.head?_cons, Option.some.injEq] at h0; simp [h0]
    rw [hmap, pruneLoop, hhead, allShare_ok (fromEnd_append _ _) (fun _ => x) (fun g hg => by
      obtain ⟨q, _, rfl⟩ := List.mem_map.1 hg
      exact fromEnd_append _ _)]
    rw [decide_eq_true (fun _ _ => rfl), fromEnd_append]
    have hdrop : ((pres.map (· ++ rs.reverse)).map (· ++ [x])).map List.dropLast = pres.map (· ++ rs.reverse) := by
      rw [List.map_map]
      conv_rhs => rw [← List.map_id (pres.map (· ++ rs.reverse))]
      apply List.map_congr_left
      intro p _
      simp
    rw [hdrop]
    have := ih pres p0 (shared ++ [x]) n h0 hne hd (by simp at hn; omega)
    refine Eq.trans ?_ (this.trans ?_)
    · rfl
    · simp

/-- If none of the paths is a common suffix of all, they have a maximal common suffix leaving non-empty prefixes whose
last cells are not all equal. -/
theorem exists_split : ∀ (n : Nat) (geoms : List (List Cell)) (g0 : List Cell), geoms.head? = some g0 → g0.length ≤ n →
    (∀ g ∈ geoms, ∃ h ∈ geoms, ¬ g <:+ h) →
    ∃ (pres : List (List Cell)) (p0 suf : List Cell), geoms = pres.map (· ++ suf) ∧ pres.head? = some p0 ∧
      (∀ p ∈ pres, p ≠ []) ∧ ∃ p ∈ pres, p.getLast? ≠ p0.getLast? := by
  intro n
  induction n with
  | zero =>
    intro geoms g0 h0 hl hno
    have : g0 = [] := List.length_eq_zero_iff.1 (by omega)
    subst this
    obtain ⟨h, _, hh⟩ := hno [] (List.mem_of_mem_head? (by rw [h0]; rfl))
    exact absurd (List.nil_suffix) hh
  | succ n ih =>
    intro geoms g0 h0 hl hno
    have hne : ∀ g ∈ geoms, g ≠ [] := by
      rintro g hg rfl
      obtain ⟨h, _, hh⟩ := hno [] hg
      exact absurd (List.nil_suffix) hh
    have hg0 : g0 ∈ geoms := List.mem_of_mem_head? (by rw [h0]; rfl)
    by_cases hd : ∃ p ∈ geoms, p.getLast? ≠ g0.getLast?
    · exact ⟨geoms, g0, [], by simp, h0, hne, hd⟩
    · push Not at hd
      have hx := List.getLast?_eq_getLast_of_ne_nil (hne g0 hg0)
      generalize g0.getLast (hne g0 hg0) = x at hx
      have hsplit : ∀ g ∈ geoms, g = g.dropLast ++ [x] := by
        intro g hg
        have := hd g hg
        rw [hx, List.getLast?_eq_getLast_of_ne_nil (hne g hg), Option.some.injEq] at this
        rw [← this]
        exact (List.dropLast_append_getLast (hne g hg)).symm
      have hgeoms : geoms = (geoms.map List.dropLast).map (· ++ [x]) := by
        rw [List.map_map]
        conv_lhs => rw [← List.map_id geoms]
        apply List.map_congr_left
        intro g hg
        exact hsplit g hg
      obtain ⟨pres, p0, suf, e1, e2, e3, e4⟩ := ih (geoms.map List.dropLast) g0.dropLast (by
          rw [List.head?_map, h0]; rfl) (by rw [List.length_dropLast]; omega) (by
          intro g' hg'
          obtain ⟨g, hg, rfl⟩ := List.mem_map.1 hg'
          obtain ⟨h, hh, hns⟩ := hno g hg
          refine ⟨h.dropLast, List.mem_map_of_mem hh, fun hs => hns ?_⟩
          rw [hsplit g hg, hsplit h hh]
          obtain ⟨t, ht⟩ := hs
          exact ⟨t, by rw [← ht]; simp⟩)
      refine ⟨pres, p0, suf ++ [x], ?_, e2, e3, e4⟩
      rw [hgeoms, e1, List.map_map]
      apply List.map_congr_left
      intro p _
      simp

end Net
end Malstroem
