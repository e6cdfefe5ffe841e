/-
The whole run of geometric_pourpoint_network: search, grouping, untangling of every group.
-/
import Verif.Proofs.NetUntangle

set_option linter.unusedSectionVars false

namespace Malstroem
open Spec

namespace Net

/-! ### Fuel monotonicity -/

/-- Whenever the first computation ends, the second ends with the same result. -/
def Le {α : Type} (x y : Comp α) : Prop :=
  ∀ r : Except PyErr α, x = (some r : Option (Except PyErr α)) → y = (some r : Option (Except PyErr α))

theorem Le.refl {α : Type} (x : Comp α) : Le x x := fun _ h => h

theorem Le.bind {α β : Type} {x y : Comp α} {f g : α → Comp β} (h : Le x y) (hf : ∀ a, Le (f a) (g a)) :
    Le (x >>= f) (y >>= g) := by
  intro r hr
  cases hx : (x : Option (Except PyErr α)) with
  | none => rw [show x = (none : Option (Except PyErr α)) from hx] at hr; cases hr
  | some a =>
    have hy := h a hx
    rw [show x = (some a : Option (Except PyErr α)) from hx] at hr
    rw [hy]
    cases a with
    | error e => exact hr
    | ok a => exact hf a r hr

theorem Le.out {α : Type} (y : Comp α) : Le Comp.out y := by intro r h; cases h

theorem Le.ite {α : Type} {p : Prop} [Decidable p] {x y x' y' : Comp α} (h : Le x x') (h' : Le y y') :
    Le (if p then x else y) (if p then x' else y') := by split_ifs <;> assumption

variable {flowdir : Raster Nat} {labeled : Raster Int}

theorem downstreamLoop_mono (src : Int) (bg : Option Int) (geo : Bool) : ∀ (n : Nat) (c : Cell) (geom : List Cell),
    Le (downstreamLoop flowdir labeled src bg geo n c geom) (downstreamLoop flowdir labeled src bg geo (n + 1) c geom) := by
  intro n
  induction n with
  | zero => intro c geom; exact Le.out _
  | succ n ih =>
    intro c geom
    rw [downstreamLoop, downstreamLoop]
    refine Le.ite ?_ (Le.refl _)
    dsimp only
    refine Le.ite (Le.refl _) ?_
    split
    · exact Le.refl _
    · exact Le.refl _
    · exact ih _ _

theorem splitLoop_mono : ∀ (n : Nat) (nodes : List Node) (groups : List (List Node)),
    Le (splitLoop n nodes groups) (splitLoop (n + 1) nodes groups) := by
  intro n
  induction n with
  | zero =>
    intro nodes groups
    cases nodes with
    | nil => rw [splitLoop, splitLoop]; exact Le.refl _
    | cons a l => rw [splitLoop]; exact Le.out _
  | succ n ih =>
    intro nodes groups
    cases nodes with
    | nil => rw [splitLoop, splitLoop]; exact Le.refl _
    | cons a l => rw [splitLoop, splitLoop]; exact ih _ _

theorem split_mono (n : Nat) (nodes : List Node) :
    Le (splitIntoCommonFlowGroups nodes n) (splitIntoCommonFlowGroups nodes (n + 1)) :=
  Le.ite (Le.refl _) (splitLoop_mono n nodes [])

theorem pruneLoop_mono : ∀ (n : Nat) (geoms : List (List Cell)) (shared : List Cell),
    Le (pruneLoop n geoms shared) (pruneLoop (n + 1) geoms shared) := by
  intro n
  induction n with
  | zero => intro geoms shared; exact Le.out _
  | succ n ih =>
    intro geoms shared
    rw [pruneLoop, pruneLoop]
    refine Le.bind (Le.refl _) fun b => Le.ite (Le.bind (Le.refl _) fun x => ih _ _) (Le.refl _)

theorem prune_mono (n : Nat) (nodes : List Node) (id : Int) :
    Le (pruneCommonFlow nodes id n) (pruneCommonFlow nodes id (n + 1)) := by
  cases nodes with
  | nil => exact Le.refl _
  | cons a l =>
    simp only [pruneCommonFlow]
    refine Le.ite (Le.refl _) (Le.bind (Le.refl _) fun b => Le.ite (Le.refl _) (Le.bind (pruneLoop_mono _ _ _) fun r => ?_))
    exact Le.refl _

theorem forGroups_mono {p p' : List Node → Int → Comp (List Node × Node)}
    {q q' : List Node → Int → Comp (List (Node × Int))} (hp : ∀ a b, Le (p a b) (p' a b))
    (hq : ∀ a b, Le (q a b) (q' a b)) : ∀ (gs : List (List Node)) (next : Int),
    Le (forGroups p q gs next) (forGroups p' q' gs next) := by
  intro gs
  induction gs with
  | nil => intro next; exact Le.refl _
  | cons g gs ih =>
    intro next
    rw [forGroups.eq_def, forGroups.eq_def]
    dsimp only
    refine Le.ite (Le.bind (hp _ _) fun r => Le.bind (hq _ _) fun inner => Le.bind (ih _) fun outer => Le.refl _) ?_
    cases g with
    | nil => exact Le.refl _
    | cons a l => exact Le.bind (ih _) fun outer => Le.refl _

theorem untangle_mono : ∀ (n : Nat) (nodes : List Node) (next : Int), Le (untangle n nodes next) (untangle (n + 1) nodes next) := by
  intro n
  induction n with
  | zero => intro nodes next; exact Le.out _
  | succ n ih =>
    intro nodes next
    rw [untangle, untangle]
    exact Le.bind (split_mono _ _) fun gs => forGroups_mono (fun a b => prune_mono n a b) ih gs next

theorem untangleAll_mono (n : Nat) : ∀ (A : List (Option Int × List Node)) (next : Int) (acc : List Node),
    Le (untangleAll n A next acc) (untangleAll (n + 1) A next acc) := by
  intro A
  induction A with
  | nil => intro next acc; exact Le.refl _
  | cons e A ih =>
    intro next acc
    rw [untangleAll, untangleAll]
    exact Le.bind (untangle_mono _ _ _) fun ys => ih _ _

theorem groupBy_mono (bg : Option Int) (n : Nat) : ∀ (L : List (Int × Cell)) (A : List (Option Int × List Node)),
    Le (groupByDownstream flowdir labeled bg n L A) (groupByDownstream flowdir labeled bg (n + 1) L A) := by
  intro L
  induction L with
  | nil => intro A; exact Le.refl _
  | cons x L ih =>
    intro A
    rw [groupByDownstream, groupByDownstream]
    exact Le.bind (Le.bind (Le.refl _) fun s => downstreamLoop_mono _ _ _ _ _ _) fun r => ih _

theorem network_mono (args : List PourPointArg) (bg : Option Int) (n : Nat) :
    Le (geometricPourpointNetwork flowdir labeled args bg n) (geometricPourpointNetwork flowdir labeled args bg (n + 1)) :=
  Le.bind (groupBy_mono _ _ _ _) fun _ => Le.bind (Le.refl _) fun _ => untangleAll_mono _ _ _ _

theorem returns_of_le {α : Type} {f : Nat → Comp α} {r : Except PyErr α} (hm : ∀ n, Le (f n) (f (n + 1))) {n : Nat}
    (h : f n = (some r : Option (Except PyErr α))) : Returns f r := by
  refine ⟨n, fun m hnm => ?_⟩
  induction m, hnm using Nat.le_induction with
  | base => exact h
  | succ m _ ih => exact hm m r ih

/-! ### The search from one pour point -/

/-- Result of the search: the next label for raster cells, nothing for an absent pour point. -/
def Found (flowdir : Raster Nat) (labeled : Raster Int) (bg : Option Int) (c : Cell) (d : Option Int) (g : List Cell) :
    Prop :=
  (InGrid flowdir.rows flowdir.cols c ∧
    NextLabel flowdir.rows flowdir.cols flowdir.get labeled.get bg c d g) ∨
  (¬ InGrid flowdir.rows flowdir.cols c ∧ d = none ∧ g = [])

theorem next_ok (hr : labeled.rows = flowdir.rows) (hc : labeled.cols = flowdir.cols)
    (hcodes : ∀ c, flowdir.Has c → flowdir.get c ≤ 8) (bg : Option Int) {c : Cell} {l : List Cell}
    (hl : IsTrace flowdir.rows flowdir.cols flowdir.get c l) :
    ∃ d g, NextLabel flowdir.rows flowdir.cols flowdir.get labeled.get bg c d g ∧
      ∀ (geo : Bool) (n : Nat), l.length < n → nextDownstreamLabel flowdir labeled c bg geo n =
        (some (.ok (d, if geo then g else [])) : Option (Except PyErr _)) := by
  obtain ⟨d, g, h1, h2⟩ := loop_ok labeled hcodes (labeled.get c) bg l c hl
  refine ⟨d, g, ⟨l, hl, h1⟩, fun geo n hn => ?_⟩
  have hin : InGrid flowdir.rows flowdir.cols c := hl.inside c (List.mem_of_mem_head? (by rw [hl.head]; rfl))
  have hlab : labeled.Has c := by unfold Raster.Has; rw [hr, hc]; exact hin
  unfold nextDownstreamLabel
  rw [npGet_ok hlab]
  exact h2 geo [] n hn

/-- The cells downstream are all different. -/
theorem trace_length (hac : ∀ c, ¬ OnCycle flowdir.rows flowdir.cols flowdir.get c) {c : Cell} {l : List Cell}
    (hl : IsTrace flowdir.rows flowdir.cols flowdir.get c l) : l.length ≤ flowdir.rows * flowdir.cols := by
  rw [← Flow.length_cellList]
  exact (List.subperm_of_subset (Flow.trace_nodup l c hl fun b _ => hac b) fun b hb =>
    Flow.mem_cellList.2 (hl.inside b hb)).length_le

theorem exists_trace (hcodes : ∀ c, flowdir.Has c → flowdir.get c ≤ 8)
    (hac : ∀ c, ¬ OnCycle flowdir.rows flowdir.cols flowdir.get c) {c : Cell} (hc : InGrid flowdir.rows flowdir.cols c) :
    ∃ l, IsTrace flowdir.rows flowdir.cols flowdir.get c l := by
  obtain ⟨r, hr⟩ := Flow.traceDownstream_total hcodes _ c le_rfl (fun _ b _ => hac b)
  exact ⟨r.1, (Flow.traceDownstream_correct hcodes _ c r hr).2.2 hc⟩

theorem found_ok (hr : labeled.rows = flowdir.rows) (hc : labeled.cols = flowdir.cols)
    (hpos : 0 < flowdir.rows ∧ 0 < flowdir.cols)
    (hcodes : ∀ c, flowdir.Has c → flowdir.get c ≤ 8) (hac : ∀ c, ¬ OnCycle flowdir.rows flowdir.cols flowdir.get c)
    (bg : Option Int) {c : Cell} (h : InGrid flowdir.rows flowdir.cols c ∨ c = (-1, -1)) :
    ∃ d g, Found flowdir labeled bg c d g ∧ ∀ (geo : Bool) (n : Nat), flowdir.rows * flowdir.cols + 1 ≤ n →
      nextDownstreamLabel flowdir labeled c bg geo n =
        (some (.ok (d, if geo then g else [])) : Option (Except PyErr _)) := by
  rcases h with h | rfl
  · obtain ⟨l, hl⟩ := exists_trace hcodes hac h
    obtain ⟨d, g, h1, h2⟩ := next_ok hr hc hcodes bg hl
    have := trace_length hac hl
    exact ⟨d, g, .inl ⟨h, h1⟩, fun geo n hn => h2 geo n (by omega)⟩
  · have hout : ¬ InGrid flowdir.rows flowdir.cols (-1, -1) := by unfold InGrid; simp
    refine ⟨none, [], .inr ⟨hout, rfl, rfl⟩, fun geo n hn => ?_⟩
    have hg : ∃ v, npGet labeled (-1, -1) = .ok v := by
      have e1 : pyIdx labeled.rows (-1) = some (labeled.rows - 1) := by
        unfold pyIdx; rw [hr]; split_ifs <;> first | omega | (congr 1; omega)
      have e2 : pyIdx labeled.cols (-1) = some (labeled.cols - 1) := by
        unfold pyIdx; rw [hc]; split_ifs <;> first | omega | (congr 1; omega)
      exact ⟨_, by unfold npGet; rw [e1, e2]⟩
    obtain ⟨v, hv⟩ := hg
    obtain ⟨n, rfl⟩ : ∃ m, n = m + 1 := ⟨n - 1, by omega⟩
    unfold nextDownstreamLabel
    rw [hv]
    show downstreamLoop flowdir labeled v bg geo (n + 1) (-1, -1) [] = _
    rw [downstreamLoop, if_neg (by rw [Flow.cellInRaster_iff]; exact hout)]
    cases geo <;> rfl

/-- What the later steps need to know about a search result. -/
structure Facts (flowdir : Raster Nat) (labeled : Raster Int) (bg : Option Int) (c : Cell) (d : Option Int)
    (g : List Cell) : Prop where
  chain : g.IsChain (FlowsTo flowdir.get)
  head : g = [] ∨ (InGrid flowdir.rows flowdir.cols c ∧ g.head? = some c)
  inside : ∀ y ∈ g, InGrid flowdir.rows flowdir.cols y
  inner : ∀ y ∈ g.dropLast, ¬ Foreign labeled.get bg (labeled.get c) y
  last : ∀ e, g.getLast? = some e →
    (Foreign labeled.get bg (labeled.get c) e ∧ d = some (labeled.get e)) ∨
    (¬ Foreign labeled.get bg (labeled.get c) e ∧ d = none ∧
      ∀ q, FlowsTo flowdir.get e q → ¬ InGrid flowdir.rows flowdir.cols q)
  none : g = [] → d = none

theorem Found.facts {bg : Option Int} {c : Cell} {d : Option Int} {g : List Cell} (h : Found flowdir labeled bg c d g) :
    Facts flowdir labeled bg c d g := by
  rcases h with ⟨hin, l, hl, h⟩ | ⟨_, rfl, rfl⟩
  · have hlne : l ≠ [] := by rintro rfl; have := hl.head; simp at this
    rcases h with ⟨pre, x, post, e1, e2, e3, e4, e5⟩ | ⟨e1, e2, e3⟩
    · have hpre : g <+: l := by rw [e5, e1]; exact ⟨post, by simp⟩
      have hgne : g ≠ [] := by rw [e5]; simp
      refine ⟨hl.chain.prefix hpre, .inr ⟨hin, ?_⟩, fun y hy => hl.inside y (hpre.subset hy), ?_, ?_, fun he => absurd he hgne⟩
      · obtain ⟨t, ht⟩ := hpre
        have := hl.head
        rw [← ht, List.head?_append_of_ne_nil _ hgne] at this
        exact this
      · rw [e5, List.dropLast_concat]; exact e2
      · intro e he
        rw [e5] at he
        have : x = e := by simpa using he
        subst this
        exact .inl ⟨e3, e4⟩
    · subst e3
      refine ⟨hl.chain, .inr ⟨hin, hl.head⟩, hl.inside, fun y hy => e1 y (List.dropLast_subset _ hy), ?_, fun he => absurd he hlne⟩
      intro e he
      obtain ⟨e', he', hs⟩ := hl.stop
      have : e' = e := Option.some.inj (he'.symm.trans he)
      subst this
      exact .inr ⟨e1 _ (List.mem_of_getLast? he), e2, hs⟩
  · exact ⟨by simp, .inl rfl, by simp, by simp, by simp, fun _ => rfl⟩

theorem chain_succ {R : Cell → Cell → Prop} : ∀ (g : List Cell), g.IsChain R → ∀ y ∈ g.dropLast, ∃ q ∈ g, R y q := by
  intro g
  induction g with
  | nil => intro _ y hy; simp at hy
  | cons x g ih =>
    intro h y hy
    cases g with
    | nil => simp at hy
    | cons z g =>
      rw [List.dropLast_cons_cons] at hy
      rcases List.mem_cons.1 hy with rfl | hy
      · exact ⟨z, by simp, (List.isChain_cons_cons.1 h).1⟩
      · obtain ⟨q, hq, hR⟩ := ih (List.isChain_cons_cons.1 h).2 y hy
        exact ⟨q, List.mem_cons_of_mem _ hq, hR⟩

theorem chain_trans {rows cols : Nat} {fd : Cell → Nat} : ∀ (g : List Cell) (x : Cell), (x :: g).IsChain (FlowsTo fd) →
    (∀ y ∈ x :: g, InGrid rows cols y) → ∀ y ∈ g, Relation.TransGen (Step rows cols fd) x y := by
  intro g
  induction g with
  | nil => intro x _ _ y hy; simp at hy
  | cons z g ih =>
    intro x h hin y hy
    have hs : Step rows cols fd x z := ⟨hin x (by simp), hin z (by simp), (List.isChain_cons_cons.1 h).1⟩
    rcases List.mem_cons.1 hy with rfl | hy
    · exact .single hs
    · exact .head hs (ih z (List.isChain_cons_cons.1 h).2 (fun w hw => hin w (List.mem_cons_of_mem _ hw)) y hy)

theorem chain_nodup {rows cols : Nat} {fd : Cell → Nat} (hac : ∀ c, ¬ OnCycle rows cols fd c) : ∀ (g : List Cell),
    g.IsChain (FlowsTo fd) → (∀ y ∈ g, InGrid rows cols y) → g.Nodup := by
  intro g
  induction g with
  | nil => intro _ _; exact List.nodup_nil
  | cons x g ih =>
    intro h hin
    refine List.nodup_cons.2 ⟨fun hx => hac x (chain_trans g x h hin x hx), ih ?_ fun y hy => hin y (List.mem_cons_of_mem _ hy)⟩
    exact List.IsChain.tail h

/-! ### Grouping -/

/-- The node built for an enumerated pour point. -/
structure NodeFor (flowdir : Raster Nat) (labeled : Raster Int) (bg : Option Int) (x : Int × Cell) (nd : Node) : Prop where
  id : nd.id = x.1
  pix : nd.pix = x.2
  type : nd.nodetype = .pourpoint
  found : Found flowdir labeled bg x.2 nd.downstream_id nd.geometry

theorem groupBy_ok {bg : Option Int} {N : Nat} : ∀ (L : List (Int × Cell)),
    (∀ x ∈ L, ∃ d g, Found flowdir labeled bg x.2 d g ∧ ∀ (geo : Bool) (n : Nat), N ≤ n →
      nextDownstreamLabel flowdir labeled x.2 bg geo n =
        (some (.ok (d, if geo then g else [])) : Option (Except PyErr _))) →
    ∃ nodes, List.Forall₂ (NodeFor flowdir labeled bg) L nodes ∧ ∀ n, N ≤ n → ∀ A,
      groupByDownstream flowdir labeled bg n L A =
        (some (.ok (nodes.foldl (fun A nd => appendTo nd.downstream_id nd A) A)) : Option (Except PyErr _)) := by
  intro L
  induction L with
  | nil => intro _; exact ⟨[], .nil, fun n _ A => rfl⟩
  | cons x L ih =>
    intro h
    obtain ⟨d, g, hf, h1⟩ := h x (by simp)
    obtain ⟨nodes, h2, h3⟩ := ih fun y hy => h y (List.mem_cons_of_mem _ hy)
    refine ⟨⟨x.1, d, .pourpoint, x.2, g⟩ :: nodes, .cons ⟨rfl, rfl, rfl, hf⟩ h2, fun n hn A => ?_⟩
    have e := h1 true n hn
    rw [if_pos rfl] at e
    rw [groupByDownstream, comp_bind e]
    exact h3 n hn _

theorem appendTo_keys (k : Option Int) (nd : Node) : ∀ A : List (Option Int × List Node),
    (appendTo k nd A).map (·.1) = if k ∈ A.map (·.1) then A.map (·.1) else A.map (·.1) ++ [k] := by
  intro A
  induction A with
  | nil => simp [appendTo]
  | cons e A ih =>
    obtain ⟨k', v⟩ := e
    rw [appendTo]
    by_cases h : k' = k
    · rw [if_pos h]; subst h; simp
    · rw [if_neg h, List.map_cons, ih]
      have hk : k ≠ k' := fun hh => h hh.symm
      simp only [List.map_cons, List.mem_cons, hk, false_or]
      split_ifs <;> simp

theorem appendTo_perm (k : Option Int) (nd : Node) : ∀ A : List (Option Int × List Node),
    ((appendTo k nd A).flatMap (·.2)).Perm (A.flatMap (·.2) ++ [nd]) := by
  intro A
  induction A with
  | nil => simp [appendTo]
  | cons e A ih =>
    obtain ⟨k', v⟩ := e
    rw [appendTo]
    by_cases h : k' = k
    · rw [if_pos h]
      simp only [List.flatMap_cons, List.append_assoc]
      exact List.Perm.append_left v List.perm_append_comm
    · rw [if_neg h]
      simp only [List.flatMap_cons, List.append_assoc]
      exact List.Perm.append_left v ih

theorem appendTo_mem {k : Option Int} {nd : Node} : ∀ {A : List (Option Int × List Node)} {e : Option Int × List Node},
    e ∈ appendTo k nd A → e ∈ A ∨ (e.1 = k ∧ ∃ v, e.2 = v ++ [nd] ∧ (v = [] ∨ (k, v) ∈ A)) := by
  intro A
  induction A with
  | nil => intro e he; simp [appendTo] at he; subst he; exact .inr ⟨rfl, [], rfl, .inl rfl⟩
  | cons f A ih =>
    intro e he
    obtain ⟨k', v⟩ := f
    rw [appendTo] at he
    by_cases h : k' = k
    · rw [if_pos h] at he
      rcases List.mem_cons.1 he with rfl | he
      · exact .inr ⟨h, v, rfl, .inr (by rw [h]; simp)⟩
      · exact .inl (List.mem_cons_of_mem _ he)
    · rw [if_neg h] at he
      rcases List.mem_cons.1 he with rfl | he
      · exact .inl (by simp)
      · rcases ih he with h | ⟨h1, v, h2, h3⟩
        · exact .inl (List.mem_cons_of_mem _ h)
        · exact .inr ⟨h1, v, h2, h3.imp_right (List.mem_cons_of_mem _)⟩

/-- A defaultdict of nodes by their downstream id. -/
structure Assoc (nodes : List Node) (A : List (Option Int × List Node)) : Prop where
  keys : (A.map (·.1)).Nodup
  perm : (A.flatMap (·.2)).Perm nodes
  ne : ∀ e ∈ A, e.2 ≠ []
  down : ∀ e ∈ A, ∀ n ∈ e.2, n.downstream_id = e.1

theorem assoc_foldl : ∀ (nodes nodes0 : List Node) (A : List (Option Int × List Node)), Assoc nodes0 A →
    Assoc (nodes0 ++ nodes) (nodes.foldl (fun A nd => appendTo nd.downstream_id nd A) A) := by
  intro nodes
  induction nodes with
  | nil => intro nodes0 A h; simpa using h
  | cons nd nodes ih =>
    intro nodes0 A h
    rw [List.foldl_cons, List.append_cons]
    refine ih _ _ ⟨?_, (appendTo_perm _ _ _).trans (h.perm.append_right _), fun e he => ?_, fun e he n hn => ?_⟩
    · rw [appendTo_keys]
      split_ifs with hk
      · exact h.keys
      · exact h.keys.append (by simp) (by simpa using hk)
    · rcases appendTo_mem he with he | ⟨_, v, hv, _⟩
      · exact h.ne e he
      · rw [hv]; simp
    · rcases appendTo_mem he with he | ⟨h1, v, hv, h3⟩
      · exact h.down e he n hn
      · rw [hv] at hn
        rcases List.mem_append.1 hn with hn | hn
        · rcases h3 with rfl | h3
          · simp at hn
          · rw [h1]; exact h.down _ h3 n hn
        · rw [h1]
          have : n = nd := by simpa using hn
          rw [this]

theorem assoc_nodes (nodes : List Node) :
    Assoc nodes (nodes.foldl (fun A nd => appendTo nd.downstream_id nd A) []) := by
  simpa using assoc_foldl nodes [] [] ⟨by simp, by simp, by simp, by simp⟩

/-! ### All groups -/

/-- `Post` for groups with different downstream ids. -/
structure Whole (nodes : List Node) (next : Int) (R : List Node) (next' : Int) : Prop where
  le : next ≤ next'
  pps : ((R.filter isPP).map fun n => (n.id, n.pix)).Perm (nodes.map fun n => (n.id, n.pix))
  jids : ((R.filter isJ).map (·.id)).Nodup
  range : ∀ j ∈ R, j.nodetype = .junction → next ≤ j.id ∧ j.id < next'
  heads : ∀ n ∈ R, n.geometry = [] ∨ n.geometry.head? = some n.pix
  junc : ∀ j ∈ R, j.nodetype = .junction → 2 ≤ j.geometry.length ∧
    2 ≤ (R.filter fun n => n.downstream_id = some j.id).length
  downs : ∀ n ∈ R, (∃ m ∈ nodes, n.downstream_id = m.downstream_id ∧ n.geometry.getLast? = m.geometry.getLast?) ∨
    ∃ j ∈ R, j.nodetype = .junction ∧ n.downstream_id = some j.id ∧ n.geometry.getLast? = some j.pix
  routes : ∀ n ∈ nodes, ∃ n' ∈ R, n'.nodetype = .pourpoint ∧ n'.id = n.id ∧ n'.pix = n.pix ∧
    RouteTo R n' n.geometry n.downstream_id
  cells : Tidy nodes → ∀ n ∈ R, n.id ≠ 0 → ∀ x ∈ n.geometry.dropLast, ∃ m ∈ nodes, m.id ≠ 0 ∧ x ∈ m.geometry.dropLast
  disj : Tidy nodes → R.Pairwise Apart
  sub : ∀ n ∈ R, ∃ m ∈ nodes, n.geometry <:+: m.geometry
  long : ∀ n ∈ R, n ∈ nodes ∨ 2 ≤ n.geometry.length

theorem Whole.ofPost {d : Option Int} {nodes : List Node} {m : Nat} {next next' : Int} {R : List Node}
    (h : Post d nodes m next R next') (hd : ∀ n ∈ nodes, n.downstream_id = d) : Whole nodes next R next' where
  le := h.le
  pps := h.pps
  jids := h.jids
  range := h.range
  heads := h.heads
  junc := h.junc
  downs := fun n hn => (h.downs n hn).imp_left fun ⟨e, k, hk, hl⟩ => ⟨k, hk, by rw [e, hd k hk], hl⟩
  routes := fun n hn => by rw [hd n hn]; exact h.routes n hn
  cells := h.cells
  disj := h.disj
  sub := h.sub
  long := h.long

theorem Whole.append {nodes1 nodes2 : List Node} {next next1 next2 : Int} {R1 R2 : List Node}
    (h1 : Whole nodes1 next R1 next1) (h2 : Whole nodes2 next1 R2 next2)
    (hx : Tidy (nodes1 ++ nodes2) → ∀ a ∈ nodes1, ∀ b ∈ nodes2, Apart a b) :
    Whole (nodes1 ++ nodes2) next (R1 ++ R2) next2 where
  le := h1.le.trans h2.le
  pps := by
    rw [List.filter_append, List.map_append, List.map_append]
    exact h1.pps.append h2.pps
  jids := by
    rw [List.filter_append, List.map_append]
    refine h1.jids.append h2.jids fun x hx hy => ?_
    obtain ⟨j, hj, rfl⟩ := List.mem_map.1 hx
    obtain ⟨k, hk, hkj⟩ := List.mem_map.1 hy
    have e1 := h1.range j (List.mem_filter.1 hj).1 (isJ_iff.1 (List.mem_filter.1 hj).2)
    have e2 := h2.range k (List.mem_filter.1 hk).1 (isJ_iff.1 (List.mem_filter.1 hk).2)
    omega
  range := by
    intro j hj hty
    have l1 := h1.le
    have l2 := h2.le
    rcases List.mem_append.1 hj with h | h
    · have := h1.range j h hty; omega
    · have := h2.range j h hty; omega
  heads := by
    intro n hn
    rcases List.mem_append.1 hn with h | h
    · exact h1.heads n h
    · exact h2.heads n h
  junc := by
    intro j hj hty
    rw [List.filter_append, List.length_append]
    rcases List.mem_append.1 hj with h | h
    · have := h1.junc j h hty; exact ⟨this.1, by omega⟩
    · have := h2.junc j h hty; exact ⟨this.1, by omega⟩
  downs := by
    intro n hn
    rcases List.mem_append.1 hn with h | h
    · rcases h1.downs n h with ⟨k, hk, hl⟩ | ⟨j, hj, h⟩
      · exact .inl ⟨k, List.mem_append_left _ hk, hl⟩
      · exact .inr ⟨j, List.mem_append_left _ hj, h⟩
    · rcases h2.downs n h with ⟨k, hk, hl⟩ | ⟨j, hj, h⟩
      · exact .inl ⟨k, List.mem_append_right _ hk, hl⟩
      · exact .inr ⟨j, List.mem_append_right _ hj, h⟩
  routes := by
    intro n hn
    rcases List.mem_append.1 hn with h | h
    · obtain ⟨n', a, b, c, e, r⟩ := h1.routes n h
      exact ⟨n', List.mem_append_left _ a, b, c, e, r.mono (List.subset_append_left _ _)⟩
    · obtain ⟨n', a, b, c, e, r⟩ := h2.routes n h
      exact ⟨n', List.mem_append_right _ a, b, c, e, r.mono (List.subset_append_right _ _)⟩
  cells := by
    intro ht n hn h0 x hx
    rcases List.mem_append.1 hn with h | h
    · obtain ⟨m, hm, h⟩ := h1.cells (ht.mono (List.subset_append_left _ _)) n h h0 x hx
      exact ⟨m, List.mem_append_left _ hm, h⟩
    · obtain ⟨m, hm, h⟩ := h2.cells (ht.mono (List.subset_append_right _ _)) n h h0 x hx
      exact ⟨m, List.mem_append_right _ hm, h⟩
  disj := by
    intro ht
    refine List.pairwise_append.2 ⟨h1.disj (ht.mono (List.subset_append_left _ _)),
      h2.disj (ht.mono (List.subset_append_right _ _)), fun a ha b hb a0 b0 x hxa hxb => ?_⟩
    obtain ⟨a', ha', a0', hxa'⟩ := h1.cells (ht.mono (List.subset_append_left _ _)) a ha a0 x hxa
    obtain ⟨b', hb', b0', hxb'⟩ := h2.cells (ht.mono (List.subset_append_right _ _)) b hb b0 x hxb
    exact hx ht a' ha' b' hb' a0' b0' x hxa' hxb'
  sub := by
    intro n hn
    rcases List.mem_append.1 hn with h | h
    · obtain ⟨m, hm, h⟩ := h1.sub n h
      exact ⟨m, List.mem_append_left _ hm, h⟩
    · obtain ⟨m, hm, h⟩ := h2.sub n h
      exact ⟨m, List.mem_append_right _ hm, h⟩
  long := by
    intro n hn
    rcases List.mem_append.1 hn with h | h
    · exact (h1.long n h).imp_left (List.mem_append_left _)
    · exact (h2.long n h).imp_left (List.mem_append_right _)

theorem untangleAll_ok {fd : Cell → Nat} {n : Nat} : ∀ (A : List (Option Int × List Node)) (next : Int) (acc : List Node),
    (∀ e ∈ A, Bundle fd e.1 e.2 ∧ e.2 ≠ [] ∧ need e.2 ≤ n) → (A.map (·.1)).Nodup → ((A.flatMap (·.2)).map (·.id)).Nodup →
    ∃ R next', untangleAll n A next acc = (some (.ok (acc ++ R)) : Option (Except PyErr _)) ∧
      Whole (A.flatMap (·.2)) next R next' := by
  intro A
  induction A with
  | nil =>
    intro next acc _ _ _
    exact ⟨[], next, by rw [List.append_nil]; rfl, Whole.ofPost (Post.empty (d := none) next) (by simp)⟩
  | cons e A ih =>
    intro next acc h hk hi
    obtain ⟨hb, hne, hn⟩ := h e (by simp)
    obtain ⟨ys, h1, m, h2, _⟩ := untangle_ok n e.2 e.1 hb hne hn next
    rw [List.flatMap_cons, List.map_append] at hi
    rw [List.map_cons] at hk
    obtain ⟨R, next', h3, h4⟩ := ih (lastLabel ys next) (acc ++ ys.map (·.1))
      (fun f hf => h f (List.mem_cons_of_mem _ hf)) (List.nodup_cons.1 hk).2 (List.nodup_append.1 hi).2.1
    refine ⟨ys.map (·.1) ++ R, next', ?_, ?_⟩
    · obtain ⟨k, v⟩ := e
      rw [untangleAll, comp_bind h1]
      rw [List.append_assoc] at h3
      exact h3
    · rw [List.flatMap_cons]
      refine (Whole.ofPost h2 hb.down).append h4 fun ht a ha b hbm => ?_
      intro a0 b0 x hxa hxb
      obtain ⟨f, hf, hbf⟩ := List.mem_flatMap.1 hbm
      have hbb := (h f (List.mem_cons_of_mem _ hf)).1
      have hid : a.id ≠ b.id := fun heq => List.disjoint_of_nodup_append hi (List.mem_map_of_mem ha)
        (heq ▸ List.mem_map_of_mem hbm)
      have := (ht.sameKey (List.mem_append_left _ ha) (List.mem_append_right _ hbm) (hb.chain a ha) (hbb.chain b hbf)
        (hb.head a ha) (hbb.head b hbf) a0 b0 hid hxa hxb).2
      rw [hb.down a ha, hbb.down b hbf] at this
      exact (List.nodup_cons.1 hk).1 (this ▸ List.mem_map_of_mem hf)

/-! ### The run -/

/-- The pour points are given in order, as cells or as features carrying their index as `bspot_id`. -/
def Listing (args : List PourPointArg) (pps : List Cell) : Prop :=
  List.Forall₂ (fun (a : PourPointArg) (x : Cell × Nat) => a = .pix x.1 ∨ a = .feature (x.2 : Int) x.1) args pps.zipIdx

theorem enum_aux : ∀ (args : List PourPointArg) (pps : List Cell) (k : Nat),
    List.Forall₂ (fun (a : PourPointArg) (x : Cell × Nat) => a = .pix x.1 ∨ a = .feature (x.2 : Int) x.1) args
      (pps.zipIdx k) →
    ((args.zipIdx k).map fun x => match x.1 with
      | .pix cell => ((x.2 : Int), cell)
      | .feature bspot_id cell => (bspot_id, cell)) = (pps.zipIdx k).map fun x => ((x.2 : Int), x.1) := by
  intro args
  induction args with
  | nil =>
    intro pps k h
    cases pps with
    | nil => rfl
    | cons p pps => rw [List.zipIdx_cons] at h; cases h
  | cons a args ih =>
    intro pps k h
    cases pps with
    | nil => rw [List.zipIdx_nil] at h; cases h
    | cons p pps =>
      rw [List.zipIdx_cons] at h
      rcases h with _ | ⟨h1, h2⟩
      rw [List.zipIdx_cons, List.zipIdx_cons, List.map_cons, List.map_cons, ih pps (k + 1) h2]
      rcases h1 with rfl | rfl <;> rfl

theorem enum_eq {args : List PourPointArg} {pps : List Cell} (h : Listing args pps) :
    pourpointEnumerator args = pps.zipIdx.map fun x => ((x.2 : Int), x.1) := enum_aux args pps 0 h

/-- The node of a pour point. -/
structure PPNode (flowdir : Raster Nat) (labeled : Raster Int) (pps : List Cell) (n : Node) (i : Nat) : Prop where
  get : pps[i]? = some n.pix
  id : n.id = i
  type : n.nodetype = .pourpoint
  facts : Facts flowdir labeled (some 0) n.pix n.downstream_id n.geometry
  found : Found flowdir labeled (some 0) n.pix n.downstream_id n.geometry

variable {pps : List Cell}

theorem PPNode.label (hg : GoodPourPoints flowdir.rows flowdir.cols flowdir.get labeled.get pps) {n : Node} {i : Nat}
    (h : PPNode flowdir labeled pps n i) (hne : n.geometry ≠ []) : labeled.get n.pix = i := by
  rcases h.facts.head with he | ⟨hin, _⟩
  · exact absurd he hne
  · rcases Nat.eq_zero_or_pos i with rfl | hpos
    · rcases hg.background n.pix h.get with he | ⟨_, h0, _⟩
      · rw [he] at hin; unfold InGrid at hin; simp at hin
      · simpa using h0
    · exact (hg.own i n.pix hpos h.get).2

theorem PPNode.short (hg : GoodPourPoints flowdir.rows flowdir.cols flowdir.get labeled.get pps) {n : Node}
    (h : PPNode flowdir labeled pps n 0) : n.geometry.length ≤ 2 := by
  by_contra hlt
  have hne : n.geometry ≠ [] := by intro he; rw [he] at hlt; simp at hlt
  have hl := h.label hg hne
  rcases h.facts.head with he | ⟨hin, hh⟩
  · exact hne he
  · match hgm : n.geometry with
    | [] => exact hne hgm
    | [_] => rw [hgm] at hlt; simp at hlt
    | [_, _] => rw [hgm] at hlt; simp at hlt
    | a :: b :: c :: t =>
      rw [hgm] at hh
      have ha : a = n.pix := by simpa using hh
      have hch := h.facts.chain
      rw [hgm] at hch
      have hs : Step flowdir.rows flowdir.cols flowdir.get n.pix b :=
        ⟨hin, h.facts.inside b (by rw [hgm]; simp), ha ▸ (List.isChain_cons_cons.1 hch).1⟩
      rcases hg.background n.pix h.get with he | ⟨_, _, hb⟩
      · rw [he] at hin; unfold InGrid at hin; simp at hin
      · have h0 := hb b hs
        apply h.facts.inner b (by rw [hgm]; simp)
        refine ⟨by rw [hl]; simpa using h0, by simpa using h0⟩

/-- A pour point with a label is not met on the way of another to the same label. -/
theorem PPNode.apart (hg : GoodPourPoints flowdir.rows flowdir.cols flowdir.get labeled.get pps) {n m : Node} {i j : Nat}
    (hn : PPNode flowdir labeled pps n i) (hm : PPNode flowdir labeled pps m j) (hij : i ≠ j) (hi : 1 ≤ i)
    (hd : n.downstream_id = m.downstream_id) : n.pix ∉ m.geometry := by
  intro hx
  have hmne := List.ne_nil_of_mem hx
  have hlm := hm.label hg hmne
  have hln := (hg.own i n.pix hi hn.get).2
  have hfor : Foreign labeled.get (some 0) (labeled.get m.pix) n.pix := by
    refine ⟨by rw [hln, hlm]; exact_mod_cast hij, by rw [hln]; simp; omega⟩
  have hlast : m.geometry.getLast? = some n.pix := by
    rw [← List.dropLast_append_getLast hmne] at hx
    rcases List.mem_append.1 hx with hx | hx
    · exact absurd hfor (hm.facts.inner _ hx)
    · rw [List.getLast?_eq_getLast_of_ne_nil hmne]
      rw [List.mem_singleton] at hx
      rw [hx]
  rcases hm.facts.last _ hlast with ⟨_, h2⟩ | ⟨h1, _⟩
  · rw [h2] at hd
    have hnne : n.geometry ≠ [] := by
      intro he
      have := hn.facts.none he
      rw [this] at hd; cases hd
    rcases hn.facts.last (n.geometry.getLast hnne) (List.getLast?_eq_getLast_of_ne_nil hnne) with ⟨h3, h4⟩ | ⟨_, h4, _⟩
    · rw [h4] at hd
      exact h3.1 (Option.some.inj hd)
    · rw [h4] at hd; cases hd
  · exact h1 hfor

theorem PPNode.start (hg : GoodPourPoints flowdir.rows flowdir.cols flowdir.get labeled.get pps) {n m : Node} {i j : Nat}
    (hn : PPNode flowdir labeled pps n i) (hm : PPNode flowdir labeled pps m j) (hij : i ≠ j) (hi : 1 ≤ i) :
    n.pix ∉ m.geometry.dropLast := by
  intro hx
  have hmne := List.ne_nil_of_mem (List.dropLast_subset _ hx)
  have hlm := hm.label hg hmne
  have hln := (hg.own i n.pix hi hn.get).2
  exact hm.facts.inner _ hx ⟨by rw [hln, hlm]; exact_mod_cast hij, by rw [hln]; simp; omega⟩

/-- The search result list handed to the untangling. -/
structure Starts (flowdir : Raster Nat) (labeled : Raster Int) (pps : List Cell) (nodes : List Node) : Prop where
  perm : (nodes.map fun n => (n.id, n.pix)).Perm (pps.zipIdx.map fun x => ((x.2 : Int), x.1))
  node : ∀ n ∈ nodes, ∃ i, PPNode flowdir labeled pps n i

theorem Starts.ids {nodes : List Node} (h : Starts flowdir labeled pps nodes) : (nodes.map (·.id)).Nodup := by
  have h1 : (nodes.map (·.id)).Perm (pps.zipIdx.map fun x => (x.2 : Int)) := by
    have := h.perm.map Prod.fst
    rwa [List.map_map, List.map_map] at this
  rw [h1.nodup_iff]
  have : (pps.zipIdx.map fun x => (x.2 : Int)) = (pps.zipIdx.map Prod.snd).map (fun k : Nat => (k : Int)) := by
    rw [List.map_map]; rfl
  rw [this]
  refine List.Nodup.map (fun a b hab => by exact_mod_cast hab) ?_
  rw [List.zipIdx_map_snd]
  exact List.nodup_range'

theorem Starts.tidy {nodes : List Node} (hac : ∀ c, ¬ OnCycle flowdir.rows flowdir.cols flowdir.get c)
    (hg : GoodPourPoints flowdir.rows flowdir.cols flowdir.get labeled.get pps)
    (hself : ∀ (i : Nat) (p : Cell), 1 ≤ i → pps[i]? = some p → ∀ q,
      Relation.TransGen (Step flowdir.rows flowdir.cols flowdir.get) p q → labeled.get q ≠ i)
    (h : Starts flowdir labeled pps nodes) : Tidy nodes := by
  have htail : ∀ (m : Node) (j : Nat), PPNode flowdir labeled pps m j → 1 ≤ j → ∀ e ∈ m.geometry.tail,
      labeled.get e ≠ j := by
    intro m j hm hj e he
    rcases hm.facts.head with h0 | ⟨_, hh⟩
    · rw [h0] at he; simp at he
    · obtain ⟨t, ht⟩ : ∃ t, m.geometry = m.pix :: t := by
        cases hgm : m.geometry with
        | nil => rw [hgm] at hh; simp at hh
        | cons a t => rw [hgm] at hh; exact ⟨t, by rw [Option.some.inj hh]⟩
      have hc := hm.facts.chain
      have hi := hm.facts.inside
      rw [ht] at he hc hi
      exact hself j m.pix hj hm.get e (chain_trans t m.pix hc hi e he)
  have hzero : ∀ (m : Node) (j : Nat) (e : Cell), PPNode flowdir labeled pps m j → m.geometry ≠ [] →
      labeled.get e ≠ 0 → ¬ Foreign labeled.get (some 0) (labeled.get m.pix) e → labeled.get e = j ∧ 1 ≤ j := by
    intro m j e hm hne h0 hnf
    have hl := hm.label hg hne
    have : labeled.get e = j := by
      by_contra hne'
      exact hnf ⟨by rw [hl]; exact hne', by simpa using h0⟩
    refine ⟨this, ?_⟩
    rcases Nat.eq_zero_or_pos j with rfl | hp
    · exact absurd (by simpa using this) h0
    · exact hp
  refine ⟨fun n hn => ?_, fun n hn m hm e he hx => ?_, fun n hn m hm n0 m0 hne => ?_, fun n hn n0 => ?_,
    fun n hn m hm hn1 hm1 e hen hem => ?_⟩
  · obtain ⟨i, h1⟩ := h.node n hn
    exact chain_nodup hac _ h1.facts.chain h1.facts.inside
  · obtain ⟨i, h1⟩ := h.node n hn
    obtain ⟨j, h2⟩ := h.node m hm
    have hxd := List.mem_of_mem_tail hx
    have hmne : m.geometry ≠ [] := List.ne_nil_of_mem (List.dropLast_subset _ hxd)
    rcases h1.facts.last e he with ⟨h3, _⟩ | ⟨_, _, h3⟩
    · have h0 : labeled.get e ≠ 0 := by simpa using h3.2
      obtain ⟨h4, h5⟩ := hzero m j e h2 hmne h0 (h2.facts.inner e hxd)
      refine htail m j h2 h5 e ?_ h4
      rw [List.tail_dropLast] at hx
      exact List.dropLast_subset _ hx
    · obtain ⟨q, hq, hf⟩ := chain_succ _ h2.facts.chain e hxd
      exact h3 q hf (h2.facts.inside q hq)
  · obtain ⟨i, h1⟩ := h.node n hn
    obtain ⟨j, h2⟩ := h.node m hm
    have := h1.id
    have := h2.id
    exact h1.start hg h2 (by omega) (by omega)
  · obtain ⟨i, h1⟩ := h.node n hn
    have : i = 0 := by have := h1.id; omega
    subst this
    exact h1.short hg
  · obtain ⟨i, h1⟩ := h.node n hn
    obtain ⟨j, h2⟩ := h.node m hm
    have key : ∀ (n m : Node) (i : Nat), PPNode flowdir labeled pps n i → n.geometry.dropLast ≠ [] →
        n.geometry.getLast? = some e → ¬ Foreign labeled.get (some 0) (labeled.get n.pix) e →
        Foreign labeled.get (some 0) (labeled.get m.pix) e → False := by
      intro n m i h1 hn1 hen hnf hf
      have hne : n.geometry ≠ [] := by intro he; rw [he] at hn1; exact hn1 rfl
      have h0 : labeled.get e ≠ 0 := by simpa using hf.2
      obtain ⟨h4, h5⟩ := hzero n i e h1 hne h0 hnf
      refine htail n i h1 h5 e ?_ h4
      have : n.geometry.tail ≠ [] := by
        intro ht
        cases hgm : n.geometry with
        | nil => exact hne hgm
        | cons a t => rw [hgm] at ht hn1; simp at ht; subst ht; exact hn1 rfl
      have hl := List.getLast?_eq_getLast_of_ne_nil hne
      rw [hen] at hl
      rw [Option.some.inj hl, ← List.getLast_tail this]
      exact List.getLast_mem this
    rcases h1.facts.last e hen with ⟨h3, h4⟩ | ⟨h3, h4, _⟩ <;> rcases h2.facts.last e hem with ⟨h5, h6⟩ | ⟨h5, h6, _⟩
    · rw [h4, h6]
    · exact absurd (key m n j h2 hm1 hem h5 h3) id
    · exact absurd (key n m i h1 hn1 hen h3 h5) id
    · rw [h4, h6]

theorem forall2_starts : ∀ {L : List (Int × Cell)} {nodes : List Node},
    List.Forall₂ (NodeFor flowdir labeled (some 0)) L nodes → (nodes.map fun n => (n.id, n.pix)) = L ∧
      ∀ n ∈ nodes, ∃ x ∈ L, NodeFor flowdir labeled (some 0) x n := by
  intro L nodes h
  induction h with
  | nil => exact ⟨rfl, by simp⟩
  | cons h1 _ ih =>
    refine ⟨by rw [List.map_cons, ih.1, h1.id, h1.pix], fun n hn => ?_⟩
    rcases List.mem_cons.1 hn with rfl | hn
    · exact ⟨_, by simp, h1⟩
    · obtain ⟨x, hx, h⟩ := ih.2 n hn
      exact ⟨x, List.mem_cons_of_mem _ hx, h⟩

theorem node_pp {n : Node} {x : Int × Cell} (hx : x ∈ pps.zipIdx.map fun x => ((x.2 : Int), x.1))
    (h : NodeFor flowdir labeled (some 0) x n) : ∃ i, PPNode flowdir labeled pps n i := by
  obtain ⟨y, hy, rfl⟩ := List.mem_map.1 hx
  have hget := List.mem_zipIdx_iff_getElem?.1 hy
  have hf := h.found
  have hp := h.pix
  dsimp only at hf hp
  rw [← hp] at hf hget
  exact ⟨y.2, hget, h.id, h.type, hf.facts, hf⟩

theorem good_points (hg : GoodPourPoints flowdir.rows flowdir.cols flowdir.get labeled.get pps) {i : Nat} {p : Cell}
    (h : pps[i]? = some p) : InGrid flowdir.rows flowdir.cols p ∨ p = (-1, -1) := by
  rcases Nat.eq_zero_or_pos i with rfl | hpos
  · rcases hg.background p h with h | h
    · exact .inr h
    · exact .inl h.1
  · exact .inl (hg.own i p hpos h).1

theorem pos_of_good (hg : GoodPourPoints flowdir.rows flowdir.cols flowdir.get labeled.get pps) :
    0 < flowdir.rows ∧ 0 < flowdir.cols := by
  obtain ⟨c, hc, _⟩ := hg.labels
  unfold InGrid at hc
  omega

/-- Highest label. -/
theorem exists_max (lab : Raster Int) (h : 0 < lab.rows ∧ 0 < lab.cols) :
    ∃ M, Label.npMax lab = .ok M ∧ ∀ c, lab.Has c → lab.get c ≤ M := by
  have hfin : {l | ∃ c, InGrid lab.rows lab.cols c ∧ lab.get c = l}.Finite := by
    have := (inGrid_finite lab.rows lab.cols).image lab.get
    refine this.subset ?_
    rintro l ⟨c, hc, rfl⟩
    exact ⟨c, hc, rfl⟩
  have hne : {l | ∃ c, InGrid lab.rows lab.cols c ∧ lab.get c = l}.Nonempty :=
    ⟨_, (0, 0), by unfold InGrid; simp; omega, rfl⟩
  obtain ⟨M, hM⟩ := hfin.exists_maximalFor id _ hne
  have hgr : IsGreatest {l | ∃ c, InGrid lab.rows lab.cols c ∧ lab.get c = l} M := by
    refine ⟨hM.1, fun y hy => ?_⟩
    by_contra hlt
    push Not at hlt
    exact absurd (hM.2 hy hlt.le) (by simpa using hlt)
  exact ⟨M, Label.npMax_spec hgr, fun c hc => hgr.2 ⟨c, hc, rfl⟩⟩

/-- The pour points grouped by their downstream label. -/
theorem network_groups (hr : labeled.rows = flowdir.rows) (hc : labeled.cols = flowdir.cols)
    (hcodes : ∀ c, flowdir.Has c → flowdir.get c ≤ 8) (hac : ∀ c, ¬ OnCycle flowdir.rows flowdir.cols flowdir.get c)
    (hg : GoodPourPoints flowdir.rows flowdir.cols flowdir.get labeled.get pps) {args : List PourPointArg}
    (hl : Listing args pps) :
    ∃ A M, (∀ n, flowdir.rows * flowdir.cols + 1 ≤ n → groupByDownstream flowdir labeled (some 0) n (pourpointEnumerator args) [] =
        (some (.ok A) : Option (Except PyErr _))) ∧ Label.npMax labeled = .ok M ∧
      (∀ c, labeled.Has c → labeled.get c ≤ M) ∧ Starts flowdir labeled pps (A.flatMap (·.2)) ∧
      (∀ e ∈ A, Bundle flowdir.get e.1 e.2 ∧ e.2 ≠ [] ∧ ∀ i, e.1 = some i → i ≤ M) ∧ (A.map (·.1)).Nodup := by
  have hpos := pos_of_good hg
  obtain ⟨M, hM, hmax⟩ := exists_max labeled (by rw [hr, hc]; exact hpos)
  obtain ⟨nodes, h1, h2⟩ := groupBy_ok (flowdir := flowdir) (labeled := labeled) (bg := some 0)
    (pourpointEnumerator args) (by
      intro x hx
      rw [enum_eq hl] at hx
      obtain ⟨y, hy, rfl⟩ := List.mem_map.1 hx
      exact found_ok hr hc hpos hcodes hac _ (good_points hg (List.mem_zipIdx_iff_getElem?.1 hy)))
  rw [enum_eq hl] at h1
  have hst0 := forall2_starts h1
  have hA := assoc_nodes nodes
  generalize hAdef : nodes.foldl (fun A nd => appendTo nd.downstream_id nd A) [] = A at hA
  have hst : Starts flowdir labeled pps (A.flatMap (·.2)) := by
    refine ⟨(hA.perm.map _).trans (by rw [hst0.1]), fun n hn => ?_⟩
    obtain ⟨x, hx, h⟩ := hst0.2 n (hA.perm.mem_iff.1 hn)
    exact node_pp hx h
  have hids := hst.ids
  have hbund : ∀ e ∈ A, Bundle flowdir.get e.1 e.2 := by
    intro e he
    have hmem : ∀ n ∈ e.2, n ∈ A.flatMap (·.2) := fun n hn => List.mem_flatMap.2 ⟨e, he, hn⟩
    refine ⟨?_, fun n hn => ?_, hA.down e he, fun n hn => ?_, fun n hn => ?_, fun n hn m hm hne hln hlm => ?_⟩
    · rw [List.flatMap_def] at hids
      exact hids.sublist ((List.sublist_flatten_of_mem (List.mem_map_of_mem (f := fun e : Option Int × List Node => e.2) he)).map _)
    · obtain ⟨i, h⟩ := hst.node n (hmem n hn); exact h.type
    · obtain ⟨i, h⟩ := hst.node n (hmem n hn); exact h.facts.chain
    · obtain ⟨i, h⟩ := hst.node n (hmem n hn); exact h.facts.head.imp_right (·.2)
    · obtain ⟨i, h⟩ := hst.node n (hmem n hn)
      obtain ⟨j, h'⟩ := hst.node m (hmem m hm)
      have e1 := h.id
      have e2 := h'.id
      refine h.apart hg h' (by omega) ?_ (by rw [hA.down e he n hn, hA.down e he m hm])
      rcases Nat.eq_zero_or_pos i with rfl | hp
      · have := h.short hg; omega
      · exact hp
  refine ⟨A, M, fun n hn => by rw [h2 n hn [], hAdef], hM, hmax, hst, fun e he => ⟨hbund e he, hA.ne e he, fun i hi => ?_⟩, hA.keys⟩
  obtain ⟨n, hn⟩ := List.exists_mem_of_ne_nil _ (hA.ne e he)
  obtain ⟨k, hk⟩ := hst.node n (List.mem_flatMap.2 ⟨e, he, hn⟩)
  have hd := hA.down e he n hn
  rw [hi] at hd
  rcases hk.found with ⟨_, l, hl, ⟨pre, x, post, e1, _, _, e4, _⟩ | ⟨_, e2, _⟩⟩ | ⟨_, h0, _⟩
  · rw [hd] at e4
    obtain rfl := Option.some.inj e4
    exact hmax x (by unfold Raster.Has; rw [hr, hc]; exact hl.inside x (by rw [e1]; simp))
  · rw [hd] at e2; cases e2
  · rw [hd] at h0; cases h0

/-- The network is built with as much fuel as there are cells and pour points. -/
theorem network_within (hr : labeled.rows = flowdir.rows) (hc : labeled.cols = flowdir.cols)
    (hcodes : ∀ c, flowdir.Has c → flowdir.get c ≤ 8) (hac : ∀ c, ¬ OnCycle flowdir.rows flowdir.cols flowdir.get c)
    (hg : GoodPourPoints flowdir.rows flowdir.cols flowdir.get labeled.get pps) {args : List PourPointArg}
    (hl : Listing args pps) :
    ∃ nodes R M next', geometricPourpointNetwork flowdir labeled args (some 0) (flowdir.rows * flowdir.cols + pps.length + 2) =
        (some (.ok R) : Option (Except PyErr _)) ∧
      Starts flowdir labeled pps nodes ∧ Whole nodes (M + 1) R next' ∧
      (∀ c, labeled.Has c → labeled.get c ≤ M) ∧ (pps.length : Int) ≤ M + 1 := by
  obtain ⟨A, M, h2, hM, hmax, hst, hA, hkeys⟩ := network_groups hr hc hcodes hac hg hl
  have hK : ∀ e ∈ A, need e.2 ≤ flowdir.rows * flowdir.cols + pps.length + 2 := by
    intro e he
    have hmem : ∀ n ∈ e.2, n ∈ A.flatMap (·.2) := fun n hn => List.mem_flatMap.2 ⟨e, he, hn⟩
    have h1 : longest e.2 ≤ flowdir.rows * flowdir.cols := by
      refine longest_le.2 fun n hn => ?_
      obtain ⟨i, h⟩ := hst.node n (hmem n hn)
      rw [← Flow.length_cellList]
      exact (List.subperm_of_subset (chain_nodup hac _ h.facts.chain h.facts.inside) fun b hb =>
        Flow.mem_cellList.2 (h.facts.inside b hb)).length_le
    have h2 : e.2.length ≤ pps.length := by
      have := hst.perm.length_eq
      simp only [List.length_map, List.length_zipIdx] at this
      rw [← this, List.flatMap_def]
      exact (List.sublist_flatten_of_mem (List.mem_map_of_mem (f := fun e : Option Int × List Node => e.2) he)).length_le
    unfold need
    omega
  obtain ⟨R, next', h3, h4⟩ := untangleAll_ok (fd := flowdir.get) (n := flowdir.rows * flowdir.cols + pps.length + 2) A (M + 1) []
    (fun e he => ⟨(hA e he).1, (hA e he).2.1, hK e he⟩) hkeys hst.ids
  refine ⟨A.flatMap (·.2), R, M, next', ?_, hst, h4, hmax, ?_⟩
  · unfold geometricPourpointNetwork
    rw [comp_bind (h2 _ (by omega)), hM]
    exact h3
  · obtain ⟨c, hcin, hle⟩ := hg.labels
    have := hmax c (by unfold Raster.Has; rw [hr, hc]; exact hcin)
    omega

theorem network_ok (hr : labeled.rows = flowdir.rows) (hc : labeled.cols = flowdir.cols)
    (hcodes : ∀ c, flowdir.Has c → flowdir.get c ≤ 8) (hac : ∀ c, ¬ OnCycle flowdir.rows flowdir.cols flowdir.get c)
    (hg : GoodPourPoints flowdir.rows flowdir.cols flowdir.get labeled.get pps) {args : List PourPointArg}
    (hl : Listing args pps) :
    ∃ nodes R M next', Returns (geometricPourpointNetwork flowdir labeled args (some 0)) (.ok R) ∧
      Starts flowdir labeled pps nodes ∧ Whole nodes (M + 1) R next' ∧
      (∀ c, labeled.Has c → labeled.get c ≤ M) ∧ (pps.length : Int) ≤ M + 1 := by
  obtain ⟨nodes, R, M, next', h, h'⟩ := network_within hr hc hcodes hac hg hl
  exact ⟨nodes, R, M, next', returns_of_le (fun n => network_mono args (some 0) n) h, h'⟩

end Net
end Malstroem
