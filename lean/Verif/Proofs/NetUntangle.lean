/-
The untangling of common flow.
-/
import Verif.Proofs.NetCore

set_option linter.unusedSectionVars false

namespace Malstroem
open Spec

namespace Net

/-- Nodes draining to the same node `d` along flow paths, none of which passes through the start of another. -/
structure Bundle (fd : Cell → Nat) (d : Option Int) (nodes : List Node) : Prop where
  ids : (nodes.map (·.id)).Nodup
  type : ∀ n ∈ nodes, n.nodetype = .pourpoint
  down : ∀ n ∈ nodes, n.downstream_id = d
  chain : ∀ n ∈ nodes, n.geometry.IsChain (FlowsTo fd)
  head : ∀ n ∈ nodes, n.geometry = [] ∨ n.geometry.head? = some n.pix
  apart : ∀ n ∈ nodes, ∀ m ∈ nodes, n.id ≠ m.id → 2 < n.geometry.length → 2 < m.geometry.length → n.pix ∉ m.geometry

variable {fd : Cell → Nat} {d : Option Int}

theorem Bundle.nodup {nodes : List Node} (h : Bundle fd d nodes) : nodes.Nodup := List.Nodup.of_map _ h.ids

theorem Bundle.mono {nodes nodes' : List Node} (h : Bundle fd d nodes) (hs : nodes'.Subperm nodes) :
    Bundle fd d nodes' where
  ids := by
    obtain ⟨l, hp, hsl⟩ := hs
    exact (hp.map _).nodup_iff.1 (h.ids.sublist (hsl.map _))
  type := fun n hn => h.type n (hs.subset hn)
  down := fun n hn => h.down n (hs.subset hn)
  chain := fun n hn => h.chain n (hs.subset hn)
  head := fun n hn => h.head n (hs.subset hn)
  apart := fun n hn m hm => h.apart n (hs.subset hn) m (hs.subset hm)

/-- The node after the insertion of a junction. -/
def redirect (id : Int) (pix : Cell) (pre : Node → List Cell) (n : Node) : Node :=
  { n with downstream_id := some id, geometry := pre n ++ [pix] }

/-- What pruning a group with common flow does. -/
structure Pruned (d : Option Int) (G : List Node) (id : Int) (G' : List Node) (J : Node) (pre : Node → List Cell) :
    Prop where
  node : J.id = id ∧ J.downstream_id = d ∧ J.nodetype = .junction
  len : 2 ≤ J.geometry.length
  head : J.geometry.head? = some J.pix
  split : ∀ n ∈ G, n.geometry = pre n ++ J.geometry
  ne : ∀ n ∈ G, pre n ≠ []
  last : ∃ n ∈ G, ∃ m ∈ G, (pre n).getLast? ≠ (pre m).getLast?
  nodes : G' = G.map (redirect id J.pix pre)

theorem getElem?_len_sub_two {g p suf : List Cell} {x : Cell} (hg : g = p ++ [x] ++ suf) :
    (suf.length = 1 → g[g.length - 2]? = some x) := by
  intro h
  subst hg
  match suf, h with
  | [y], _ => simp

theorem chain_last_of_two {g h : List Cell} (hg : g.IsChain (FlowsTo fd)) (hh : h.IsChain (FlowsTo fd))
    (lg : 2 ≤ g.length) (lh : 2 ≤ h.length) (he : g[g.length - 2]? = h[h.length - 2]?) : g.getLast? = h.getLast? := by
  have key : ∀ g : List Cell, g.IsChain (FlowsTo fd) → 2 ≤ g.length →
      ∃ x y, g[g.length - 2]? = some x ∧ g.getLast? = some y ∧ FlowsTo fd x y := by
    intro g hg lg
    refine ⟨g[g.length - 2], g[g.length - 1], List.getElem?_eq_getElem _, ?_, ?_⟩
    · rw [List.getLast?_eq_getElem?]; exact List.getElem?_eq_getElem _
    · have := List.isChain_iff_getElem.1 hg (g.length - 2) (by omega)
      have e : g.length - 2 + 1 = g.length - 1 := by omega
      simp only [e] at this
      exact this
  obtain ⟨x, y, h1, h2, h3⟩ := key g hg lg
  obtain ⟨x', y', h1', h2', h3'⟩ := key h hh lh
  rw [h1, h1', Option.some.injEq] at he
  subst he
  rw [h2, h2', Flow.flowsTo_det h3 h3']

/-- The length of the longest path. -/
def longest (nodes : List Node) : Nat := (nodes.map fun a => a.geometry.length).foldr max 0

theorem longest_le {nodes : List Node} {n : Nat} : longest nodes ≤ n ↔ ∀ a ∈ nodes, a.geometry.length ≤ n := by
  unfold longest
  induction nodes with
  | nil => simp
  | cons a l ih => simp [ih]

theorem le_longest {nodes : List Node} {a : Node} (h : a ∈ nodes) : a.geometry.length ≤ longest nodes :=
  longest_le.1 le_rfl a h

theorem prune_ok {G : List Node} (hb : Bundle fd d G) (h2 : 1 < G.length)
    (hk : ∀ a ∈ G, ∀ b ∈ G, a = b ∨ SameKey a b) (id : Int) {n : Nat}
    (hn : longest G < n) :
    ∃ G' J pre, pruneCommonFlow G id n = (some (.ok (G', J)) : Option (Except PyErr _)) ∧ Pruned d G id G' J pre := by
  obtain ⟨n0, rest, rfl⟩ : ∃ a l, G = a :: l := by
    cases G with
    | nil => simp at h2
    | cons a l => exact ⟨a, l, rfl⟩
  have hother : ∀ a ∈ n0 :: rest, ∃ b ∈ n0 :: rest, b ≠ a := by
    intro a ha
    by_contra hcon
    push Not at hcon
    have hrest : rest ≠ [] := by rintro rfl; simp at h2
    obtain ⟨b, l, rfl⟩ := List.exists_cons_of_ne_nil hrest
    have e1 := hcon n0 (by simp)
    have e2 := hcon b (by simp)
    have := hb.nodup
    rw [e1, e2] at this
    simp at this
  have hlen : ∀ a ∈ n0 :: rest, 2 < a.geometry.length := by
    intro a ha
    obtain ⟨b, hb', hne⟩ := hother a ha
    rcases hk b hb' a ha with h | h
    · exact absurd h hne
    · exact h.2.1
  have hkey : ∀ a ∈ n0 :: rest, ∀ b ∈ n0 :: rest,
      a.geometry[a.geometry.length - 2]? = b.geometry[b.geometry.length - 2]? := by
    intro a ha b hb'
    rcases hk a ha b hb' with rfl | h
    · rfl
    · exact h.2.2
  have hidne : ∀ a ∈ n0 :: rest, ∀ b ∈ n0 :: rest, a ≠ b → a.id ≠ b.id := by
    intro a ha b hb' hne he
    exact hne (List.inj_on_of_nodup_map hb.ids ha hb' he)
  have hno : ∀ g ∈ (n0 :: rest).map (·.geometry), ∃ h ∈ (n0 :: rest).map (·.geometry), ¬ g <:+ h := by
    intro g hg
    obtain ⟨a, ha, rfl⟩ := List.mem_map.1 hg
    obtain ⟨b, hb', hne⟩ := hother a ha
    refine ⟨b.geometry, List.mem_map_of_mem hb', fun hs => ?_⟩
    have hpix : a.pix ∈ a.geometry := by
      rcases hb.head a ha with h | h
      · have := hlen a ha; rw [h] at this; simp at this
      · exact List.mem_of_mem_head? (by rw [h]; rfl)
    exact hb.apart a ha b hb' (hidne a ha b hb' hne.symm) (hlen a ha) (hlen b hb') (hs.subset hpix)
  obtain ⟨pres, p0, suf, e1, e2, e3, e4⟩ := exists_split n0.geometry.length _ n0.geometry (by simp) le_rfl hno
  let pre : Node → List Cell := fun a => a.geometry.take (a.geometry.length - suf.length)
  have hpres : pres = (n0 :: rest).map pre := by
    have : pres = (pres.map (· ++ suf)).map fun g => g.take (g.length - suf.length) := by
      rw [List.map_map]
      conv_lhs => rw [← List.map_id pres]
      apply List.map_congr_left
      intro p _
      simp
    rw [this, ← e1, List.map_map]
    rfl
  have hsplit : ∀ a ∈ n0 :: rest, a.geometry = pre a ++ suf := by
    intro a ha
    have hm : a.geometry ∈ pres.map (· ++ suf) := by rw [← e1]; exact List.mem_map_of_mem ha
    obtain ⟨p, _, hp⟩ := List.mem_map.1 hm
    show a.geometry = a.geometry.take _ ++ suf
    rw [← hp]; simp
  have hpne : ∀ a ∈ n0 :: rest, pre a ≠ [] := by
    intro a ha
    exact e3 _ (by rw [hpres]; exact List.mem_map_of_mem ha)
  have hp0 : p0 = pre n0 := by
    rw [hpres] at e2; simpa using e2.symm
  have hlast : ∃ a ∈ n0 :: rest, (pre a).getLast? ≠ (pre n0).getLast? := by
    obtain ⟨p, hp, hpd⟩ := e4
    rw [hpres] at hp
    obtain ⟨a, ha, rfl⟩ := List.mem_map.1 hp
    exact ⟨a, ha, by rw [← hp0]; exact hpd⟩
  -- the common part has at least two cells
  have hsuf : 2 ≤ suf.length := by
    obtain ⟨a, ha, had⟩ := hlast
    by_contra hlt
    have hn0 : n0 ∈ n0 :: rest := by simp
    rcases Nat.lt_or_ge suf.length 1 with h0 | h1
    · have hs : suf = [] := List.length_eq_zero_iff.1 (by omega)
      apply had
      have h1 := hsplit a ha
      have h2 := hsplit n0 hn0
      rw [hs, List.append_nil] at h1 h2
      rw [← h1, ← h2]
      exact chain_last_of_two (hb.chain a ha) (hb.chain n0 hn0) (hlen a ha).le (hlen n0 hn0).le (hkey a ha n0 hn0)
    · have hs1 : suf.length = 1 := by omega
      apply had
      have key : ∀ b ∈ n0 :: rest, b.geometry[b.geometry.length - 2]? = (pre b).getLast? := by
        intro b hb'
        obtain ⟨q, x, hq⟩ : ∃ q x, pre b = q ++ [x] :=
          ⟨(pre b).dropLast, (pre b).getLast (hpne b hb'), (List.dropLast_append_getLast _).symm⟩
        rw [hq, getElem?_len_sub_two (x := x) (p := q) (suf := suf) (by rw [← hq]; exact hsplit b hb') hs1]
        simp
      rw [← key a ha, ← key n0 hn0]
      exact hkey a ha n0 hn0
  obtain ⟨pix, stl, hpix⟩ : ∃ x l, suf = x :: l := by
    cases suf with
    | nil => simp at hsuf
    | cons x l => exact ⟨x, l, rfl⟩
  refine ⟨(n0 :: rest).map (redirect id pix pre), ⟨id, d, .junction, pix, suf⟩, pre, ?_, ?_⟩
  · have hd0 : n0.downstream_id = d := hb.down n0 (by simp)
    unfold pruneCommonFlow
    dsimp only
    have hall : (n0 :: rest).all (fun n => decide (n0.downstream_id = n.downstream_id)) = true := by
      rw [List.all_eq_true]
      intro a ha
      rw [hd0, hb.down a ha]; simp
    rw [if_neg (by rw [hall]; simp)]
    obtain ⟨x0, hx0, hf0⟩ := fromEnd_two (hlen n0 (by simp)).le
    rw [comp_bind (a := true)]
    · simp only [not_true_eq_false, if_false]
      have hloop := pruneLoop_ok suf.reverse pres p0 [] n e2 e3 e4 (by
        rw [List.length_reverse]
        have : suf.length ≤ n0.geometry.length := by rw [hsplit n0 (by simp)]; simp
        have : n0.geometry.length ≤ longest (n0 :: rest) := le_longest (by simp)
        omega)
      rw [List.reverse_reverse, ← e1, List.nil_append] at hloop
      rw [comp_bind hloop]
      dsimp only
      rw [List.reverse_reverse]
      have hmap : ((n0 :: rest).zip pres).map (fun x => ({ x.1 with downstream_id := some id, geometry := x.2 ++ [pix] } : Node)) =
          (n0 :: rest).map (redirect id pix pre) := by
        rw [hpres, ← List.map_prod_left_eq_zip, List.map_map]
        rfl
      subst hpix
      dsimp only
      rw [hd0, hmap]
      rfl
    · have := allShare_ok (k := 2) (geoms := (n0 :: rest).map (·.geometry)) hf0 (fun g => (g[g.length - 2]?).getD (0, 0))
        (by
          intro g hg
          obtain ⟨a, ha, rfl⟩ := List.mem_map.1 hg
          obtain ⟨x, hx, hf⟩ := fromEnd_two (hlen a ha).le
          rw [hf, hx]; rfl)
      rw [this, decide_eq_true]
      · rfl
      · intro g hg
        obtain ⟨a, ha, rfl⟩ := List.mem_map.1 hg
        rw [← hkey n0 (by simp) a ha, hx0]; rfl
  · refine ⟨⟨rfl, rfl, rfl⟩, hsuf, by rw [hpix]; rfl, hsplit, hpne, ?_, rfl⟩
    obtain ⟨a, ha, had⟩ := hlast
    exact ⟨a, ha, n0, by simp, had⟩

theorem Pruned.bundle {G G' : List Node} {id : Int} {J : Node} {pre : Node → List Cell} (hb : Bundle fd d G)
    (hp : Pruned d G id G' J pre) : Bundle fd (some id) G' := by
  obtain ⟨s, hs⟩ : ∃ s, J.geometry = J.pix :: s := by
    have := hp.head
    cases hg : J.geometry with
    | nil => rw [hg] at this; simp at this
    | cons x s => rw [hg] at this; simp at this; exact ⟨s, by rw [this]⟩
  have hpref : ∀ n ∈ G, n.geometry = (pre n ++ [J.pix]) ++ s := by
    intro n hn
    rw [hp.split n hn, hs]; simp
  have hmem : ∀ m ∈ G', ∃ n ∈ G, m = redirect id J.pix pre n := by
    intro m hm
    rw [hp.nodes] at hm
    obtain ⟨n, hn, rfl⟩ := List.mem_map.1 hm
    exact ⟨n, hn, rfl⟩
  refine ⟨?_, ?_, ?_, ?_, ?_, ?_⟩
  · rw [hp.nodes, List.map_map]; exact hb.ids
  · intro m hm
    obtain ⟨n, hn, rfl⟩ := hmem m hm
    exact hb.type n hn
  · intro m hm
    obtain ⟨n, hn, rfl⟩ := hmem m hm
    rfl
  · intro m hm
    obtain ⟨n, hn, rfl⟩ := hmem m hm
    have := hb.chain n hn
    rw [hpref n hn] at this
    exact this.left_of_append
  · intro m hm
    obtain ⟨n, hn, rfl⟩ := hmem m hm
    right
    show (pre n ++ [J.pix]).head? = some n.pix
    rcases hb.head n hn with h | h
    · rw [hp.split n hn] at h
      exact absurd (List.append_eq_nil_iff.1 h).1 (hp.ne n hn)
    · rw [hp.split n hn, List.head?_append_of_ne_nil _ (hp.ne n hn)] at h
      rw [List.head?_append_of_ne_nil _ (hp.ne n hn), h]
  · intro m hm k hk hne hlm hlk
    obtain ⟨n, hn, rfl⟩ := hmem m hm
    obtain ⟨n', hn', rfl⟩ := hmem k hk
    have l1 : 2 < n.geometry.length := by
      have hlm : 2 < (pre n ++ [J.pix]).length := hlm
      rw [hpref n hn, List.length_append]; omega
    have l2 : 2 < n'.geometry.length := by
      have hlk : 2 < (pre n' ++ [J.pix]).length := hlk
      rw [hpref n' hn', List.length_append]; omega
    intro hmem
    refine hb.apart n hn n' hn' hne l1 l2 ?_
    rw [hpref n' hn']
    exact List.mem_append_left _ hmem

theorem Pruned.total {G G' : List Node} {id : Int} {J : Node} {pre : Node → List Cell} (hne : G ≠ [])
    (hp : Pruned d G id G' J pre) : longest G' < longest G := by
  have key : ∀ n ∈ G, (redirect id J.pix pre n).geometry.length < n.geometry.length := by
    intro n hn
    show (pre n ++ [J.pix]).length < n.geometry.length
    rw [hp.split n hn, List.length_append, List.length_append]
    have := hp.len
    simp; omega
  obtain ⟨a, ha⟩ := List.exists_mem_of_ne_nil _ hne
  have h1 := key a ha
  have h2 := le_longest ha
  suffices longest G' ≤ longest G - 1 by omega
  rw [hp.nodes]
  refine longest_le.2 fun b hb => ?_
  obtain ⟨n, hn, rfl⟩ := List.mem_map.1 hb
  have := key n hn
  have := le_longest hn
  omega

/-- After pruning, not all nodes share the last but one cell. -/
theorem Pruned.notSame {G G' : List Node} {id : Int} {J : Node} {pre : Node → List Cell}
    (hp : Pruned d G id G' J pre) : ¬ ∀ a ∈ G', ∀ b ∈ G', a = b ∨ SameKey a b := by
  intro hall
  obtain ⟨n, hn, m, hm, hl⟩ := hp.last
  have h1 : redirect id J.pix pre n ∈ G' := by rw [hp.nodes]; exact List.mem_map_of_mem hn
  have h2 : redirect id J.pix pre m ∈ G' := by rw [hp.nodes]; exact List.mem_map_of_mem hm
  have key : ∀ b ∈ G, (redirect id J.pix pre b).geometry[(redirect id J.pix pre b).geometry.length - 2]? =
      (pre b).getLast? := by
    intro b hb'
    obtain ⟨q, x, hq⟩ : ∃ q x, pre b = q ++ [x] :=
      ⟨(pre b).dropLast, (pre b).getLast (hp.ne b hb'), (List.dropLast_append_getLast _).symm⟩
    rw [getElem?_len_sub_two (x := x) (p := q) (suf := [J.pix]) (by show pre b ++ [J.pix] = _; rw [hq]) rfl, hq]
    simp
  apply hl
  rw [← key n hn, ← key m hm]
  rcases hall _ h1 _ h2 with h | h
  · rw [h]
  · exact h.2.2

/-- The path from a node through junctions to the node `d`. -/
inductive RouteTo (nodes : List Node) : Node → List Cell → Option Int → Prop
  | stop {n} : RouteTo nodes n n.geometry n.downstream_id
  | via {n j path d} : j ∈ nodes → j.nodetype = .junction → n.downstream_id = some j.id →
      n.geometry.getLast? = some j.pix → RouteTo nodes j path d → RouteTo nodes n (n.geometry.dropLast ++ path) d

theorem RouteTo.mono {R R' : List Node} (h : R ⊆ R') {n : Node} {p : List Cell} {d : Option Int}
    (hr : RouteTo R n p d) : RouteTo R' n p d := by
  induction hr with
  | stop => exact .stop
  | via h1 h2 h3 h4 _ ih => exact .via (h h1) h2 h3 h4 ih

theorem RouteTo.ne {R : List Node} (hj : ∀ j ∈ R, j.nodetype = .junction → j.geometry ≠ []) {n : Node} {p : List Cell}
    {d : Option Int} (hr : RouteTo R n p d) (hn : n.geometry ≠ []) : p ≠ [] := by
  induction hr with
  | stop => exact hn
  | via h1 h2 _ _ _ ih =>
    intro h
    exact ih (hj _ h1 h2) (List.append_eq_nil_iff.1 h).2

/-- A route to the junction `J` continues from there. -/
theorem RouteTo.extend {R : List Node} (hj : ∀ j ∈ R, j.nodetype = .junction → j.geometry ≠ []) {n : Node}
    {p : List Cell} {J : Node} {d e : Option Int} (hr : RouteTo R n p d)
    (hd : d = some J.id) (hJ : J ∈ R) (hty : J.nodetype = .junction) (hl : p.getLast? = some J.pix)
    (hJd : J.downstream_id = e) :
    RouteTo R n (p.dropLast ++ J.geometry) e := by
  induction hr with
  | stop => subst hJd; exact .via hJ hty hd hl .stop
  | @via n j path d h1 h2 h3 h4 hr' ih =>
    have hpath : path ≠ [] := hr'.ne hj (hj j h1 h2)
    rw [List.getLast?_append_of_ne_nil _ hpath] at hl
    have := RouteTo.via h1 h2 h3 h4 (ih hd hl)
    rw [List.dropLast_append_of_ne_nil hpath, List.append_assoc]
    exact this

def isPP (n : Node) : Bool := decide (n.nodetype = .pourpoint)
def isJ (n : Node) : Bool := decide (n.nodetype = .junction)

/-- Two nodes other than node 0 have at most the last cells of their streams in common. -/
def Apart (n m : Node) : Prop := n.id ≠ 0 → m.id ≠ 0 → ∀ x ∈ n.geometry.dropLast, x ∉ m.geometry.dropLast

/-- Paths without repeated cells, ending nowhere inside and starting nowhere inside one another; the path of node 0 is
short. -/
structure Tidy (nodes : List Node) : Prop where
  nodup : ∀ n ∈ nodes, n.geometry.Nodup
  stop : ∀ n ∈ nodes, ∀ m ∈ nodes, ∀ e, n.geometry.getLast? = some e → e ∉ m.geometry.dropLast.tail
  start : ∀ n ∈ nodes, ∀ m ∈ nodes, n.id ≠ 0 → m.id ≠ 0 → n.id ≠ m.id → n.pix ∉ m.geometry.dropLast
  short : ∀ n ∈ nodes, n.id = 0 → n.geometry.length ≤ 2
  down : ∀ n ∈ nodes, ∀ m ∈ nodes, n.geometry.dropLast ≠ [] → m.geometry.dropLast ≠ [] → ∀ e,
    n.geometry.getLast? = some e → m.geometry.getLast? = some e →
    n.downstream_id = m.downstream_id

theorem Tidy.mono {nodes nodes' : List Node} (h : Tidy nodes) (hs : nodes' ⊆ nodes) : Tidy nodes' :=
  ⟨fun n hn => h.nodup n (hs hn), fun n hn m hm => h.stop n (hs hn) m (hs hm), fun n hn m hm => h.start n (hs hn) m (hs hm),
    fun n hn => h.short n (hs hn), fun n hn m hm => h.down n (hs hn) m (hs hm)⟩

theorem chain_prefix : ∀ (a b : List Cell) (x : Cell), (x :: a).IsChain (FlowsTo fd) → (x :: b).IsChain (FlowsTo fd) →
    a <+: b ∨ b <+: a := by
  intro a
  induction a with
  | nil => intro b x _ _; exact .inl List.nil_prefix
  | cons y a ih =>
    intro b x h1 h2
    cases b with
    | nil => exact .inr List.nil_prefix
    | cons z b =>
      have e : y = z := Flow.flowsTo_det (List.isChain_cons_cons.1 h1).1 (List.isChain_cons_cons.1 h2).1
      subst e
      rcases ih b y (List.isChain_cons_cons.1 h1).2 (List.isChain_cons_cons.1 h2).2 with h | h
      · exact .inl (List.cons_prefix_cons.2 ⟨rfl, h⟩)
      · exact .inr (List.cons_prefix_cons.2 ⟨rfl, h⟩)

/-- Tidy paths that share a cell before their ends share the last two cells. -/
theorem Tidy.sameKey {nodes : List Node} (h : Tidy nodes) {a b : Node} (ha : a ∈ nodes) (hb : b ∈ nodes)
    (ca : a.geometry.IsChain (FlowsTo fd)) (cb : b.geometry.IsChain (FlowsTo fd))
    (hha : a.geometry = [] ∨ a.geometry.head? = some a.pix) (hhb : b.geometry = [] ∨ b.geometry.head? = some b.pix)
    (ha0 : a.id ≠ 0) (hb0 : b.id ≠ 0) (hid : a.id ≠ b.id) {x : Cell} (hxa : x ∈ a.geometry.dropLast) (hxb : x ∈ b.geometry.dropLast) :
    SameKey a b ∧ a.downstream_id = b.downstream_id := by
  have cut : ∀ g : List Cell, x ∈ g.dropLast → ∃ g1 g2, g = g1 ++ x :: g2 ∧ g2 ≠ [] := by
    intro g hx
    have hne : g ≠ [] := by rintro rfl; simp at hx
    obtain ⟨g1, g2, hg⟩ := List.append_of_mem hx
    refine ⟨g1, g2 ++ [g.getLast hne], ?_, by simp⟩
    conv_lhs => rw [← List.dropLast_append_getLast hne, hg]
    simp
  obtain ⟨a1, a2, ea, na⟩ := cut _ hxa
  obtain ⟨b1, b2, eb, nb⟩ := cut _ hxb
  have key : ∀ {a b : Node}, a ∈ nodes → b ∈ nodes → ∀ {a1 a2 b1 b2 : List Cell}, a.geometry = a1 ++ x :: a2 →
      b.geometry = b1 ++ x :: b2 → a2 ≠ [] → b2 ≠ [] → a2 <+: b2 → a2 = b2 := by
    intro a b ha hb a1 a2 b1 b2 ea eb na nb hp
    obtain ⟨t, ht⟩ := hp
    by_cases htn : t = []
    · rw [← ht, htn, List.append_nil]
    · exfalso
      refine h.stop a ha b hb (a2.getLast na) ?_ ?_
      · rw [ea, List.getLast?_append_of_ne_nil _ (by simp), List.getLast?_cons, List.getLast?_eq_getLast_of_ne_nil na]
        rfl
      · have hmem : a2.getLast na ∈ a2 ++ t.dropLast := List.mem_append_left _ (List.getLast_mem na)
        rw [eb, ← ht, List.dropLast_append_of_ne_nil (by simp), ← List.cons_append, List.dropLast_append_of_ne_nil htn,
          List.cons_append]
        cases b1 with
        | nil => exact hmem
        | cons y b1 => exact List.mem_append_right _ (List.mem_cons_of_mem _ hmem)
  have hca : (x :: a2).IsChain (FlowsTo fd) := by rw [ea] at ca; exact ca.right_of_append
  have hcb : (x :: b2).IsChain (FlowsTo fd) := by rw [eb] at cb; exact cb.right_of_append
  have heq : a2 = b2 := by
    rcases chain_prefix a2 b2 x hca hcb with hp | hp
    · exact key ha hb ea eb na nb hp
    · exact (key hb ha eb ea nb na hp).symm
  subst heq
  have hna1 : a1 ≠ [] := by
    rintro rfl
    rcases hha with h0 | h0
    · rw [h0] at ea; simp at ea
    · rw [ea] at h0
      simp only [List.nil_append, List.head?_cons, Option.some.injEq] at h0
      exact h.start a ha b hb ha0 hb0 hid (h0 ▸ hxb)
  have hnb1 : b1 ≠ [] := by
    rintro rfl
    rcases hhb with h0 | h0
    · rw [h0] at eb; simp at eb
    · rw [eb] at h0
      simp only [List.nil_append, List.head?_cons, Option.some.injEq] at h0
      exact h.start b hb a ha hb0 ha0 hid.symm (h0 ▸ hxa)
  have la : 0 < a1.length := List.length_pos_of_ne_nil hna1
  have lb : 0 < b1.length := List.length_pos_of_ne_nil hnb1
  have l2 : 0 < a2.length := List.length_pos_of_ne_nil na
  have hsuf : ∀ p : List Cell, (p ++ x :: a2)[(p ++ x :: a2).length - 2]? = (x :: a2)[a2.length - 1]? := by
    intro p
    rw [List.getElem?_append_right (by simp; omega)]
    congr 1
    simp
    omega
  refine ⟨⟨by rw [ea]; simp; omega, by rw [eb]; simp; omega, by rw [ea, eb, hsuf, hsuf]⟩, ?_⟩
  refine h.down a ha b hb (List.ne_nil_of_mem hxa) (List.ne_nil_of_mem hxb) (a2.getLast na) ?_ ?_
  · rw [ea, List.getLast?_append_of_ne_nil _ (by simp), List.getLast?_cons, List.getLast?_eq_getLast_of_ne_nil na]; rfl
  · rw [eb, List.getLast?_append_of_ne_nil _ (by simp), List.getLast?_cons, List.getLast?_eq_getLast_of_ne_nil na]; rfl

/-- What untangling nodes draining to `d` returns. -/
structure Post (d : Option Int) (nodes : List Node) (m : Nat) (next : Int) (R : List Node) (next' : Int) : Prop where
  le : next ≤ next'
  pps : ((R.filter isPP).map fun n => (n.id, n.pix)).Perm (nodes.map fun n => (n.id, n.pix))
  jids : ((R.filter isJ).map (·.id)).Nodup
  range : ∀ j ∈ R, j.nodetype = .junction → next ≤ j.id ∧ j.id < next'
  heads : ∀ n ∈ R, n.geometry = [] ∨ n.geometry.head? = some n.pix
  junc : ∀ j ∈ R, j.nodetype = .junction → 2 ≤ j.geometry.length ∧
    2 ≤ (R.filter fun n => n.downstream_id = some j.id).length
  downs : ∀ n ∈ R, (n.downstream_id = d ∧ ∃ m ∈ nodes, n.geometry.getLast? = m.geometry.getLast?) ∨
    ∃ j ∈ R, j.nodetype = .junction ∧ n.downstream_id = some j.id ∧ n.geometry.getLast? = some j.pix
  routes : ∀ n ∈ nodes, ∃ n' ∈ R, n'.nodetype = .pourpoint ∧ n'.id = n.id ∧ n'.pix = n.pix ∧ RouteTo R n' n.geometry d
  count : m ≤ (R.filter fun n => n.downstream_id = d).length
  cells : Tidy nodes → ∀ n ∈ R, n.id ≠ 0 → ∀ x ∈ n.geometry.dropLast, ∃ m ∈ nodes, m.id ≠ 0 ∧ x ∈ m.geometry.dropLast
  disj : Tidy nodes → R.Pairwise Apart
  sub : ∀ n ∈ R, ∃ m ∈ nodes, n.geometry <:+: m.geometry
  long : ∀ n ∈ R, n ∈ nodes ∨ 2 ≤ n.geometry.length

theorem Post.jne {nodes : List Node} {m : Nat} {next next' : Int} {R : List Node} (h : Post d nodes m next R next') :
    ∀ j ∈ R, j.nodetype = .junction → j.geometry ≠ [] := by
  intro j hj hty he
  have := (h.junc j hj hty).1
  rw [he] at this
  simp at this

theorem Post.empty (next : Int) : Post d [] 0 next [] next where
  le := le_rfl
  pps := by simp
  jids := by simp
  range := by simp
  heads := by simp
  junc := by simp
  downs := by simp
  routes := by simp
  count := by simp
  cells := by simp
  disj := by simp
  sub := by simp
  long := by simp

theorem isJ_iff {n : Node} : isJ n = true ↔ n.nodetype = .junction := by simp [isJ]

theorem Post.append {nodes1 nodes2 : List Node} {m1 m2 : Nat} {next next1 next2 : Int} {R1 R2 : List Node}
    (h1 : Post d nodes1 m1 next R1 next1) (h2 : Post d nodes2 m2 next1 R2 next2)
    (hx : Tidy (nodes1 ++ nodes2) → ∀ a ∈ nodes1, ∀ b ∈ nodes2, Apart a b) :
    Post d (nodes1 ++ nodes2) (m1 + m2) next (R1 ++ R2) next2 where
  le := h1.le.trans h2.le
  pps := by
    rw [List.filter_append, List.map_append, List.map_append]
    exact h1.pps.append h2.pps
  jids := by
    rw [List.filter_append, List.map_append]
    refine h1.jids.append h2.jids fun x hx hy => ?_
    obtain ⟨j, hj, rfl⟩ := List.mem_map.1 hx
    obtain ⟨k, hk, hkj⟩ := List.mem_map.1 hy
    have e1 := h1.range j (List.mem_filter.1 hj).1 (isJ_iff.1 (List.mem_filter.1 hj).2)
    have e2 := h2.range k (List.mem_filter.1 hk).1 (isJ_iff.1 (List.mem_filter.1 hk).2)
    omega
  range := by
    intro j hj hty
    have l1 := h1.le
    have l2 := h2.le
    rcases List.mem_append.1 hj with h | h
    · have := h1.range j h hty; omega
    · have := h2.range j h hty; omega
  heads := by
    intro n hn
    rcases List.mem_append.1 hn with h | h
    · exact h1.heads n h
    · exact h2.heads n h
  junc := by
    intro j hj hty
    rw [List.filter_append, List.length_append]
    rcases List.mem_append.1 hj with h | h
    · have := h1.junc j h hty; exact ⟨this.1, by omega⟩
    · have := h2.junc j h hty; exact ⟨this.1, by omega⟩
  downs := by
    intro n hn
    rcases List.mem_append.1 hn with h | h
    · rcases h1.downs n h with ⟨h, k, hk, hl⟩ | ⟨j, hj, h⟩
      · exact .inl ⟨h, k, List.mem_append_left _ hk, hl⟩
      · exact .inr ⟨j, List.mem_append_left _ hj, h⟩
    · rcases h2.downs n h with ⟨h, k, hk, hl⟩ | ⟨j, hj, h⟩
      · exact .inl ⟨h, k, List.mem_append_right _ hk, hl⟩
      · exact .inr ⟨j, List.mem_append_right _ hj, h⟩
  routes := by
    intro n hn
    rcases List.mem_append.1 hn with h | h
    · obtain ⟨n', a, b, c, e, r⟩ := h1.routes n h
      exact ⟨n', List.mem_append_left _ a, b, c, e, r.mono (List.subset_append_left _ _)⟩
    · obtain ⟨n', a, b, c, e, r⟩ := h2.routes n h
      exact ⟨n', List.mem_append_right _ a, b, c, e, r.mono (List.subset_append_right _ _)⟩
  count := by
    rw [List.filter_append, List.length_append]
    have := h1.count
    have := h2.count
    omega
  cells := by
    intro ht n hn h0 x hx
    rcases List.mem_append.1 hn with h | h
    · obtain ⟨m, hm, h⟩ := h1.cells (ht.mono (List.subset_append_left _ _)) n h h0 x hx
      exact ⟨m, List.mem_append_left _ hm, h⟩
    · obtain ⟨m, hm, h⟩ := h2.cells (ht.mono (List.subset_append_right _ _)) n h h0 x hx
      exact ⟨m, List.mem_append_right _ hm, h⟩
  disj := by
    intro ht
    refine List.pairwise_append.2 ⟨h1.disj (ht.mono (List.subset_append_left _ _)),
      h2.disj (ht.mono (List.subset_append_right _ _)), fun a ha b hb a0 b0 x hxa hxb => ?_⟩
    obtain ⟨a', ha', a0', hxa'⟩ := h1.cells (ht.mono (List.subset_append_left _ _)) a ha a0 x hxa
    obtain ⟨b', hb', b0', hxb'⟩ := h2.cells (ht.mono (List.subset_append_right _ _)) b hb b0 x hxb
    exact hx ht a' ha' b' hb' a0' b0' x hxa' hxb'
  sub := by
    intro n hn
    rcases List.mem_append.1 hn with h | h
    · obtain ⟨m, hm, h⟩ := h1.sub n h
      exact ⟨m, List.mem_append_left _ hm, h⟩
    · obtain ⟨m, hm, h⟩ := h2.sub n h
      exact ⟨m, List.mem_append_right _ hm, h⟩
  long := by
    intro n hn
    rcases List.mem_append.1 hn with h | h
    · exact (h1.long n h).imp_left (List.mem_append_left _)
    · exact (h2.long n h).imp_left (List.mem_append_right _)

theorem Post.single {n : Node} (hty : n.nodetype = .pourpoint) (hd : n.downstream_id = d)
    (hh : n.geometry = [] ∨ n.geometry.head? = some n.pix) (next : Int) : Post d [n] 1 next [n] next where
  le := le_rfl
  pps := by simp [isPP, hty]
  jids := by simp [isJ, hty]
  range := by intro j hj h; simp only [List.mem_singleton] at hj; subst hj; rw [hty] at h; cases h
  heads := by intro j hj; simp only [List.mem_singleton] at hj; subst hj; exact hh
  junc := by intro j hj h; simp only [List.mem_singleton] at hj; subst hj; rw [hty] at h; cases h
  downs := by intro j hj; simp only [List.mem_singleton] at hj; subst hj; exact .inl ⟨hd, j, by simp, rfl⟩
  routes := by
    intro m hm
    simp only [List.mem_singleton] at hm
    subst hm
    exact ⟨m, by simp, hty, rfl, rfl, by have := RouteTo.stop (nodes := [m]) (n := m); rwa [hd] at this⟩
  count := by simp [hd]
  cells := by intro _ j hj h0 x hx; exact ⟨j, hj, h0, hx⟩
  disj := by intro _; exact List.pairwise_singleton _ _
  sub := by intro j hj; exact ⟨j, hj, List.infix_rfl⟩
  long := by intro j hj; exact .inl hj

theorem Pruned.ne_zero {G G' : List Node} {id : Int} {J : Node} {pre : Node → List Cell}
    (hp : Pruned d G id G' J pre) (ht : Tidy G) : ∀ n ∈ G, n.id ≠ 0 := by
  intro n hn h0
  have := ht.short n hn h0
  rw [hp.split n hn, List.length_append] at this
  have := List.length_pos_of_ne_nil (hp.ne n hn)
  have := hp.len
  omega

theorem Pruned.tidy {G G' : List Node} {id : Int} {J : Node} {pre : Node → List Cell}
    (hp : Pruned d G id G' J pre) (ht : Tidy G) : Tidy G' := by
  have hJ : J.geometry ≠ [] := by intro he; have := hp.len; rw [he] at this; simp at this
  have hmem : ∀ k ∈ G', ∃ n ∈ G, k = redirect id J.pix pre n := by
    intro k hk
    rw [hp.nodes] at hk
    obtain ⟨n, hn, rfl⟩ := List.mem_map.1 hk
    exact ⟨n, hn, rfl⟩
  have hpix : J.pix ∈ J.geometry := List.mem_of_mem_head? (by rw [hp.head]; rfl)
  have hsub : ∀ n ∈ G, pre n ⊆ n.geometry.dropLast := by
    intro n hn x hx
    rw [hp.split n hn, List.dropLast_append_of_ne_nil hJ]
    exact List.mem_append_left _ hx
  refine ⟨fun k hk => ?_, fun k hk l hl e he => ?_, fun k hk l hl k0 l0 hne => ?_, fun k hk h0 => ?_,
    fun k hk l hl _ _ e _ _ => ?_⟩
  · obtain ⟨n, hn, rfl⟩ := hmem k hk
    have hnd := ht.nodup n hn
    rw [hp.split n hn] at hnd
    show (pre n ++ [J.pix]).Nodup
    refine (List.nodup_append.1 hnd).1.append (by simp) fun x hx hy => ?_
    rw [List.mem_singleton] at hy
    subst hy
    exact List.disjoint_of_nodup_append hnd hx hpix
  · obtain ⟨n, hn, rfl⟩ := hmem k hk
    obtain ⟨m, hm, rfl⟩ := hmem l hl
    have he : (pre n ++ [J.pix]).getLast? = some e := he
    show e ∉ (pre m ++ [J.pix]).dropLast.tail
    rw [List.dropLast_concat]
    have he : J.pix = e := by simpa using he
    subst he
    intro hx
    have hnd := ht.nodup m hm
    rw [hp.split m hm] at hnd
    exact List.disjoint_of_nodup_append hnd (List.mem_of_mem_tail hx) hpix
  · obtain ⟨n, hn, rfl⟩ := hmem k hk
    obtain ⟨m, hm, rfl⟩ := hmem l hl
    show n.pix ∉ (pre m ++ [J.pix]).dropLast
    rw [List.dropLast_concat]
    exact fun hx => ht.start n hn m hm k0 l0 hne (hsub m hm hx)
  · obtain ⟨n, hn, rfl⟩ := hmem k hk
    exact absurd h0 (hp.ne_zero ht n hn)
  · obtain ⟨n, hn, rfl⟩ := hmem k hk
    obtain ⟨m, hm, rfl⟩ := hmem l hl
    rfl

theorem Post.group {G G' : List Node} {next next' : Int} {J : Node} {pre : Node → List Cell} {R : List Node} {m : Nat}
    (hp : Pruned d G next G' J pre) (h : Post (some next) G' m (next + 1) R next') (hm : 2 ≤ m) :
    Post d G 1 next (J :: R) next' where
  le := by have := h.le; omega
  pps := by
    rw [List.filter_cons_of_neg (by simp [isPP, hp.node.2.2])]
    refine h.pps.trans ?_
    rw [hp.nodes, List.map_map]
    exact List.Perm.refl _
  jids := by
    rw [List.filter_cons_of_pos (isJ_iff.2 hp.node.2.2), List.map_cons]
    refine List.nodup_cons.2 ⟨fun hx => ?_, h.jids⟩
    obtain ⟨k, hk, hkj⟩ := List.mem_map.1 hx
    have := h.range k (List.mem_filter.1 hk).1 (isJ_iff.1 (List.mem_filter.1 hk).2)
    have := hp.node.1
    omega
  range := by
    intro j hj hty
    have := h.le
    rcases List.mem_cons.1 hj with rfl | hj
    · have := hp.node.1; omega
    · have := h.range j hj hty; omega
  heads := by
    intro n hn
    rcases List.mem_cons.1 hn with rfl | hn
    · exact .inr hp.head
    · exact h.heads n hn
  junc := by
    intro j hj hty
    have hle : ∀ k : Int, (R.filter fun n => n.downstream_id = some k).length ≤
        ((J :: R).filter fun n => n.downstream_id = some k).length := fun k =>
      ((List.sublist_cons_self J R).filter _).length_le
    rcases List.mem_cons.1 hj with rfl | hj
    · refine ⟨hp.len, le_trans ?_ (hle _)⟩
      rw [hp.node.1]
      exact hm.trans h.count
    · exact ⟨(h.junc j hj hty).1, (h.junc j hj hty).2.trans (hle _)⟩
  downs := by
    intro n hn
    rcases List.mem_cons.1 hn with rfl | hn
    · obtain ⟨a, ha, _⟩ := hp.last
      refine .inl ⟨hp.node.2.1, a, ha, ?_⟩
      rw [hp.split a ha, List.getLast?_append_of_ne_nil]
      intro he; have := hp.len; rw [he] at this; simp at this
    · rcases h.downs n hn with ⟨he, k, hk, hl⟩ | ⟨j, hj, he⟩
      · refine .inr ⟨J, by simp, hp.node.2.2, by rw [hp.node.1]; exact he, ?_⟩
        rw [hp.nodes] at hk
        obtain ⟨k, _, rfl⟩ := List.mem_map.1 hk
        rw [hl]
        show (pre k ++ [J.pix]).getLast? = _
        simp
      · exact .inr ⟨j, by simp [hj], he⟩
  routes := by
    intro n hn
    obtain ⟨n', a, b, c, e, r⟩ := h.routes (redirect next J.pix pre n) (by rw [hp.nodes]; exact List.mem_map_of_mem hn)
    refine ⟨n', by simp [a], b, c, e, ?_⟩
    have hj : ∀ j ∈ J :: R, j.nodetype = .junction → j.geometry ≠ [] := by
      intro j hj hty
      rcases List.mem_cons.1 hj with rfl | hj
      · intro he; have := hp.len; rw [he] at this; simp at this
      · exact h.jne j hj hty
    have := (r.mono (List.subset_cons_self J R)).extend hj (J := J) (by rw [hp.node.1]) (by simp) hp.node.2.2
      (by show (pre n ++ [J.pix]).getLast? = _; simp) hp.node.2.1
    have he : n.geometry = (redirect next J.pix pre n).geometry.dropLast ++ J.geometry := by
      show _ = (pre n ++ [J.pix]).dropLast ++ J.geometry
      rw [List.dropLast_concat]
      exact hp.split n hn
    rw [he]
    exact this
  count := by
    rw [List.filter_cons_of_pos (by simp [hp.node.2.1])]
    simp
  cells := by
    intro ht n hn h0 x hx
    have hJ : J.geometry ≠ [] := by intro he; have := hp.len; rw [he] at this; simp at this
    rcases List.mem_cons.1 hn with rfl | hn
    · obtain ⟨a, ha, _⟩ := hp.last
      refine ⟨a, ha, hp.ne_zero ht a ha, ?_⟩
      rw [hp.split a ha, List.dropLast_append_of_ne_nil hJ]
      exact List.mem_append_right _ hx
    · obtain ⟨k, hk, k0, hxk⟩ := h.cells (hp.tidy ht) n hn h0 x hx
      rw [hp.nodes] at hk
      obtain ⟨k, hkG, rfl⟩ := List.mem_map.1 hk
      refine ⟨k, hkG, k0, ?_⟩
      rw [hp.split k hkG, List.dropLast_append_of_ne_nil hJ]
      have hxk : x ∈ (pre k ++ [J.pix]).dropLast := hxk
      rw [List.dropLast_concat] at hxk
      exact List.mem_append_left _ hxk
  disj := by
    intro ht
    refine List.pairwise_cons.2 ⟨fun n hn _ n0 x hxJ hxn => ?_, h.disj (hp.tidy ht)⟩
    obtain ⟨k, hk, _, hxk⟩ := h.cells (hp.tidy ht) n hn n0 x hxn
    rw [hp.nodes] at hk
    obtain ⟨k, hkG, rfl⟩ := List.mem_map.1 hk
    have hxk : x ∈ (pre k ++ [J.pix]).dropLast := hxk
    rw [List.dropLast_concat] at hxk
    have hnd := ht.nodup k hkG
    rw [hp.split k hkG] at hnd
    exact List.disjoint_of_nodup_append hnd hxk (List.dropLast_subset _ hxJ)
  sub := by
    intro n hn
    rcases List.mem_cons.1 hn with rfl | hn
    · obtain ⟨a, ha, _⟩ := hp.last
      exact ⟨a, ha, by rw [hp.split a ha]; exact (List.suffix_append _ _).isInfix⟩
    · obtain ⟨k, hk, hi⟩ := h.sub n hn
      rw [hp.nodes] at hk
      obtain ⟨k, hkG, rfl⟩ := List.mem_map.1 hk
      refine ⟨k, hkG, hi.trans ?_⟩
      show pre k ++ [J.pix] <:+: _
      obtain ⟨t, ht⟩ : ∃ t, J.geometry = J.pix :: t := by
        have := hp.head
        cases hg : J.geometry with
        | nil => rw [hg] at this; simp at this
        | cons a t => rw [hg] at this; exact ⟨t, by rw [Option.some.inj this]⟩
      rw [hp.split k hkG, ht]
      exact ⟨[], t, by simp⟩
  long := by
    intro n hn
    refine .inr ?_
    rcases List.mem_cons.1 hn with rfl | hn
    · exact hp.len
    · rcases h.long n hn with hk | hk
      · rw [hp.nodes] at hk
        obtain ⟨k, hkG, rfl⟩ := List.mem_map.1 hk
        show 2 ≤ (pre k ++ [J.pix]).length
        have := List.length_pos_of_ne_nil (hp.ne k hkG)
        simp; omega
      · exact hk

/-- The label available after the pairs have been yielded. -/
def lastLabel (ys : List (Node × Int)) (next : Int) : Int := (ys.getLast?.map (·.2)).getD next

theorem lastLabel_cons (y : Node × Int) (ys : List (Node × Int)) (next : Int) :
    lastLabel (y :: ys) next = lastLabel ys y.2 := by
  unfold lastLabel
  cases ys with
  | nil => simp
  | cons z zs =>
    rw [List.getLast?_cons_cons, List.getLast?_eq_getLast_of_ne_nil (List.cons_ne_nil z zs)]
    rfl

theorem lastLabel_append (xs ys : List (Node × Int)) (next : Int) :
    lastLabel (xs ++ ys) next = lastLabel ys (lastLabel xs next) := by
  induction xs generalizing next with
  | nil => rfl
  | cons x xs ih => rw [List.cons_append, lastLabel_cons, ih, lastLabel_cons]

/-- Fuel that suffices for untangling. -/
def need (nodes : List Node) : Nat := longest nodes + nodes.length + 2

theorem need_subperm {a b : List Node} (h : a.Subperm b) : longest a ≤ longest b ∧ a.length ≤ b.length :=
  ⟨longest_le.2 fun _ hx => le_longest (h.subset hx), h.length_le⟩

/-- The groups of a bundle are untangled one after the other. -/
theorem forGroups_ok {n : Nat}
    (hrec : ∀ (nodes : List Node) (id : Int), Bundle fd (some id) nodes → nodes ≠ [] → need nodes ≤ n →
      ∀ next, ∃ ys, untangle n nodes next = (some (.ok ys) : Option (Except PyErr _)) ∧
        ∃ m, Post (some id) nodes m next (ys.map (·.1)) (lastLabel ys next) ∧
          ((¬ ∀ a ∈ nodes, ∀ b ∈ nodes, a = b ∨ SameKey a b) → 2 ≤ m)) :
    ∀ (gs : List (List Node)) (next : Int), (∀ g ∈ gs, Bundle fd d g ∧ g ≠ [] ∧
      (∀ a ∈ g, ∀ b ∈ g, a = b ∨ SameKey a b) ∧ need g ≤ n + 1) →
      (gs.Pairwise fun g h => ∀ a ∈ g, ∀ b ∈ h, ¬ SameKey a b) → Bundle fd d gs.flatten →
    ∃ ys, forGroups (fun g l => pruneCommonFlow g l n) (untangle n) gs next =
        (some (.ok ys) : Option (Except PyErr _)) ∧
      Post d gs.flatten gs.length next (ys.map (·.1)) (lastLabel ys next) := by
  intro gs
  induction gs with
  | nil => intro next _ _ _; exact ⟨[], rfl, Post.empty next⟩
  | cons g gs ih =>
    intro next hgs hpw hall
    rw [List.flatten_cons] at hall
    have hcross : Tidy (g ++ gs.flatten) → ∀ a ∈ g, ∀ b ∈ gs.flatten, Apart a b := by
      intro ht a ha b hb a0 b0 x hxa hxb
      obtain ⟨h, hh, hbh⟩ := List.mem_flatten.1 hb
      have ha' : a ∈ g ++ gs.flatten := List.mem_append_left _ ha
      have hb' : b ∈ g ++ gs.flatten := List.mem_append_right _ hb
      have hid : a.id ≠ b.id := by
        have := hall.ids
        rw [List.map_append] at this
        exact fun he => List.disjoint_of_nodup_append this (List.mem_map_of_mem ha) (he ▸ List.mem_map_of_mem hb)
      exact (List.pairwise_cons.1 hpw).1 h hh a ha b hbh
        (ht.sameKey ha' hb' (hall.chain a ha') (hall.chain b hb') (hall.head a ha') (hall.head b hb') a0 b0 hid hxa hxb).1
    have hpw' := (List.pairwise_cons.1 hpw).2
    have hall' : Bundle fd d gs.flatten := hall.mono (List.sublist_append_right _ _).subperm
    obtain ⟨hb, hne, hk, hn⟩ := hgs g (by simp)
    have hrest := fun g' hg' => hgs g' (List.mem_cons_of_mem _ hg')
    rw [forGroups.eq_def]
    dsimp only
    by_cases h1 : g.length > 1
    · rw [if_pos h1]
      obtain ⟨G', J, pre, e1, hp⟩ := prune_ok hb h1 hk next (n := n) (by unfold need at hn; omega)
      rw [comp_bind e1]
      dsimp only
      have hG' : G' ≠ [] := by rw [hp.nodes]; simpa using hne
      have hlt := hp.total hne
      obtain ⟨inner, e2, m, hpost, hm⟩ := hrec G' next (hp.bundle hb) hG' (by
        unfold need at hn ⊢
        have : G'.length = g.length := by rw [hp.nodes]; simp
        omega) (next + 1)
      rw [comp_bind e2]
      obtain ⟨outer, e3, hpost2⟩ := ih (lastLabel inner (next + 1)) hrest hpw' hall'
      have e3' := e3
      unfold lastLabel at e3'
      rw [comp_bind e3']
      refine ⟨_, rfl, ?_⟩
      have hgrp := Post.group hp hpost (hm hp.notSame)
      have := hgrp.append hpost2 hcross
      rw [List.flatten_cons, List.length_cons, Nat.add_comm gs.length 1]
      simp only [List.cons_append, List.map_cons, List.map_append] at this ⊢
      rw [lastLabel_cons, lastLabel_append]
      exact this
    · rw [if_neg h1]
      obtain ⟨a, rfl⟩ : ∃ a, g = [a] := by
        match g, hne, h1 with
        | [a], _, _ => exact ⟨a, rfl⟩
        | _ :: _ :: _, _, h1 => simp at h1
      · dsimp only
        obtain ⟨outer, e3, hpost2⟩ := ih next hrest hpw' hall'
        rw [comp_bind e3]
        refine ⟨_, rfl, ?_⟩
        have := (Post.single (hb.type a (by simp)) (hb.down a (by simp)) (hb.head a (by simp)) next).append hpost2 hcross
        rw [List.flatten_cons, List.length_cons, Nat.add_comm gs.length 1, List.map_cons, lastLabel_cons]
        exact this

theorem untangle_ok : ∀ (n : Nat) (nodes : List Node) (d : Option Int), Bundle fd d nodes → nodes ≠ [] → need nodes ≤ n →
    ∀ next, ∃ ys, untangle n nodes next = (some (.ok ys) : Option (Except PyErr _)) ∧
      ∃ m, Post d nodes m next (ys.map (·.1)) (lastLabel ys next) ∧
        ((¬ ∀ a ∈ nodes, ∀ b ∈ nodes, a = b ∨ SameKey a b) → 2 ≤ m) := by
  intro n
  induction n with
  | zero => intro nodes d _ _ h; unfold need at h; omega
  | succ n ih =>
    intro nodes d hb hne hn next
    obtain ⟨gs, e1, hg⟩ := split_ok hne hb.nodup (n := n) (by unfold need at hn; omega)
    rw [untangle, comp_bind e1]
    have hsub : ∀ g ∈ gs, g.Subperm nodes := by
      intro g hgm
      exact (List.sublist_flatten_of_mem hgm).subperm.trans hg.perm.subperm
    obtain ⟨ys, e2, hpost⟩ := forGroups_ok (fd := fd) (d := d) (n := n) (fun nodes id hb hne hn next =>
      ih nodes (some id) hb hne hn next) gs next (fun g hgm => ⟨hb.mono (hsub g hgm), hg.ne g hgm, hg.same g hgm, by
        have := need_subperm (hsub g hgm)
        unfold need at hn ⊢
        omega⟩) hg.apart (hb.mono hg.perm.subperm)
    refine ⟨ys, e2, gs.length, ?_, fun hns => ?_⟩
    · exact ⟨hpost.le, hpost.pps.trans (hg.perm.map _), hpost.jids, hpost.range, hpost.heads, hpost.junc,
        fun a ha => (hpost.downs a ha).imp_left (fun ⟨h1, m, hm, h2⟩ => ⟨h1, m, hg.perm.mem_iff.1 hm, h2⟩),
        fun a ha => hpost.routes a (hg.perm.mem_iff.2 ha), hpost.count,
        fun ht a ha h0 x hx => (hpost.cells (ht.mono hg.perm.subset) a ha h0 x hx).imp (fun _ h => ⟨hg.perm.mem_iff.1 h.1, h.2⟩),
        fun ht => hpost.disj (ht.mono hg.perm.subset),
        fun a ha => (hpost.sub a ha).imp (fun _ h => ⟨hg.perm.mem_iff.1 h.1, h.2⟩),
        fun a ha => (hpost.long a ha).imp_left hg.perm.mem_iff.1⟩
    · by_contra hlt
      match gs, hg, hlt with
      | [], hg, _ =>
        have := hg.perm.length_eq
        simp at this
        exact hne (List.length_eq_zero_iff.1 this.symm)
      | [g], hg, _ =>
        apply hns
        have hp : g.Perm nodes := by simpa using hg.perm
        intro a ha b hb'
        exact hg.same g (by simp) a (hp.mem_iff.2 ha) b (hp.mem_iff.2 hb')
      | _ :: _ :: _, _, hlt => simp at hlt

end Net
end Malstroem
