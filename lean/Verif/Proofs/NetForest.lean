/-
Uniqueness of the next label; pourpoint_network; routes; acyclicity of both networks.
-/
import Verif.Proofs.NetRun

set_option linter.unusedSectionVars false

namespace Malstroem
open Spec

namespace Net

/-! ### Uniqueness -/

theorem trace_prefix_eq {rows cols : Nat} {fd : Cell → Nat} {c : Cell} {l l' : List Cell} (h : IsTrace rows cols fd c l)
    (h' : IsTrace rows cols fd c l') (hp : l <+: l') : l = l' := by
  obtain ⟨t, ht⟩ := hp
  cases t with
  | nil => simpa using ht
  | cons y t =>
    exfalso
    obtain ⟨e, he, hs⟩ := h.stop
    have hch := h'.chain
    rw [← ht] at hch
    have hfl := (List.isChain_append.1 hch).2.2 e he y (by simp)
    exact hs y hfl (h'.inside y (by rw [← ht]; simp))

theorem trace_unique {rows cols : Nat} {fd : Cell → Nat} {c : Cell} {l l' : List Cell} (h : IsTrace rows cols fd c l)
    (h' : IsTrace rows cols fd c l') : l = l' := by
  have key : ∀ l, IsTrace rows cols fd c l → ∃ t, l = c :: t := by
    intro l h
    cases l with
    | nil => have := h.head; simp at this
    | cons a t => exact ⟨t, by rw [Option.some.inj h.head]⟩
  obtain ⟨t, rfl⟩ := key l h
  obtain ⟨t', rfl⟩ := key l' h'
  rcases chain_prefix t t' c h.chain h'.chain with hp | hp
  · exact trace_prefix_eq h h' (List.cons_prefix_cons.2 ⟨rfl, hp⟩)
  · exact (trace_prefix_eq h' h (List.cons_prefix_cons.2 ⟨rfl, hp⟩)).symm

theorem first_unique {P : Cell → Prop} : ∀ (pre pre' : List Cell) (x x' : Cell) (post post' : List Cell),
    pre ++ x :: post = pre' ++ x' :: post' → (∀ y ∈ pre, ¬ P y) → (∀ y ∈ pre', ¬ P y) → P x → P x' →
    pre = pre' ∧ x = x' := by
  intro pre
  induction pre with
  | nil =>
    intro pre' x x' post post' he _ h' hx _
    cases pre' with
    | nil => simp at he; exact ⟨rfl, he.1⟩
    | cons a pre' =>
      simp at he
      exact absurd (he.1 ▸ hx) (h' a (by simp))
  | cons a pre ih =>
    intro pre' x x' post post' he h h' hx hx'
    cases pre' with
    | nil =>
      simp at he
      exact absurd (he.1 ▸ hx') (h a (by simp))
    | cons b pre' =>
      simp only [List.cons_append, List.cons.injEq] at he
      obtain ⟨h1, h2⟩ := ih pre' x x' post post' he.2 (fun y hy => h y (by simp [hy])) (fun y hy => h' y (by simp [hy])) hx hx'
      exact ⟨by rw [he.1, h1], h2⟩

theorem nextLabel_unique {rows cols : Nat} {fd : Cell → Nat} {lab : Cell → Int} {bg : Option Int} {c : Cell}
    {d d' : Option Int} {g g' : List Cell} (h : NextLabel rows cols fd lab bg c d g)
    (h' : NextLabel rows cols fd lab bg c d' g') : d = d' ∧ g = g' := by
  obtain ⟨l, hl, h⟩ := h
  obtain ⟨l', hl', h'⟩ := h'
  obtain rfl := trace_unique hl hl'
  rcases h with ⟨pre, x, post, e1, e2, e3, e4, e5⟩ | ⟨e1, e2, e3⟩ <;>
    rcases h' with ⟨pre', x', post', f1, f2, f3, f4, f5⟩ | ⟨f1, f2, f3⟩
  · obtain ⟨rfl, rfl⟩ := first_unique pre pre' x x' post post' (e1.symm.trans f1) e2 f2 e3 f3
    exact ⟨e4.trans f4.symm, e5.trans f5.symm⟩
  · exact absurd e3 (f1 x (by rw [e1]; simp))
  · exact absurd f3 (e1 x' (by rw [f1]; simp))
  · exact ⟨e2.trans f2.symm, e3.trans f3.symm⟩

variable {flowdir : Raster Nat} {labeled : Raster Int} {pps : List Cell}

theorem found_unique {bg : Option Int} {c : Cell} {d d' : Option Int} {g g' : List Cell}
    (h : Found flowdir labeled bg c d g) (h' : Found flowdir labeled bg c d' g') : d = d' ∧ g = g' := by
  rcases h with ⟨a, h⟩ | ⟨a, rfl, rfl⟩ <;> rcases h' with ⟨b, h'⟩ | ⟨b, rfl, rfl⟩
  · exact nextLabel_unique h h'
  · exact absurd a b
  · exact absurd b a
  · exact ⟨rfl, rfl⟩

/-! ### pourpoint_network -/

theorem pourpoint_aux {bg : Option Int} {N : Nat} : ∀ (L : List (Int × Cell)),
    (∀ x ∈ L, ∃ d g, Found flowdir labeled bg x.2 d g ∧ ∀ (geo : Bool) (n : Nat), N ≤ n →
      nextDownstreamLabel flowdir labeled x.2 bg geo n =
        (some (.ok (d, if geo then g else [])) : Option (Except PyErr _))) →
    ∃ nodes, List.Forall₂ (NodeFor flowdir labeled bg) L nodes ∧ ∀ n, N ≤ n →
      (L.mapM fun x => do
        let r ← nextDownstreamLabel flowdir labeled x.2 bg false n
        pure { id := x.1, downstream_id := r.1, nodetype := .pourpoint, pix := x.2, geometry := [] } : Comp (List Node)) =
        (some (.ok (nodes.map fun nd => { nd with geometry := [] })) : Option (Except PyErr _)) := by
  intro L
  induction L with
  | nil => intro _; exact ⟨[], .nil, fun n _ => rfl⟩
  | cons x L ih =>
    intro h
    obtain ⟨d, g, hf, h1⟩ := h x (by simp)
    obtain ⟨nodes, h2, h3⟩ := ih fun y hy => h y (List.mem_cons_of_mem _ hy)
    refine ⟨⟨x.1, d, .pourpoint, x.2, g⟩ :: nodes, .cons ⟨rfl, rfl, rfl, hf⟩ h2, fun n hn => ?_⟩
    have e := h1 false n hn
    rw [if_neg (by simp)] at e
    rw [List.mapM_cons, bind_assoc, comp_bind e]
    have e2 := h3 n hn
    simp only [pure_bind]
    rw [comp_bind e2]
    rfl

/-- The pour point nodes in the order of the arguments. -/
structure Listed (flowdir : Raster Nat) (labeled : Raster Int) (pps : List Cell) (nodes : List Node) : Prop where
  eq : (nodes.map fun n => (n.id, n.pix)) = pps.zipIdx.map fun x => ((x.2 : Int), x.1)
  node : ∀ n ∈ nodes, ∃ i, PPNode flowdir labeled pps n i

theorem pourpoint_ok (hr : labeled.rows = flowdir.rows) (hc : labeled.cols = flowdir.cols)
    (hcodes : ∀ c, flowdir.Has c → flowdir.get c ≤ 8) (hac : ∀ c, ¬ OnCycle flowdir.rows flowdir.cols flowdir.get c)
    (hg : GoodPourPoints flowdir.rows flowdir.cols flowdir.get labeled.get pps) {args : List PourPointArg}
    (hl : Listing args pps) :
    ∃ nodes, Returns (pourpointNetwork flowdir labeled args (some 0)) (.ok (nodes.map fun nd => { nd with geometry := [] })) ∧
      Listed flowdir labeled pps nodes := by
  have hpos := pos_of_good hg
  obtain ⟨nodes, h1, h2⟩ := pourpoint_aux (flowdir := flowdir) (labeled := labeled) (bg := some 0)
    (pourpointEnumerator args) (by
      intro x hx
      rw [enum_eq hl] at hx
      obtain ⟨y, hy, rfl⟩ := List.mem_map.1 hx
      exact found_ok hr hc hpos hcodes hac _ (good_points hg (List.mem_zipIdx_iff_getElem?.1 hy)))
  refine ⟨nodes, ⟨_, fun n hn => h2 n hn⟩, ?_⟩
  rw [enum_eq hl] at h1
  obtain ⟨e1, e2⟩ := forall2_starts h1
  exact ⟨e1, fun n hn => by obtain ⟨x, hx, h⟩ := e2 n hn; exact node_pp hx h⟩

theorem Listed.starts {nodes : List Node} (h : Listed flowdir labeled pps nodes) : Starts flowdir labeled pps nodes :=
  ⟨by rw [h.eq], h.node⟩

/-! ### Consequences of `Whole` -/

theorem PPNode.down_le {n : Node} {i : Nat} {M : Int} (hr : labeled.rows = flowdir.rows) (hc : labeled.cols = flowdir.cols)
    (hM : ∀ c, labeled.Has c → labeled.get c ≤ M) (h : PPNode flowdir labeled pps n i) :
    ∀ d, n.downstream_id = some d → d ≤ M := by
  intro d hd
  have hne : n.geometry ≠ [] := by
    intro he; rw [h.facts.none he] at hd; cases hd
  have hl := List.getLast?_eq_getLast_of_ne_nil hne
  rcases h.facts.last _ hl with ⟨_, h2⟩ | ⟨_, h2, _⟩
  · rw [h2] at hd
    obtain rfl := Option.some.inj hd
    refine hM _ ?_
    unfold Raster.Has
    rw [hr, hc]
    exact h.facts.inside _ (List.getLast_mem hne)
  · rw [h2] at hd; cases hd

theorem RouteTo.route {R : List Node} {n : Node} {p : List Cell} {d : Option Int} (h : RouteTo R n p d)
    (hd : ∀ j ∈ R, j.nodetype = .junction → d ≠ some j.id) : Route R n p d := by
  induction h with
  | stop => exact .stop hd
  | via h1 h2 h3 h4 _ ih => exact .via h1 h2 h3 h4 (ih hd)

theorem mem_pps {R : List Node} (h : ((R.filter isPP).map fun n => (n.id, n.pix)).Perm
    (pps.zipIdx.map fun x => ((x.2 : Int), x.1))) {i : Nat} {p : Cell} (hp : pps[i]? = some p) :
    ∃ n ∈ R, n.nodetype = .pourpoint ∧ n.id = i ∧ n.pix = p := by
  have : ((i : Int), p) ∈ (R.filter isPP).map fun n => (n.id, n.pix) := by
    rw [h.mem_iff]
    exact List.mem_map.2 ⟨(p, i), List.mem_zipIdx_iff_getElem?.2 hp, rfl⟩
  obtain ⟨n, hn, he⟩ := List.mem_map.1 this
  have := List.mem_filter.1 hn
  exact ⟨n, this.1, by simpa [isPP] using this.2, (Prod.ext_iff.1 he).1, (Prod.ext_iff.1 he).2⟩

theorem pp_index {R : List Node} (h : ((R.filter isPP).map fun n => (n.id, n.pix)).Perm
    (pps.zipIdx.map fun x => ((x.2 : Int), x.1))) {n : Node} (hn : n ∈ R) (hty : n.nodetype = .pourpoint) :
    ∃ i : Nat, n.id = i ∧ pps[i]? = some n.pix := by
  have : (n.id, n.pix) ∈ pps.zipIdx.map fun x => ((x.2 : Int), x.1) := by
    rw [← h.mem_iff]
    exact List.mem_map.2 ⟨n, List.mem_filter.2 ⟨hn, by simp [isPP, hty]⟩, rfl⟩
  obtain ⟨x, hx, he⟩ := List.mem_map.1 this
  have hget := List.mem_zipIdx_iff_getElem?.1 hx
  refine ⟨x.2, (Prod.ext_iff.1 he).1.symm, ?_⟩
  rw [hget]
  exact congrArg some (Prod.ext_iff.1 he).2

theorem pp_ids_nodup {R : List Node} (h : ((R.filter isPP).map fun n => (n.id, n.pix)).Perm
    (pps.zipIdx.map fun x => ((x.2 : Int), x.1))) : ((R.filter isPP).map (·.id)).Nodup := by
  have h1 : ((R.filter isPP).map (·.id)).Perm (pps.zipIdx.map fun x => (x.2 : Int)) := by
    have := h.map Prod.fst
    rwa [List.map_map, List.map_map] at this
  rw [h1.nodup_iff]
  have : (pps.zipIdx.map fun x => (x.2 : Int)) = (pps.zipIdx.map Prod.snd).map (fun k : Nat => (k : Int)) := by
    rw [List.map_map]; rfl
  rw [this, List.zipIdx_map_snd]
  exact List.Nodup.map (fun a b hab => by exact_mod_cast hab) List.nodup_range'

theorem ids_nodup {R : List Node} (hp : ((R.filter isPP).map (·.id)).Nodup) (hj : ((R.filter isJ).map (·.id)).Nodup)
    (hd : ∀ n ∈ R, n.nodetype = .pourpoint → ∀ j ∈ R, j.nodetype = .junction → n.id ≠ j.id) : (R.map (·.id)).Nodup := by
  have hperm : R.Perm (R.filter isPP ++ R.filter isJ) := by
    have h1 : R.filter isJ = R.filter (fun n => !isPP n) := by
      apply List.filter_congr
      intro n _
      unfold isPP isJ
      cases n.nodetype <;> simp
    rw [h1]
    exact (List.filter_append_perm isPP R).symm
  rw [(hperm.map _).nodup_iff, List.map_append]
  refine hp.append hj fun x hx hy => ?_
  obtain ⟨n, hn, rfl⟩ := List.mem_map.1 hx
  obtain ⟨j, hjm, he⟩ := List.mem_map.1 hy
  have a := List.mem_filter.1 hn
  have b := List.mem_filter.1 hjm
  exact hd n a.1 (by simpa [isPP] using a.2) j b.1 (isJ_iff.1 b.2) he.symm

/-! ### Acyclicity -/

theorem forest_of_rank {β : Type} [LinearOrder β] {R : List Node} (f : Node → β)
    (hf : ∀ n m, DrainsTo R n m → f m < f n)
    (hres : ∀ n ∈ R, ∀ d, n.downstream_id = some d → ∃ m ∈ R, m.id = d) : IsForest R := by
  have htr : ∀ n m, Relation.TransGen (DrainsTo R) n m → f m < f n := by
    intro n m h
    induction h with
    | single h => exact hf _ _ h
    | tail _ h ih => exact (hf _ _ h).trans ih
  refine ⟨fun n h => lt_irrefl _ (htr n n h), hres, ?_⟩
  have key : ∀ (k : Nat) (n : Node), n ∈ R → (R.filter fun m => f m < f n).length ≤ k →
      ∃ r ∈ R, Relation.ReflTransGen (DrainsTo R) n r ∧ r.downstream_id = none := by
    intro k
    induction k with
    | zero =>
      intro n hn hk
      cases hd : n.downstream_id with
      | none => exact ⟨n, hn, .refl, hd⟩
      | some d =>
        obtain ⟨m, hm, he⟩ := hres n hn d hd
        have := hf n m ⟨hn, hm, by rw [hd, he]⟩
        have hmem : m ∈ R.filter fun m => f m < f n := List.mem_filter.2 ⟨hm, by simpa using this⟩
        have := List.length_pos_of_mem hmem
        omega
    | succ k ih =>
      intro n hn hk
      cases hd : n.downstream_id with
      | none => exact ⟨n, hn, .refl, hd⟩
      | some d =>
        obtain ⟨m, hm, he⟩ := hres n hn d hd
        have hlt := hf n m ⟨hn, hm, by rw [hd, he]⟩
        have hsub : (R.filter fun x => f x < f m).length < (R.filter fun x => f x < f n).length := by
          have e : R.filter (fun x => f x < f m) = (R.filter fun x => f x < f n).filter (fun x => f x < f m) := by
            rw [List.filter_filter]
            apply List.filter_congr
            intro x _
            by_cases h : f x < f m
            · simp [h, h.trans hlt]
            · simp [h]
          rw [e]
          apply List.length_filter_lt_length_iff_exists.2
          exact ⟨m, List.mem_filter.2 ⟨hm, by simpa using hlt⟩, by simp⟩
        obtain ⟨r, hr, h1, h2⟩ := ih m hm (by omega)
        exact ⟨r, hr, .head ⟨hn, hm, by rw [hd, he]⟩ h1, h2⟩
  intro n hn
  exact key _ n hn le_rfl

section
variable {β : Type} [LinearOrder β] {rank : Cell → β}

theorem _root_.Malstroem.Spec.LowestOutlets.trans {rows cols : Nat} {fd : Cell → Nat} {lab : Cell → Int}
    (h : LowestOutlets rows cols fd lab rank pps) {a b : Cell} (hab : Relation.TransGen (Step rows cols fd) a b) :
    rank b < rank a := by
  induction hab with
  | single h' => exact h.falls _ _ h'
  | tail _ h' ih => exact (h.falls _ _ h').trans ih

theorem _root_.Malstroem.Spec.LowestOutlets.good {rows cols : Nat} {fd : Cell → Nat} {lab : Cell → Int}
    (h : LowestOutlets rows cols fd lab rank pps) : GoodPourPoints rows cols fd lab pps where
  own := by
    intro i p hi hp
    rcases h.lowest i p hp with ⟨h0, _⟩ | ⟨h1, h2, _⟩
    · omega
    · exact ⟨h1, h2⟩
  background := by
    intro p hp
    rcases h.lowest 0 p hp with ⟨_, h0, _⟩ | ⟨h1, h2, h3⟩
    · exact .inl h0
    · exact .inr ⟨h1, by simpa using h2, fun q hq h0 => not_le.2 (h.falls p q hq) (h3 q hq.2.1 (by simpa using h0))⟩
  labels := by
    obtain ⟨c, hc, he⟩ := h.used
    exact ⟨c, hc, he.ge⟩

theorem _root_.Malstroem.Spec.LowestOutlets.acyclic {rows cols : Nat} {fd : Cell → Nat} {lab : Cell → Int}
    (h : LowestOutlets rows cols fd lab rank pps) (c : Cell) : ¬ OnCycle rows cols fd c :=
  fun hc => lt_irrefl _ (h.trans hc)

theorem _root_.Malstroem.Spec.LowestOutlets.self {rows cols : Nat} {fd : Cell → Nat} {lab : Cell → Int}
    (h : LowestOutlets rows cols fd lab rank pps) : ∀ (i : Nat) (p : Cell), 1 ≤ i → pps[i]? = some p → ∀ q,
      Relation.TransGen (Step rows cols fd) p q → lab q ≠ i := by
  intro i p hi hp q hq hl
  have hin : InGrid rows cols q := by
    obtain ⟨b, _, hb⟩ := Relation.TransGen.tail'_iff.1 hq
    exact hb.2.1
  rcases h.lowest i p hp with ⟨h0, _⟩ | ⟨_, _, h3⟩
  · omega
  · exact not_le.2 (h.trans hq) (h3 q hin hl)

/-- The node with the label that a path ends in lies lower than the path's start. -/
theorem lower_target (h : LowestOutlets flowdir.rows flowdir.cols flowdir.get labeled.get rank pps)
    {g : List Cell} {a x : Cell} (hch : g.IsChain (FlowsTo flowdir.get))
    (hin : ∀ y ∈ g, InGrid flowdir.rows flowdir.cols y) (hhead : g.head? = some a) (hlast : g.getLast? = some x)
    (h2 : 2 ≤ g.length) : rank x < rank a := by
  match g, hhead, h2 with
  | b :: c :: t, hhead, _ =>
    obtain rfl : b = a := by simpa using hhead
    apply h.trans
    refine chain_trans (c :: t) b hch hin x ?_
    rw [List.getLast?_cons_cons] at hlast
    exact List.mem_of_getLast? hlast

theorem PPNode.two {n : Node} {i : Nat}
    (hn : PPNode flowdir labeled pps n i) {d : Int} (hd : n.downstream_id = some d) :
    2 ≤ n.geometry.length ∧ n.geometry.head? = some n.pix ∧ ∃ x, n.geometry.getLast? = some x ∧
      InGrid flowdir.rows flowdir.cols x ∧ labeled.get x = d := by
  have hne : n.geometry ≠ [] := by intro he; rw [hn.facts.none he] at hd; cases hd
  have hl := List.getLast?_eq_getLast_of_ne_nil hne
  have hh : n.geometry.head? = some n.pix := by
    rcases hn.facts.head with he | ⟨_, he⟩
    · exact absurd he hne
    · exact he
  rcases hn.facts.last _ hl with ⟨h1, h2⟩ | ⟨_, h2, _⟩
  · refine ⟨?_, hh, _, hl, hn.facts.inside _ (List.getLast_mem hne), ?_⟩
    · by_contra hlt
      obtain ⟨y, hy⟩ : ∃ y, n.geometry = [y] := by
        apply List.length_eq_one_iff.1
        have := List.length_pos_of_ne_nil hne
        omega
      simp only [hy, List.head?_cons, Option.some.injEq] at hh
      simp only [hy, List.getLast_singleton, hh] at h1
      exact h1.1 rfl
    · rw [h2] at hd; exact Option.some.inj hd
  · rw [h2] at hd; cases hd

theorem lowest_le (h : LowestOutlets flowdir.rows flowdir.cols flowdir.get labeled.get rank pps) {i : Nat} {p x : Cell}
    (hp : pps[i]? = some p) (hx : InGrid flowdir.rows flowdir.cols x) (hl : labeled.get x = i) : rank p ≤ rank x := by
  rcases h.lowest i p hp with ⟨h0, _, h2⟩ | ⟨_, _, h2⟩
  · subst h0; exact absurd (by simpa using hl) (h2 x hx)
  · exact h2 x hx hl

theorem exists_pp (h : LowestOutlets flowdir.rows flowdir.cols flowdir.get labeled.get rank pps) {x : Cell}
    (hx : InGrid flowdir.rows flowdir.cols x) : ∃ (i : Nat) (p : Cell), labeled.get x = i ∧ pps[i]? = some p := by
  obtain ⟨h1, h2⟩ := h.covers x hx
  have hlt : (labeled.get x).toNat < pps.length := by omega
  exact ⟨(labeled.get x).toNat, pps[(labeled.get x).toNat], by omega, List.getElem?_eq_getElem hlt⟩

theorem listed_forest (h : LowestOutlets flowdir.rows flowdir.cols flowdir.get labeled.get rank pps) {nodes : List Node}
    (hn : Listed flowdir labeled pps nodes) : IsForest (nodes.map fun nd => { nd with geometry := [] }) := by
  have hmem : ∀ n ∈ nodes.map (fun nd : Node => { nd with geometry := [] }), ∃ k ∈ nodes,
      k.id = n.id ∧ k.pix = n.pix ∧ k.downstream_id = n.downstream_id := by
    intro n hn
    obtain ⟨k, hk, rfl⟩ := List.mem_map.1 hn
    exact ⟨k, hk, rfl, rfl, rfl⟩
  refine forest_of_rank (fun n => rank n.pix) ?_ ?_
  · rintro n m ⟨h1, h2, hd⟩
    obtain ⟨k, hk, _, k2, k3⟩ := hmem n h1
    obtain ⟨l, hl, l1, l2, _⟩ := hmem m h2
    obtain ⟨i, hi⟩ := hn.node k hk
    obtain ⟨j, hj⟩ := hn.node l hl
    obtain ⟨t1, t2, x, t3, t4, t5⟩ := hi.two (d := m.id) (by rw [k3]; exact hd)
    rw [← k2, ← l2]
    refine lt_of_le_of_lt (lowest_le h hj.get t4 ?_) (lower_target h hi.facts.chain hi.facts.inside t2 t3 t1)
    rw [t5, ← l1, hj.id]
  · intro n h1 d hd
    obtain ⟨k, hk, _, k2, k3⟩ := hmem n h1
    obtain ⟨i, hi⟩ := hn.node k hk
    obtain ⟨t1, t2, x, t3, t4, t5⟩ := hi.two (d := d) (by rw [k3]; exact hd)
    obtain ⟨j, p, e1, e2⟩ := exists_pp h t4
    have : ((j : Int), p) ∈ nodes.map fun n => (n.id, n.pix) := by
      rw [hn.eq]
      exact List.mem_map.2 ⟨(p, j), List.mem_zipIdx_iff_getElem?.2 e2, rfl⟩
    obtain ⟨m, hm, he⟩ := List.mem_map.1 this
    exact ⟨_, List.mem_map_of_mem hm, by rw [← t5, e1]; exact (Prod.ext_iff.1 he).1⟩

theorem whole_forest (h : LowestOutlets flowdir.rows flowdir.cols flowdir.get labeled.get rank pps)
    (hr : labeled.rows = flowdir.rows) (hc : labeled.cols = flowdir.cols) {nodes R : List Node} {M next' : Int}
    (hs : Starts flowdir labeled pps nodes) (hw : Whole nodes (M + 1) R next')
    (hM : ∀ c, labeled.Has c → labeled.get c ≤ M) (hlen : (pps.length : Int) ≤ M + 1) : IsForest R := by
  have hpps : ((R.filter isPP).map fun n => (n.id, n.pix)).Perm (pps.zipIdx.map fun x => ((x.2 : Int), x.1)) :=
    hw.pps.trans hs.perm
  have hchain : ∀ n ∈ R, n.geometry.IsChain (FlowsTo flowdir.get) ∧
      ∀ y ∈ n.geometry, InGrid flowdir.rows flowdir.cols y := by
    intro n hn
    obtain ⟨m, hm, hi⟩ := hw.sub n hn
    obtain ⟨i, hp⟩ := hs.node m hm
    exact ⟨hp.facts.chain.infix hi, fun y hy => hp.facts.inside y (hi.subset hy)⟩
  have hlong : ∀ n ∈ R, ∀ d, n.downstream_id = some d → 2 ≤ n.geometry.length ∧ n.geometry.head? = some n.pix := by
    intro n hn d hd
    rcases hw.long n hn with h' | h'
    · obtain ⟨i, hp⟩ := hs.node n h'
      obtain ⟨t1, t2, _⟩ := hp.two hd
      exact ⟨t1, t2⟩
    · refine ⟨h', ?_⟩
      rcases hw.heads n hn with he | he
      · rw [he] at h'; simp at h'
      · exact he
  have hids : (R.map (·.id)).Nodup := ids_nodup (pp_ids_nodup hpps) hw.jids (fun n hn hty j hj htj => by
    obtain ⟨i, e1, e2⟩ := pp_index hpps hn hty
    have := (hw.range j hj htj).1
    have hlt := (List.getElem?_eq_some_iff.1 e2).1
    omega)
  refine forest_of_rank (fun n => rank n.pix) ?_ ?_
  · rintro n m ⟨h1, h2, hd⟩
    obtain ⟨g1, g2⟩ := hlong n h1 _ hd
    obtain ⟨c1, c2⟩ := hchain n h1
    rcases hw.downs n h1 with ⟨k, hk, e1, e2⟩ | ⟨j, hj, htj, e1, e2⟩
    · obtain ⟨i, hi⟩ := hs.node k hk
      obtain ⟨_, _, x, t3, t4, t5⟩ := hi.two (d := m.id) (by rw [← e1]; exact hd)
      rw [← e2] at t3
      have hty : m.nodetype = .pourpoint := by
        cases hm : m.nodetype with
        | pourpoint => rfl
        | junction =>
          have a := (hw.range m h2 hm).1
          have b := hM x (by unfold Raster.Has; rw [hr, hc]; exact t4)
          omega
      obtain ⟨j, f1, f2⟩ := pp_index hpps h2 hty
      exact lt_of_le_of_lt (lowest_le h f2 t4 (by rw [t5, f1])) (lower_target h c1 c2 g2 t3 g1)
    · have : m = j := by
        rw [e1] at hd
        exact (List.inj_on_of_nodup_map hids h2 hj (Option.some.inj hd).symm)
      subst this
      exact lower_target h c1 c2 g2 e2 g1
  · intro n hn d hd
    rcases hw.downs n hn with ⟨k, hk, e1, e2⟩ | ⟨j, hj, htj, e1, e2⟩
    · obtain ⟨i, hi⟩ := hs.node k hk
      obtain ⟨_, _, x, t3, t4, t5⟩ := hi.two (d := d) (by rw [← e1]; exact hd)
      obtain ⟨j, p, f1, f2⟩ := exists_pp h t4
      obtain ⟨m, hm, _, e, _⟩ := mem_pps hpps f2
      exact ⟨m, hm, by rw [e, ← t5, f1]⟩
    · exact ⟨j, hj, by rw [e1] at hd; exact Option.some.inj hd⟩

end
end Net
end Malstroem
