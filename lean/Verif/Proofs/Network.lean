/-
Water balance on the network: building it, the order of processing, the values.
-/
import Verif.Spec.Network
import Verif.Proofs.Dict
import Verif.Proofs.NetCore
import Mathlib.Data.List.Nodup
import Mathlib.Algebra.BigOperators.Group.List.Basic

set_option linter.unusedSectionVars false

namespace Malstroem
open Spec

namespace Network
variable {K : Type} [Field K] [LinearOrder K] {attr : String}

/-! ### Building the network -/

/-- The state holds the nodes `ns`. -/
structure Built (attr : String) (s : State K) (ns : List (RainNode K)) : Prop where
  index : ∀ n ∈ ns, ∃ p, s.nodes_index.get? (.int n.id) = some p ∧ Carries attr p n
  up : ∀ k, s.upstream k = (ns.filter fun m => (downVal m.down : Val K) = k).map fun m => .int m.id
  roots : s.root_nodes = (ns.filter fun m => m.down = none).map fun m => .int m.id

theorem downVal_none {o : Option Int} : (downVal o : Val K) = .none ↔ o = none := by
  cases o <;> simp [downVal]

theorem downVal_int {o : Option Int} {i : Int} : (downVal o : Val K) = .int i ↔ o = some i := by
  cases o <;> simp [downVal]

theorem built_init : Built (K := K) attr State.init [] :=
  ⟨fun n hn => absurd hn (by simp), fun k => rfl, rfl⟩

theorem addNode_ok {s : State K} {ds : List (RainNode K)} (h : Built attr s ds) {p : Props K} {n : RainNode K}
    (hp : Carries attr p n) (hn : n.id ∉ ds.map (·.id)) : ∃ s', addNode s p = .ok s' ∧ Built attr s' (ds ++ [n]) := by
  unfold addNode
  rw [Dict.getItem_ok.2 hp.id, Dict.getItem_ok.2 hp.down]
  refine ⟨_, rfl, fun m hm => ?_, fun k => ?_, ?_⟩
  · simp only [Dict.get?_set]
    rcases List.mem_append.1 hm with hm | hm
    · rw [if_neg]
      · exact h.index m hm
      · intro he
        exact hn ((Val.int.inj he) ▸ List.mem_map_of_mem hm)
    · obtain rfl := List.mem_singleton.1 hm
      exact ⟨p, by simp, hp⟩
  · simp only [State.upstream, Dict.get?_set]
    rw [List.filter_append, List.map_append]
    by_cases hk : (downVal n.down : Val K) = k
    · subst hk
      have := h.up (downVal n.down)
      unfold State.upstream at this
      simp [this]
    · have := h.up k
      unfold State.upstream at this
      simp [hk, this]
  · simp only [downVal_none]
    rw [List.filter_append, List.map_append, h.roots]
    by_cases hk : n.down = none <;> simp [hk]

theorem addNodes_aux : ∀ (ps : List (Props K)) (ns ds : List (RainNode K)) (s : State K), Built attr s ds →
    List.Forall₂ (Carries attr) ps ns → ((ds ++ ns).map (·.id)).Nodup →
    ∃ s', addNodes s ps = .ok s' ∧ Built attr s' (ds ++ ns) := by
  intro ps
  induction ps with
  | nil => intro ns ds s h hf _; cases hf; exact ⟨s, rfl, by simpa using h⟩
  | cons p ps ih =>
    intro ns ds s h hf hnd
    cases hf with
    | @cons _ n _ ns hp hf =>
      obtain ⟨s1, h1, h2⟩ := addNode_ok h hp (by
        rw [List.map_append, List.map_cons, List.nodup_append] at hnd
        intro hmem
        exact hnd.2.2 _ hmem _ (by simp) rfl)
      obtain ⟨s2, h3, h4⟩ := ih ns (ds ++ [n]) s1 h2 hf (by simpa using hnd)
      refine ⟨s2, ?_, by simpa using h4⟩
      unfold addNodes at *
      rw [List.foldlM_cons, h1]
      exact h3

theorem addNodes_ok {ps : List (Props K)} {ns : List (RainNode K)} (hf : List.Forall₂ (Carries attr) ps ns)
    (hnd : (ns.map (·.id)).Nodup) : ∃ s, addNodes State.init ps = .ok s ∧ Built attr s ns := by
  simpa using addNodes_aux ps ns [] State.init built_init hf (by simpa using hnd)

/-! ### Order of processing -/

/-- Following downstream ids from the node ends in `r`. -/
inductive Under (ns : List (RainNode K)) (r : RainNode K) : RainNode K → Prop
  | refl : Under ns r r
  | step {n m} : m ∈ ns → n.down = some m.id → Under ns r m → Under ns r n

theorem mem_upstreamOf {ns : List (RainNode K)} {n m : RainNode K} : m ∈ upstreamOf ns n ↔ m ∈ ns ∧ m.down = some n.id := by
  simp [upstreamOf]

theorem eq_of_id {ns : List (RainNode K)} (hnd : (ns.map (·.id)).Nodup) {a b : RainNode K} (ha : a ∈ ns) (hb : b ∈ ns)
    (h : a.id = b.id) : a = b := List.inj_on_of_nodup_map hnd ha hb h

theorem Under.unique {ns : List (RainNode K)} (hnd : (ns.map (·.id)).Nodup) {r r' n : RainNode K} (hr : r.down = none)
    (hr' : r'.down = none) (h : Under ns r n) (h' : Under ns r' n) : r = r' := by
  induction h with
  | refl =>
    cases h' with
    | refl => rfl
    | step _ hd _ => rw [hr] at hd; cases hd
  | step hm hd _ ih =>
    cases h' with
    | refl => rw [hr'] at hd; cases hd
    | step hm' hd' h' =>
      rw [hd] at hd'
      have := eq_of_id hnd hm hm' (Option.some.inj hd')
      subst this
      exact ih h'

theorem leads_iff {ns : List (RainNode K)} {n : RainNode K} (hn : n ∈ ns) :
    LeadsToRoot ns n ↔ ∃ r ∈ ns, r.down = none ∧ Under ns r n := by
  constructor
  · intro h
    induction h with
    | root h => exact ⟨_, hn, h, .refl⟩
    | step hm hd _ ih =>
      obtain ⟨r, h1, h2, h3⟩ := ih hm
      exact ⟨r, h1, h2, .step hm hd h3⟩
  · rintro ⟨r, h1, h2, h3⟩
    induction h3 with
    | refl => exact .root h2
    | step hm hd _ ih => exact .step hm hd (ih hm)

/-- What holds while the tree of root `r` is collected: stack `S`, collected nodes `T` (last one first). -/
structure Inv (ns : List (RainNode K)) (r : RainNode K) (S T : List (RainNode K)) : Prop where
  nodup : (S ++ T).Nodup
  sub : ∀ x ∈ S ++ T, x ∈ ns
  under : ∀ x ∈ S ++ T, Under ns r x
  from_ : ∀ x ∈ S ++ T, x = r ∨ ∃ y ∈ T, x.down = some y.id
  root : r ∈ S ++ T
  closed : ∀ a n b, T = a ++ n :: b → ∀ x ∈ upstreamOf ns n, x ∈ a ∨ x ∈ S

theorem Inv.step {ns : List (RainNode K)} (hnd : (ns.map (·.id)).Nodup) {r : RainNode K} (hr : r.down = none)
    {n : RainNode K} {S T : List (RainNode K)} (h : Inv ns r (n :: S) T) :
    Inv ns r ((upstreamOf ns n).reverse ++ S) (n :: T) := by
  have hperm : (S ++ n :: T).Perm (n :: S ++ T) := List.perm_middle
  have hmem : ∀ x, x ∈ S ++ n :: T ↔ x ∈ n :: S ++ T := fun x => hperm.mem_iff
  have hnT : n ∉ T := by
    have := h.nodup
    rw [List.cons_append, List.nodup_cons] at this
    exact fun hx => this.1 (List.mem_append_right _ hx)
  have hnns : n ∈ ns := h.sub n (by simp)
  have hnew : ∀ x ∈ upstreamOf ns n, x ∉ S ++ n :: T := by
    intro x hx hmem'
    have hx' := mem_upstreamOf.1 hx
    rcases h.from_ x ((hmem x).1 hmem') with rfl | ⟨y, hy, hd⟩
    · rw [hr] at hx'; cases hx'.2
    · rw [hx'.2] at hd
      have : n = y := eq_of_id hnd hnns (h.sub y (List.mem_append_right _ hy)) (Option.some.inj hd)
      exact hnT (this ▸ hy)
  have hcases : ∀ x ∈ (upstreamOf ns n).reverse ++ S ++ n :: T, x ∈ upstreamOf ns n ∨ x ∈ n :: S ++ T := by
    intro x hx
    rw [List.append_assoc, List.mem_append, List.mem_reverse] at hx
    exact hx.imp id (hmem x).1
  refine ⟨?_, fun x hx => ?_, fun x hx => ?_, fun x hx => ?_, ?_, ?_⟩
  · rw [List.append_assoc, List.nodup_append]
    refine ⟨List.nodup_reverse.2 ((List.Nodup.of_map _ hnd).filter _), hperm.nodup_iff.2 h.nodup, fun a ha b hb he => ?_⟩
    subst he
    exact hnew a (List.mem_reverse.1 ha) hb
  · rcases hcases x hx with hx | hx
    · exact (mem_upstreamOf.1 hx).1
    · exact h.sub x hx
  · rcases hcases x hx with hx | hx
    · exact .step hnns (mem_upstreamOf.1 hx).2 (h.under n (by simp))
    · exact h.under x hx
  · rcases hcases x hx with hx | hx
    · exact .inr ⟨n, by simp, (mem_upstreamOf.1 hx).2⟩
    · rcases h.from_ x hx with h' | ⟨y, hy, hd⟩
      · exact .inl h'
      · exact .inr ⟨y, List.mem_cons_of_mem _ hy, hd⟩
  · rw [List.append_assoc]
    exact List.mem_append_right _ ((hmem r).2 h.root)
  · intro a m b he x hx
    cases a with
    | nil =>
      simp only [List.nil_append, List.cons.injEq] at he
      obtain ⟨rfl, rfl⟩ := he
      exact .inr (by simp [hx])
    | cons c a =>
      simp only [List.cons_append, List.cons.injEq] at he
      obtain ⟨rfl, rfl⟩ := he
      rcases h.closed a m b rfl x hx with h' | h'
      · exact .inl (List.mem_cons_of_mem _ h')
      · rcases List.mem_cons.1 h' with rfl | h'
        · exact .inl (by simp)
        · exact .inr (List.mem_append_right _ h')

theorem treeLoop_ok {ns : List (RainNode K)} (hnd : (ns.map (·.id)).Nodup) {s : State K} (hs : Built attr s ns)
    {r : RainNode K} (hr : r.down = none) : ∀ (fuel : Nat) (S T : List (RainNode K)), Inv ns r S T →
    ns.length ≤ fuel + T.length → ∃ T', treeLoop s.upstream fuel (S.map fun n => .int n.id) (T.map fun n => .int n.id) =
      some (T'.map fun n => .int n.id) ∧ Inv ns r [] T' := by
  intro fuel
  induction fuel with
  | zero =>
    intro S T h hlen
    cases S with
    | nil => exact ⟨T, rfl, h⟩
    | cons n S =>
      exfalso
      have := (h.nodup.subperm fun x hx => h.sub x hx).length_le
      simp at this
      omega
  | succ fuel ih =>
    intro S T h hlen
    cases S with
    | nil => exact ⟨T, rfl, h⟩
    | cons n S =>
      obtain ⟨T', h1, h2⟩ := ih _ _ (h.step hnd hr) (by simp; omega)
      refine ⟨T', ?_, h2⟩
      rw [← h1]
      have hu : s.upstream (.int n.id) = (upstreamOf ns n).map fun m => .int m.id := by
        rw [hs.up]
        unfold upstreamOf
        congr 1
        apply List.filter_congr
        intro x _
        simp [downVal_int]
      simp only [List.map_cons, treeLoop, hu, List.map_append, List.map_reverse]

theorem upstream_eq {ns : List (RainNode K)} {s : State K} (hs : Built attr s ns) (n : RainNode K) :
    s.upstream (.int n.id) = (upstreamOf ns n).map fun m => .int m.id := by
  rw [hs.up]
  unfold upstreamOf
  congr 1
  apply List.filter_congr
  intro x _
  simp [downVal_int]

/-- The collected tree: exactly the nodes under `r`, upstream nodes first. -/
structure Tree (ns : List (RainNode K)) (r : RainNode K) (T : List (RainNode K)) : Prop where
  nodup : T.Nodup
  mem : ∀ x, x ∈ T ↔ x ∈ ns ∧ Under ns r x
  order : ∀ a n b, T = a ++ n :: b → ∀ x ∈ upstreamOf ns n, x ∈ a

theorem tree_of_inv {ns : List (RainNode K)} {r : RainNode K} {T : List (RainNode K)} (h : Inv ns r [] T) : Tree ns r T where
  nodup := by simpa using h.nodup
  mem x := by
    constructor
    · intro hx; exact ⟨h.sub x (by simpa using hx), h.under x (by simpa using hx)⟩
    · rintro ⟨hx, hu⟩
      induction hu with
      | refl => simpa using h.root
      | step hm hd _ ih =>
        obtain ⟨a, b, hab⟩ := List.append_of_mem (ih hm)
        rcases h.closed a _ b hab _ (mem_upstreamOf.2 ⟨hx, hd⟩) with h' | h'
        · rw [hab]; exact List.mem_append_left _ h'
        · cases h'
  order a n b he x hx := by
    rcases h.closed a n b he x hx with h' | h'
    · exact h'
    · cases h'

theorem collect_ok {ns : List (RainNode K)} (hnd : (ns.map (·.id)).Nodup) {s : State K} (hs : Built attr s ns)
    {r : RainNode K} (hrn : r ∈ ns) (hr : r.down = none) :
    ∃ T, Tree ns r T ∧ ∀ fuel, ns.length ≤ fuel →
      treeLoop s.upstream fuel [.int r.id] [] = some (T.map fun n => .int n.id) := by
  have hinv : Inv ns r [r] [] := by
    refine ⟨by simp, by simpa using hrn, by simpa using Under.refl, by simp, by simp, fun a n b he => ?_⟩
    simp at he
  obtain ⟨T, h1, h2⟩ := treeLoop_ok hnd hs hr ns.length [r] [] hinv (by simp)
  refine ⟨T, tree_of_inv h2, fun fuel hf => ?_⟩
  obtain ⟨T', h1', h2'⟩ := treeLoop_ok hnd hs hr fuel [r] [] hinv (by simpa using hf)
  have key : ∀ (fuel k : Nat) (S T : List (Val K)) (R : List (Val K)), treeLoop s.upstream fuel S T = some R →
      treeLoop s.upstream (fuel + k) S T = some R := by
    intro fuel
    induction fuel with
    | zero =>
      intro k S T R h
      cases S with
      | nil => unfold treeLoop at *; exact h
      | cons n S => cases h
    | succ fuel ih =>
      intro k S T R h
      cases S with
      | nil => unfold treeLoop at *; exact h
      | cons n S =>
        rw [show fuel + 1 + k = fuel + k + 1 by omega]
        exact ih k _ _ _ h
  obtain ⟨k, rfl⟩ := Nat.exists_eq_add_of_le hf
  exact key _ k _ _ _ h1

/-! ### Values -/

theorem pySum_eq (l : List K) : sumFl id l = l.sum := by
  unfold sumFl
  rw [List.sum_eq_foldl]
  rfl

theorem arriving_id (ns : List (RainNode K)) (spill : Int → K) (n : RainNode K) :
    arrivingFl id ns spill n = arriving ns spill n := by
  unfold arrivingFl arriving
  rw [pySum_eq]
  rfl

theorem balanced_id {ns : List (RainNode K)} {v spill : Int → K} {n : RainNode K} :
    BalancedFl id ns v spill n ↔ Balanced ns v spill n := by
  unfold BalancedFl Balanced
  rw [arriving_id]
  rfl

theorem percent_id (v cap : K) : percentFl id v cap = percent v cap := rfl

variable {fl : K → K}

/-- The event computed for node `n` with retained volume `v` and spill `s`. -/
def mkEvent (fl : K → K) (attr : String) (n : RainNode K) (v s : K) : Props K :=
  Dict.set (Dict.set (Dict.set (Dict.set [("nodeid", .int n.id)] attr (.num n.vol)) "spillv" (.num s)) "v" (.num v)) "pctv"
    (percentFl fl v n.cap)

theorem mkEvent_spill (n : RainNode K) (v s : K) : (mkEvent fl attr n v s).get? "spillv" = some (.num s) := by
  unfold mkEvent
  simp [Dict.get?_set]

theorem mkEvent_v (n : RainNode K) (v s : K) : (mkEvent fl attr n v s).get? "v" = some (.num v) := by
  unfold mkEvent
  simp [Dict.get?_set]

theorem mkEvent_pct (n : RainNode K) (v s : K) : (mkEvent fl attr n v s).get? "pctv" = some (percentFl fl v n.cap) := by
  unfold mkEvent
  simp [Dict.get?_set]

theorem mkEvent_id (hattr : attr ≠ "nodeid") (n : RainNode K) (v s : K) :
    (mkEvent fl attr n v s).get? "nodeid" = some (.int n.id) := by
  unfold mkEvent
  simp [Dict.get?_set, hattr, Dict.get?]

/-- What each node of `order` retains and spills, computed from upstream to downstream. -/
def fillNode (fl : K → K) (ns : List (RainNode K)) (σ : (Int → K) × (Int → K)) (n : RainNode K) : (Int → K) × (Int → K) :=
  (Function.update σ.1 n.id (min (arrivingFl fl ns σ.2 n) n.cap),
   Function.update σ.2 n.id (max 0 (fl (arrivingFl fl ns σ.2 n - n.cap))))

def eventsOf (fl : K → K) (attr : String) (σ : (Int → K) × (Int → K)) (P : List (RainNode K)) : Dict (Val K) (Props K) :=
  P.map fun n => (.int n.id, mkEvent fl attr n (σ.1 n.id) (σ.2 n.id))

theorem number_ok {p : Props K} {name : String} {x : Val K} {a : K} (h1 : p.get? name = some x) (h2 : x.float = .ok a) :
    number p name = .ok a := by
  unfold number
  rw [Dict.getItem_ok.2 h1]
  exact h2

theorem eventsOf_get {σ : (Int → K) × (Int → K)} {P : List (RainNode K)} (hP : (P.map (·.id)).Nodup) {m : RainNode K}
    (hm : m ∈ P) : (eventsOf fl attr σ P).get? (.int m.id) = some (mkEvent fl attr m (σ.1 m.id) (σ.2 m.id)) := by
  apply Dict.get?_of_mem
  · unfold eventsOf
    rw [List.map_map]
    have : ((fun x : Val K × Props K => x.1) ∘ fun n : RainNode K => (Val.int n.id, mkEvent fl attr n (σ.1 n.id) (σ.2 n.id))) =
        (fun i : Int => (Val.int i : Val K)) ∘ (fun n : RainNode K => n.id) := rfl
    rw [this, ← List.map_map]
    exact hP.map fun a b h => Val.int.inj h
  · exact List.mem_map.2 ⟨m, hm, rfl⟩

theorem calcNode_ok {ns : List (RainNode K)} {s : State K} (hs : Built attr s ns)
    {σ : (Int → K) × (Int → K)} {P : List (RainNode K)} (hP : ((P).map (·.id)).Nodup) {n : RainNode K} (hn : n ∈ ns)
    (hnP : n.id ∉ P.map (·.id)) (hup : ∀ m ∈ upstreamOf ns n, m ∈ P) :
    calcNodeFl fl s attr (eventsOf fl attr σ P) (.int n.id) = .ok (eventsOf fl attr (fillNode fl ns σ n) (P ++ [n])) := by
  obtain ⟨p, hp, hc⟩ := hs.index n hn
  obtain ⟨xa, a, ha1, ha2⟩ := hc.area
  obtain ⟨xv, hv1, hv2⟩ := hc.vol
  obtain ⟨xc, hc1, hc2⟩ := hc.cap
  have hm1 : (s.upstream (.int n.id)).mapM (fun nid => Dict.getItem (eventsOf fl attr σ P) nid) =
      .ok ((upstreamOf ns n).map fun m => mkEvent fl attr m (σ.1 m.id) (σ.2 m.id)) := by
    rw [upstream_eq hs, List.mapM_map]
    refine mapM_ok fun m hm => ?_
    exact Dict.getItem_ok.2 (eventsOf_get hP (hup m hm))
  have hm2 : ((upstreamOf ns n).map fun m => mkEvent fl attr m (σ.1 m.id) (σ.2 m.id)).mapM (fun un => number un "spillv") =
      .ok ((upstreamOf ns n).map fun m => σ.2 m.id) := by
    rw [List.mapM_map]
    refine mapM_ok fun m _ => ?_
    exact number_ok (mkEvent_spill m _ _) rfl
  have htot : fl (n.vol + (if s.upstream (.int n.id) = [] then 0 else pySumFl fl ((upstreamOf ns n).map fun m => σ.2 m.id))) =
      arrivingFl fl ns σ.2 n := by
    rw [upstream_eq hs]
    unfold arrivingFl
    by_cases h0 : upstreamOf ns n = []
    · simp [h0, sumFl]
    · simp [h0, sumFl, pySumFl]
  unfold calcNodeFl
  rw [Dict.getItem_ok.2 hp]
  simp only [bind, Except.bind, number_ok ha1 ha2, number_ok hv1 hv2, number_ok hc1 hc2, hm1, hm2, htot,
    Dict.getItem_ok.2 hc.id, pure, Except.pure]
  congr 1
  have hold : eventsOf fl attr σ P = eventsOf fl attr (fillNode fl ns σ n) P := by
    unfold eventsOf fillNode
    apply List.map_congr_left
    intro m hm
    have hne : m.id ≠ n.id := fun e => hnP (e ▸ List.mem_map_of_mem hm)
    simp [Function.update_of_ne hne]
  rw [Dict.set_new, hold]
  · unfold eventsOf
    rw [List.map_append]
    simp [fillNode, mkEvent, percentFl]
  · unfold eventsOf
    rw [List.map_map]
    intro hmem
    obtain ⟨m, hm, he⟩ := List.mem_map.1 hmem
    exact hnP (Val.int.inj he ▸ List.mem_map_of_mem hm)

theorem calcTree_ok {ns : List (RainNode K)} {s : State K} (hs : Built attr s ns) :
    ∀ (T P : List (RainNode K)) (σ : (Int → K) × (Int → K)), ((P ++ T).map (·.id)).Nodup → (∀ n ∈ T, n ∈ ns) →
    (∀ a n b, T = a ++ n :: b → ∀ x ∈ upstreamOf ns n, x ∈ P ++ a) →
    (T.map fun n => (.int n.id : Val K)).foldlM (calcNodeFl fl s attr) (eventsOf fl attr σ P) =
      .ok (eventsOf fl attr (T.foldl (fillNode fl ns) σ) (P ++ T)) := by
  intro T
  induction T with
  | nil => intro P σ _ _ _; simp [pure, Except.pure]
  | cons n T ih =>
    intro P σ hnd hsub hord
    have hnP : n.id ∉ P.map (·.id) := by
      rw [List.map_append, List.nodup_append] at hnd
      intro hmem
      exact hnd.2.2 _ hmem n.id (by simp) rfl
    have hP : (P.map (·.id)).Nodup := by
      rw [List.map_append, List.nodup_append] at hnd
      exact hnd.1
    rw [List.map_cons, List.foldlM_cons, calcNode_ok hs hP (hsub n (by simp)) hnP
      (fun m hm => by simpa using hord [] n T rfl m hm)]
    have := ih (P ++ [n]) (fillNode fl ns σ n) (by simpa using hnd) (fun m hm => hsub m (List.mem_cons_of_mem _ hm))
      (fun a m b he x hx => by
        have := hord (n :: a) m b (by rw [he]; rfl) x hx
        simpa using this)
    simpa [bind, Except.bind] using this

/-! ### The run -/

/-- The roots processed so far and the nodes under them. -/
theorem roots_ok {ns : List (RainNode K)} (hnd : (ns.map (·.id)).Nodup) {s : State K} (hs : Built attr s ns) :
    ∀ (rs P : List (RainNode K)) (σ : (Int → K) × (Int → K)), (∀ r ∈ rs, r ∈ ns ∧ r.down = none) → rs.Nodup →
    (P.map (·.id)).Nodup → (∀ x ∈ P, x ∈ ns ∧ ∀ r ∈ rs, ¬ Under ns r x) →
    ∃ T, (∀ fuel, ns.length ≤ fuel →
      (rs.map fun n => (.int n.id : Val K)).foldlM (calcStreamTreeFl fl s attr fuel) (eventsOf fl attr σ P) =
        (some (.ok (eventsOf fl attr (T.foldl (fillNode fl ns) σ) (P ++ T))) : Option (Except PyErr _))) ∧
      ((P ++ T).map (·.id)).Nodup ∧ (∀ x, x ∈ T ↔ x ∈ ns ∧ ∃ r ∈ rs, Under ns r x) ∧
      ∀ a n b, T = a ++ n :: b → ∀ x ∈ upstreamOf ns n, x ∈ a := by
  intro rs
  induction rs with
  | nil =>
    intro P σ _ _ hP _
    exact ⟨[], fun _ _ => by simp; rfl, by simpa using hP, by simp, fun a n b he => by simp at he⟩
  | cons r rs ih =>
    intro P σ hrs hrsn hP hPu
    obtain ⟨hrn, hr⟩ := hrs r (by simp)
    obtain ⟨T1, ht, hrun⟩ := collect_ok hnd hs hrn hr
    have hsub1 : ∀ n ∈ T1, n ∈ ns := fun n hn => ((ht.mem n).1 hn).1
    have hPT : ((P ++ T1).map (·.id)).Nodup := by
      rw [List.map_append, List.nodup_append]
      refine ⟨hP, ?_, fun a ha b hb he => ?_⟩
      · exact List.Nodup.map_on (fun x hx y hy h => eq_of_id hnd (hsub1 x hx) (hsub1 y hy) h) ht.nodup
      · obtain ⟨x, hx, rfl⟩ := List.mem_map.1 ha
        obtain ⟨y, hy, rfl⟩ := List.mem_map.1 hb
        have := eq_of_id hnd (hPu x hx).1 (hsub1 y hy) he
        subst this
        exact (hPu x hx).2 r (by simp) ((ht.mem x).1 hy).2
    have hc := calcTree_ok (attr := attr) (fl := fl) hs T1 P σ hPT hsub1
      (fun a n b he x hx => List.mem_append_right _ (ht.order a n b he x hx))
    rw [List.nodup_cons] at hrsn
    obtain ⟨T2, h1, h2, h3, h4⟩ := ih (P ++ T1) (T1.foldl (fillNode fl ns) σ) (fun r' hr' => hrs r' (List.mem_cons_of_mem _ hr'))
      hrsn.2 hPT (by
        intro x hx
        rcases List.mem_append.1 hx with hx | hx
        · exact ⟨(hPu x hx).1, fun r' hr' => (hPu x hx).2 r' (List.mem_cons_of_mem _ hr')⟩
        · refine ⟨hsub1 x hx, fun r' hr' hu => ?_⟩
          have := Under.unique hnd hr (hrs r' (List.mem_cons_of_mem _ hr')).2 ((ht.mem x).1 hx).2 hu
          exact hrsn.1 (this ▸ hr'))
    refine ⟨T1 ++ T2, fun fuel hf => ?_, by simpa using h2, fun x => ?_, fun a n b he x hx => ?_⟩
    · rw [List.map_cons, List.foldlM_cons]
      have e1 : calcStreamTreeFl fl s attr fuel (eventsOf fl attr σ P) (.int r.id) =
          (some (.ok (eventsOf fl attr (T1.foldl (fillNode fl ns) σ) (P ++ T1))) : Option (Except PyErr _)) := by
        unfold calcStreamTreeFl
        rw [hrun fuel hf]
        exact congrArg some hc
      rw [Net.comp_bind e1, h1 fuel hf]
      simp [List.foldl_append]
    · rw [List.mem_append, ht.mem, h3]
      constructor
      · rintro (⟨h, h'⟩ | ⟨h, r', h', h''⟩)
        · exact ⟨h, r, by simp, h'⟩
        · exact ⟨h, r', List.mem_cons_of_mem _ h', h''⟩
      · rintro ⟨h, r', h', h''⟩
        rcases List.mem_cons.1 h' with rfl | h'
        · exact .inl ⟨h, h''⟩
        · exact .inr ⟨h, r', h', h''⟩
    · by_cases hin : n ∈ T1
      · have hx1 : x ∈ T1 := by
          obtain ⟨a', b', hab⟩ := List.append_of_mem hin
          rw [hab]
          exact List.mem_append_left _ (ht.order a' n b' hab x hx)
        rcases List.append_eq_append_iff.1 he with ⟨c, hc1, hc2⟩ | ⟨c, hc1, hc2⟩
        · rw [hc1]; exact List.mem_append_left _ hx1
        · cases c with
          | nil =>
            rw [List.append_nil] at hc1; rw [← hc1]; exact hx1
          | cons y c =>
            simp only [List.cons_append, List.cons.injEq] at hc2
            obtain ⟨rfl, _⟩ := hc2
            exact ht.order a n c hc1 x hx
      · rcases List.append_eq_append_iff.1 he with ⟨c, hc1, hc2⟩ | ⟨c, hc1, hc2⟩
        · rw [hc1]
          exact List.mem_append_right _ (h4 c n b hc2 x hx)
        · cases c with
          | nil =>
            simp only [List.nil_append] at hc2
            have := h4 [] n b (by simpa using hc2.symm) x hx
            cases this
          | cons y c =>
            simp only [List.cons_append, List.cons.injEq] at hc2
            obtain ⟨rfl, _⟩ := hc2
            exact absurd (by rw [hc1]; simp) hin

theorem balanced_foldl {ns : List (RainNode K)} : ∀ (T P : List (RainNode K)) (σ : (Int → K) × (Int → K)),
    ((P ++ T).map (·.id)).Nodup → (∀ a n b, P ++ T = a ++ n :: b → ∀ x ∈ upstreamOf ns n, x ∈ a) →
    (∀ n ∈ P, BalancedFl fl ns σ.1 σ.2 n) →
    ∀ n ∈ P ++ T, BalancedFl fl ns (T.foldl (fillNode fl ns) σ).1 (T.foldl (fillNode fl ns) σ).2 n := by
  intro T
  induction T with
  | nil => intro P σ _ _ h; simpa using h
  | cons t T ih =>
    intro P σ hnd hord h
    have := ih (P ++ [t]) (fillNode fl ns σ t) (by simpa using hnd) (by simpa using hord) (by
      have hsep : ∀ x ∈ P, x.id ≠ t.id := by
        intro x hx he
        rw [List.map_append, List.nodup_append] at hnd
        exact hnd.2.2 _ (List.mem_map_of_mem hx) t.id (by simp) he
      have harr : ∀ n, (∀ x ∈ upstreamOf ns n, x ∈ P) → arrivingFl fl ns (fillNode fl ns σ t).2 n = arrivingFl fl ns σ.2 n := by
        intro n hx
        unfold arrivingFl fillNode
        congr 3
        apply List.map_congr_left
        intro m hm
        simp [Function.update_of_ne (hsep m (hx m hm))]
      intro n hn
      rcases List.mem_append.1 hn with hn | hn
      · have hup : ∀ x ∈ upstreamOf ns n, x ∈ P := by
          intro x hx
          obtain ⟨a, b, hab⟩ := List.append_of_mem hn
          have := hord a n (b ++ t :: T) (by rw [hab]; simp) x hx
          rw [hab]
          exact List.mem_append_left _ this
        have hb := h n hn
        unfold BalancedFl at *
        rw [harr n hup]
        simp only [fillNode, Function.update_of_ne (hsep n hn)]
        exact hb
      · obtain rfl := List.mem_singleton.1 hn
        have hup : ∀ x ∈ upstreamOf ns n, x ∈ P := fun x hx => hord P n T rfl x hx
        unfold BalancedFl
        rw [harr n hup]
        simp [fillNode])
    simpa using this

/-- rain_event: the order of the events and the values in them. -/
theorem rain_within (fl : K → K) {ns : List (RainNode K)} (hnd : (ns.map (·.id)).Nodup) {s : State K} (hs : Built attr s ns) :
    ∃ (order : List (RainNode K)) (v spill : Int → K),
      (∀ fuel, ns.length ≤ fuel →
        rainEventFl fl s attr fuel = some (.ok (order.map fun n => mkEvent fl attr n (v n.id) (spill n.id)))) ∧
      (order.map (·.id)).Nodup ∧ (∀ n, n ∈ order ↔ n ∈ ns ∧ LeadsToRoot ns n) ∧ UpstreamFirst ns order ∧
      ∀ n ∈ order, BalancedFl fl ns v spill n := by
  set rs := ns.filter fun m => m.down = none with hrs
  have hmem : ∀ r, r ∈ rs ↔ r ∈ ns ∧ r.down = none := fun r => by simp [hrs]
  obtain ⟨T, h1, h2, h3, h4⟩ := roots_ok hnd hs rs [] (fun _ => 0, fun _ => 0) (fun r hr => (hmem r).1 hr)
    ((List.Nodup.of_map _ hnd).filter _) (by simp) (by simp)
  rw [List.nil_append] at h2
  refine ⟨T, _, _, fun fuel hf => ?_, h2, fun n => ?_, h4,
    balanced_foldl T [] (fun _ => 0, fun _ => 0) (by simpa using h2) (by simpa using h4) (by simp)⟩
  · unfold rainEventFl
    rw [hs.roots]
    refine (Net.comp_bind (h1 fuel hf) _).trans ?_
    simp only [List.nil_append, pure, ExceptT.pure, Dict.values, eventsOf, List.map_map]
    rfl
  · rw [h3]
    constructor
    · rintro ⟨hn, r, hr, hu⟩
      exact ⟨hn, (leads_iff hn).2 ⟨r, ((hmem r).1 hr).1, ((hmem r).1 hr).2, hu⟩⟩
    · rintro ⟨hn, hl⟩
      obtain ⟨r, hr1, hr2, hu⟩ := (leads_iff hn).1 hl
      exact ⟨hn, r, (hmem r).2 ⟨hr1, hr2⟩, hu⟩

/-- rain_event, however long it takes. -/
theorem rain_ok (fl : K → K) {ns : List (RainNode K)} (hnd : (ns.map (·.id)).Nodup) {s : State K} (hs : Built attr s ns) :
    ∃ (order : List (RainNode K)) (v spill : Int → K),
      Returns (rainEventFl fl s attr) (.ok (order.map fun n => mkEvent fl attr n (v n.id) (spill n.id))) ∧
      (order.map (·.id)).Nodup ∧ (∀ n, n ∈ order ↔ n ∈ ns ∧ LeadsToRoot ns n) ∧ UpstreamFirst ns order ∧
      ∀ n ∈ order, BalancedFl fl ns v spill n :=
  let ⟨order, v, spill, h, r⟩ := rain_within fl hnd hs
  ⟨order, v, spill, ⟨_, h⟩, r⟩

end Network
end Malstroem
