/-
Water balance on the node network (malstroem/network.py): C34-C38 and C55.

`ps` are the property dicts handed to the network, `ns` the nodes they describe. All arithmetic is exact.
-/
import Verif.Proofs.FinalState
import Mathlib.Algebra.Order.Ring.Rat
import Mathlib.Data.Rat.Defs

set_option linter.unusedSectionVars false

namespace Malstroem
open Spec Network
variable {K : Type} [Field K] [LinearOrder K]

/-- The property dicts `ps` describe the nodes `ns`, whose ids are distinct. `attr` is the attribute with the volumes;
it must not be the id attribute itself. -/
structure NodeInput (attr : String) (ps : List (Props K)) (ns : List (RainNode K)) : Prop where
  carries : List.Forall₂ (Carries attr) ps ns
  distinct : (ns.map (·.id)).Nodup
  attr_ne : attr ≠ "nodeid"

/-- Building a network from `ps` and running the rain event on it returns `events`. -/
def RainRun (attr : String) (ps events : List (Props K)) : Prop :=
  ∃ s, addNodes State.init ps = .ok s ∧ Returns (rainEvent s attr) (.ok events)

theorem RainRun.unique {attr : String} {ps e e' : List (Props K)} (h : RainRun attr ps e) (h' : RainRun attr ps e') : e = e' := by
  obtain ⟨s, h1, h2⟩ := h
  obtain ⟨s', h1', h2'⟩ := h'
  rw [h1] at h1'
  injection h1' with h1'
  subst h1'
  exact Except.ok.inj (h2.unique h2')

/-- All that is known about a run. -/
theorem rain_run {attr : String} {ps : List (Props K)} {ns : List (RainNode K)} (hi : NodeInput attr ps ns) :
    ∃ (order : List (RainNode K)) (v spill : Int → K),
      RainRun attr ps (order.map fun n => mkEvent id attr n (v n.id) (spill n.id)) ∧
      (order.map (·.id)).Nodup ∧ (∀ n, n ∈ order ↔ n ∈ ns ∧ LeadsToRoot ns n) ∧ UpstreamFirst ns order ∧
      ∀ n ∈ order, Balanced ns v spill n := by
  obtain ⟨s, hs1, hs2⟩ := addNodes_ok hi.carries hi.distinct
  obtain ⟨order, v, spill, h1, h2, h3, h4, h5⟩ := rain_ok id hi.distinct hs2
  exact ⟨order, v, spill, ⟨s, hs1, h1⟩, h2, h3, h4, fun n hn => balanced_id.1 (h5 n hn)⟩

theorem isEvent_mk {attr : String} (hattr : attr ≠ "nodeid") (n : RainNode K) (v spill : Int → K) :
    IsEvent (mkEvent id attr n (v n.id) (spill n.id)) n v spill :=
  ⟨mkEvent_id hattr n _ _, mkEvent_v n _ _, mkEvent_spill n _ _, mkEvent_pct n _ _⟩

/-- Every run reports the nodes of some upstream-first order with balanced values; `v` and `spill` are any functions
that agree with the events. -/
theorem run_spec {attr : String} {ps events : List (Props K)} {ns : List (RainNode K)} (hi : NodeInput attr ps ns)
    (hr : RainRun attr ps events) : ∃ order : List (RainNode K),
      (order.map (·.id)).Nodup ∧ (∀ n, n ∈ order ↔ n ∈ ns ∧ LeadsToRoot ns n) ∧ UpstreamFirst ns order ∧
      ∀ v spill : Int → K, (∀ n ∈ ns, LeadsToRoot ns n → ∃ e ∈ events, IsEvent e n v spill) →
        (∀ n ∈ order, Balanced ns v spill n) := by
  obtain ⟨order, v, spill, h1, h2, h3, h4, h5⟩ := rain_run hi
  refine ⟨order, h2, h3, h4, fun v' spill' hev n hn => ?_⟩
  have hagree : ∀ n ∈ order, v' n.id = v n.id ∧ spill' n.id = spill n.id := by
    intro n hn
    obtain ⟨e, he, hn2⟩ := hev n ((h3 n).1 hn).1 ((h3 n).1 hn).2
    rw [hr.unique h1] at he
    obtain ⟨m, hm, rfl⟩ := List.mem_map.1 he
    have hid := hn2.id
    rw [mkEvent_id hi.attr_ne] at hid
    injection hid with hid
    injection hid with hid
    have hmn := eq_of_id hi.distinct ((h3 m).1 hm).1 ((h3 n).1 hn).1 hid
    subst hmn
    have hv := hn2.retained
    have hs := hn2.spilled
    rw [mkEvent_v] at hv
    rw [mkEvent_spill] at hs
    injection hv with hv
    injection hv with hv
    injection hs with hs
    injection hs with hs
    exact ⟨hv.symm, hs.symm⟩
  have ha : arriving ns spill' n = arriving ns spill n := arriving_congr fun m hm => by
    obtain ⟨hm1, hm2⟩ := mem_upstreamOf.1 hm
    exact (hagree m ((h3 m).2 ⟨hm1, .step ((h3 n).1 hn).1 hm2 ((h3 n).1 hn).2⟩)).2
  unfold Balanced
  rw [(hagree n hn).1, (hagree n hn).2, ha]
  exact h5 n hn

/-! ## C36 -/

/-- C36: the rain event returns and reports every node that leads to a root exactly once, and no other node. Downstream
ids may be cyclic or dangling. -/
theorem C36_reports {attr : String} {ps : List (Props K)} {ns : List (RainNode K)} (hi : NodeInput attr ps ns) :
    ∃ events, RainRun attr ps events ∧ (events.map fun e => Dict.get? e "nodeid").Nodup ∧
      ∀ x, x ∈ events.map (fun e => Dict.get? e "nodeid") ↔ ∃ n ∈ ns, LeadsToRoot ns n ∧ x = some (.int n.id) := by
  obtain ⟨order, v, spill, h1, h2, h3, -, -⟩ := rain_run hi
  refine ⟨_, h1, ?_, fun x => ?_⟩
  · rw [List.map_map]
    have : order.map ((fun e => Dict.get? e "nodeid") ∘ fun n => mkEvent id attr n (v n.id) (spill n.id)) =
        (order.map (·.id)).map fun i => some (.int i) := by
      rw [List.map_map]
      exact List.map_congr_left fun n _ => mkEvent_id hi.attr_ne n _ _
    rw [this]
    exact h2.map fun a b h => Val.int.inj (Option.some.inj h)
  · simp only [List.map_map, List.mem_map, Function.comp, mkEvent_id hi.attr_ne, h3]
    constructor
    · rintro ⟨n, ⟨hn, hl⟩, rfl⟩; exact ⟨n, hn, hl, rfl⟩
    · rintro ⟨n, hn, hl, rfl⟩; exact ⟨n, ⟨hn, hl⟩, rfl⟩

/-! ## C34 -/

section Ordered
variable [IsStrictOrderedRing K]

/-- C34: every reported event is that of a node leading to a root; every such node and its upstream nodes are reported;
the node retains and spills exactly the water that arrives, retaining what fits. -/
theorem C34_balance {attr : String} {ps events : List (Props K)} {ns : List (RainNode K)} (hi : NodeInput attr ps ns)
    (hr : RainRun attr ps events) : ∃ v spill : Int → K,
      (∀ e ∈ events, ∃ n ∈ ns, LeadsToRoot ns n ∧ IsEvent e n v spill) ∧
      ∀ n ∈ ns, LeadsToRoot ns n →
        (∃ e ∈ events, IsEvent e n v spill) ∧
        (∀ m ∈ ns, m.down = some n.id → ∃ e ∈ events, IsEvent e m v spill) ∧
        v n.id + spill n.id = n.vol + ((ns.filter fun m => m.down = some n.id).map fun m => spill m.id).sum ∧
        v n.id = min (v n.id + spill n.id) n.cap ∧ spill n.id = max 0 (v n.id + spill n.id - n.cap) := by
  obtain ⟨order, v, spill, h1, h2, h3, h4, h5⟩ := rain_run hi
  have hev : ∀ n ∈ ns, LeadsToRoot ns n → ∃ e ∈ events, IsEvent e n v spill := fun n hn hl => by
    rw [hr.unique h1]
    exact ⟨_, List.mem_map.2 ⟨n, (h3 n).2 ⟨hn, hl⟩, rfl⟩, isEvent_mk hi.attr_ne n v spill⟩
  refine ⟨v, spill, fun e he => ?_, fun n hn hl => ⟨hev n hn hl, fun m hm hd => hev m hm (.step hn hd hl), ?_⟩⟩
  · rw [hr.unique h1] at he
    obtain ⟨n, hn, rfl⟩ := List.mem_map.1 he
    exact ⟨n, ((h3 n).1 hn).1, ((h3 n).1 hn).2, isEvent_mk hi.attr_ne n v spill⟩
  · have hb := h5 n ((h3 n).2 ⟨hn, hl⟩)
    have hs := balanced_sum hb
    refine ⟨hs, ?_, ?_⟩
    · rw [hs]; exact hb.1
    · rw [hs]; exact hb.2

/-- C34: with non-negative volumes and capacities, retained and spilled volumes are non-negative, nothing is filled above
its capacity, only full nodes spill, and the percentage lies between 0 and 100. -/
theorem C34_bounds {attr : String} {ps events : List (Props K)} {ns : List (RainNode K)} (hi : NodeInput attr ps ns)
    (hr : RainRun attr ps events) (hpos : ∀ n ∈ ns, 0 ≤ n.vol ∧ 0 ≤ n.cap) :
    ∀ e ∈ events, ∃ n ∈ ns, e.get? "nodeid" = some (.int n.id) ∧ ∃ v s : K,
      e.get? "v" = some (.num v) ∧ e.get? "spillv" = some (.num s) ∧ 0 ≤ v ∧ v ≤ n.cap ∧ 0 ≤ s ∧ (0 < s → v = n.cap) ∧
      (e.get? "pctv" = some .none ∧ n.cap = 0 ∨ ∃ x, e.get? "pctv" = some (.num x) ∧ 0 ≤ x ∧ x ≤ 100 ∧ x * n.cap = 100 * v) := by
  obtain ⟨order, v, spill, h1, h2, h3, h4, h5⟩ := rain_run hi
  intro e he
  rw [hr.unique h1] at he
  obtain ⟨n, hn, rfl⟩ := List.mem_map.1 he
  have hns := ((h3 n).1 hn).1
  have hE := isEvent_mk hi.attr_ne n v spill
  have hb := h5 n hn
  have harr : 0 ≤ arriving ns spill n := arriving_nonneg (hpos n hns).1 fun m hm => by
    obtain ⟨hm1, hm2⟩ := mem_upstreamOf.1 hm
    exact balanced_spill_nonneg (h5 m ((h3 m).2 ⟨hm1, .step hns hm2 ((h3 n).1 hn).2⟩))
  have hv0 : 0 ≤ v n.id := by rw [hb.1]; exact le_min harr (hpos n hns).2
  have hv1 : v n.id ≤ n.cap := by rw [hb.1]; exact min_le_right _ _
  refine ⟨n, hns, hE.id, v n.id, spill n.id, hE.retained, hE.spilled, hv0, hv1, balanced_spill_nonneg hb, balanced_full hb, ?_⟩
  rw [hE.pct]
  by_cases hc : n.cap = 0
  · exact .inl ⟨by simp [percent, hc], hc⟩
  · right
    have hp : percent (v n.id) n.cap = .num (100 * v n.id / n.cap) := by simp [percent, hc]
    have hb2 := percent_bounds hv0 hv1 hp
    exact ⟨_, by rw [hp], hb2.1, hb2.2, div_mul_cancel₀ _ hc⟩

/-! ## C35 -/

/-- C35: when every node leads to a root, all water put in is either retained in a node or spilled from a root. `v` and
`spill` are the reported values. -/
theorem C35_conserved {attr : String} {ps events : List (Props K)} {ns : List (RainNode K)} (hi : NodeInput attr ps ns)
    (hr : RainRun attr ps events) (hall : ∀ n ∈ ns, LeadsToRoot ns n) {v spill : Int → K}
    (hev : ∀ n ∈ ns, ∃ e ∈ events, IsEvent e n v spill) :
    (ns.map (·.vol)).sum =
      (ns.map fun n => v n.id).sum + ((ns.filter fun n => n.down = none).map fun n => spill n.id).sum := by
  obtain ⟨order, h2, h3, h4, h5⟩ := run_spec hi hr
  exact conserved hi.distinct hi.distinct (fun n => ⟨fun h => ⟨h, hall n h⟩, fun h => h.1⟩)
    fun n hn => h5 v spill (fun n hn _ => hev n hn) n ((h3 n).2 ⟨hn, hall n hn⟩)

/-- C35 in any network: the same holds for the nodes `reached`, those that lead to a root. -/
theorem C35_conserved_reached {attr : String} {ps events : List (Props K)} {ns reached : List (RainNode K)}
    (hi : NodeInput attr ps ns) (hr : RainRun attr ps events) (hnd : reached.Nodup)
    (hre : ∀ n, n ∈ reached ↔ n ∈ ns ∧ LeadsToRoot ns n) {v spill : Int → K}
    (hev : ∀ n ∈ reached, ∃ e ∈ events, IsEvent e n v spill) :
    (reached.map (·.vol)).sum =
      (reached.map fun n => v n.id).sum + ((reached.filter fun n => n.down = none).map fun n => spill n.id).sum := by
  obtain ⟨order, h2, h3, h4, h5⟩ := run_spec hi hr
  refine conserved hi.distinct ?_ hre fun n hn =>
    h5 v spill (fun n hn hl => hev n ((hre n).2 ⟨hn, hl⟩)) n ((h3 n).2 ((hre n).1 hn))
  exact List.Nodup.map_on (fun a ha b hb hab => eq_of_id hi.distinct ((hre a).1 ha).1 ((hre b).1 hb).1 hab) hnd

/-! ## C37 -/

/-- C37: adding the nodes in another order gives the same events (in possibly another order). -/
theorem C37_order {attr : String} {ps ps' events events' : List (Props K)} {ns : List (RainNode K)}
    (hi : NodeInput attr ps ns) (hp : ps.Perm ps') (hr : RainRun attr ps events) (hr' : RainRun attr ps' events') :
    events.Perm events' := by
  obtain ⟨ns', hc', hpn⟩ : ∃ ns', List.Forall₂ (Carries attr) ps' ns' ∧ ns'.Perm ns := by
    have h1 := List.perm_comp_forall₂ hp.symm hi.carries
    obtain ⟨ns', h2, h3⟩ := h1
    exact ⟨ns', h2, h3⟩
  have hi' : NodeInput attr ps' ns' := ⟨hc', ((hpn.map (·.id)).nodup_iff).2 hi.distinct, hi.attr_ne⟩
  obtain ⟨o, v, spill, h1, h2, h3, h4, h5⟩ := rain_run hi
  obtain ⟨o', v', spill', h1', h2', h3', h4', h5'⟩ := rain_run hi'
  have hoo : o.Perm o' := by
    rw [List.perm_ext_iff_of_nodup (List.Nodup.of_map _ h2) (List.Nodup.of_map _ h2')]
    intro n
    rw [h3, h3', hpn.mem_iff]
    exact ⟨fun h => ⟨h.1, leads_perm hpn.symm h.2⟩, fun h => ⟨h.1, leads_perm hpn h.2⟩⟩
  have huniq := balanced_unique h4 h5 (fun n hn => balanced_perm hpn (h5' n (hoo.mem_iff.1 hn)))
  rw [hr.unique h1, hr'.unique h1', List.map_congr_left fun n hn => by rw [(huniq n hn).1, (huniq n hn).2]]
  exact hoo.map _

/-! ## C38 -/

/-- Node `n'` is node `n` with at least as much water of its own and at most as much capacity. -/
structure MoreWater (n n' : RainNode K) : Prop where
  id : n'.id = n.id
  down : n'.down = n.down
  vol : n.vol ≤ n'.vol
  cap : n'.cap ≤ n.cap

/-- C38: if no node gets less water or more capacity, every node spills at least as much; a node whose capacity stays the
same also retains at least as much. -/
theorem C38_monotone {attr : String} {ps ps' events events' : List (Props K)} {ns ns' : List (RainNode K)}
    (hi : NodeInput attr ps ns) (hi' : NodeInput attr ps' ns') (hm : List.Forall₂ MoreWater ns ns')
    (hr : RainRun attr ps events) (hr' : RainRun attr ps' events') {v spill v' spill' : Int → K}
    (hev : ∀ n ∈ ns, LeadsToRoot ns n → ∃ e ∈ events, IsEvent e n v spill)
    (hev' : ∀ n ∈ ns', LeadsToRoot ns' n → ∃ e ∈ events', IsEvent e n v' spill') :
    ∀ n ∈ ns, LeadsToRoot ns n → spill n.id ≤ spill' n.id ∧
      ∀ n' ∈ ns', n'.id = n.id → n'.cap = n.cap → v n.id ≤ v' n.id := by
  have hw : List.Forall₂ Wetter ns ns' := hm.imp fun a b h => ⟨h.id, h.down, h.vol, h.cap⟩
  obtain ⟨o, h2, h3, h4, h5⟩ := run_spec hi hr
  obtain ⟨o', h2', h3', h4', h5'⟩ := run_spec hi' hr'
  intro n hn hl
  obtain ⟨a, b⟩ := spill_mono hw h4 (fun n hn => ((h3 n).1 hn).1) (h5 v spill hev) (v' := v') (spill' := spill')
    (fun n hn n' hn' hwn => h5' v' spill' hev' n' ((h3' n').2 ⟨hn', leads_wetter (R := Wetter) (fun _ _ h => h.id)
      (fun _ _ h => h.down) hw ((h3 n).1 hn).2 hwn⟩)) n ((h3 n).2 ⟨hn, hl⟩)
  refine ⟨a, fun n' hn' hid hcap => ?_⟩
  obtain ⟨m, hm1, hm2⟩ := exists_paired hw hn
  have : n' = m := eq_of_id hi'.distinct hn' hm1 (hid.trans hm2.id.symm)
  subst this
  exact b n' hn' hm2 hcap

/-- A network and the same network with other volumes and capacities reach the same nodes (so C38 speaks about all
nodes of both runs). -/
theorem C38_same_nodes {ns ns' : List (RainNode K)} (hm : List.Forall₂ MoreWater ns ns') {n n' : RainNode K}
    (h : MoreWater n n') : LeadsToRoot ns n ↔ LeadsToRoot ns' n' := by
  constructor
  · intro hl
    exact leads_wetter (R := MoreWater) (fun _ _ h => h.id) (fun _ _ h => h.down) hm hl h
  · intro hl
    have hm' : List.Forall₂ (fun a b => MoreWater b a) ns' ns := hm.flip
    exact leads_wetter (R := fun a b => MoreWater b a) (fun _ _ h => h.id.symm) (fun _ _ h => h.down.symm) hm' hl h

end Ordered

/-! ## C55 -/

theorem exists_nodes {R : Feature K → RainNode K → Prop} : ∀ l : List (Feature K), (∀ f ∈ l, ∃ n, R f n) →
    ∃ ns, List.Forall₂ R l ns := by
  intro l
  induction l with
  | nil => intro _; exact ⟨[], .nil⟩
  | cons f l ih =>
    intro h
    obtain ⟨n, hn⟩ := h f (by simp)
    obtain ⟨ns, hns⟩ := ih fun g hg => h g (List.mem_cons_of_mem _ hg)
    exact ⟨n :: ns, .cons hn hns⟩

/-- C55: FinalStateCalculator returns. It writes one feature per distinct node id (for repeated ids the last one). `rows`
lists the kept feature, the node it describes and the feature written. Nodes leading to a root get spillv, v and pctv of
the balanced state and nothing else changes; other features are written unchanged. -/
theorem C55_final_state {attr : String} {fs : List (Feature K)} (hattr : attr ≠ "nodeid")
    (hfs : ∀ f ∈ fs, ∃ n, Carries attr f.properties n) :
    ∃ (out : List (Feature K)) (rows : List (Feature K × RainNode K × Feature K)) (v spill : Int → K),
      Returns (finalState fs attr) (.ok out) ∧ rows.map (·.2.2) = out ∧ LastPerId fs (rows.map (·.1)) ∧
      ∀ r ∈ rows, Carries attr r.1.properties r.2.1 ∧
        (LeadsToRoot (rows.map (·.2.1)) r.2.1 →
          Balanced (rows.map (·.2.1)) v spill r.2.1 ∧ Finished r.1 r.2.2 r.2.1 v spill) ∧
        (¬ LeadsToRoot (rows.map (·.2.1)) r.2.1 → r.2.2 = r.1) := by
  obtain ⟨d, hd, hi⟩ := indexFeatures_ok (fs := fs) fun f hf => (hfs f hf).imp' (fun n => .int n.id) fun n h => h.id
  obtain ⟨ns, hns⟩ := exists_nodes (R := fun f n => Carries attr f.properties n) d.values fun f hf => by
    obtain ⟨pre, post, he, _⟩ := hi.kept.last f hf
    exact hfs f (by rw [he]; simp)
  obtain ⟨out, v, spill, h1, h2, h3, rows, h4, h5, h6, h7⟩ := finalState_ok hattr hd hi hns
  refine ⟨out, rows, v, spill, h1, h6, by rw [h4]; exact hi.kept, fun r hr => ?_⟩
  rw [h5]
  have hrn : r.2.1 ∈ ns := by rw [← h5]; exact List.mem_map_of_mem hr
  refine ⟨?_, fun hl => ⟨h3 _ hrn hl, (h7 r hr).1 hl⟩, (h7 r hr).2⟩
  rw [← h4, ← h5, List.forall₂_map_left_iff, List.forall₂_map_right_iff, List.forall₂_same] at hns
  exact hns r hr

/-- C55 for distinct ids: the features are written in the order in which they were read. -/
theorem C55_final_state_distinct {attr : String} {fs : List (Feature K)} {ns : List (RainNode K)} (hattr : attr ≠ "nodeid")
    (hfs : List.Forall₂ (fun f n => Carries attr f.properties n) fs ns) (hnd : (ns.map (·.id)).Nodup) :
    ∃ (out : List (Feature K)) (rows : List (Feature K × RainNode K × Feature K)) (v spill : Int → K),
      Returns (finalState fs attr) (.ok out) ∧ rows.map (·.1) = fs ∧ rows.map (·.2.1) = ns ∧ rows.map (·.2.2) = out ∧
      (∀ n ∈ ns, LeadsToRoot ns n → Balanced ns v spill n) ∧
      ∀ r ∈ rows, (LeadsToRoot ns r.2.1 → Finished r.1 r.2.2 r.2.1 v spill) ∧ (¬ LeadsToRoot ns r.2.1 → r.2.2 = r.1) := by
  set key : Feature K → Val K := fun f => (nodeId f).getD .none with hkey
  have hk : ∀ f ∈ fs, nodeId f = some (key f) := by
    intro f hf
    obtain ⟨n, hn⟩ : ∃ n, Carries attr f.properties n := by
      obtain ⟨i, hi, rfl⟩ := List.getElem_of_mem hf
      exact ⟨_, (List.forall₂_iff_get.1 hfs).2 i hi (by rw [← hfs.length_eq]; exact hi)⟩
    have : nodeId f = some (.int n.id) := hn.id
    simp [hkey, this]
  have hkn : fs.map key = (ns.map (·.id)).map Val.int := by
    rw [List.map_map]
    clear hk hnd
    induction hfs with
    | nil => rfl
    | cons hab _ ih =>
      rename_i a b l l' _
      have : nodeId a = some (.int b.id) := hab.id
      rw [List.map_cons, List.map_cons, ih]
      simp [hkey, this]
  have hnk : (fs.map key).Nodup := by rw [hkn]; exact hnd.map fun a b h => Val.int.inj h
  obtain ⟨d, hd, hi⟩ := indexFeatures_ok (fs := fs) fun f hf => ⟨_, hk f hf⟩
  have hd2 := index_distinct key hk hnk
  rw [hd] at hd2
  injection hd2 with hd2
  have hval : d.values = fs := by
    rw [hd2]
    unfold Dict.values
    rw [List.map_map]
    exact List.map_id _
  obtain ⟨out, v, spill, h1, h2, h3, rows, h4, h5, h6, h7⟩ := finalState_ok hattr hd hi (by rw [hval]; exact hfs)
  exact ⟨out, rows, v, spill, h1, by rw [h4, hval], h5, h6, h3, h7⟩

/-! ## The hypotheses can be met -/

section Example

/-- A node feature's properties. -/
def demoProps (id : Int) (down : Option Int) (vol cap : Rat) : Props Rat :=
  [("nodeid", .int id), ("dstrnodeid", downVal down), ("wshed_area", .num 10), ("bspot_vol", .num cap), ("inputv", .num vol)]

theorem demo_carries (id : Int) (down : Option Int) (vol cap : Rat) :
    Carries "inputv" (demoProps id down vol cap) ⟨id, down, vol, cap⟩ :=
  ⟨rfl, rfl, ⟨_, _, rfl, rfl⟩, ⟨_, rfl, rfl⟩, ⟨_, rfl, rfl⟩⟩

/-- Two nodes spilling into a third one that leaves the area, and a cycle of two nodes beside it. -/
def demoNodes : List (RainNode Rat) :=
  [⟨1, some 3, 5, 2⟩, ⟨2, some 3, 1, 4⟩, ⟨3, none, 2, 3⟩, ⟨4, some 5, 1, 0⟩, ⟨5, some 4, 1, 0⟩]

def demoList : List (Props Rat) :=
  [demoProps 1 (some 3) 5 2, demoProps 2 (some 3) 1 4, demoProps 3 none 2 3, demoProps 4 (some 5) 1 0, demoProps 5 (some 4) 1 0]

theorem demo_input : NodeInput "inputv" demoList demoNodes where
  carries := by
    unfold demoList demoNodes
    repeat' constructor
  distinct := by decide
  attr_ne := by decide

/-- The run on these nodes: node 1 spills 3 of its 5, node 3 gets them and spills 2; the cycle is not reported. -/
example : ExceptT.run (do
      let s ← (ExceptT.mk (some (addNodes State.init demoList)) : Net.Comp (State Rat))
      rainEvent s "inputv" 10 : Net.Comp (List (Props Rat))) = some (.ok
    [[("nodeid", .int 1), ("inputv", .num 5), ("spillv", .num 3), ("v", .num 2), ("pctv", .num 100)],
     [("nodeid", .int 2), ("inputv", .num 1), ("spillv", .num 0), ("v", .num 1), ("pctv", .num 25)],
     [("nodeid", .int 3), ("inputv", .num 2), ("spillv", .num 2), ("v", .num 3), ("pctv", .num 100)]]) := by decide +kernel

/-- C34, C36: the hypotheses hold for the demo nodes. -/
example : ∀ n ∈ demoNodes, 0 ≤ n.vol ∧ 0 ≤ n.cap := by decide +kernel

theorem demo_leads : LeadsToRoot demoNodes ⟨1, some 3, 5, 2⟩ :=
  .step (m := ⟨3, none, 2, 3⟩) (by decide +kernel) rfl (.root rfl)

/-- C34, C38: there is a run and values that agree with it. -/
example : ∃ events v spill, RainRun "inputv" demoList events ∧
    ∀ n ∈ demoNodes, LeadsToRoot demoNodes n → ∃ e ∈ events, IsEvent e n v spill := by
  obtain ⟨events, h1, -⟩ := C36_reports demo_input
  obtain ⟨v, spill, -, h2⟩ := C34_balance demo_input h1
  exact ⟨events, v, spill, h1, fun n hn hl => (h2 n hn hl).1⟩

/-- C35: the first three nodes all lead to a root. -/
example : NodeInput "inputv" (demoList.take 3) (demoNodes.take 3) ∧
    ∀ n ∈ demoNodes.take 3, LeadsToRoot (demoNodes.take 3) n := by
  refine ⟨⟨List.forall₂_take 3 demo_input.carries, by decide, by decide⟩, ?_⟩
  have h3 : LeadsToRoot (demoNodes.take 3) ⟨3, none, 2, 3⟩ := .root rfl
  have hm : (⟨3, none, 2, 3⟩ : RainNode Rat) ∈ demoNodes.take 3 := by decide +kernel
  intro n hn
  have : n = ⟨1, some 3, 5, 2⟩ ∨ n = ⟨2, some 3, 1, 4⟩ ∨ n = ⟨3, none, 2, 3⟩ := by
    simpa [demoNodes] using hn
  rcases this with rfl | rfl | rfl
  · exact .step hm rfl h3
  · exact .step hm rfl h3
  · exact h3

/-- C37: another order of the same nodes. -/
example : demoList.Perm demoList.reverse := demoList.reverse_perm.symm

/-- C38: the demo nodes with more water in node 2 and less capacity in node 3. -/
example : List.Forall₂ MoreWater demoNodes
    [⟨1, some 3, 5, 2⟩, ⟨2, some 3, 9, 4⟩, ⟨3, none, 2, 1⟩, ⟨4, some 5, 1, 0⟩, ⟨5, some 4, 1, 0⟩] := by
  unfold demoNodes
  refine .cons ⟨rfl, rfl, ?_, ?_⟩ (.cons ⟨rfl, rfl, ?_, ?_⟩ (.cons ⟨rfl, rfl, ?_, ?_⟩
    (.cons ⟨rfl, rfl, ?_, ?_⟩ (.cons ⟨rfl, rfl, ?_, ?_⟩ .nil)))) <;> decide +kernel

/-- C55: features that carry the demo nodes. -/
example : ∀ f ∈ demoList.map fun p => (⟨none, .none, p⟩ : Feature Rat), ∃ n, Carries "inputv" f.properties n := by
  intro f hf
  simp only [demoList, List.map_cons, List.map_nil, List.mem_cons, List.not_mem_nil, or_false] at hf
  rcases hf with rfl | rfl | rfl | rfl | rfl <;> exact ⟨_, demo_carries _ _ _ _⟩

/-- The condition of distinct ids matters: with a repeated id the event never ends. The nodes are a root 1, a node 2
draining to 1 and a second node 1 draining to 2. -/
theorem C36_repeated_ids_diverge : ∃ s : State Rat,
    addNodes State.init [demoProps 1 none 1 1, demoProps 2 (some 1) 1 1, demoProps 1 (some 2) 1 1] = .ok s ∧
    ∀ fuel, rainEvent s "inputv" fuel = (none : Option (Except PyErr (List (Props Rat)))) := by
  refine ⟨_, rfl, fun fuel => ?_⟩
  have key : ∀ (up : Val Rat → List (Val Rat)), up (.int 1) = [.int 2] → up (.int 2) = [.int 1] →
      ∀ fuel tree, treeLoop up fuel [.int 1] tree = none ∧ treeLoop up fuel [.int 2] tree = none := by
    intro up h1 h2 fuel
    induction fuel with
    | zero => intro tree; exact ⟨rfl, rfl⟩
    | succ fuel ih =>
      intro tree
      constructor
      · rw [treeLoop, h1]; exact (ih _).2
      · rw [treeLoop, h2]; exact (ih _).1
  unfold rainEvent rainEventFl
  show (List.foldlM (calcStreamTree _ "inputv" fuel) [] [Val.int 1] >>= _ : Net.Comp (List (Props Rat))) = _
  rw [List.foldlM_cons]
  unfold calcStreamTree calcStreamTreeFl
  rw [(key _ (by decide +kernel) (by decide +kernel) fuel []).1]
  rfl

end Example

end Malstroem
