/-
Property C83: water moves only downstream. All arithmetic is exact.
-/
import Verif.Props.Network

set_option linter.unusedSectionVars false

namespace Malstroem
open Spec Network
variable {K : Type} [Field K] [LinearOrder K]

theorem Spec.Reaches.trans {ns : List (RainNode K)} {a b c : RainNode K} (h : Reaches ns a b) (h' : Reaches ns b c) :
    Reaches ns a c := by
  induction h with
  | refl => exact h'
  | step hk hd _ ih => exact .step hk hd (ih h')

theorem Spec.Reaches.leads {ns : List (RainNode K)} {m n : RainNode K} (h : Reaches ns m n) (hl : LeadsToRoot ns n) :
    LeadsToRoot ns m := by
  induction h with
  | refl => exact hl
  | step hk hd _ ih => exact .step hk hd (ih hl)

/-- A node that leads to a root is not on a cycle. -/
theorem no_cycle {ns : List (RainNode K)} (hnd : (ns.map (·.id)).Nodup) {n : RainNode K} (hl : LeadsToRoot ns n) :
    ∀ m ∈ ns, n.down = some m.id → ¬ Reaches ns m n := by
  induction hl with
  | root h => intro m _ hd; rw [h] at hd; cases hd
  | step hx hdx hlx ih =>
    rename_i n x
    intro m hm hd hr
    rw [hdx] at hd
    have : x = m := eq_of_id hnd hx hm (Option.some.inj hd)
    subst this
    cases hr with
    | refl => exact ih _ hm hdx .refl
    | step hk hdk hr => exact ih _ hk hdk (hr.trans (.step hm hdx .refl))

section Ordered
variable [IsStrictOrderedRing K]

/-- Water of the nodes from which one comes to `n`. -/
theorem subtree_conserved {ns up : List (RainNode K)} (hnd : (ns.map (·.id)).Nodup) {v spill : Int → K}
    (h : ∀ n ∈ ns, LeadsToRoot ns n → Balanced ns v spill n) {n : RainNode K} (hn : n ∈ ns) (hl : LeadsToRoot ns n)
    (hup : up.Nodup) (hmem : ∀ m, m ∈ up ↔ m ∈ ns ∧ Reaches ns m n) :
    (up.map (·.vol)).sum = (up.map fun m => v m.id).sum + spill n.id := by
  classical
  set cut : RainNode K → RainNode K := fun m => if m = n then { m with down := none } else m with hcut
  have cid : ∀ m, (cut m).id = m.id := fun m => by simp only [hcut]; split_ifs <;> rfl
  have cvol : ∀ m, (cut m).vol = m.vol := fun m => by simp only [hcut]; split_ifs <;> rfl
  have ccap : ∀ m, (cut m).cap = m.cap := fun m => by simp only [hcut]; split_ifs <;> rfl
  have cdown : ∀ m, m ≠ n → cut m = m := fun m hm => by simp only [hcut]; rw [if_neg hm]
  have cn : (cut n).down = none := by simp [hcut]
  have hids : ((up.map cut).map (·.id)).Nodup := by
    rw [List.map_map, show ((fun x : RainNode K => x.id) ∘ cut) = (·.id) from funext cid]
    exact List.Nodup.map_on (fun a ha b hb hab => eq_of_id hnd ((hmem a).1 ha).1 ((hmem b).1 hb).1 hab) hup
  have hleads' : ∀ m k, Reaches ns m k → k = n → m ∈ ns → LeadsToRoot (up.map cut) (cut m) := by
    intro m k hr
    induction hr with
    | refl => rintro rfl _; exact .root cn
    | @step m k n' hk hd hr ih =>
      intro hn' hm
      by_cases hmn : m = n
      · rw [hmn]; exact .root cn
      · rw [cdown m hmn]
        exact .step (m := cut k) (List.mem_map_of_mem ((hmem k).2 ⟨hk, hn' ▸ hr⟩)) (by rw [cid]; exact hd) (ih hn' hk)
  have hleads : ∀ m ∈ up, LeadsToRoot (up.map cut) (cut m) := fun m hm =>
    hleads' m n ((hmem m).1 hm).2 rfl ((hmem m).1 hm).1
  have hperm : ∀ m ∈ up, ((upstreamOf (up.map cut) (cut m)).map (·.id)).Perm ((upstreamOf ns m).map (·.id)) := by
    intro m hm
    obtain ⟨hms, hr⟩ := (hmem m).1 hm
    rw [List.perm_ext_iff_of_nodup]
    · intro i
      constructor
      · intro hi
        obtain ⟨x, hx, rfl⟩ := List.mem_map.1 hi
        obtain ⟨hx1, hx2⟩ := mem_upstreamOf.1 hx
        obtain ⟨y, hy, rfl⟩ := List.mem_map.1 hx1
        by_cases hyn : y = n
        · subst hyn; rw [cn] at hx2; cases hx2
        · rw [cdown y hyn] at hx2 ⊢
          rw [cid] at hx2
          exact List.mem_map_of_mem (mem_upstreamOf.2 ⟨((hmem y).1 hy).1, hx2⟩)
      · intro hi
        obtain ⟨x, hx, rfl⟩ := List.mem_map.1 hi
        obtain ⟨hx1, hx2⟩ := mem_upstreamOf.1 hx
        have hxn : x ≠ n := by
          rintro rfl
          exact no_cycle hnd hl m hms hx2 hr
        have hxu : x ∈ up := (hmem x).2 ⟨hx1, .step hms hx2 hr⟩
        refine List.mem_map.2 ⟨cut x, mem_upstreamOf.2 ⟨List.mem_map_of_mem hxu, ?_⟩, cid x⟩
        rw [cdown x hxn, cid]; exact hx2
    · exact hids.sublist (List.filter_sublist.map _)
    · exact hnd.sublist (List.filter_sublist.map _)
  have hbal : ∀ m ∈ up.map cut, Balanced (up.map cut) v spill m := by
    intro m' hm'
    obtain ⟨m, hm, rfl⟩ := List.mem_map.1 hm'
    obtain ⟨hms, hr⟩ := (hmem m).1 hm
    have hb := h m hms (hr.leads hl)
    have ha : arriving (up.map cut) spill (cut m) = arriving ns spill m := by
      unfold arriving
      rw [cvol]
      have e : ∀ l : List (RainNode K), (l.map fun m => spill m.id) = (l.map (·.id)).map spill := fun l => by
        rw [List.map_map]; rfl
      rw [e, e, ((hperm m hm).map spill).sum_eq]
    unfold Balanced
    rw [cid, ha, ccap]
    exact hb
  have hc := conserved hids hids (fun x => ⟨fun hx => ⟨hx, by
    obtain ⟨m, hm, rfl⟩ := List.mem_map.1 hx
    exact hleads m hm⟩, fun hx => hx.1⟩) hbal
  have hfil : (((up.map cut).filter fun x => x.down = none).map fun x => spill x.id).sum = spill n.id := by
    have hnu : n ∈ up := (hmem n).2 ⟨hn, .refl⟩
    have : ((up.map cut).filter fun x => x.down = none).Perm [cut n] := by
      rw [List.perm_ext_iff_of_nodup ((List.Nodup.of_map _ hids).filter _) (by simp)]
      intro x
      simp only [List.mem_filter, List.mem_singleton, decide_eq_true_eq]
      constructor
      · rintro ⟨hx, hd⟩
        obtain ⟨m, hm, rfl⟩ := List.mem_map.1 hx
        by_cases hmn : m = n
        · rw [hmn]
        · rw [cdown m hmn] at hd
          cases ((hmem m).1 hm).2 with
          | refl => exact absurd rfl hmn
          | step _ hd' _ => rw [hd] at hd'; cases hd'
      · rintro rfl
        exact ⟨List.mem_map_of_mem hnu, cn⟩
    rw [(this.map _).sum_eq]
    simp [cid]
  rw [hfil] at hc
  simpa only [List.map_map, Function.comp_def, cid, cvol] using hc

/-- Values that agree with the events of a run are balanced. -/
theorem run_balanced {attr : String} {ps events : List (Props K)} {ns : List (RainNode K)} (hi : NodeInput attr ps ns)
    (hr : RainRun attr ps events) {v spill : Int → K}
    (hev : ∀ n ∈ ns, LeadsToRoot ns n → ∃ e ∈ events, IsEvent e n v spill) :
    ∀ n ∈ ns, LeadsToRoot ns n → Balanced ns v spill n := by
  obtain ⟨order, h2, h3, h4, h5⟩ := run_spec hi hr
  exact fun n hn hl => h5 v spill hev n ((h3 n).2 ⟨hn, hl⟩)

/-- C83: what leaves a node is the water put in upstream of it (`up` are the nodes from which one comes to `n`, itself
included) less the water held there. -/
theorem C83_outflow {attr : String} {ps events : List (Props K)} {ns up : List (RainNode K)} (hi : NodeInput attr ps ns)
    (hr : RainRun attr ps events) {v spill : Int → K}
    (hev : ∀ n ∈ ns, LeadsToRoot ns n → ∃ e ∈ events, IsEvent e n v spill)
    {n : RainNode K} (hn : n ∈ ns) (hl : LeadsToRoot ns n) (hup : up.Nodup)
    (hmem : ∀ m, m ∈ up ↔ m ∈ ns ∧ Reaches ns m n) :
    spill n.id = (up.map (·.vol)).sum - (up.map fun m => v m.id).sum := by
  rw [subtree_conserved hi.distinct (run_balanced hi hr hev) hn hl hup hmem]
  ring

/-- The same node with other water. -/
structure OtherWater (n n' : RainNode K) : Prop where
  id : n'.id = n.id
  down : n'.down = n.down
  cap : n'.cap = n.cap

theorem Spec.Reaches.paired {R : RainNode K → RainNode K → Prop} (hid : ∀ a b, R a b → b.id = a.id)
    (hdown : ∀ a b, R a b → b.down = a.down) {ns ns' : List (RainNode K)} (hf : List.Forall₂ R ns ns')
    (hnd' : (ns'.map (·.id)).Nodup)
    {m n : RainNode K} (hn : n ∈ ns) (h : Reaches ns m n) : ∀ {m' n'}, n' ∈ ns' → R m m' → R n n' → m' ∈ ns' → Reaches ns' m' n' := by
  induction h with
  | refl =>
    intro m' n' hn' hm hn hm'
    have := eq_of_id hnd' hm' hn' ((hid _ _ hm).trans (hid _ _ hn).symm)
    subst this; exact .refl
  | step hk hd _ ih =>
    intro m' n' hn' hm hnn hm'
    obtain ⟨k', hk', hkk⟩ := exists_paired hf hk
    exact .step hk' (by rw [hdown _ _ hm, hid _ _ hkk]; exact hd) (ih hn hn' hkk hnn hk')

/-- C83: other water in some nodes changes nothing in nodes that are not downstream of them. -/
theorem C83_local {attr : String} {ps ps' events events' : List (Props K)} {ns ns' : List (RainNode K)}
    (hi : NodeInput attr ps ns) (hi' : NodeInput attr ps' ns') (hm : List.Forall₂ OtherWater ns ns')
    (hr : RainRun attr ps events) (hr' : RainRun attr ps' events') {v spill v' spill' : Int → K}
    (hev : ∀ n ∈ ns, LeadsToRoot ns n → ∃ e ∈ events, IsEvent e n v spill)
    (hev' : ∀ n ∈ ns', LeadsToRoot ns' n → ∃ e ∈ events', IsEvent e n v' spill')
    {n : RainNode K} (hn : n ∈ ns) (hl : LeadsToRoot ns n)
    (hsame : ∀ m ∈ ns, Reaches ns m n → ∀ m' ∈ ns', m'.id = m.id → m'.vol = m.vol) :
    v' n.id = v n.id ∧ spill' n.id = spill n.id := by
  obtain ⟨order, h2, h3, h4, h5⟩ := run_spec hi hr
  have hb' := run_balanced hi' hr' hev'
  have key := upstream_induction h4 (P := fun n => (∀ m ∈ ns, Reaches ns m n → ∀ m' ∈ ns', m'.id = m.id → m'.vol = m.vol) →
    v' n.id = v n.id ∧ spill' n.id = spill n.id) (by
      intro n hn ih hs
      obtain ⟨hns, hln⟩ := (h3 n).1 hn
      obtain ⟨n', hn', hnn⟩ := exists_paired hm hns
      have hb := h5 v spill hev n hn
      have hbn := hb' n' hn' (leads_wetter (R := OtherWater) (fun _ _ h => h.id) (fun _ _ h => h.down) hm hln hnn)
      have harr : arriving ns' spill' n' = arriving ns spill n := by
        unfold arriving
        rw [hs n hns .refl n' hn' hnn.id]
        have : ∀ (l l' : List (RainNode K)), List.Forall₂ OtherWater l l' → (∀ m ∈ l, m ∈ ns) →
            ((upstreamOf l' n').map fun m => spill' m.id).sum = ((upstreamOf l n).map fun m => spill m.id).sum := by
          intro l l' hll
          induction hll with
          | nil => intro _; rfl
          | @cons a b l l' hab _ ihl =>
            intro hsub
            have ih' := ihl fun m hm => hsub m (List.mem_cons_of_mem _ hm)
            unfold upstreamOf at ih' ⊢
            by_cases hd : a.down = some n.id
            · rw [List.filter_cons_of_pos (by rw [hab.down, hnn.id]; simpa using hd), List.filter_cons_of_pos (by simpa using hd)]
              simp only [List.map_cons, List.sum_cons, ih', hab.id]
              congr 1
              have ha : a ∈ ns := hsub a (by simp)
              exact (ih a (mem_upstreamOf.2 ⟨ha, hd⟩) fun m hm hr => hs m hm (hr.trans (.step hns hd .refl))).2
            · rw [List.filter_cons_of_neg (by rw [hab.down, hnn.id]; simpa using hd), List.filter_cons_of_neg (by simpa using hd)]
              exact ih'
        rw [this ns ns' hm fun _ h => h]
      unfold Balanced at hb hbn
      rw [hnn.id, harr, hnn.cap] at hbn
      exact ⟨hbn.1.trans hb.1.symm, hbn.2.trans hb.2.symm⟩)
  exact key n ((h3 n).2 ⟨hn, hl⟩) hsame

/-- C83: with more water in some nodes, no node holds or spills less, and what it holds and spills in addition is no more than
what was added upstream of it. `up` and `up'` are the nodes from which one comes to `n`, before and after. -/
theorem C83_bounded {attr : String} {ps ps' events events' : List (Props K)} {ns ns' up up' : List (RainNode K)}
    (hi : NodeInput attr ps ns) (hi' : NodeInput attr ps' ns') (hm : List.Forall₂ OtherWater ns ns')
    (hmore : List.Forall₂ (fun n n' => n.vol ≤ n'.vol) ns ns')
    (hr : RainRun attr ps events) (hr' : RainRun attr ps' events') {v spill v' spill' : Int → K}
    (hev : ∀ n ∈ ns, LeadsToRoot ns n → ∃ e ∈ events, IsEvent e n v spill)
    (hev' : ∀ n ∈ ns', LeadsToRoot ns' n → ∃ e ∈ events', IsEvent e n v' spill')
    {n n' : RainNode K} (hn : n ∈ ns) (hl : LeadsToRoot ns n) (hn' : n' ∈ ns') (hid : n'.id = n.id)
    (hup : up.Nodup) (hmem : ∀ m, m ∈ up ↔ m ∈ ns ∧ Reaches ns m n)
    (hup' : up'.Nodup) (hmem' : ∀ m, m ∈ up' ↔ m ∈ ns' ∧ Reaches ns' m n') :
    v n.id ≤ v' n.id ∧ spill n.id ≤ spill' n.id ∧
      (v' n.id - v n.id) + (spill' n.id - spill n.id) ≤ (up'.map (·.vol)).sum - (up.map (·.vol)).sum := by
  have hw : List.Forall₂ MoreWater ns ns' := by
    have : List.Forall₂ (fun a b => OtherWater a b ∧ a.vol ≤ b.vol) ns ns' := by
      clear hup hmem hup' hmem' hev hev' hr hr' hi hi' hn hn' hl
      induction hm with
      | nil => exact .nil
      | cons h _ ih => cases hmore with | cons h' hmore => exact .cons ⟨h, h'⟩ (ih hmore)
    exact this.imp fun a b h => ⟨h.1.id, h.1.down, h.2, h.1.cap.le⟩
  have mono := C38_monotone hi hi' hw hr hr' hev hev'
  have pair : ∀ a ∈ ns, ∀ b ∈ ns', b.id = a.id → OtherWater a b := by
    intro a ha b hb hab
    obtain ⟨c, hc, hac⟩ := exists_paired hm ha
    have := eq_of_id hi'.distinct hb hc (hab.trans hac.id.symm)
    subst this; exact hac
  have hnn := pair n hn n' hn' hid
  have hl' : LeadsToRoot ns' n' := leads_wetter (R := OtherWater) (fun _ _ h => h.id) (fun _ _ h => h.down) hm hl hnn
  have e1 := subtree_conserved hi.distinct (run_balanced hi hr hev) hn hl hup hmem
  have e2 := subtree_conserved hi'.distinct (run_balanced hi' hr' hev') hn' hl' hup' hmem'
  have hids : (up'.map (·.id)).Perm (up.map (·.id)) := by
    have nd : ∀ (l u : List (RainNode K)) (k : RainNode K), (l.map (·.id)).Nodup → u.Nodup → (∀ m, m ∈ u ↔ m ∈ l ∧ Reaches l m k) →
        (u.map (·.id)).Nodup := fun l u k h1 h2 h3 =>
      List.Nodup.map_on (fun a ha b hb hab => eq_of_id h1 ((h3 a).1 ha).1 ((h3 b).1 hb).1 hab) h2
    rw [List.perm_ext_iff_of_nodup (nd _ _ _ hi'.distinct hup' hmem') (nd _ _ _ hi.distinct hup hmem)]
    intro i
    constructor
    · intro h
      obtain ⟨b, hb, rfl⟩ := List.mem_map.1 h
      obtain ⟨hbs, hbr⟩ := (hmem' b).1 hb
      obtain ⟨a, ha, hab⟩ := exists_paired (R := fun b a => OtherWater a b) hm.flip hbs
      refine List.mem_map.2 ⟨a, (hmem a).2 ⟨ha, ?_⟩, hab.id.symm⟩
      exact Reaches.paired (R := fun b a => OtherWater a b) (fun _ _ h => h.id.symm) (fun _ _ h => h.down.symm) hm.flip
        hi.distinct hn' hbr hn hab hnn ha
    · intro h
      obtain ⟨a, ha, rfl⟩ := List.mem_map.1 h
      obtain ⟨has, har⟩ := (hmem a).1 ha
      obtain ⟨b, hb, hab⟩ := exists_paired hm has
      refine List.mem_map.2 ⟨b, (hmem' b).2 ⟨hb, ?_⟩, hab.id⟩
      exact Reaches.paired (R := OtherWater) (fun _ _ h => h.id) (fun _ _ h => h.down) hm
        hi'.distinct hn har hn' hab hnn hb
  have e3 : (up'.map fun m => v' m.id).sum = (up.map fun m => v' m.id).sum := by
    have e : ∀ l : List (RainNode K), (l.map fun m => v' m.id) = (l.map (·.id)).map v' := fun l => by rw [List.map_map]; rfl
    rw [e, e, (hids.map v').sum_eq]
  have hv : ∀ m ∈ up, v m.id ≤ v' m.id := by
    intro m hm'
    obtain ⟨hms, hmr⟩ := (hmem m).1 hm'
    obtain ⟨b, hb, hab⟩ := exists_paired hm hms
    exact (mono m hms (hmr.leads hl)).2 b hb hab.id hab.cap
  have hsum : ∀ u : List (RainNode K), (∀ m ∈ u, v m.id ≤ v' m.id) → n ∈ u →
      v' n.id - v n.id ≤ (u.map fun m => v' m.id).sum - (u.map fun m => v m.id).sum := by
    intro u
    induction u with
    | nil => intro _ h; cases h
    | cons a u ih =>
      intro hle hmem
      simp only [List.map_cons, List.sum_cons]
      have ha := hle a (by simp)
      have hrest : (u.map fun m => v m.id).sum ≤ (u.map fun m => v' m.id).sum :=
        List.sum_le_sum fun m hm => hle m (List.mem_cons_of_mem _ hm)
      rcases List.mem_cons.1 hmem with rfl | hmem
      · linarith
      · have := ih (fun m hm => hle m (List.mem_cons_of_mem _ hm)) hmem
        linarith
  have hs := hsum up hv ((hmem n).2 ⟨hn, .refl⟩)
  refine ⟨hv n ((hmem n).2 ⟨hn, .refl⟩), (mono n hn hl).1, ?_⟩
  rw [e1, e2, e3, hid]
  linarith

end Ordered

/-! ## The hypotheses can be met -/

/-- C83: in the demo nodes one comes to node 3 from nodes 1, 2 and 3. -/
example : ∀ m, m ∈ demoNodes.take 3 ↔ m ∈ demoNodes ∧ Reaches demoNodes m ⟨3, none, 2, 3⟩ := by
  have h3 : (⟨3, none, 2, 3⟩ : RainNode Rat) ∈ demoNodes := by decide +kernel
  intro m
  constructor
  · intro hm
    have : m = ⟨1, some 3, 5, 2⟩ ∨ m = ⟨2, some 3, 1, 4⟩ ∨ m = ⟨3, none, 2, 3⟩ := by simpa [demoNodes] using hm
    rcases this with rfl | rfl | rfl
    · exact ⟨by decide +kernel, .step h3 rfl .refl⟩
    · exact ⟨by decide +kernel, .step h3 rfl .refl⟩
    · exact ⟨h3, .refl⟩
  · rintro ⟨hm, hr⟩
    by_contra hno
    have hcyc : ∀ k : RainNode Rat, Reaches demoNodes k ⟨3, none, 2, 3⟩ → k.id = 4 ∨ k.id = 5 → k ∈ demoNodes → False := by
      intro k hk
      generalize hg : (⟨3, none, 2, 3⟩ : RainNode Rat) = g at hk
      induction hk with
      | refl => subst hg; rintro (h | h) <;> cases h
      | step hx hd _ ih =>
        rename_i a b _ _
        intro hid ha
        have ha' : a = ⟨1, some 3, 5, 2⟩ ∨ a = ⟨2, some 3, 1, 4⟩ ∨ a = ⟨3, none, 2, 3⟩ ∨ a = ⟨4, some 5, 1, 0⟩ ∨
          a = ⟨5, some 4, 1, 0⟩ := by simpa [demoNodes] using ha
        rcases ha' with rfl | rfl | rfl | rfl | rfl
        · simp at hid
        · simp at hid
        · simp at hid
        · exact ih hg (.inr (Option.some.inj hd).symm) hx
        · exact ih hg (.inl (Option.some.inj hd).symm) hx
    have hm' : m = ⟨1, some 3, 5, 2⟩ ∨ m = ⟨2, some 3, 1, 4⟩ ∨ m = ⟨3, none, 2, 3⟩ ∨ m = ⟨4, some 5, 1, 0⟩ ∨
      m = ⟨5, some 4, 1, 0⟩ := by simpa [demoNodes] using hm
    rcases hm' with rfl | rfl | rfl | rfl | rfl
    · exact hno (by decide +kernel)
    · exact hno (by decide +kernel)
    · exact hno (by decide +kernel)
    · exact hcyc _ hr (.inl rfl) hm
    · exact hcyc _ hr (.inr rfl) hm

/-- C83: the demo nodes with more water in node 2. -/
example : List.Forall₂ OtherWater demoNodes
      [⟨1, some 3, 5, 2⟩, ⟨2, some 3, 9, 4⟩, ⟨3, none, 2, 3⟩, ⟨4, some 5, 1, 0⟩, ⟨5, some 4, 1, 0⟩] ∧
    List.Forall₂ (fun n n' : RainNode Rat => n.vol ≤ n'.vol) demoNodes
      [⟨1, some 3, 5, 2⟩, ⟨2, some 3, 9, 4⟩, ⟨3, none, 2, 3⟩, ⟨4, some 5, 1, 0⟩, ⟨5, some 4, 1, 0⟩] := by
  unfold demoNodes
  constructor
  · repeat' constructor
  · refine .cons ?_ (.cons ?_ (.cons ?_ (.cons ?_ (.cons ?_ .nil)))) <;> decide +kernel

end Malstroem
