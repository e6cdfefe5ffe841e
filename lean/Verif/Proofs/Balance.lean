/-
Facts about balanced volumes: uniqueness, monotonicity, conservation.
-/
import Verif.Proofs.Network
import Mathlib.Algebra.Order.Field.Basic
import Mathlib.Algebra.Order.BigOperators.Group.List
import Mathlib.Tactic.Ring
import Mathlib.Tactic.Linarith

set_option linter.unusedSectionVars false

namespace Malstroem
open Spec

namespace Network
variable {K : Type} [Field K] [LinearOrder K]

/-- Induction from upstream to downstream. -/
theorem upstream_induction {ns order : List (RainNode K)} (ho : UpstreamFirst ns order) {P : RainNode K → Prop}
    (h : ∀ n ∈ order, (∀ m ∈ upstreamOf ns n, P m) → P n) : ∀ n ∈ order, P n := by
  have key : ∀ pre post : List (RainNode K), order = pre ++ post → ∀ n ∈ pre, P n := by
    intro pre
    induction pre using List.reverseRecOn with
    | nil => intro _ _ n hn; cases hn
    | append_singleton pre x ih =>
      intro post he n hn
      have he' : order = pre ++ x :: post := by rw [he]; simp
      rcases List.mem_append.1 hn with hn | hn
      · exact ih (x :: post) he' n hn
      · rw [List.mem_singleton] at hn
        subst hn
        exact h n (by rw [he']; simp) fun m hm => ih (n :: post) he' m (ho pre n post he' m hm)
  exact key order [] (by simp)

theorem arriving_congr {ns : List (RainNode K)} {s s' : Int → K} {n : RainNode K}
    (h : ∀ m ∈ upstreamOf ns n, s m.id = s' m.id) : arriving ns s n = arriving ns s' n := by
  unfold arriving
  rw [List.map_congr_left h]

/-- There is only one balanced state. -/
theorem balanced_unique {ns order : List (RainNode K)} (ho : UpstreamFirst ns order) {v spill v' spill' : Int → K}
    (h : ∀ n ∈ order, Balanced ns v spill n) (h' : ∀ n ∈ order, Balanced ns v' spill' n) :
    ∀ n ∈ order, v n.id = v' n.id ∧ spill n.id = spill' n.id := by
  refine upstream_induction (P := fun n => v n.id = v' n.id ∧ spill n.id = spill' n.id) ho ?_
  intro n hn hup
  have ha := arriving_congr fun m hm => (hup m hm).2
  exact ⟨by rw [(h n hn).1, (h' n hn).1, ha], by rw [(h n hn).2, (h' n hn).2, ha]⟩

/-! ### Order of the nodes -/

theorem leads_perm {ns ns' : List (RainNode K)} (hp : ns.Perm ns') {n : RainNode K} (h : LeadsToRoot ns n) :
    LeadsToRoot ns' n := by
  induction h with
  | root h => exact .root h
  | step hm hd _ ih => exact .step (hp.mem_iff.1 hm) hd ih

theorem arriving_perm {ns ns' : List (RainNode K)} (hp : ns.Perm ns') (s : Int → K) (n : RainNode K) :
    arriving ns s n = arriving ns' s n := by
  unfold arriving upstreamOf
  rw [((hp.filter _).map _).sum_eq]

theorem balanced_perm {ns ns' : List (RainNode K)} (hp : ns.Perm ns') {v s : Int → K} {n : RainNode K}
    (h : Balanced ns v s n) : Balanced ns' v s n := by
  unfold Balanced at *
  rwa [← arriving_perm hp]

/-! ### Bounds -/

variable [IsStrictOrderedRing K]

theorem balanced_sum {ns : List (RainNode K)} {v spill : Int → K} {n : RainNode K} (h : Balanced ns v spill n) :
    v n.id + spill n.id = arriving ns spill n := by
  rw [h.1, h.2]
  rcases le_total (arriving ns spill n) n.cap with hc | hc
  · rw [min_eq_left hc, max_eq_left (by linarith)]; ring
  · rw [min_eq_right hc, max_eq_right (by linarith)]; ring

theorem balanced_spill_nonneg {ns : List (RainNode K)} {v spill : Int → K} {n : RainNode K} (h : Balanced ns v spill n) :
    0 ≤ spill n.id := by
  rw [h.2]; exact le_max_left _ _

theorem balanced_full {ns : List (RainNode K)} {v spill : Int → K} {n : RainNode K} (h : Balanced ns v spill n)
    (hs : 0 < spill n.id) : v n.id = n.cap := by
  rw [h.1]
  rw [h.2, lt_max_iff] at hs
  rcases hs with hs | hs
  · exact absurd hs (lt_irrefl _)
  · exact min_eq_right (by linarith)

theorem arriving_nonneg {ns : List (RainNode K)} {spill : Int → K} {n : RainNode K} (hv : 0 ≤ n.vol)
    (hs : ∀ m ∈ upstreamOf ns n, 0 ≤ spill m.id) : 0 ≤ arriving ns spill n := by
  unfold arriving
  refine add_nonneg hv (List.sum_nonneg fun x hx => ?_)
  obtain ⟨m, hm, rfl⟩ := List.mem_map.1 hx
  exact hs m hm

theorem percent_bounds {v cap : K} (h0 : 0 ≤ v) (h1 : v ≤ cap) {x : K} (hx : percent v cap = .num x) : 0 ≤ x ∧ x ≤ 100 := by
  unfold percent at hx
  split at hx
  · cases hx
  · rename_i hc
    have hc' : 0 < cap := lt_of_le_of_ne (h0.trans h1) (Ne.symm hc)
    injection hx with hx
    subst hx
    exact ⟨by positivity, by rw [div_le_iff₀ hc']; linarith⟩

/-! ### Monotonicity -/

/-- The same node with at least as much water and at most as much capacity. -/
structure Wetter (n n' : RainNode K) : Prop where
  id : n'.id = n.id
  down : n'.down = n.down
  vol : n.vol ≤ n'.vol
  cap : n'.cap ≤ n.cap

theorem exists_paired {R : RainNode K → RainNode K → Prop} {ns ns' : List (RainNode K)} (hf : List.Forall₂ R ns ns')
    {m : RainNode K} (hm : m ∈ ns) : ∃ m' ∈ ns', R m m' := by
  induction hf with
  | nil => cases hm
  | cons hab hf ih =>
    rcases List.mem_cons.1 hm with rfl | hm
    · exact ⟨_, by simp, hab⟩
    · obtain ⟨m', h1, h2⟩ := ih hm
      exact ⟨m', List.mem_cons_of_mem _ h1, h2⟩

theorem leads_wetter {R : RainNode K → RainNode K → Prop} (hid : ∀ a b, R a b → b.id = a.id)
    (hdown : ∀ a b, R a b → b.down = a.down) {ns ns' : List (RainNode K)}
    (hf : List.Forall₂ R ns ns') {n : RainNode K} (h : LeadsToRoot ns n) : ∀ {n'}, R n n' → LeadsToRoot ns' n' := by
  induction h with
  | root h => intro n' hr; exact .root (by rw [hdown _ _ hr, h])
  | step hm hd _ ih =>
    intro n' hr
    obtain ⟨m', hm', hmm⟩ := exists_paired hf hm
    exact .step hm' (by rw [hdown _ _ hr, hid _ _ hmm, hd]) (ih hmm)

theorem upstream_le {ns ns' : List (RainNode K)} (hf : List.Forall₂ Wetter ns ns') {n n' : RainNode K}
    (hn : n'.id = n.id) {s s' : Int → K} (h : ∀ m ∈ upstreamOf ns n, s m.id ≤ s' m.id) :
    ((upstreamOf ns n).map fun m => s m.id).sum ≤ ((upstreamOf ns' n').map fun m => s' m.id).sum := by
  unfold upstreamOf at *
  rw [hn]
  induction hf with
  | nil => simp
  | cons hab hf ih =>
    rename_i a b l l'
    by_cases hd : a.down = some n.id
    · have hd' : b.down = some n.id := by rw [hab.down, hd]
      rw [List.filter_cons_of_pos (by simpa using hd)] at h ⊢
      rw [List.filter_cons_of_pos (by simpa using hd')]
      simp only [List.map_cons, List.sum_cons]
      refine add_le_add ?_ (ih fun m hm => h m (List.mem_cons_of_mem _ hm))
      rw [hab.id]
      exact h a (by simp)
    · have hd' : ¬ b.down = some n.id := by rwa [hab.down]
      rw [List.filter_cons_of_neg (by simpa using hd)] at h ⊢
      rw [List.filter_cons_of_neg (by simpa using hd')]
      exact ih h

/-- More water and less capacity: every node spills at least as much. -/
theorem spill_mono {ns ns' order : List (RainNode K)} (hf : List.Forall₂ Wetter ns ns') (ho : UpstreamFirst ns order)
    (hsub : ∀ n ∈ order, n ∈ ns) {v spill v' spill' : Int → K} (h : ∀ n ∈ order, Balanced ns v spill n)
    (h' : ∀ n ∈ order, ∀ n' ∈ ns', Wetter n n' → Balanced ns' v' spill' n') :
    ∀ n ∈ order, spill n.id ≤ spill' n.id ∧ (∀ n' ∈ ns', Wetter n n' → n'.cap = n.cap → v n.id ≤ v' n.id) := by
  refine upstream_induction (P := fun n => spill n.id ≤ spill' n.id ∧
    (∀ n' ∈ ns', Wetter n n' → n'.cap = n.cap → v n.id ≤ v' n.id)) ho ?_
  intro n hn hup
  have harr : ∀ n' ∈ ns', Wetter n n' → arriving ns spill n ≤ arriving ns' spill' n' := fun n' _ hw =>
    add_le_add hw.vol (upstream_le hf hw.id fun m hm => (hup m hm).1)
  constructor
  · obtain ⟨n', hn', hw⟩ := exists_paired hf (hsub n hn)
    have hb := (h' n hn n' hn' hw).2
    rw [hw.id] at hb
    rw [(h n hn).2, hb]
    exact max_le_max le_rfl (sub_le_sub (harr n' hn' hw) hw.cap)
  · intro n' hn' hw hc
    have hb := (h' n hn n' hn' hw).1
    rw [hw.id] at hb
    rw [(h n hn).1, hb, hc]
    exact min_le_min (harr n' hn' hw) le_rfl

/-! ### Conservation -/

theorem sum_ite_id {x : K} {d : Int} : ∀ {ns : List (RainNode K)}, (ns.map (·.id)).Nodup → d ∈ ns.map (·.id) →
    (ns.map fun n => if d = n.id then x else 0).sum = x := by
  intro ns
  induction ns with
  | nil => intro _ h; cases h
  | cons n ns ih =>
    intro hnd hd
    rw [List.map_cons, List.nodup_cons] at hnd
    rw [List.map_cons, List.sum_cons]
    by_cases he : d = n.id
    · rw [if_pos he]
      have : (ns.map fun n => if d = n.id then x else 0) = ns.map fun _ => (0 : K) := by
        apply List.map_congr_left
        intro m hm
        rw [if_neg]
        rintro rfl
        exact hnd.1 (he ▸ List.mem_map_of_mem hm)
      rw [this]
      simp
    · rw [if_neg he, zero_add]
      rw [List.map_cons, List.mem_cons] at hd
      exact ih hnd.2 (hd.resolve_left he)

theorem sum_upstream {ns : List (RainNode K)} (hnd : (ns.map (·.id)).Nodup) (f : Int → K) :
    ∀ L : List (RainNode K), (∀ m ∈ L, ∀ d, m.down = some d → d ∈ ns.map (·.id)) →
    (ns.map fun n => ((upstreamOf L n).map fun m => f m.id).sum).sum +
      ((L.filter fun m => m.down = none).map fun m => f m.id).sum = (L.map fun m => f m.id).sum := by
  intro L
  induction L with
  | nil => intro _; simp [upstreamOf]
  | cons m L ih =>
    intro h
    have ih' := ih fun m' hm' => h m' (List.mem_cons_of_mem _ hm')
    have hup : ∀ n : RainNode K, ((upstreamOf (m :: L) n).map fun m => f m.id).sum =
        (if m.down = some n.id then f m.id else 0) + ((upstreamOf L n).map fun m => f m.id).sum := by
      intro n
      unfold upstreamOf
      by_cases hd : m.down = some n.id
      · rw [List.filter_cons_of_pos (by simpa using hd), if_pos hd]; simp
      · rw [List.filter_cons_of_neg (by simpa using hd), if_neg hd]; simp
    simp only [hup, List.sum_map_add, List.map_cons, List.sum_cons]
    rw [← ih']
    cases hd : m.down with
    | none =>
      rw [List.filter_cons_of_pos (by simpa using hd)]
      simp
      ring
    | some d =>
      rw [List.filter_cons_of_neg (by simp [hd])]
      have := sum_ite_id (x := f m.id) hnd (h m (by simp) d hd)
      simp only [Option.some.injEq]
      rw [this]
      ring

/-- Water of the nodes that lead to a root. -/
theorem conserved {ns order : List (RainNode K)} (hns : (ns.map (·.id)).Nodup) (hnd : (order.map (·.id)).Nodup)
    (hmem : ∀ n, n ∈ order ↔ n ∈ ns ∧ LeadsToRoot ns n) {v spill : Int → K} (h : ∀ n ∈ order, Balanced ns v spill n) :
    (order.map (·.vol)).sum = (order.map fun n => v n.id).sum +
      ((order.filter fun n => n.down = none).map fun n => spill n.id).sum := by
  have hdown : ∀ m ∈ order, ∀ d, m.down = some d → d ∈ order.map (·.id) := by
    intro m hm d hd
    have hm2 := (hmem m).1 hm
    cases hm2.2 with
    | root h => rw [hd] at h; cases h
    | step hx hdx hl =>
      rename_i x
      rw [hd] at hdx
      injection hdx with hdx
      exact List.mem_map.2 ⟨x, (hmem x).2 ⟨hx, hl⟩, hdx.symm⟩
  have hsum := sum_upstream hnd spill order hdown
  have hup : ∀ n ∈ order, ((upstreamOf ns n).map fun m => spill m.id).sum = ((upstreamOf order n).map fun m => spill m.id).sum := by
    intro n hn
    refine List.Perm.sum_eq (List.Perm.map _ ?_)
    unfold upstreamOf
    rw [List.perm_ext_iff_of_nodup ((List.Nodup.of_map _ hns).filter _) ((List.Nodup.of_map _ hnd).filter _)]
    intro m
    have h1 := mem_upstreamOf (ns := ns) (n := n) (m := m)
    have h2 := mem_upstreamOf (ns := order) (n := n) (m := m)
    unfold upstreamOf at h1 h2
    rw [h1, h2]
    constructor
    · rintro ⟨hm, hd⟩
      exact ⟨(hmem m).2 ⟨hm, .step ((hmem n).1 hn).1 hd ((hmem n).1 hn).2⟩, hd⟩
    · rintro ⟨hm, hd⟩
      exact ⟨((hmem m).1 hm).1, hd⟩
  have hbal : (order.map fun n => v n.id).sum + (order.map fun n => spill n.id).sum =
      (order.map (·.vol)).sum + (order.map fun n => ((upstreamOf order n).map fun m => spill m.id).sum).sum := by
    rw [← List.sum_map_add, ← List.sum_map_add]
    congr 1
    apply List.map_congr_left
    intro n hn
    rw [balanced_sum (h n hn), ← hup n hn]
    rfl
  rw [← hsum] at hbal
  have : ∀ a b c d : K, a + (d + c) = b + d → b = a + c := fun a b c d h => by linarith
  exact this _ _ _ _ hbal

end Network
end Malstroem
