/-
Junctions of a network pass water on: they can be left out of the balance.
-/
import Verif.Proofs.Network
import Mathlib.Algebra.BigOperators.Group.List.Basic
import Mathlib.Algebra.Order.Ring.Defs
import Mathlib.Tactic.Linarith
import Mathlib.Tactic.Ring
import Mathlib.Data.List.Nodup

namespace Malstroem
open Spec Network
variable {K : Type}

/-- Following downstream ids from `n` through nodes of `js` only, `d` is the first that is not one of them. -/
inductive Ends (js : List (RainNode K)) : RainNode K → Option Int → Prop
  | stop {n} : (∀ j ∈ js, n.down ≠ some j.id) → Ends js n n.down
  | via {n j d} : j ∈ js → n.down = some j.id → Ends js j d → Ends js n d

theorem Ends.congr {js : List (RainNode K)} {n m : RainNode K} {d : Option Int} (h : Ends js n d) (e : m.down = n.down) :
    Ends js m d := by
  cases h with
  | stop h => rw [← e]; exact .stop (by rwa [e])
  | via hj hd h => exact .via hj (e.trans hd) h

theorem Ends.unique [Field K] [LinearOrder K] [IsStrictOrderedRing K] {js : List (RainNode K)} (hnd : (js.map (·.id)).Nodup) {n : RainNode K} {d d' : Option Int}
    (h : Ends js n d) : Ends js n d' → d = d' := by
  induction h with
  | stop h =>
    intro h'
    cases h' with
    | stop _ => rfl
    | via hj hd _ => exact absurd hd (h _ hj)
  | via hj hd _ ih =>
    intro h'
    cases h' with
    | stop h => exact absurd hd (h _ hj)
    | via hj' hd' h' =>
      have : (_ : RainNode K) = _ := eq_of_id hnd hj hj' (Option.some.inj (hd.symm.trans hd'))
      exact ih (this ▸ h')

/-- A node that drains to itself does not end. -/
theorem Ends.not_loop [Field K] [LinearOrder K] [IsStrictOrderedRing K] {js : List (RainNode K)} (hnd : (js.map (·.id)).Nodup) {j : RainNode K} (hj : j ∈ js)
    (hself : j.down = some j.id) {n : RainNode K} {d : Option Int} (h : Ends js n d) : n.down ≠ some j.id := by
  induction h with
  | stop h => exact h j hj
  | via hk hd _ ih =>
    intro h
    rename_i k _ _
    have : k = j := eq_of_id hnd hk hj (Option.some.inj (hd.symm.trans h))
    exact ih (this ▸ hself)

/-- `n` without the junction `j` between. -/
def redirect (j n : RainNode K) : RainNode K := if n.down = some j.id then { n with down := j.down } else n

@[simp] theorem redirect_id (j n : RainNode K) : (redirect j n).id = n.id := by unfold redirect; split <;> rfl
@[simp] theorem redirect_vol (j n : RainNode K) : (redirect j n).vol = n.vol := by unfold redirect; split <;> rfl
@[simp] theorem redirect_cap (j n : RainNode K) : (redirect j n).cap = n.cap := by unfold redirect; split <;> rfl

theorem redirect_down (j n : RainNode K) : (redirect j n).down = if n.down = some j.id then j.down else n.down := by
  unfold redirect; split <;> rfl

theorem map_redirect_ids (j : RainNode K) (l : List (RainNode K)) : (l.map (redirect j)).map (·.id) = l.map (·.id) := by
  rw [List.map_map]
  exact List.map_congr_left fun n _ => redirect_id j n

theorem Ends.redirect {j : RainNode K} {js : List (RainNode K)} (hnd : ((j :: js).map (·.id)).Nodup)
    (hself : j.down ≠ some j.id) {n : RainNode K} {d : Option Int} (h : Ends (j :: js) n d) :
    Ends (js.map (redirect j)) (redirect j n) d := by
  have hmem : ∀ k ∈ js.map (Malstroem.redirect j), ∃ k' ∈ js, k.id = k'.id := by
    intro k hk
    obtain ⟨k', h1, rfl⟩ := List.mem_map.1 hk
    exact ⟨k', h1, redirect_id j k'⟩
  induction h with
  | stop h =>
    rename_i n
    have hj := h j (List.mem_cons_self ..)
    have e : Malstroem.redirect j n = n := by unfold Malstroem.redirect; rw [if_neg hj]
    rw [e]
    refine .stop fun k hk => ?_
    obtain ⟨k', h1, h2⟩ := hmem k hk
    rw [h2]
    exact h k' (List.mem_cons_of_mem _ h1)
  | via hk hd hrest ih =>
    rename_i n k d
    rcases List.mem_cons.1 hk with rfl | hk
    · have e : Malstroem.redirect k k = k := by unfold Malstroem.redirect; rw [if_neg hself]
      rw [e] at ih
      exact ih.congr (by rw [redirect_down, if_pos hd])
    · have hne : n.down ≠ some j.id := by
        rw [hd]
        intro e
        rw [List.map_cons, List.nodup_cons] at hnd
        exact hnd.1 (Option.some.inj e ▸ List.mem_map_of_mem hk)
      refine .via (List.mem_map_of_mem hk) ?_ ih
      rw [redirect_down, if_neg hne, redirect_id, hd]

section
variable [Field K] [LinearOrder K] [IsStrictOrderedRing K]

/-- What comes to `i` from the nodes. -/
def inflow (ns : List (RainNode K)) (spill : Int → K) (i : Int) : K :=
  (ns.map fun m => if m.down = some i then spill m.id else 0).sum

omit [LinearOrder K] [IsStrictOrderedRing K] in
theorem arriving_eq (ns : List (RainNode K)) (spill : Int → K) (n : RainNode K) :
    arriving ns spill n = n.vol + inflow ns spill n.id := by
  unfold arriving inflow upstreamOf
  congr 1
  induction ns with
  | nil => rfl
  | cons m ns ih =>
    rw [List.filter_cons, List.map_cons, List.sum_cons]
    by_cases h : m.down = some n.id
    · rw [if_pos (by simpa using h), if_pos h, List.map_cons, List.sum_cons, ih]
    · rw [if_neg (by simpa using h), if_neg h, ih, zero_add]

omit [LinearOrder K] [IsStrictOrderedRing K] in
theorem inflow_redirect {j : RainNode K} (ns : List (RainNode K)) (spill : Int → K) {i : Int} (hi : i ≠ j.id) :
    inflow (ns.map (redirect j)) spill i = inflow ns spill i + if j.down = some i then inflow ns spill j.id else 0 := by
  unfold inflow
  induction ns with
  | nil => simp
  | cons m ns ih =>
    simp only [List.map_cons, List.sum_cons, ih, redirect_id, redirect_down]
    by_cases h1 : m.down = some j.id
    · have h2 : m.down ≠ some i := by rw [h1]; exact fun e => hi (Option.some.inj e).symm
      by_cases h3 : j.down = some i
      · simp only [h1, h3, if_true]
        rw [h1] at h2
        rw [if_neg h2]; ring
      · simp only [h1, h3, if_true, if_false]
        rw [h1] at h2
        rw [if_neg h2]; ring
    · by_cases h3 : j.down = some i
      · simp only [h1, h3, if_true, if_false]; ring
      · simp only [h1, h3, if_false]; ring

theorem inflow_nonneg {ns : List (RainNode K)} {spill : Int → K} (h : ∀ n ∈ ns, 0 ≤ spill n.id) (i : Int) :
    0 ≤ inflow ns spill i := by
  unfold inflow
  induction ns with
  | nil => exact le_rfl
  | cons m ns ih =>
    rw [List.map_cons, List.sum_cons]
    refine add_nonneg ?_ (ih fun n hn => h n (List.mem_cons_of_mem _ hn))
    split
    · exact h m (List.mem_cons_self ..)
    · exact le_rfl

/-- Junctions, nodes without own water and capacity, can be left out: what the others hold and spill is right when each
gets what those spill from which one comes to it through junctions only. -/
theorem without_junctions (v spill : Int → K) : ∀ (js rs : List (RainNode K)), ((js ++ rs).map (·.id)).Nodup →
    (∀ n ∈ js ++ rs, ∃ d, Ends js n d) → (∀ j ∈ js, j.vol = 0 ∧ j.cap = 0) → (∀ n ∈ js ++ rs, Balanced (js ++ rs) v spill n) →
    ∀ dst : RainNode K → Option Int, (∀ n ∈ rs, Ends js n (dst n)) → ∀ n ∈ rs,
      Balanced (rs.map fun m => { m with down := dst m }) v spill { n with down := dst n } := by
  intro js
  induction hlen : js.length generalizing js with
  | zero =>
    obtain rfl := List.length_eq_zero_iff.1 hlen
    intro rs hnd hex _ hbal dst hdst n hn
    have e : ∀ m ∈ rs, ({ m with down := dst m } : RainNode K) = m := by
      intro m hm
      have : m.down = dst m := by
        exact Ends.unique (js := []) List.nodup_nil (.stop (by simp)) (hdst m hm)
      rw [← this]
    rw [e n hn, show (rs.map fun m => ({ m with down := dst m } : RainNode K)) = rs from
      (List.map_congr_left e).trans (List.map_id' rs)]
    exact hbal n hn
  | succ k ih =>
    obtain ⟨j, js, rfl⟩ := List.exists_cons_of_length_eq_add_one hlen
    intro rs hnd hex h0 hbal dst hdst n hn
    have hids : ((j :: js).map (·.id)).Nodup := by
      rw [List.map_append] at hnd; exact (List.nodup_append.1 hnd).1
    have hself : j.down ≠ some j.id := by
      intro hs
      obtain ⟨d, hd⟩ := hex j (by simp)
      exact hd.not_loop hids (List.mem_cons_self ..) hs hs
    have hj0 := h0 j (List.mem_cons_self ..)
    have hsp : ∀ n ∈ (j :: js) ++ rs, 0 ≤ spill n.id := fun n hn => by rw [(hbal n hn).2]; exact le_max_left _ _
    have hspj : spill j.id = inflow (js ++ rs) spill j.id := by
      have := (hbal j (by simp)).2
      rw [arriving_eq, hj0.1, hj0.2, sub_zero, zero_add] at this
      rw [this]
      have hz : inflow (j :: js ++ rs) spill j.id = inflow (js ++ rs) spill j.id := by
        unfold inflow
        rw [List.cons_append, List.map_cons, List.sum_cons, if_neg hself, zero_add]
      rw [hz]
      exact max_eq_right (inflow_nonneg (fun n hn => hsp n (by simp at hn ⊢; tauto)) _)
    have hne : ∀ n ∈ js ++ rs, n.id ≠ j.id := by
      intro n hn e
      rw [List.cons_append, List.map_cons, List.nodup_cons] at hnd
      exact hnd.1 (e ▸ List.mem_map_of_mem hn)
    have hin : ∀ n ∈ js ++ rs, inflow ((js ++ rs).map (redirect j)) spill n.id = inflow ((j :: js) ++ rs) spill n.id := by
      intro n hn
      rw [inflow_redirect _ _ (hne n hn)]
      show _ = inflow (j :: (js ++ rs)) spill n.id
      conv_rhs => unfold inflow
      rw [List.map_cons, List.sum_cons, hspj, add_comm]
      rfl
    have key := ih (js.map (redirect j)) (by simpa using hlen) (rs.map (redirect j)) (by
        rw [← List.map_append, map_redirect_ids]
        rw [List.cons_append, List.map_cons, List.nodup_cons] at hnd
        exact hnd.2) (by
        rw [← List.map_append]
        intro m hm
        obtain ⟨m', hm', rfl⟩ := List.mem_map.1 hm
        obtain ⟨d, hd⟩ := hex m' (by simp at hm' ⊢; tauto)
        exact ⟨d, hd.redirect hids hself⟩) (by
        intro m hm
        obtain ⟨m', hm', rfl⟩ := List.mem_map.1 hm
        simpa using h0 m' (List.mem_cons_of_mem _ hm')) (by
        rw [← List.map_append]
        intro m hm
        obtain ⟨m', hm', rfl⟩ := List.mem_map.1 hm
        have hb := hbal m' (by simp at hm' ⊢; tauto)
        unfold Balanced at hb ⊢
        rw [arriving_eq] at hb ⊢
        rw [redirect_id, redirect_vol, redirect_cap, hin m' hm']
        exact hb) (fun m => if h : ∃ m' ∈ rs, m.id = m'.id then dst h.choose else none) (by
        intro m hm
        obtain ⟨m', hm', rfl⟩ := List.mem_map.1 hm
        have hex' : ∃ x ∈ rs, (redirect j m').id = x.id := ⟨m', hm', redirect_id j m'⟩
        rw [dif_pos hex']
        have hrs : (rs.map (·.id)).Nodup := by
          rw [List.map_append] at hnd; exact (List.nodup_append.1 hnd).2.1
        have e : hex'.choose = m' := eq_of_id hrs hex'.choose_spec.1 hm'
          (hex'.choose_spec.2.symm.trans (redirect_id j m'))
        rw [e]
        exact (hdst m' hm').redirect hids hself)
    have hrs : (rs.map (·.id)).Nodup := by
      rw [List.map_append] at hnd; exact (List.nodup_append.1 hnd).2.1
    have e : ∀ m ∈ rs, ({ redirect j m with down := if h : ∃ m' ∈ rs, (redirect j m).id = m'.id then dst h.choose else none } :
        RainNode K) = { m with down := dst m } := by
      intro m hm
      have hex' : ∃ x ∈ rs, (redirect j m).id = x.id := ⟨m, hm, redirect_id j m⟩
      rw [dif_pos hex']
      have e : hex'.choose = m := eq_of_id hrs hex'.choose_spec.1 hm
        (hex'.choose_spec.2.symm.trans (redirect_id j m))
      rw [e]
      unfold redirect; split <;> rfl
    have := key (redirect j n) (List.mem_map_of_mem hn)
    rw [e n hn, List.map_map] at this
    have hl : (rs.map ((fun m => ({ m with down := if h : ∃ m' ∈ rs, m.id = m'.id then dst h.choose else none } :
        RainNode K)) ∘ redirect j)) = rs.map fun m => { m with down := dst m } := List.map_congr_left fun m hm => e m hm
    rwa [hl] at this

end
end Malstroem
