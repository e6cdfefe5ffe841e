/-
Property C127: the network does not amplify errors in the volumes and capacities, and the volumes computed with rounded arithmetic are
those of exact arithmetic up to a proved fraction of the rain.
-/
import Verif.Props.MoreRainFloat

set_option linter.unusedSectionVars false

namespace Malstroem
open Spec

namespace Spec

/-- The difference between two nodes: that of their volumes, and twice that of their capacities. -/
def difference (n m : RainNode Rat) : Rat := |n.vol - m.vol| + 2 * |n.cap - m.cap|

/-- Feature `g` is the same node as `f`; the water it holds and the water it spills differ by at most `e`. -/
def WithinError (e : Rat) (f g : Feature Rat) : Prop :=
  g.id = f.id ∧ g.geometry = f.geometry ∧ g.properties.get? "nodeid" = f.properties.get? "nodeid" ∧
    ∃ v s v' s', HasNumber f "v" v ∧ HasNumber f "spillv" s ∧ HasNumber g "v" v' ∧ HasNumber g "spillv" s' ∧
      |v - v'| ≤ e ∧ |s - s'| ≤ e

end Spec

namespace Float
open Malstroem.Network

/-- One node. -/
theorem node_stable (A c A' c' : Rat) :
    |min A c - min A' c'| + |max 0 (A - c) - max 0 (A' - c')| ≤ |A - A'| + 2 * |c - c'| := by
  rcases le_total A c with h1 | h1 <;> rcases le_total A' c' with h2 | h2
  · rw [min_eq_left h1, min_eq_left h2, max_eq_left (by linarith), max_eq_left (by linarith), sub_zero, abs_zero]
    have := abs_nonneg (c - c')
    linarith
  · rw [min_eq_left h1, min_eq_right h2, max_eq_left (by linarith), max_eq_right (by linarith), zero_sub, abs_neg,
      abs_of_nonneg (show 0 ≤ A' - c' by linarith)]
    have a1 := neg_abs_le (A - A')
    have a2 := neg_abs_le (c - c')
    have a3 := le_abs_self (c - c')
    have a4 := le_abs_self (A - A')
    rcases abs_cases (A - c') with ⟨e, -⟩ | ⟨e, -⟩ <;> rw [e] <;> linarith
  · rw [min_eq_right h1, min_eq_left h2, max_eq_right (by linarith), max_eq_left (by linarith), sub_zero,
      abs_of_nonneg (show 0 ≤ A - c by linarith)]
    have a1 := neg_abs_le (A - A')
    have a2 := neg_abs_le (c - c')
    have a3 := le_abs_self (c - c')
    have a4 := le_abs_self (A - A')
    rcases abs_cases (c - A') with ⟨e, -⟩ | ⟨e, -⟩ <;> rw [e] <;> linarith
  · rw [min_eq_right h1, min_eq_right h2, max_eq_right (by linarith), max_eq_right (by linarith)]
    have := abs_sub (A - A') (c - c')
    rw [show A - c - (A' - c') = A - A' - (c - c') by ring]
    linarith

theorem abs_sum_sub_le {α : Type} (l : List α) (f g : α → Rat) :
    |(l.map f).sum - (l.map g).sum| ≤ (l.map fun x => |f x - g x|).sum := by
  induction l with
  | nil => simp
  | cons a l ih =>
    simp only [List.map_cons, List.sum_cons]
    rw [add_sub_add_comm]
    exact (abs_add_le _ _).trans (add_le_add le_rfl ih)

/-- The nodes `order` one after the other. -/
theorem stable_order {ns order : List (RainNode Rat)} {v s v' s' : Int → Rat} (t : RainNode Rat → RainNode Rat)
    (ht : ∀ n ∈ ns, (t n).id = n.id ∧ (t n).down = n.down)
    (hns : (ns.map (·.id)).Nodup) (hnd : (order.map (·.id)).Nodup) (hsub : ∀ m ∈ order, m ∈ ns) (ho : UpstreamFirst ns order)
    (hb : ∀ m ∈ order, Balanced ns v s m) (hb' : ∀ m ∈ order, Balanced (ns.map t) v' s' (t m)) :
    (order.map fun m => |v m.id - v' m.id|).sum + pending order (fun i => |s i - s' i|) ≤
      (order.map fun m => difference m (t m)).sum ∧
    ∀ m ∈ order, |s m.id - s' m.id| ≤ (order.map fun m => difference m (t m)).sum := by
  have key : ∀ P post : List (RainNode Rat), order = P ++ post →
      (P.map fun m => |v m.id - v' m.id|).sum + pending P (fun i => |s i - s' i|) ≤ (P.map fun m => difference m (t m)).sum ∧
      ∀ m ∈ P, |s m.id - s' m.id| ≤ (P.map fun m => difference m (t m)).sum := by
    intro P
    induction P using List.reverseRecOn with
    | nil => intro _ _; exact ⟨by simp [pending], by simp⟩
    | append_singleton P n ih =>
      intro post he
      have he' : order = P ++ n :: post := by rw [he]; simp
      have hmem : ∀ m ∈ P ++ [n], m ∈ order := fun m hm => by rw [he]; exact List.mem_append_left _ hm
      have hPn : ((P ++ [n]).map (·.id)).Nodup := by
        rw [he, List.map_append, List.nodup_append] at hnd
        exact hnd.1
      have hnot : n ∉ P := by
        have := List.Nodup.of_map _ hPn
        rw [List.nodup_append] at this
        exact fun hin => this.2.2 _ hin _ (by simp) rfl
      have hnew : ∀ m ∈ P, m.id ≠ n.id := by
        rw [List.map_append, List.nodup_append] at hPn
        exact fun m hm he => hPn.2.2 _ (List.mem_map_of_mem hm) _ (by simp) he
      have hPnd : P.Nodup := by
        have := List.Nodup.of_map _ hPn
        rw [List.nodup_append] at this
        exact this.1
      have hup : ∀ m ∈ upstreamOf ns n, m ∈ P := fun m hm => ho P n post he' m hm
      have hdown : ∀ m ∈ P ++ [n], n.down ≠ some m.id := by
        intro m hm hd
        have hnu : n ∈ upstreamOf ns m := mem_upstreamOf.2 ⟨hsub n (hmem n (by simp)), hd⟩
        rcases List.mem_append.1 hm with hm | hm
        · obtain ⟨a, b, hab⟩ := List.append_of_mem hm
          have := ho a m (b ++ n :: post) (by rw [he', hab]; simp) n hnu
          exact hnot (by rw [hab]; exact List.mem_append_left _ this)
        · rw [List.mem_singleton.1 hm] at hnu
          exact hnot (ho P n post he' n hnu)
      obtain ⟨ih1, ih2⟩ := ih (n :: post) he'
      have hups := upstream_sum (List.Nodup.of_map _ hns) hPnd (fun m hm => hsub m (hmem m (List.mem_append_left _ hm))) hup
        fun i => |s i - s' i|
      have hpa := pending_append (fun i => |s i - s' i|) hnew hdown
      have hupP : ((upstreamOf P n).map fun m => |s m.id - s' m.id|).sum ≤ pending P fun i => |s i - s' i| :=
        upstream_le_pending (f := fun i => |s i - s' i|) hnew fun m _ => abs_nonneg _
      have hnn := hsub n (hmem n (by simp))
      obtain ⟨b1, b2⟩ := hb n (hmem n (by simp))
      obtain ⟨b1', b2'⟩ := hb' n (hmem n (by simp))
      rw [(ht n hnn).1] at b1' b2'
      have hA : |arriving ns s n - arriving (ns.map t) s' (t n)| ≤ |n.vol - (t n).vol| +
          ((upstreamOf ns n).map fun m => |s m.id - s' m.id|).sum := by
        have e1 : upstreamOf (ns.map t) (t n) = (upstreamOf ns n).map t := by
          unfold upstreamOf
          rw [List.filter_map]
          congr 1
          apply List.filter_congr
          intro m hm
          simp only [Function.comp, (ht m hm).2, (ht n hnn).1]
        have e2 : ((upstreamOf (ns.map t) (t n)).map fun m => s' m.id) = (upstreamOf ns n).map fun m => s' m.id := by
          rw [e1, List.map_map]
          apply List.map_congr_left
          intro m hm
          simp only [Function.comp, (ht m (mem_upstreamOf.1 hm).1).1]
        unfold arriving
        rw [e2, add_sub_add_comm]
        refine (abs_add_le _ _).trans (add_le_add le_rfl ?_)
        exact abs_sum_sub_le _ _ _
      have hnode := node_stable (arriving ns s n) n.cap (arriving (ns.map t) s' (t n)) (t n).cap
      rw [← b1, ← b2, ← b1', ← b2'] at hnode
      have hsum0 : 0 ≤ (P.map fun m => |v m.id - v' m.id|).sum := List.sum_nonneg fun x hx => by
        obtain ⟨m, -, rfl⟩ := List.mem_map.1 hx
        exact abs_nonneg _
      have hv0 := abs_nonneg (v n.id - v' n.id)
      have hd0 : 0 ≤ difference n (t n) := by unfold difference; positivity
      have hdn : difference n (t n) = |n.vol - (t n).vol| + 2 * |n.cap - (t n).cap| := rfl
      rw [List.map_append, List.sum_append, List.map_append, List.sum_append]
      simp only [List.map_cons, List.map_nil, List.sum_cons, List.sum_nil, add_zero]
      refine ⟨by linarith, fun m hm => ?_⟩
      rcases List.mem_append.1 hm with hm | hm
      · have := ih2 m hm
        linarith
      · rw [List.mem_singleton.1 hm]
        linarith
  exact key order [] (by simp)

variable {fl : Rat → Rat} {gt : GeoTransform Rat} {lab : Raster Int} {water : Raster Rat} {unit : Rain.Unit} {factor : Rat}
  {attr attr' : String} {n : Nat} {fs fs' : List (Feature Rat)} {ns ns' : List (RainNode Rat)}

theorem pending_roots {order : List (RainNode Rat)} (h : NetworkNodes attr fs ns) (hp : order.Perm ns) (f : Int → Rat) :
    pending order f = ((ns.filter fun n => n.down = none).map fun n => f n.id).sum := by
  unfold pending
  have : (order.filter fun m => !order.any fun n => m.down = some n.id) = order.filter fun n => n.down = none := by
    apply List.filter_congr
    intro m hm
    have hl := h.drains m (hp.mem_iff.1 hm)
    cases hl with
    | root hd =>
      rw [hd]
      simp
    | step h1 h2 _ =>
      rw [h2]
      simp only [reduceCtorEq, decide_false, Bool.not_eq_false', List.any_eq_true, decide_eq_true_eq]
      exact ⟨_, hp.mem_iff.2 h1, rfl⟩
  rw [this]
  exact ((hp.filter _).map _).sum_eq

/-- C127: errors in the volumes or capacities of the nodes are not amplified. Two networks with the same nodes and links but other
volumes and capacities: the differences of the volumes held by all nodes and of the water spilled from the roots add up to no more than
the differences of the volumes put in plus twice those of the capacities, and the spill of no node differs by more. -/
theorem C127_stable (h : NetworkNodes attr fs ns) (h' : NetworkNodes attr' fs' ns')
    (hlinks : List.Forall₂ (fun n m => m.id = n.id ∧ m.down = n.down) ns ns')
    {out out' : List (Feature Rat)} (hret : Returns (finalState fs attr) (.ok out)) (hret' : Returns (finalState fs' attr') (.ok out'))
    {v spill v' spill' : Int → Rat} (hs : Shows out ns v spill) (hs' : Shows out' ns' v' spill') :
    (ns.map fun n => |v n.id - v' n.id|).sum + ((ns.filter fun n => n.down = none).map fun n => |spill n.id - spill' n.id|).sum ≤
      (List.zipWith difference ns ns').sum ∧
    ∀ n ∈ ns, |spill n.id - spill' n.id| ≤ (List.zipWith difference ns ns').sum := by
  obtain ⟨hb, -⟩ := network_balanced (fl := id) h hret hs
  obtain ⟨hb', -⟩ := network_balanced (fl := id) h' hret' hs'
  obtain ⟨order, h1, h2, h3, h4⟩ := network_order h
  -- the other node with the same id
  have hlen := hlinks.length_eq
  obtain ⟨t, ht⟩ : ∃ t : RainNode Rat → RainNode Rat, ns' = ns.map t := by
    refine ⟨fun n => (ns'.find? fun m => m.id = n.id).getD n, ?_⟩
    apply List.ext_getElem (by simp [hlen])
    intro i h1 h2
    have hi : i < ns.length := by omega
    have e := ((List.forall₂_iff_get.1 hlinks).2 i hi h1).1
    simp only [List.get_eq_getElem] at e
    simp only [List.getElem_map]
    cases hf : ns'.find? fun m => m.id = ns[i].id with
    | none =>
      have := List.find?_eq_none.1 hf _ (List.getElem_mem h1)
      simp [e] at this
    | some m =>
      have hm := List.mem_of_find?_eq_some hf
      have hid := List.find?_some hf
      simp only [decide_eq_true_eq] at hid
      exact List.inj_on_of_nodup_map h'.distinct (List.getElem_mem h1) hm (e.trans hid.symm)
  have ht2 : ∀ n ∈ ns, (t n).id = n.id ∧ (t n).down = n.down := by
    intro n hn
    obtain ⟨i, hi, rfl⟩ := List.getElem_of_mem hn
    have e := (List.forall₂_iff_get.1 hlinks).2 i hi (by omega)
    simp only [List.get_eq_getElem, ht, List.getElem_map] at e
    exact e
  obtain ⟨k1, k2⟩ := stable_order (v := v) (s := spill) (v' := v') (s' := spill') t ht2 h.distinct h1 (fun m hm => (h2 m).1 hm) h3
    (fun m hm => balanced_id.1 (hb m ((h2 m).1 hm)))
    (fun m hm => by
      have := balanced_id.1 (hb' (t m) (by rw [ht]; exact List.mem_map_of_mem ((h2 m).1 hm)))
      rwa [ht] at this)
  have e1 : (List.zipWith difference ns ns').sum = (order.map fun m => difference m (t m)).sum := by
    rw [ht, List.zipWith_map_right, List.zipWith_self]
    exact ((h4.symm.map _).sum_eq)
  rw [pending_roots h h4, (h4.map fun m => |v m.id - v' m.id|).sum_eq] at k1
  rw [e1]
  exact ⟨k1, fun n hn => k2 n ((h2 n).2 hn)⟩

theorem sum_zipWith_difference (ns : List (RainNode Rat)) (x x' : Nat → Rat) :
    (List.zipWith difference (rainedOn ns x) (rainedOn ns x')).sum = ((List.range ns.length).map fun k => |x k - x' k|).sum := by
  congr 1
  have l1 : (rainedOn ns x).length = ns.length := by simp [rainedOn]
  have l2 : (rainedOn ns x').length = ns.length := by simp [rainedOn]
  apply List.ext_getElem (by simp [l1, l2])
  intro i h1 h2
  simp only [List.length_zipWith] at h1
  rw [List.getElem_zipWith, List.getElem_map, List.getElem_range, rainedOn_get ns x i (by omega) (by omega),
    rainedOn_get ns x' i (by omega) (by omega)]
  simp [difference]

theorem totalWater_rainedOn (ns : List (RainNode Rat)) (x : Nat → Rat) :
    totalWater (rainedOn ns x) = ((List.range ns.length).map x).sum := by
  unfold totalWater
  congr 1
  have l1 : (rainedOn ns x).length = ns.length := by simp [rainedOn]
  apply List.ext_getElem (by simp [l1])
  intro i h1 h2
  simp only [List.length_map] at h1
  rw [List.getElem_map, List.getElem_map, List.getElem_range, rainedOn_get ns x i (by omega) (by omega)]

/-- Rounded and exact volumes on the nodes of a network. -/
theorem final_close (hfl : IsRounding 53 (-1074) fl) (hf : FloatNodes "wshed_area" fs ns)
    (hattr : attr ∉ ["nodeid", "dstrnodeid", "wshed_area", "bspot_vol"]) {rained rained' : List (Feature Rat)}
    (r : rained.length = fs.length) (r' : rained'.length = fs.length) {x x' : Nat → Rat} {j : Nat}
    (hx : ∀ (k : Nat) (h : k < fs.length) (h' : k < rained.length), WithNumber attr (x k) fs[k] rained[k] ∧ 0 ≤ x k ∧ IsF64 (x k))
    (hx' : ∀ (k : Nat) (h : k < fs.length) (h' : k < rained'.length), WithNumber attr (x' k) fs[k] rained'[k])
    (hnear : ∀ k, k < fs.length → Near (1 / 2 ^ 53) j (x k) (x' k)) :
    ∃ final final', Returns (finalStateFl fl rained attr) (.ok final) ∧ Returns (finalState rained' attr) (.ok final') ∧
      List.Forall₂ (WithinError (((1 + 1 / 2 ^ 53) ^ (3 * fs.length + j) - 1) * ((List.range ns.length).map x').sum)) final final' := by
  have h := rained_nodes hf hattr r hx
  have h' := rained_network hf.network hattr r' hx'
  obtain ⟨final, v, spill, f1, f2, -, -, f3⟩ := final_run fl h
  obtain ⟨mid, w, t, m1, m2, -, -, -⟩ := final_run id h
  obtain ⟨final', v', spill', f1', f2', -, -, f3'⟩ := network_run id h'
  refine ⟨final, final', f1, f1', ?_⟩
  have l0 : fs.length = ns.length := hf.carries.length_eq
  have l1 : (rainedOn ns x).length = ns.length := by simp [rainedOn]
  have l2 : (rainedOn ns x').length = ns.length := by simp [rainedOn]
  have l3 : final.length = rained.length := f3.length_eq
  have l4 : final'.length = rained'.length := f3'.length_eq
  have hclose := C76_close hfl h f1 f2 m1 m2
  obtain ⟨s1, s2⟩ := C127_stable h.network h' (by
    rw [List.forall₂_iff_get]
    refine ⟨by omega, fun i h1 h2 => ?_⟩
    simp only [List.get_eq_getElem]
    rw [rainedOn_get ns x i h1 (by omega), rainedOn_get ns x' i h2 (by omega)]
    exact ⟨rfl, rfl⟩) m1 f1' m2 f2'
  rw [sum_zipWith_difference] at s1 s2
  rw [totalWater_rainedOn, l1] at hclose
  set X := ((List.range ns.length).map x).sum
  set X' := ((List.range ns.length).map x').sum
  have hdiff : ((List.range ns.length).map fun k => |x k - x' k|).sum ≤ ((1 + 1 / 2 ^ 53) ^ j - 1) * X' := by
    rw [← List.sum_map_mul_left]
    refine List.sum_le_sum fun k hk => ?_
    exact hnear k (by have := List.mem_range.1 hk; omega)
  have hX : X ≤ (1 + 1 / 2 ^ 53) ^ j * X' := by
    have a1 := abs_sum_sub_le (List.range ns.length) x x'
    have a2 := le_abs_self (X - X')
    have : |X - X'| ≤ ((1 + 1 / 2 ^ 53) ^ j - 1) * X' := a1.trans hdiff
    linarith
  have herr : roundingError ns.length * X + ((1 + 1 / 2 ^ 53) ^ j - 1) * X' ≤ ((1 + 1 / 2 ^ 53) ^ (3 * fs.length + j) - 1) * X' := by
    unfold roundingError
    rw [l0, pow_add]
    have g1 : (1 : Rat) ≤ (1 + 1 / 2 ^ 53) ^ (3 * ns.length) := one_le_grow (by norm_num) _
    have := mul_le_mul_of_nonneg_left hX (sub_nonneg.2 g1)
    linarith
  rw [List.forall₂_iff_get]
  refine ⟨by omega, fun i h1 h2 => ?_⟩
  have hi : i < (rainedOn ns x).length := by omega
  have hi' : i < (rainedOn ns x').length := by omega
  have s := (List.forall₂_iff_get.1 f2).2 i h1 hi
  have s' := (List.forall₂_iff_get.1 f2').2 i h2 hi'
  have k := (List.forall₂_iff_get.1 f3).2 i h1 (by omega)
  have k' := (List.forall₂_iff_get.1 f3').2 i h2 (by omega)
  have wn := (hx i (by omega) (by omega)).1
  have wn' := hx' i (by omega) (by omega)
  obtain ⟨c1, c2⟩ := hclose _ (List.getElem_mem hi)
  have d2 := s2 _ (List.getElem_mem hi)
  have d1 : |w (rainedOn ns x)[i].id - v' (rainedOn ns x)[i].id| ≤ ((List.range ns.length).map fun k => |x k - x' k|).sum := by
    refine le_trans ?_ s1
    have e1 : |w (rainedOn ns x)[i].id - v' (rainedOn ns x)[i].id| ≤ ((rainedOn ns x).map fun n => |w n.id - v' n.id|).sum :=
      List.single_le_sum (fun y hy => by
        obtain ⟨m, -, rfl⟩ := List.mem_map.1 hy
        exact abs_nonneg _) _ (List.mem_map_of_mem (f := fun n : RainNode Rat => |w n.id - v' n.id|) (List.getElem_mem hi))
    have e2 : 0 ≤ (((rainedOn ns x).filter fun n => n.down = none).map fun n => |t n.id - spill' n.id|).sum :=
      List.sum_nonneg fun y hy => by
        obtain ⟨m, -, rfl⟩ := List.mem_map.1 hy
        exact abs_nonneg _
    linarith
  simp only [List.get_eq_getElem] at s s' k k' wn wn' ⊢
  rw [rainedOn_get ns x i hi (by omega)] at c1 c2 d1 d2 s
  rw [rainedOn_get ns x' i hi' (by omega)] at s'
  simp only at c1 c2 d1 d2 s s'
  refine ⟨k'.1.trans (wn'.id.trans (wn.id.symm.trans k.1.symm)), k'.2.1.trans (wn'.geometry.trans (wn.geometry.symm.trans k.2.1.symm)),
    s'.1.trans s.1.symm, _, _, _, _, ⟨_, s.2.1, rfl⟩, ⟨_, s.2.2, rfl⟩, ⟨_, s'.2.1, rfl⟩, ⟨_, s'.2.2, rfl⟩, ?_, ?_⟩
  · have := abs_sub_le (v ns[i].id) (w ns[i].id) (v' ns[i].id)
    linarith
  · have := abs_sub_le (spill ns[i].id) (t ns[i].id) (spill' ns[i].id)
    linarith

/-- C127 for even rain: on the nodes of a network file, the volumes and spills computed in floating point arithmetic differ from those
of exact arithmetic by at most the given fraction of the rain on all watersheds: 3 roundings for every node and 3. -/
theorem C127_even (hfl : IsRounding 53 (-1074) fl) (hf : FloatNodes "wshed_area" fs ns)
    (hattr : attr ∉ ["nodeid", "dstrnodeid", "wshed_area", "bspot_vol"]) {mm : Rat} (hmm : mm = 0 ∨ 2 ^ (-300 : Int) ≤ mm)
    (hareas : ∀ m ∈ ns, m.vol = 0 ∨ 2 ^ (-600 : Int) ≤ m.vol) :
    ∃ rained rained' final final', Rain.simpleVolumesFl fl fs attr mm = .ok rained ∧ Rain.simpleVolumes fs attr mm = .ok rained' ∧
      Returns (finalStateFl fl rained attr) (.ok final) ∧ Returns (finalState rained' attr) (.ok final') ∧
      List.Forall₂ (WithinError (((1 + 1 / 2 ^ 53) ^ (3 * fs.length + 3) - 1) * (mm / 1000 * (ns.map (·.vol)).sum))) final final' := by
  obtain ⟨rained, h1, h2, h3⟩ := evenVolumes_ok (fl := fl) (attr := attr) (mm := mm) hf
  obtain ⟨rained', h1', h2', h3'⟩ := evenVolumes_ok (fl := id) (attr := attr) (mm := mm) hf
  have l0 : fs.length = ns.length := hf.carries.length_eq
  obtain ⟨vol, hvol⟩ : ∃ vol : Nat → Rat, ∀ (k : Nat) (h : k < ns.length), vol k = ns[k].vol :=
    ⟨fun k => if h : k < ns.length then ns[k].vol else 0, fun k h => dif_pos h⟩
  have hspec : ∀ k, k < fs.length → Near (1 / 2 ^ 53) 3 (fl (fl (vol k * mm) * fl (1 / 1000))) (mm / 1000 * vol k) ∧
      0 ≤ fl (fl (vol k * mm) * fl (1 / 1000)) := fun k hk => by
    rw [hvol k (by omega)]
    exact rain_spec hfl hmm (k := 0) Near.refl (hf.volumes _ (List.getElem_mem (by omega))).1 (hareas _ (List.getElem_mem (by omega)))
  obtain ⟨final, final', f1, f2, f3⟩ := final_close (attr := attr) hfl hf hattr h2 h2' (j := 3)
    (x := fun k => fl (fl (vol k * mm) * fl (1 / 1000))) (x' := fun k => mm / 1000 * vol k)
    (fun k h h' => ⟨by rw [hvol k (by omega)]; exact h3 k h h' (by omega), (hspec k h).2, (hfl _).1⟩)
    (fun k h h' => by
      have := h3' k h h' (by omega)
      rw [← hvol k (by omega)] at this
      rw [show mm / 1000 * vol k = id (id (vol k * mm) * id (1 / 1000)) by simp only [id_eq]; ring]
      exact this)
    (fun k h => (hspec k h).1)
  refine ⟨rained, rained', final, final', h1, h1', f1, f2, ?_⟩
  have e : (List.range ns.length).map (fun k => mm / 1000 * vol k) = ns.map fun m => mm / 1000 * m.vol := by
    apply List.ext_getElem (by simp)
    intro i a b
    simp only [List.length_map] at b
    rw [List.getElem_map, List.getElem_map, List.getElem_range, hvol i b]
  rw [e, List.sum_map_mul_left] at f3
  exact f3

/-- C127 for rain given as a raster: on the nodes of a network file with a node for every label, the volumes and spills computed in
floating point arithmetic differ from those of exact arithmetic by at most the given fraction of the rain on the raster: 3 roundings
for every node, one for every cell and 4. -/
theorem C127_raster (hfl : IsRounding 53 (-1074) fl) (hg : FloatRainRaster gt water)
    (hshape : lab.rows = water.rows ∧ lab.cols = water.cols)
    (hn : TopLabel lab.rows lab.cols lab.get none n) (hr : LabelsIn lab.rows lab.cols lab.get n)
    (hu : unitFactor (|gt.t1| * |gt.t5|) unit = some factor) (hf : FloatNodes "wshed_area" fs ns)
    (hids : ∀ m ∈ ns, 0 ≤ m.id) (hall : ∀ l : Nat, l ≤ n → ∃ m ∈ ns, m.id = l)
    (hattr : attr ∉ ["nodeid", "dstrnodeid", "wshed_area", "bspot_vol"]) :
    ∃ rained rained' final final', Rain.rasterVolumesFl fl fs gt lab water unit attr = .ok rained ∧
      Rain.rasterVolumes fs gt lab water unit attr = .ok rained' ∧
      Returns (finalStateFl fl rained attr) (.ok final) ∧ Returns (finalState rained' attr) (.ok final') ∧
      List.Forall₂ (WithinError (((1 + 1 / 2 ^ 53) ^ (3 * fs.length + (water.rows * water.cols + 4)) - 1) *
        (((Raster.cellList water.rows water.cols).map water.get).sum * factor))) final final' := by
  have l0 : fs.length = ns.length := hf.carries.length_eq
  have hidl : List.Forall₂ (fun f (i : Int) => f.properties.get? "nodeid" = some (.int i) ∧ 0 ≤ i) fs (ns.map (·.id)) := by
    rw [List.forall₂_map_right_iff, List.forall₂_iff_get]
    refine ⟨hf.carries.length_eq, fun i h1 h2 => ?_⟩
    exact ⟨((List.forall₂_iff_get.1 hf.carries).2 i h1 h2).id, hids _ (List.getElem_mem h2)⟩
  obtain ⟨_, -, -, hfac, -⟩ := factor_spec hfl hg.width hg.height hu
  obtain ⟨rained, r1, r2, r3⟩ := C125_raster_volumes (attr := attr) hfl hg hshape hn hr hu hidl
  obtain ⟨rained', r1', r2', r3'⟩ := C40_raster_volumes (attr := attr) hshape hn hr hu hidl
  -- both volumes of the node
  have hx : ∀ k : Nat, ∃ x x' : Rat, (∀ (h : k < fs.length) (h' : k < rained.length), WithNumber attr x fs[k] rained[k] ∧ 0 ≤ x ∧ IsF64 x) ∧
      (∀ (h : k < fs.length) (h' : k < rained'.length), WithNumber attr x' fs[k] rained'[k]) ∧
      (k < fs.length → Near (1 / 2 ^ 53) (water.rows * water.cols + 4) x x') := by
    intro k
    by_cases h : k < fs.length
    · have hk : k < (ns.map (·.id)).length := by rw [← hidl.length_eq]; exact h
      obtain ⟨g, x, g1, g2, g3, g4, g5, g6⟩ := r3 k _ _ (List.getElem?_eq_getElem h) (List.getElem?_eq_getElem hk)
      obtain ⟨g', x', g1', g2', g3', g4'⟩ := r3' k _ _ (List.getElem?_eq_getElem h) (List.getElem?_eq_getElem hk)
      refine ⟨x, x', fun _ h' => ?_, fun _ h' => ?_, fun _ => ?_⟩
      · rw [List.getElem?_eq_getElem h'] at g1
        injection g1 with g1
        rw [g1]
        exact ⟨g2, g3, g4⟩
      · rw [List.getElem?_eq_getElem h'] at g1'
        injection g1' with g1'
        rw [g1']
        exact g2'
      · rcases le_or_gt (ns.map (·.id))[k] (n : Int) with hle | hgt
        · obtain ⟨cs, hcs⟩ : ∃ cs, CellsOf lab.rows lab.cols lab.get (ns.map RainNode.id)[k] cs :=
            ⟨_, lists_filter lab.rows lab.cols fun c => lab.get c = (ns.map RainNode.id)[k]⟩
          have e : Near (1 / 2 ^ 53) (cs.length + 4) x ((cs.map water.get).sum * factor) := g5 cs hcs hle
          rw [g3' cs hcs hle]
          refine e.weaken (by norm_num) ?_ (mul_nonneg (List.sum_nonneg fun y hy => ?_) hfac)
          · have : cs.length ≤ lab.rows * lab.cols := by
              rw [← Flow.length_cellList]
              exact (List.subperm_of_subset (hcs.1.imp fun h e => by subst e; simp [Before] at h)
                fun x hx => Flow.mem_cellList.2 ((hcs.2 x).1 hx).1).length_le
            rw [hshape.1, hshape.2] at this
            omega
          · obtain ⟨c, hc, rfl⟩ := List.mem_map.1 hy
            have := ((hcs.2 c).1 hc).1
            rw [hshape.1, hshape.2] at this
            rcases (hg.rain c this).2 with e | e
            · exact e.ge
            · exact (two_pos _).le.trans e
        · rw [g6 hgt, g4' hgt]
          exact Near.zero
    · exact ⟨0, 0, fun h1 => absurd h1 h, fun h1 => absurd h1 h, fun h1 => absurd h1 h⟩
  choose x x' hx1 hx2 hx3 using hx
  obtain ⟨final, final', f1, f2, f3⟩ := final_close (attr := attr) hfl hf hattr r2 r2' hx1 hx2 hx3
  refine ⟨rained, rained', final, final', r1, r1', f1, f2, ?_⟩
  have ht := C40_total (vols := (List.range ns.length).map x') hshape hn hr hu hidl hf.distinct (fun l hl => by
    obtain ⟨m, hm, e⟩ := hall l hl
    exact List.mem_map.2 ⟨m, hm, e⟩) r1' (by
      rw [List.forall₂_iff_get]
      refine ⟨by simp [r2', l0], fun i a b => ?_⟩
      simp only [List.get_eq_getElem, List.getElem_map, List.getElem_range]
      exact (hx2 i (by omega) a).value) rfl
  rw [ht] at f3
  exact f3

section Command
variable {nextafter : Rat → Rat} {cc : Raster Bool → Raster Int × Nat} {mm : Rat} {dem : Raster (WithTop F64)}

namespace Spec

/-- The final state written by a run is the one exact arithmetic gives for the nodes it wrote, up to 3 roundings for every node and 5 of
the rain on all cells of the DEM. -/
def FinalWithin (gt : GeoTransform Rat) (dem : Raster (WithTop F64)) (mm : Rat) (out : Complete.Out (WithTop F64) Rat) : Prop :=
  ∃ rained final, Rain.simpleVolumes out.nodes "inputv" mm = .ok rained ∧ Returns (finalState rained "inputv") (.ok final) ∧
    List.Forall₂ (WithinError (((1 + 1 / 2 ^ 53) ^ (3 * out.nodes.length + 5) - 1) *
      (mm / 1000 * ((dem.rows * dem.cols : Nat) * cellArea gt)))) out.final final

end Spec

theorem run_within (hfl : IsRounding 53 (-1074) fl) {out : Complete.Out (WithTop F64) Rat} (hg : FloatRain gt mm)
    (hf : FloatNodes "wshed_area" out.nodes ns) (hareas : ∀ m ∈ ns, m.vol = 0 ∨ 2 ^ (-600 : Int) ≤ m.vol)
    (htotal : Near (1 / 2 ^ 53) 2 (ns.map (·.vol)).sum ((dem.rows * dem.cols : Nat) * cellArea gt))
    (hv : Rain.simpleVolumesFl fl out.nodes "inputv" mm = .ok out.volumes)
    (hr : Returns (finalStateFl fl out.volumes "inputv") (.ok out.final)) : Spec.FinalWithin gt dem mm out := by
  obtain ⟨rained, rained', final, final', e1, e2, e3, e4, e5⟩ := C127_even (attr := "inputv") hfl hf (by decide) hg.rain.2 hareas
  rw [hv] at e1
  cases e1
  have := Except.ok.inj (hr.unique e3)
  subst this
  refine ⟨rained', final', e2, e4, e5.imp fun f g h => ?_⟩
  obtain ⟨h1, h2, h3, v, s, v', s', a1, a2, a3, a4, a5, a6⟩ := h
  have hm : 0 ≤ mm / 1000 := by
    rcases hg.rain.2 with e | e
    · rw [e]; norm_num
    · exact div_nonneg ((two_pos _).le.trans e) (by norm_num)
  have hA : (0 : Rat) ≤ (dem.rows * dem.cols : Nat) * cellArea gt :=
    mul_nonneg (Nat.cast_nonneg _) (mul_nonneg (abs_nonneg _) (abs_nonneg _))
  have hle : ((1 + 1 / 2 ^ 53) ^ (3 * out.nodes.length + 3) - 1) * (mm / 1000 * (ns.map (·.vol)).sum) ≤
      ((1 + 1 / 2 ^ 53) ^ (3 * out.nodes.length + 5) - 1) * (mm / 1000 * ((dem.rows * dem.cols : Nat) * cellArea gt)) := by
    have k1 := mul_le_mul_of_nonneg_left htotal.le hm
    set A : Rat := (dem.rows * dem.cols : Nat) * cellArea gt
    have g1 : (1 : Rat) ≤ (1 + 1 / 2 ^ 53) ^ (3 * out.nodes.length + 3) := one_le_grow (by norm_num) _
    have g2 : (1 : Rat) ≤ (1 + 1 / 2 ^ 53) ^ 2 := one_le_grow (by norm_num) _
    have k2 := mul_le_mul_of_nonneg_left k1 (sub_nonneg.2 g1)
    have k3 := mul_nonneg (sub_nonneg.2 g2) (mul_nonneg hm hA)
    rw [show 3 * out.nodes.length + 5 = (3 * out.nodes.length + 3) + 2 from rfl, pow_add _ (3 * out.nodes.length + 3) 2]
    generalize ((1 : Rat) + 1 / 2 ^ 53) ^ (3 * out.nodes.length + 3) = p at *
    generalize ((1 : Rat) + 1 / 2 ^ 53) ^ 2 = q at *
    linarith
  exact ⟨h1, h2, h3, v, s, v', s', a1, a2, a3, a4, a5.trans hle, a6.trans hle⟩

/-- C127 for whole runs on a float32 DEM with the Python functions. -/
theorem C127_run {fl32 : Rat → Rat} (hfl : IsRounding 53 (-1074) fl) (hfl32 : IsRounding 24 (-149) fl32)
    (hnext : IsNextAfter nextafter) (hdem : IsDem32 dem) (hsize : dem.rows * dem.cols ≤ 2 ^ 50) (hcc : LabelContract cc)
    (hsq : SquareCellsFl fl gt) (hg : FloatRain gt mm) (want : Bool) (f : Bluespots.StatUnits Rat → Bool) :
    ∃ out, (Complete.processAllFl fl cc (Dem.python (fsub fl) fun x => fl (x * (1 / Fill.sqrt2))) (Bluespots.pythonFl fl)
        (fsub fl32) (fsafe hfl nextafter) gt dem want (some f) mm).Yields (.ok out) ∧ Spec.FinalWithin gt dem mm out := by
  have h := float_sound hfl hfl32 hnext hdem hsize (k := 1 / Fill.sqrt2) (by norm_num [Fill.sqrt2])
  obtain ⟨d, hd, _, hdsh, hfsh, hcells, _, ⟨z, _, hdown⟩, hacc, hno⟩ := C62_dem_outputs h want
  obtain ⟨_, _, _, hnf, _, _, _⟩ := Dem.process_inv hd
  obtain ⟨hnsh, hfin, _⟩ := noFlats_finite h hnf
  obtain ⟨out, h1, rfl, -, -, -, -, -, -, ⟨ns, n1, -, -, n4, n5, -⟩, hv, hr, -⟩ := chain_balance (bluespotEngine := Bluespots.pythonFl fl) hfl hg hsize
    (.inl rfl) rfl hcc hsq ⟨by have := h.rows; omega, by have := h.cols; omega⟩ want f hd hdsh hfsh
    (fun c hc => ⟨(hcells c hc).2.2.1, by rw [(hcells c hc).2.1]; exact (hfl32 _).1⟩) hdown hnsh hfin h.drop_pos h.scale_pos
    (fun hw => by
      obtain ⟨a, h1, h2⟩ := hacc hw
      exact ⟨a, a, h1, h2, rfl, rfl, fun _ _ => rfl⟩) hno
  exact ⟨out, h1, run_within hfl hg n1 n4 n5 hv hr⟩

/-- C127 for whole runs with the compiled functions. -/
theorem C127_compiled_run {fl32 : Rat → Rat} (junk : Int × Int) (hfl : IsRounding 53 (-1074) fl) (hfl32 : IsRounding 24 (-149) fl32)
    (hnext : IsNextAfter nextafter) (hdem : IsDem32 dem) (hr3 : dem.rows ≠ 3) (hc3 : dem.cols ≠ 3)
    (hsize : dem.rows * dem.cols ≤ 2 ^ 50) (hcc : LabelContract cc)
    (hsq : SquareCellsFl fl gt) (hg : FloatRain gt mm) (want : Bool) (f : Bluespots.StatUnits Rat → Bool) :
    ∃ out, (Complete.processAllFl fl cc (Dem.compiled junk (fsub fl) fun x => fl (x * FlowCython.invSqrt2))
        (Bluespots.compiledFl fl junk) (fsub fl32) (fsafe hfl nextafter) gt dem want (some f) mm).Yields (.ok out) ∧
      Spec.FinalWithin gt dem mm out := by
  have h := float_sound hfl hfl32 hnext hdem hsize (k := FlowCython.invSqrt2) (by norm_num [FlowCython.invSqrt2])
  obtain ⟨d, hd, _, hdsh, hfsh, _, hcells, _, ⟨z, _, hdown⟩, hacc, hno⟩ := C62_dem_outputs_compiled junk h hr3 hc3 want
  obtain ⟨_, _, _, hnf, _, _, _⟩ := Dem.process_inv hd
  obtain ⟨nf, hnf', hnr, hnc, _, _, _, hnfin, _⟩ := C11_compiled_noflats_valid (fsafe hfl nextafter dem).1 (fsafe hfl nextafter dem).2
    h.mono.1 h.mono.2 (fun x => (h.ge x).1) (fun x => (h.ge x).2) dem ⟨h.rows, hr3⟩ ⟨h.cols, hc3⟩ h.finite
    (fun x hx => (h.keep x hx).1) (fun x hx => (h.keep x hx).2)
  have heq : Except.ok nf = Except.ok (ε := PyErr) d.noFlats := Returns.unique hnf' hnf
  cases heq
  obtain ⟨out, h1, rfl, -, -, -, -, -, -, ⟨ns, n1, -, -, n4, n5, -⟩, hv, hr, -⟩ := chain_balance (bluespotEngine := Bluespots.compiledFl fl junk)
    hfl hg hsize (.inr ⟨junk, rfl⟩) rfl hcc hsq ⟨by have := h.rows; omega, by have := h.cols; omega⟩ want f hd hdsh hfsh
    (fun c hc => ⟨(hcells c hc).2.2.1, by rw [(hcells c hc).2.1]; exact (hfl32 _).1⟩) hdown ⟨hnr, hnc⟩ hnfin h.drop_pos h.scale_pos
    hacc hno
  exact ⟨out, h1, run_within hfl hg n1 n4 n5 hv hr⟩

end Command

/-- The hypotheses of C127 can be met: two networks that differ in volumes and capacities, and the nodes and the raster of C125. -/
def twoNodes (v0 v1 c : Rat) : List (Feature Rat) := [
  ⟨some 0, .none, [("nodeid", .int 0), ("dstrnodeid", .none), ("water", .num v0), ("wshed_area", .num 8), ("bspot_vol", .num 0)]⟩,
  ⟨some 1, .none, [("nodeid", .int 1), ("dstrnodeid", .int 0), ("water", .num v1), ("wshed_area", .num 8), ("bspot_vol", .num c)]⟩]

example (v0 v1 c : Rat) : NetworkNodes "water" (twoNodes v0 v1 c) [⟨0, none, v0, 0⟩, ⟨1, some 0, v1, c⟩] := by
  refine ⟨.cons ⟨rfl, rfl, ⟨_, _, rfl, rfl⟩, ⟨_, rfl, rfl⟩, ⟨_, rfl, rfl⟩⟩ (.cons ⟨rfl, rfl, ⟨_, _, rfl, rfl⟩, ⟨_, rfl, rfl⟩, ⟨_, rfl, rfl⟩⟩ .nil),
    by simp, by decide, fun m hm => ?_⟩
  rcases List.mem_cons.1 hm with rfl | hm
  · exact .root rfl
  · rw [List.mem_singleton.1 hm]
    exact .step (m := ⟨0, none, v0, 0⟩) (by simp) rfl (.root rfl)

example : FloatNodes "wshed_area" rainedNodes [⟨0, none, 8, 0⟩, ⟨1, some 0, 8, 2⟩] ∧
    (∀ m ∈ ([⟨0, none, 8, 0⟩, ⟨1, some 0, 8, 2⟩] : List (RainNode Rat)), m.vol = 0 ∨ (2 : Rat) ^ (-600 : Int) ≤ m.vol) ∧
    FloatRainRaster ⟨0, 2, 0, 0, 0, -2⟩ rainWater := by
  refine ⟨rainedNodes_ok, fun m hm => .inr ?_, rainWater_ok⟩
  have : m.vol = 8 := by
    rcases List.mem_cons.1 hm with rfl | hm
    · rfl
    · rw [List.mem_singleton.1 hm]
  rw [this]
  exact (two_le.2 (show (-600 : Int) ≤ 0 by norm_num)).trans (by norm_num)

/-- Volumes held and spilled, as they are shown. -/
def shownVolumes (fs : List (Feature Rat)) : Option (List (Option (Val Rat) × Option (Val Rat))) :=
  ((finalState fs "water" 9).run.bind Except.toOption).map fun out => out.map fun f =>
    (f.properties.get? "v", f.properties.get? "spillv")

/-- The bound of C127 cannot be lowered: one unit more capacity in a full bluespot moves one unit of water into it and one less out
of the root; one unit more water goes out of the root. -/
example : shownVolumes (twoNodes 0 5 2) = some [(some (.num 0), some (.num 3)), (some (.num 2), some (.num 3))] ∧
    shownVolumes (twoNodes 0 5 3) = some [(some (.num 0), some (.num 2)), (some (.num 3), some (.num 2))] ∧
    shownVolumes (twoNodes 0 6 2) = some [(some (.num 0), some (.num 4)), (some (.num 2), some (.num 4))] := by
  refine ⟨?_, ?_, ?_⟩ <;> decide +kernel

end Float
end Malstroem
