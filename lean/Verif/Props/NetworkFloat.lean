/-
The final state with floating point arithmetic (malstroem/network.py): C74-C77.

`fl` rounds the exact result of every addition, subtraction, multiplication and division to a nearest float64, as IEEE 754
prescribes (without overflow); `finalStateFl fl` is FinalStateCalculator with that arithmetic and `finalState` the same with
exact arithmetic.
-/
import Verif.Proofs.FinalState
import Verif.Proofs.NetworkFloat
import Verif.Spec.NetworkFloat

set_option linter.unusedSectionVars false

namespace Malstroem
open Spec Network Malstroem.Float
variable {fl : Rat → Rat} {attr : String} {fs out : List (Feature Rat)} {ns : List (RainNode Rat)}

/-! ## The run -/

theorem index_of_carries {K : Type} [Field K] [LinearOrder K] {attr : String} {fs : List (Feature K)} {ns : List (RainNode K)}
    (hfs : List.Forall₂ (fun f n => Carries attr f.properties n) fs ns) (hnd : (ns.map (·.id)).Nodup) :
    ∃ d, indexFeatures fs = .ok d ∧ Indexed fs d ∧ d.values = fs := by
  set key : Feature K → Val K := fun f => (nodeId f).getD .none with hkey
  have hk : ∀ f ∈ fs, nodeId f = some (key f) := by
    intro f hf
    obtain ⟨n, hn⟩ : ∃ n, Carries attr f.properties n := by
      obtain ⟨i, hi, rfl⟩ := List.getElem_of_mem hf
      exact ⟨_, (List.forall₂_iff_get.1 hfs).2 i hi (by rw [← hfs.length_eq]; exact hi)⟩
    have : nodeId f = some (.int n.id) := hn.id
    simp [hkey, this]
  have hkn : fs.map key = (ns.map (·.id)).map Val.int := by
    rw [List.map_map]
    clear hk hnd
    induction hfs with
    | nil => rfl
    | cons hab _ ih =>
      rename_i a b l l' _
      have : nodeId a = some (.int b.id) := hab.id
      rw [List.map_cons, List.map_cons, ih]
      simp [hkey, this]
  have hnk : (fs.map key).Nodup := by rw [hkn]; exact hnd.map fun a b h => Val.int.inj h
  obtain ⟨d, hd, hi⟩ := indexFeatures_ok (fs := fs) fun f hf => ⟨_, hk f hf⟩
  have hd2 := index_distinct key hk hnk
  rw [hd] at hd2
  injection hd2 with hd2
  refine ⟨d, hd, hi, ?_⟩
  rw [hd2]
  unfold Dict.values
  rw [List.map_map]
  exact List.map_id _

/-- All that is known about a run, for any arithmetic. -/
theorem network_run (fl : Rat → Rat) (h : NetworkNodes attr fs ns) :
    ∃ (out : List (Feature Rat)) (v spill : Int → Rat), Returns (finalStateFl fl fs attr) (.ok out) ∧ Shows out ns v spill ∧
      (∀ n ∈ ns, BalancedFl fl ns v spill n) ∧
      List.Forall₂ (fun g n => g.properties.get? "pctv" = some (percentFl fl (v n.id) n.cap)) out ns ∧
      List.Forall₂ (fun g f => g.id = f.id ∧ g.geometry = f.geometry ∧
        ∀ key, key ≠ "spillv" → key ≠ "v" → key ≠ "pctv" → g.properties.get? key = f.properties.get? key) out fs := by
  obtain ⟨d, hd, hi, hval⟩ := index_of_carries h.carries h.distinct
  obtain ⟨out, v, spill, h1, h2, h3, rows, h4, h5, h6, h7⟩ := finalStateFl_ok fl h.attr_ne hd hi (by rw [hval]; exact h.carries)
  rw [hval] at h4
  have hrow : ∀ r ∈ rows, Carries attr r.1.properties r.2.1 ∧
      r.2.2 = withState fl r.1 r.2.1 (v r.2.1.id) (spill r.2.1.id) := by
    intro r hr
    have hc := h.carries
    rw [← h4, ← h5, List.forall₂_map_left_iff, List.forall₂_map_right_iff] at hc
    refine ⟨List.forall₂_same.1 hc r hr, (h7 r hr).1 (h.drains _ ?_)⟩
    rw [← h5]
    exact List.mem_map_of_mem hr
  refine ⟨out, v, spill, h1, ?_, fun n hn => h3 n hn (h.drains n hn), ?_, ?_⟩
  · unfold Shows
    rw [← h5, ← h6, List.forall₂_map_left_iff, List.forall₂_map_right_iff, List.forall₂_same]
    intro r hr
    obtain ⟨hc, he⟩ := hrow r hr
    rw [he]
    have := hc.id
    unfold withState
    refine ⟨?_, ?_, ?_⟩ <;> simp [Dict.get?_set, this]
  · rw [← h5, ← h6, List.forall₂_map_left_iff, List.forall₂_map_right_iff, List.forall₂_same]
    intro r hr
    rw [(hrow r hr).2]
    unfold withState
    simp [Dict.get?_set]
  · rw [← h4, ← h6, List.forall₂_map_left_iff, List.forall₂_map_right_iff, List.forall₂_same]
    intro r hr
    rw [(hrow r hr).2]
    refine ⟨rfl, rfl, fun key k1 k2 k3 => ?_⟩
    unfold withState
    simp only [Dict.get?_set, if_neg (Ne.symm k1), if_neg (Ne.symm k2), if_neg (Ne.symm k3)]

theorem final_run (fl : Rat → Rat) (h : FloatNodes attr fs ns) :
    ∃ (out : List (Feature Rat)) (v spill : Int → Rat), Returns (finalStateFl fl fs attr) (.ok out) ∧ Shows out ns v spill ∧
      (∀ n ∈ ns, BalancedFl fl ns v spill n) ∧
      List.Forall₂ (fun g n => g.properties.get? "pctv" = some (percentFl fl (v n.id) n.cap)) out ns ∧
      List.Forall₂ (fun g f => g.id = f.id ∧ g.geometry = f.geometry ∧
        ∀ key, key ≠ "spillv" → key ≠ "v" → key ≠ "pctv" → g.properties.get? key = f.properties.get? key) out fs :=
  network_run fl h.network

theorem shows_agree {v spill v' spill' : Int → Rat} (h : Shows out ns v spill) (h' : Shows out ns v' spill') :
    ∀ n ∈ ns, v n.id = v' n.id ∧ spill n.id = spill' n.id := by
  unfold Shows at *
  induction h with
  | nil => intro n hn; cases hn
  | cons hab _ ih =>
    rename_i a b l l' _
    rw [List.forall₂_cons] at h'
    intro n hn
    rcases List.mem_cons.1 hn with rfl | hn
    · have e1 := hab.2.1.symm.trans h'.1.2.1
      have e2 := hab.2.2.symm.trans h'.1.2.2
      injection e1 with e1
      injection e2 with e2
      injection e1 with e1
      injection e2 with e2
      exact ⟨e1, e2⟩
    · exact ih h'.2 n hn

theorem arrivingFl_congr {s s' : Int → Rat} {n : RainNode Rat} (h : ∀ m ∈ upstreamOf ns n, s m.id = s' m.id) :
    arrivingFl fl ns s n = arrivingFl fl ns s' n := by
  unfold arrivingFl
  rw [List.map_congr_left h]

/-- The values shown are balanced. -/
theorem network_balanced (h : NetworkNodes attr fs ns) (hret : Returns (finalStateFl fl fs attr) (.ok out)) {v spill : Int → Rat}
    (hs : Shows out ns v spill) : (∀ n ∈ ns, BalancedFl fl ns v spill n) ∧
      List.Forall₂ (fun g n => g.properties.get? "pctv" = some (percentFl fl (v n.id) n.cap)) out ns := by
  obtain ⟨out', v', spill', h1, h2, h3, h4, -⟩ := network_run fl h
  have := Except.ok.inj (hret.unique h1)
  subst this
  have hag := shows_agree hs h2
  constructor
  · intro n hn
    unfold BalancedFl
    rw [arrivingFl_congr fun m hm => (hag m (mem_upstreamOf.1 hm).1).2, (hag n hn).1, (hag n hn).2]
    exact h3 n hn
  · unfold Shows at hs
    clear h1 h2 h3 hs hret h
    induction h4 with
    | nil => exact .nil
    | cons hab _ ih =>
      refine .cons ?_ (ih fun n hn => hag n (List.mem_cons_of_mem _ hn))
      rw [(hag _ (by simp)).1]
      exact hab

theorem shown_balanced (h : FloatNodes attr fs ns) (hret : Returns (finalStateFl fl fs attr) (.ok out)) {v spill : Int → Rat}
    (hs : Shows out ns v spill) : (∀ n ∈ ns, BalancedFl fl ns v spill n) ∧
      List.Forall₂ (fun g n => g.properties.get? "pctv" = some (percentFl fl (v n.id) n.cap)) out ns :=
  network_balanced h.network hret hs

/-- The nodes from upstream to downstream. -/
theorem network_order (h : NetworkNodes attr fs ns) : ∃ order : List (RainNode Rat), (order.map (·.id)).Nodup ∧
    (∀ n, n ∈ order ↔ n ∈ ns) ∧ UpstreamFirst ns order ∧ order.Perm ns := by
  have hc : List.Forall₂ (Carries attr) (fs.map (·.properties)) ns := by
    rw [List.forall₂_map_left_iff]; exact h.carries
  obtain ⟨s, -, hs⟩ := addNodes_ok hc h.distinct
  obtain ⟨order, v, spill, -, h2, h3, h4, -⟩ := rain_ok id h.distinct hs
  have hmem : ∀ n, n ∈ order ↔ n ∈ ns := fun n => by rw [h3]; exact ⟨fun a => a.1, fun a => ⟨a, h.drains n a⟩⟩
  exact ⟨order, h2, hmem, h4,
    (List.perm_ext_iff_of_nodup (List.Nodup.of_map _ h2) (List.Nodup.of_map _ h.distinct)).2 hmem⟩

theorem exists_order (h : FloatNodes attr fs ns) : ∃ order : List (RainNode Rat), (order.map (·.id)).Nodup ∧
    (∀ n, n ∈ order ↔ n ∈ ns) ∧ UpstreamFirst ns order ∧ order.Perm ns := network_order h.network

/-- Every node's values are sensible. -/
theorem sensible (hfl : IsRounding 53 (-1074) fl) (h : FloatNodes attr fs ns) {v spill : Int → Rat}
    (hb : ∀ n ∈ ns, BalancedFl fl ns v spill n) : ∀ n ∈ ns, 0 ≤ spill n.id ∧ OnGrid (-1074) (spill n.id) := by
  obtain ⟨order, h1, h2, h3, -⟩ := exists_order h
  have := upstream_induction (P := fun n => 0 ≤ spill n.id ∧ OnGrid (-1074) (spill n.id)) h3 (fun n hn hup => by
    have hn' := (h2 n).1 hn
    obtain ⟨-, -, -, -, -, -, -, a8, a9, -⟩ := node_spec hfl (by norm_num) (hb n hn') (h.volumes n hn') (h.capacities n hn') hup
    exact ⟨a8, .of_float a9⟩)
  exact fun n hn => this n ((h2 n).2 hn)

/-! ## C74 -/

/-- C74: FinalStateCalculator returns with floating point arithmetic too, and shows a retained and a spilled volume of every node; it
changes no other attribute than spillv, v and pctv. -/
theorem C74_returns (fl : Rat → Rat) (h : FloatNodes attr fs ns) :
    ∃ (out : List (Feature Rat)) (v spill : Int → Rat), Returns (finalStateFl fl fs attr) (.ok out) ∧ Shows out ns v spill ∧
      List.Forall₂ (fun g f => g.id = f.id ∧ g.geometry = f.geometry ∧
        ∀ key, key ≠ "spillv" → key ≠ "v" → key ≠ "pctv" → g.properties.get? key = f.properties.get? key) out fs := by
  obtain ⟨out, v, spill, h1, h2, -, -, h3⟩ := final_run fl h
  exact ⟨out, v, spill, h1, h2, h3⟩

/-- C74: in floating point arithmetic no bluespot holds a negative volume or more than its capacity, no spill is negative, only
full bluespots spill, and the volumes shown are float64 numbers. -/
theorem C74_bounds (hfl : IsRounding 53 (-1074) fl) (h : FloatNodes attr fs ns)
    (hret : Returns (finalStateFl fl fs attr) (.ok out)) {v spill : Int → Rat} (hs : Shows out ns v spill) :
    ∀ n ∈ ns, 0 ≤ v n.id ∧ v n.id ≤ n.cap ∧ 0 ≤ spill n.id ∧ (0 < spill n.id → v n.id = n.cap) ∧
      IsF64 (v n.id) ∧ IsF64 (spill n.id) := by
  obtain ⟨hb, -⟩ := shown_balanced h hret hs
  have hsp := sensible hfl h hb
  intro n hn
  obtain ⟨-, -, -, -, a5, a6, a7, a8, a9, a10, -, -⟩ := node_spec hfl (by norm_num) (hb n hn) (h.volumes n hn) (h.capacities n hn)
    fun m hm => hsp m (mem_upstreamOf.1 hm).1
  exact ⟨a5, a6, a8, a10, a7, a9⟩

/-- C74: what a node holds and spills is what arrives, up to one rounding per upstream node and two more. -/
theorem C74_balance (hfl : IsRounding 53 (-1074) fl) (h : FloatNodes attr fs ns)
    (hret : Returns (finalStateFl fl fs attr) (.ok out)) {v spill : Int → Rat} (hs : Shows out ns v spill) :
    ∀ n ∈ ns, ∀ water, water = n.vol + ((ns.filter fun m => m.down = some n.id).map fun m => spill m.id).sum →
      |v n.id + spill n.id - water| ≤
        ((1 + 1 / 2 ^ 53) ^ ((ns.filter fun m => m.down = some n.id).length + 2) - 1) * water := by
  obtain ⟨hb, -⟩ := shown_balanced h hret hs
  have hsp := sensible hfl h hb
  intro n hn water hw
  obtain ⟨a1, a2, a3, a4, a5, a6, a7, a8, a9, a10, a11, a12⟩ := node_spec hfl (by norm_num) (hb n hn) (h.volumes n hn)
    (h.capacities n hn) fun m hm => hsp m (mem_upstreamOf.1 hm).1
  have hw' : arriving ns spill n = water := hw.symm
  rw [hw'] at a4 a1
  set A := arrivingFl fl ns spill n with hA
  have hexact : v n.id + max 0 (A - n.cap) = A := by
    rcases le_total A n.cap with hc | hc
    · rw [(a11 hc).1, max_eq_left (by linarith), add_zero]
    · rw [(hb n hn).1, ← hA, min_eq_right hc, max_eq_right (by linarith)]; ring
  refine Near.round (k := (upstreamOf ns n).length + 1) (by norm_num) a4 ?_
  have : v n.id + spill n.id - A = spill n.id - max 0 (A - n.cap) := by linarith
  rw [this]
  exact a12

/-! ## C76 -/

/-- The error bound is about three units in the last place per node. -/
theorem roundingError_le {n : Nat} (hn : 3 * n ≤ 2 ^ 52) : roundingError n ≤ 3 * n / 2 ^ 52 := by
  have key : ∀ N : Nat, (1 + 1 / 2 ^ 53 : Rat) ^ N * (1 - N * (1 / 2 ^ 53)) ≤ 1 := by
    intro N
    induction N with
    | zero => norm_num
    | succ N ih =>
      have h1 := one_le_grow (u := 1 / 2 ^ 53) (by norm_num) N
      have h2 : (1 + 1 / 2 ^ 53 : Rat) ^ (N + 1) * (1 - (N + 1 : Nat) * (1 / 2 ^ 53)) =
          (1 + 1 / 2 ^ 53 : Rat) ^ N * (1 - N * (1 / 2 ^ 53)) - (1 + 1 / 2 ^ 53 : Rat) ^ N * ((N + 1) * (1 / 2 ^ 53) ^ 2) := by
        push_cast
        ring
      have h3 : (0 : Rat) ≤ (1 + 1 / 2 ^ 53 : Rat) ^ N * ((N + 1) * (1 / 2 ^ 53) ^ 2) := by positivity
      linarith
  have h := key (3 * n)
  have hN : ((3 * n : Nat) : Rat) * (1 / 2 ^ 53) ≤ 1 / 2 := by
    have : ((3 * n : Nat) : Rat) ≤ 2 ^ 52 := by exact_mod_cast hn
    linarith
  have h0 : (0 : Rat) ≤ ((3 * n : Nat) : Rat) * (1 / 2 ^ 53) := by positivity
  unfold roundingError
  set G := (1 + 1 / 2 ^ 53 : Rat) ^ (3 * n)
  have hx : (3 * n / 2 ^ 52 : Rat) = 2 * (((3 * n : Nat) : Rat) * (1 / 2 ^ 53)) := by push_cast; ring
  rw [hx]
  set x := ((3 * n : Nat) : Rat) * (1 / 2 ^ 53)
  have hG : G ≤ 1 / (1 - x) := by rw [le_div_iff₀ (by linarith)]; exact h
  have hle : 1 / (1 - x) ≤ 1 + 2 * x := by
    rw [div_le_iff₀ (by linarith)]
    nlinarith
  linarith

/-- The error bound in terms of the number of nodes. -/
theorem error_le (h : FloatNodes attr fs ns) {order : List (RainNode Rat)} (hnd : (order.map (·.id)).Nodup) (hp : order.Perm ns) :
    ((1 + 1 / 2 ^ 53) ^ ops ns order - 1) * (order.map (·.vol)).sum ≤ roundingError ns.length * totalWater ns := by
  have hW : (order.map (·.vol)).sum = totalWater ns := (hp.map _).sum_eq
  rw [hW]
  refine mul_le_mul_of_nonneg_right ?_ (List.sum_nonneg fun x hx => by
    obtain ⟨m, hm, rfl⟩ := List.mem_map.1 hx
    exact (h.volumes m hm).1)
  unfold roundingError
  have h1 := ops_le (ns := ns) hnd
  rw [hp.length_eq] at h1
  have := grow_mono (u := 1 / 2 ^ 53) (by norm_num) (show ops ns order ≤ 3 * ns.length by omega)
  linarith

theorem pending_all {order : List (RainNode Rat)} (h : FloatNodes attr fs ns) (hp : order.Perm ns) (f : Int → Rat) :
    pending order f = ((ns.filter fun n => n.down = none).map fun n => f n.id).sum := by
  unfold pending
  have : (order.filter fun m => !order.any fun n => m.down = some n.id) = order.filter fun n => n.down = none := by
    apply List.filter_congr
    intro m hm
    have hl := h.drains m (hp.mem_iff.1 hm)
    cases hl with
    | root hd =>
      rw [hd]
      simp
    | @step _ x hx hd _ =>
      have : (order.any fun n => m.down = some n.id) = true := by
        rw [List.any_eq_true]
        exact ⟨x, hp.mem_iff.2 hx, by simpa using hd⟩
      rw [this, hd]
      simp
  rw [this]
  exact ((hp.filter _).map _).sum_eq

/-- C76: every volume computed with floating point arithmetic differs from the volume computed with exact arithmetic by at most the
given fraction of all water put in. -/
theorem C76_close (hfl : IsRounding 53 (-1074) fl) (h : FloatNodes attr fs ns)
    (hret : Returns (finalStateFl fl fs attr) (.ok out)) {v spill : Int → Rat} (hs : Shows out ns v spill)
    {out' : List (Feature Rat)} (hret' : Returns (finalState fs attr) (.ok out')) {v' spill' : Int → Rat}
    (hs' : Shows out' ns v' spill') :
    ∀ n ∈ ns, |v n.id - v' n.id| ≤ roundingError ns.length * totalWater ns ∧
      |spill n.id - spill' n.id| ≤ roundingError ns.length * totalWater ns := by
  obtain ⟨hb, -⟩ := shown_balanced h hret hs
  obtain ⟨hb', -⟩ := shown_balanced (fl := id) h hret' hs'
  obtain ⟨order, h1, h2, h3, h4⟩ := exists_order h
  have hok := prefix_ok hfl (by norm_num) h.distinct h1 (fun m hm => (h2 m).1 hm) h3 (v := v) (s := spill) (v' := v') (s' := spill')
    fun m hm => ⟨h.volumes m ((h2 m).1 hm), h.capacities m ((h2 m).1 hm), hb m ((h2 m).1 hm), balanced_id.1 (hb' m ((h2 m).1 hm))⟩
  intro n hn
  have := hok.close n ((h2 n).2 hn)
  have he := error_le h h1 h4
  exact ⟨this.1.trans he, this.2.trans he⟩

/-- C76: the water shown as retained or spilled from a root is all water put in, up to the given fraction. -/
theorem C76_conserved (hfl : IsRounding 53 (-1074) fl) (h : FloatNodes attr fs ns)
    (hret : Returns (finalStateFl fl fs attr) (.ok out)) {v spill : Int → Rat} (hs : Shows out ns v spill) :
    |(ns.map fun n => v n.id).sum + ((ns.filter fun n => n.down = none).map fun n => spill n.id).sum - totalWater ns| ≤
      roundingError ns.length * totalWater ns := by
  obtain ⟨hb, -⟩ := shown_balanced h hret hs
  obtain ⟨out', v', spill', -, -, hb', -⟩ := final_run id h
  obtain ⟨order, h1, h2, h3, h4⟩ := exists_order h
  have hok := prefix_ok hfl (by norm_num) h.distinct h1 (fun m hm => (h2 m).1 hm) h3 (v := v) (s := spill) (v' := v') (s' := spill')
    fun m hm => ⟨h.volumes m ((h2 m).1 hm), h.capacities m ((h2 m).1 hm), hb m ((h2 m).1 hm), balanced_id.1 (hb' m ((h2 m).1 hm))⟩
  have hst := hok.stock
  rw [pending_all h h4] at hst
  have e1 : (order.map fun n => v n.id).sum = (ns.map fun n => v n.id).sum := (h4.map _).sum_eq
  have e2 : (order.map (·.vol)).sum = totalWater ns := (h4.map _).sum_eq
  have he := error_le h h1 h4
  unfold Near at hst
  rw [e2] at he hst
  rw [e1] at hst
  exact hst.trans he

/-! ## C74: more water -/

theorem sumFl_mono (hfl : IsRounding 53 (-1074) fl) {l l' : List Rat} (h : List.Forall₂ (· ≤ ·) l l') :
    sumFl fl l ≤ sumFl fl l' := by
  unfold sumFl
  have key : ∀ (a b : Rat), a ≤ b → l.foldl (fun a b => fl (a + b)) a ≤ l'.foldl (fun a b => fl (a + b)) b := by
    induction h with
    | nil => intro a b hab; exact hab
    | cons hab _ ih => intro a b h; exact ih _ _ (fl_mono hfl (add_le_add h hab))
  exact key 0 0 le_rfl

/-- C74: if no node gets less water or more capacity, every node spills at least as much, and a node whose capacity stays the same
holds at least as much; with floating point arithmetic too. -/
theorem C74_monotone (hfl : IsRounding 53 (-1074) fl) {fs' out' : List (Feature Rat)} {ns' : List (RainNode Rat)}
    (h : FloatNodes attr fs ns) (h' : FloatNodes attr fs' ns')
    (hm : List.Forall₂ (fun n n' => n'.id = n.id ∧ n'.down = n.down ∧ n.vol ≤ n'.vol ∧ n'.cap ≤ n.cap) ns ns')
    (hret : Returns (finalStateFl fl fs attr) (.ok out)) (hret' : Returns (finalStateFl fl fs' attr) (.ok out'))
    {v spill v' spill' : Int → Rat} (hs : Shows out ns v spill) (hs' : Shows out' ns' v' spill') :
    ∀ n ∈ ns, spill n.id ≤ spill' n.id ∧ ∀ n' ∈ ns', n'.id = n.id → n'.cap = n.cap → v n.id ≤ v' n.id := by
  obtain ⟨hb, -⟩ := shown_balanced h hret hs
  obtain ⟨hb', -⟩ := shown_balanced h' hret' hs'
  obtain ⟨order, h1, h2, h3, -⟩ := exists_order h
  have hup : ∀ (l l' : List (RainNode Rat)),
      List.Forall₂ (fun n n' => n'.id = n.id ∧ n'.down = n.down ∧ n.vol ≤ n'.vol ∧ n'.cap ≤ n.cap) l l' →
      ∀ n n' : RainNode Rat, n'.id = n.id → (∀ m ∈ upstreamOf l n, spill m.id ≤ spill' m.id) →
      List.Forall₂ (· ≤ ·) ((upstreamOf l n).map fun m => spill m.id) ((upstreamOf l' n').map fun m => spill' m.id) := by
    intro l l' hl n n' hn
    unfold upstreamOf
    rw [hn]
    induction hl with
    | nil => intro _; exact .nil
    | cons hab _ ih =>
      rename_i a b l l' _
      intro hle
      by_cases hd : a.down = some n.id
      · have hd' : b.down = some n.id := by rw [hab.2.1, hd]
        rw [List.filter_cons_of_pos (by simpa using hd)] at hle ⊢
        rw [List.filter_cons_of_pos (by simpa using hd')]
        refine .cons ?_ (ih fun m hm => hle m (List.mem_cons_of_mem _ hm))
        change spill a.id ≤ spill' b.id
        rw [hab.1]
        exact hle a (by simp)
      · have hd' : ¬ b.down = some n.id := by rwa [hab.2.1]
        rw [List.filter_cons_of_neg (by simpa using hd)] at hle ⊢
        rw [List.filter_cons_of_neg (by simpa using hd')]
        exact ih hle
  have key := upstream_induction (P := fun n => spill n.id ≤ spill' n.id ∧
    ∀ n' ∈ ns', n'.id = n.id → n'.cap = n.cap → v n.id ≤ v' n.id) h3 (fun n hn hi => by
      have hn' := (h2 n).1 hn
      obtain ⟨n', hn1, e1, e2, e3, e4⟩ := exists_paired hm hn'
      have harr : arrivingFl fl ns spill n ≤ arrivingFl fl ns' spill' n' :=
        fl_mono hfl (add_le_add e3 (sumFl_mono hfl (hup _ _ hm n n' e1 fun m hm => (hi m hm).1)))
      have b1 := hb n hn'
      have b2 := hb' n' hn1
      unfold BalancedFl at b1 b2
      rw [e1] at b2
      refine ⟨?_, fun m hmn hid hcap => ?_⟩
      · rw [b1.2, b2.2]
        exact max_le_max le_rfl (fl_mono hfl (sub_le_sub harr e4))
      · have : m = n' := eq_of_id h'.distinct hmn hn1 (hid.trans e1.symm)
        subst this
        rw [b1.1, b2.1, hcap]
        exact min_le_min harr le_rfl)
  exact fun n hn => key n ((h2 n).2 hn)

/-! ## C75 -/

/-- C75, the part that holds: the percentage shown is less than 2^-45 from the exact one, hence between 0 and a little above 100. It is
missing exactly for nodes without capacity. -/
theorem C75_percent_partial (hfl : IsRounding 53 (-1074) fl) (h : FloatNodes attr fs ns)
    (hret : Returns (finalStateFl fl fs attr) (.ok out)) {v spill : Int → Rat} (hs : Shows out ns v spill) :
    List.Forall₂ (fun g n => (n.cap = 0 ∧ g.properties.get? "pctv" = some .none) ∨
      (0 < n.cap ∧ ∃ x : Rat, g.properties.get? "pctv" = some (.num x) ∧ 0 ≤ x ∧ x ≤ 100 + 1 / 2 ^ 46 ∧
        |x - 100 * v n.id / n.cap| < 1 / 2 ^ 45)) out ns := by
  obtain ⟨-, hp⟩ := shown_balanced h hret hs
  have hbd := C74_bounds hfl h hret hs
  have hcap := h.capacities
  clear hret h hs
  induction hp with
  | nil => exact .nil
  | cons hab _ ih =>
    rename_i g n out ns _
    refine .cons ?_ (ih (fun n hn => hbd n (List.mem_cons_of_mem _ hn)) fun n hn => hcap n (List.mem_cons_of_mem _ hn))
    obtain ⟨v0, v1, -, -, vf, -⟩ := hbd n (by simp)
    obtain ⟨c0, cf⟩ := hcap n (by simp)
    rw [hab]
    unfold percentFl
    by_cases hc : n.cap = 0
    · rw [if_pos hc]; exact .inl ⟨hc, rfl⟩
    · right
      have hc0 : 0 < n.cap := lt_of_le_of_ne c0 (Ne.symm hc)
      rw [if_neg hc]
      refine ⟨hc0, _, rfl, ?_⟩
      set y := fl (100 * v n.id) with hy
      have hy0 : 0 ≤ y := fl_nonneg hfl (by linarith)
      have hg : OnGrid (-1074) (100 * v n.id) := by
        have := (OnGrid.of_float vf).mul 100
        exact_mod_cast this
      have hye := fl_relative hfl (by norm_num) hg
      rw [← hy, abs_of_nonneg (show 0 ≤ 100 * v n.id by linarith)] at hye
      -- the quotient
      have hq : |y / n.cap - 100 * v n.id / n.cap| ≤ 100 / 2 ^ 53 := by
        rw [← sub_div, abs_div, abs_of_pos hc0, div_le_iff₀ hc0]
        refine le_trans hye ?_
        linarith
      have hx100 : 100 * v n.id / n.cap ≤ 100 := by rw [div_le_iff₀ hc0]; linarith
      have hx0 : 0 ≤ 100 * v n.id / n.cap := div_nonneg (by linarith) c0
      have hq2 := abs_le.1 hq
      have hy2 : y / n.cap ≤ 100 + 1 / 2 ^ 46 := by
        have : (100 : Rat) / 2 ^ 53 ≤ 1 / 2 ^ 46 := by norm_num
        linarith
      have hfl100 : IsF64 (100 + 1 / 2 ^ 46) := ⟨7036874417766401, -46, by norm_num, by norm_num, by norm_num⟩
      have hq0 : 0 ≤ y / n.cap := div_nonneg hy0 c0
      refine ⟨fl_nonneg hfl hq0, ?_, ?_⟩
      · have := fl_mono hfl hy2
        rwa [fl_exact hfl hfl100] at this
      · obtain ⟨e, he⟩ := exists_gap 53 (-1074) (y / n.cap)
        have h46 : e ≤ -46 := by
          rcases he.2.2 with h1 | h1
          · omega
          · rw [abs_of_nonneg hq0] at h1
            have : (2 : Rat) ^ (e + (53 : Nat) - 1) < 2 ^ (7 : Int) := by
              refine lt_of_le_of_lt h1 (lt_of_le_of_lt hy2 ?_)
              norm_num
            have := two_lt.1 this
            omega
        have herr := fl_error hfl (by norm_num) he
        have h47 : (2 : Rat) ^ (e - 1) ≤ 2 ^ (-47 : Int) := two_le.2 (by omega)
        have hb : |fl (y / n.cap) - 100 * v n.id / n.cap| ≤ 2 ^ (-47 : Int) + 100 / 2 ^ 53 := by
          have h1 := abs_sub_le (fl (y / n.cap)) (y / n.cap) (100 * v n.id / n.cap)
          have h2 := abs_sub_comm (fl (y / n.cap)) (y / n.cap)
          exact h1.trans (add_le_add (h2.le.trans (herr.trans h47)) hq)
        refine lt_of_le_of_lt hb ?_
        norm_num

/-- A single node. -/
def oneNode (vol cap : Rat) : List (Feature Rat) :=
  [⟨none, .none, [("nodeid", .int 1), ("dstrnodeid", .none), ("wshed_area", .num 1), ("bspot_vol", .num cap), ("inputv", .num vol)]⟩]

theorem oneNode_ok {vol cap : Rat} (h : 0 ≤ vol ∧ IsF64 vol) (h' : 0 ≤ cap ∧ IsF64 cap) :
    FloatNodes "inputv" (oneNode vol cap) [⟨1, none, vol, cap⟩] where
  carries := .cons ⟨rfl, rfl, ⟨_, _, rfl, rfl⟩, ⟨_, rfl, rfl⟩, ⟨_, rfl, rfl⟩⟩ .nil
  distinct := by simp
  attr_ne := by decide
  drains n hn := by rw [List.mem_singleton.1 hn]; exact .root rfl
  volumes n hn := by rw [List.mem_singleton.1 hn]; exact h
  capacities n hn := by rw [List.mem_singleton.1 hn]; exact h'

/-- A full node by itself shows the rounded quotient. -/
theorem oneNode_percent (hfl : IsRounding 53 (-1074) fl) {c : Rat} (h0 : 0 < c) (hc : IsF64 c) :
    ∃ g : Feature Rat, Returns (finalStateFl fl (oneNode c c) "inputv") (.ok [g]) ∧ g.properties.get? "v" = some (.num c) ∧
      g.properties.get? "pctv" = some (.num (fl (fl (100 * c) / c))) := by
  obtain ⟨out, v, spill, h1, h2, h3, h4, -⟩ := final_run fl (oneNode_ok ⟨h0.le, hc⟩ ⟨h0.le, hc⟩)
  unfold Shows at h2
  rw [List.forall₂_cons_right_iff] at h2 h4
  obtain ⟨g, l, ⟨-, h2, -⟩, hl, rfl⟩ := h2
  rw [List.forall₂_nil_right_iff] at hl
  subst hl
  obtain ⟨g', l', h4, hl, he⟩ := h4
  rw [List.cons.injEq] at he
  obtain ⟨rfl, -⟩ := he
  have hv : v 1 = c := by
    have := (h3 ⟨1, none, c, c⟩ (by simp)).1
    simp [arrivingFl, upstreamOf, sumFl] at this
    rw [this, fl_exact hfl hc, min_self]
  rw [hv] at h2 h4
  refine ⟨g, h1, h2, ?_⟩
  rw [h4]
  unfold percentFl
  rw [if_neg h0.ne']

/-- C75 is false: a bluespot of 5792.48 m3 that is full is shown as filled to more than 100 percent, and a full one of 0.17 m3 as filled to
less than 100 percent. (The capacities are the float64 numbers nearest to these.) -/
theorem C75_percent_false (hfl : IsRounding 53 (-1074) fl) :
    (∃ (c : Rat) (g : Feature Rat), FloatNodes "inputv" (oneNode c c) [⟨1, none, c, c⟩] ∧ |c - 5792.48| < 1 / 2 ^ 40 ∧
      Returns (finalStateFl fl (oneNode c c) "inputv") (.ok [g]) ∧ g.properties.get? "v" = some (.num c) ∧
      ∃ x, g.properties.get? "pctv" = some (.num x) ∧ 100 < x) ∧
    (∃ (c : Rat) (g : Feature Rat), FloatNodes "inputv" (oneNode c c) [⟨1, none, c, c⟩] ∧ |c - 0.17| < 1 / 2 ^ 50 ∧
      Returns (finalStateFl fl (oneNode c c) "inputv") (.ok [g]) ∧ g.properties.get? "v" = some (.num c) ∧
      ∃ x, g.properties.get? "pctv" = some (.num x) ∧ x < 100) := by
  constructor
  · have hc : IsF64 (6368899113659924 * 2 ^ (-40 : Int)) := ⟨6368899113659924, -40, by norm_num, by norm_num, by norm_num⟩
    have h0 : (0 : Rat) < 6368899113659924 * 2 ^ (-40 : Int) := by norm_num
    obtain ⟨g, h1, h2, h3⟩ := oneNode_percent hfl h0 hc
    refine ⟨_, g, oneNode_ok ⟨h0.le, hc⟩ ⟨h0.le, hc⟩, by norm_num [abs_lt], h1, h2, _, h3, ?_⟩
    have ha : IsF64 (4975702432546815 * 2 ^ (-33 : Int)) := ⟨4975702432546815, -33, by norm_num, by norm_num, by norm_num⟩
    have hga : IsGap 53 (-1074) (-33) (4975702432546815 * 2 ^ (-33 : Int)) :=
      ⟨by norm_num, by norm_num [abs_lt], .inr (by norm_num [le_abs])⟩
    have hup := fl_up hfl (by norm_num) hga ha (by norm_num) (x := 100 * (6368899113659924 * 2 ^ (-40 : Int))) (by norm_num)
    have h100 : IsF64 100 := ⟨100, 0, by norm_num, by norm_num, by norm_num⟩
    have hg100 : IsGap 53 (-1074) (-46) 100 := ⟨by norm_num, by norm_num [abs_lt], .inr (by norm_num [le_abs])⟩
    have hq : 100 + (2 : Rat) ^ (-46 - 1 : Int) < fl (100 * (6368899113659924 * 2 ^ (-40 : Int))) / (6368899113659924 * 2 ^ (-40 : Int)) := by
      rw [lt_div_iff₀ h0]
      refine lt_of_lt_of_le ?_ hup
      norm_num
    have := fl_up hfl (by norm_num) hg100 h100 (by norm_num) hq
    have := two_pos (-46)
    linarith
  · have hc : IsF64 (6124895493223875 * 2 ^ (-55 : Int)) := ⟨6124895493223875, -55, by norm_num, by norm_num, by norm_num⟩
    have h0 : (0 : Rat) < 6124895493223875 * 2 ^ (-55 : Int) := by norm_num
    obtain ⟨g, h1, h2, h3⟩ := oneNode_percent hfl h0 hc
    refine ⟨_, g, oneNode_ok ⟨h0.le, hc⟩ ⟨h0.le, hc⟩, by norm_num [abs_lt], h1, h2, _, h3, ?_⟩
    have ha : IsF64 17 := ⟨17, 0, by norm_num, by norm_num, by norm_num⟩
    have hga : IsGap 53 (-1074) (-48) 17 := ⟨by norm_num, by norm_num [abs_lt], .inr (by norm_num [le_abs])⟩
    have hdn := fl_down hfl hga ha (by norm_num) (x := 100 * (6124895493223875 * 2 ^ (-55 : Int))) (by norm_num)
    have hb : IsF64 (100 - 1 / 2 ^ 46) := ⟨7036874417766399, -46, by norm_num, by norm_num, by norm_num⟩
    have hgb : IsGap 53 (-1074) (-46) (100 - 1 / 2 ^ 46) := ⟨by norm_num, by norm_num [abs_lt], .inr (by norm_num [le_abs])⟩
    have hq : fl (100 * (6124895493223875 * 2 ^ (-55 : Int))) / (6124895493223875 * 2 ^ (-55 : Int)) <
        100 - 1 / 2 ^ 46 + (2 : Rat) ^ (-46 - 1 : Int) := by
      rw [div_lt_iff₀ h0]
      refine lt_of_le_of_lt hdn ?_
      norm_num
    have := fl_down hfl hgb hb (by norm_num) hq
    refine lt_of_le_of_lt this ?_
    norm_num

/-! ## C77 -/

/-- C77, the part that holds: with the nodes in another order, every volume changes by at most the given fraction of all water. -/
theorem C77_order_partial (hfl : IsRounding 53 (-1074) fl) {fs' out' : List (Feature Rat)} {ns' : List (RainNode Rat)}
    (h : FloatNodes attr fs ns) (h' : FloatNodes attr fs' ns') (hp : ns.Perm ns')
    (hret : Returns (finalStateFl fl fs attr) (.ok out)) (hret' : Returns (finalStateFl fl fs' attr) (.ok out'))
    {v spill v' spill' : Int → Rat} (hs : Shows out ns v spill) (hs' : Shows out' ns' v' spill') :
    ∀ n ∈ ns, |v n.id - v' n.id| ≤ 2 * (roundingError ns.length * totalWater ns) ∧
      |spill n.id - spill' n.id| ≤ 2 * (roundingError ns.length * totalWater ns) := by
  obtain ⟨o, w, t, r1, r2, r3, -⟩ := final_run id h
  obtain ⟨o', w', t', r1', r2', r3', -⟩ := final_run id h'
  have c := C76_close hfl h hret hs r1 r2
  have c' := C76_close hfl h' hret' hs' r1' r2'
  have htot : totalWater ns' = totalWater ns := (hp.symm.map _).sum_eq
  rw [hp.symm.length_eq, htot] at c'
  obtain ⟨order, -, h2, h3, -⟩ := exists_order h
  have hu := balanced_unique h3 (v := w) (spill := t) (v' := w') (spill' := t')
    (fun n hn => balanced_id.1 (r3 n ((h2 n).1 hn)))
    (fun n hn => balanced_perm hp.symm (balanced_id.1 (r3' n (hp.mem_iff.1 ((h2 n).1 hn)))))
  intro n hn
  obtain ⟨e1, e2⟩ := hu n ((h2 n).2 hn)
  obtain ⟨c1, c2⟩ := c n hn
  obtain ⟨c1', c2'⟩ := c' n (hp.mem_iff.1 hn)
  rw [← e1] at c1'
  rw [← e2] at c2'
  rw [abs_sub_comm] at c1' c2'
  constructor
  · have := abs_sub_le (v n.id) (w n.id) (v' n.id)
    linarith
  · have := abs_sub_le (spill n.id) (t n.id) (spill' n.id)
    linarith

/-- Four nodes without capacity that spill into a fifth one. -/
def fourNodes (a b c d : Rat) : List (RainNode Rat) :=
  [⟨1, some 5, a, 0⟩, ⟨2, some 5, b, 0⟩, ⟨3, some 5, c, 0⟩, ⟨4, some 5, d, 0⟩, ⟨5, none, 0, 0⟩]

/-- Features carrying these nodes. -/
def featureOf (n : RainNode Rat) : Feature Rat :=
  ⟨none, .none, [("nodeid", .int n.id), ("dstrnodeid", downVal n.down), ("wshed_area", .num 1), ("bspot_vol", .num n.cap),
    ("inputv", .num n.vol)]⟩

theorem featureOf_carries (n : RainNode Rat) : Carries "inputv" (featureOf n).properties n :=
  ⟨rfl, rfl, ⟨_, _, rfl, rfl⟩, ⟨_, rfl, rfl⟩, ⟨_, rfl, rfl⟩⟩

theorem fourNodes_ok {a b c d : Rat} (ha : 0 ≤ a ∧ IsF64 a) (hb : 0 ≤ b ∧ IsF64 b) (hc : 0 ≤ c ∧ IsF64 c) (hd : 0 ≤ d ∧ IsF64 d)
    {ns : List (RainNode Rat)} (hp : ns.Perm (fourNodes a b c d)) : FloatNodes "inputv" (ns.map featureOf) ns where
  carries := by
    rw [List.forall₂_map_left_iff, List.forall₂_same]
    exact fun n _ => featureOf_carries n
  distinct := ((hp.map _).nodup_iff).2 (by simp [fourNodes])
  attr_ne := by decide
  drains n hn := by
    have h5 : LeadsToRoot ns ⟨5, none, 0, 0⟩ := .root rfl
    have hm : (⟨5, none, 0, 0⟩ : RainNode Rat) ∈ ns := hp.mem_iff.2 (by simp [fourNodes])
    have hn := hp.mem_iff.1 hn
    simp only [fourNodes, List.mem_cons, List.not_mem_nil, or_false] at hn
    rcases hn with rfl | rfl | rfl | rfl | rfl
    · exact .step hm rfl h5
    · exact .step hm rfl h5
    · exact .step hm rfl h5
    · exact .step hm rfl h5
    · exact h5
  volumes n hn := by
    have hn := hp.mem_iff.1 hn
    simp only [fourNodes, List.mem_cons, List.not_mem_nil, or_false] at hn
    rcases hn with rfl | rfl | rfl | rfl | rfl
    · exact ha
    · exact hb
    · exact hc
    · exact hd
    · exact ⟨le_rfl, isFloat_zero⟩
  capacities n hn := by
    have hn := hp.mem_iff.1 hn
    simp only [fourNodes, List.mem_cons, List.not_mem_nil, or_false] at hn
    rcases hn with rfl | rfl | rfl | rfl | rfl <;> exact ⟨le_rfl, isFloat_zero⟩

/-- What the fifth node spills: the rounded sum in the order of the list. -/
theorem fourNodes_spill (hfl : IsRounding 53 (-1074) fl) {a b c d : Rat} (ha : 0 ≤ a ∧ IsF64 a) (hb : 0 ≤ b ∧ IsF64 b)
    (hc : 0 ≤ c ∧ IsF64 c) (hd : 0 ≤ d ∧ IsF64 d) {ns : List (RainNode Rat)} (hp : ns.Perm (fourNodes a b c d))
    {v spill : Int → Rat} (hbal : ∀ n ∈ ns, BalancedFl fl ns v spill n) :
    spill 5 = sumFl fl ((ns.filter fun m => m.down = some 5).map (·.vol)) := by
  have hok := fourNodes_ok ha hb hc hd hp
  have hleaf : ∀ n ∈ ns, n.down = some 5 → spill n.id = n.vol := by
    intro n hn hdn
    have hup : upstreamOf ns n = [] := by
      unfold upstreamOf
      rw [List.filter_eq_nil_iff]
      intro m hm
      have hm := hp.mem_iff.1 hm
      have hn := hp.mem_iff.1 hn
      simp only [fourNodes, List.mem_cons, List.not_mem_nil, or_false] at hm hn
      rcases hn with rfl | rfl | rfl | rfl | rfl <;> rcases hm with rfl | rfl | rfl | rfl | rfl <;> simp at hdn ⊢
    have hcap : n.cap = 0 := by
      have hn := hp.mem_iff.1 hn
      simp only [fourNodes, List.mem_cons, List.not_mem_nil, or_false] at hn
      rcases hn with rfl | rfl | rfl | rfl | rfl <;> rfl
    have h2 := (hbal n hn).2
    unfold arrivingFl at h2
    rw [hup, hcap] at h2
    obtain ⟨v0, vf⟩ := hok.volumes n hn
    rw [h2]
    simp only [List.map_nil, sumFl, List.foldl_nil, add_zero, sub_zero]
    rw [fl_exact hfl vf, fl_exact hfl vf, max_eq_right v0]
  have h5 : (⟨5, none, 0, 0⟩ : RainNode Rat) ∈ ns := hp.mem_iff.2 (by simp [fourNodes])
  have hs5 := (hbal _ h5).2
  unfold arrivingFl at hs5
  have he : (upstreamOf ns ⟨5, none, 0, 0⟩).map (fun m => spill m.id) = (ns.filter fun m => m.down = some 5).map (·.vol) := by
    apply List.map_congr_left
    intro m hm
    exact hleaf m (mem_upstreamOf.1 hm).1 (mem_upstreamOf.1 hm).2
  rw [he] at hs5
  obtain ⟨s0, -, -, -⟩ := sumFl_spec hfl (by norm_num) ((ns.filter fun m => m.down = some 5).map (·.vol)) (by
    intro x hx
    obtain ⟨m, hm, rfl⟩ := List.mem_map.1 hx
    have := hok.volumes m (List.mem_filter.1 hm).1
    exact ⟨this.1, .of_float this.2⟩)
  have sf : IsF64 (sumFl fl ((ns.filter fun m => m.down = some 5).map (·.vol))) := by
    generalize (ns.filter fun m => m.down = some 5).map (·.vol) = l
    unfold sumFl
    rcases List.eq_nil_or_concat l with rfl | ⟨l, x, rfl⟩
    · exact isFloat_zero
    · rw [List.concat_eq_append, List.foldl_append]
      exact (hfl _).1
  have hz : ∀ x : Rat, (0 : Rat) + x - 0 = x := fun x => by ring
  simp only [zero_add, sub_zero] at hs5
  rw [fl_exact hfl sf, fl_exact hfl sf, max_eq_right s0] at hs5
  exact hs5

/-- C77 is false: 16384 m3 and three times 2^-40 m3 spilled into a node give different volumes in different orders of the nodes. -/
theorem C77_order_false (hfl : IsRounding 53 (-1074) fl) :
    ∃ (fs fs' : List (Feature Rat)) (ns ns' : List (RainNode Rat)) (out out' : List (Feature Rat)) (v spill v' spill' : Int → Rat),
      FloatNodes "inputv" fs ns ∧ FloatNodes "inputv" fs' ns' ∧ fs.Perm fs' ∧ ns.Perm ns' ∧
      Returns (finalStateFl fl fs "inputv") (.ok out) ∧ Returns (finalStateFl fl fs' "inputv") (.ok out') ∧
      Shows out ns v spill ∧ Shows out' ns' v' spill' ∧ spill 5 ≠ spill' 5 := by
  set t : Rat := 2 ^ (-40 : Int) with ht
  have hbig : (0 : Rat) ≤ 16384 ∧ IsF64 16384 := ⟨by norm_num, 16384, 0, by norm_num, by norm_num, by norm_num⟩
  have htf : (0 : Rat) ≤ t ∧ IsF64 t := ⟨(two_pos _).le, isFloat_pow (by norm_num) (by norm_num)⟩
  set ns := fourNodes 16384 t t t with hns
  have hp : ns.reverse.Perm ns := List.reverse_perm ns
  have h1 := fourNodes_ok hbig htf htf htf (List.Perm.refl ns)
  have h2 := fourNodes_ok hbig htf htf htf hp
  obtain ⟨out, v, spill, r1, s1, b1, -⟩ := final_run fl h1
  obtain ⟨out', v', spill', r2, s2, b2, -⟩ := final_run fl h2
  refine ⟨_, _, ns, ns.reverse, out, out', v, spill, v', spill', h1, h2, (hp.map _).symm, hp.symm, r1, r2, s1, s2, ?_⟩
  rw [fourNodes_spill hfl hbig htf htf htf (List.Perm.refl ns) b1, fourNodes_spill hfl hbig htf htf htf hp b2]
  have e1 : (ns.filter fun m => m.down = some 5).map (·.vol) = [16384, t, t, t] := by simp [hns, fourNodes]
  have e2 : (ns.reverse.filter fun m => m.down = some 5).map (·.vol) = [t, t, t, 16384] := by simp [hns, fourNodes]
  rw [e1, e2]
  unfold sumFl
  simp only [List.foldl_cons, List.foldl_nil, zero_add]
  have hg : IsGap 53 (-1074) (-38) 16384 := ⟨by norm_num, by norm_num [abs_lt], .inr (by norm_num [le_abs])⟩
  have hadd : fl (16384 + t) = 16384 := by
    refine le_antisymm (fl_down hfl hg hbig.2 hbig.1 (by norm_num [ht])) ?_
    have := fl_mono hfl (show (16384 : Rat) ≤ 16384 + t by linarith [htf.1])
    rwa [fl_exact hfl hbig.2] at this
  have f2 : IsF64 (t + t) := ⟨2, -40, by norm_num, by norm_num, by rw [ht]; push_cast; ring⟩
  have f3 : IsF64 (t + t + t) := ⟨3, -40, by norm_num, by norm_num, by rw [ht]; push_cast; ring⟩
  rw [fl_exact hfl hbig.2, hadd, hadd, hadd, fl_exact hfl htf.2, fl_exact hfl f2, fl_exact hfl f3]
  have := fl_up hfl (by norm_num) hg hbig.2 hbig.1 (x := t + t + t + 16384) (by norm_num [ht])
  have := two_pos (-38)
  intro he
  linarith

/-! ## The hypotheses can be met -/

/-- Roundings exist, and nodes as required: four nodes with different capacities and volumes. -/
example : (∃ fl, IsRounding 53 (-1074) fl) ∧ FloatNodes "inputv" ((fourNodes 3 (1 / 2) 7 0).map featureOf) (fourNodes 3 (1 / 2) 7 0) :=
  ⟨exists_rounding 53 (by norm_num) _, fourNodes_ok ⟨by norm_num, 3, 0, by norm_num, by norm_num, by norm_num⟩
    ⟨by norm_num, 1, -1, by norm_num, by norm_num, by norm_num⟩ ⟨by norm_num, 7, 0, by norm_num, by norm_num, by norm_num⟩
    ⟨by norm_num, isFloat_zero⟩ (List.Perm.refl _)⟩

/-- Runs with floating point and with exact arithmetic and the values they show (C74, C75, C76). -/
example (hfl : IsRounding 53 (-1074) fl) : ∃ out out' v spill v' spill',
    Returns (finalStateFl fl (oneNode 5 2) "inputv") (.ok out) ∧ Shows out [⟨1, none, 5, 2⟩] v spill ∧
    Returns (finalState (oneNode 5 2) "inputv") (.ok out') ∧ Shows out' [⟨1, none, 5, 2⟩] v' spill' ∧
    v 1 = 2 ∧ spill 1 = 3 := by
  have h := oneNode_ok (vol := 5) (cap := 2) ⟨by norm_num, 5, 0, by norm_num, by norm_num, by norm_num⟩
    ⟨by norm_num, 2, 0, by norm_num, by norm_num, by norm_num⟩
  obtain ⟨out, v, spill, h1, h2, h3, -⟩ := final_run fl h
  obtain ⟨out', v', spill', h1', h2', -⟩ := final_run id h
  have f5 : fl 5 = 5 := fl_exact hfl ⟨5, 0, by norm_num, by norm_num, by norm_num⟩
  have f3 : fl 3 = 3 := fl_exact hfl ⟨3, 0, by norm_num, by norm_num, by norm_num⟩
  have hb := h3 ⟨1, none, 5, 2⟩ (by simp)
  simp [BalancedFl, arrivingFl, upstreamOf, sumFl, f5] at hb
  refine ⟨out, out', v, spill, v', spill', h1, h2, h1', h2', by rw [hb.1]; norm_num, ?_⟩
  rw [hb.2, show (5 : Rat) - 2 = 3 by norm_num, f3]
  norm_num

/-- C74_monotone: the same node with more water and less capacity. -/
example : List.Forall₂ (fun n n' : RainNode Rat => n'.id = n.id ∧ n'.down = n.down ∧ n.vol ≤ n'.vol ∧ n'.cap ≤ n.cap)
    [⟨1, none, 5, 2⟩] [⟨1, none, 6, 1⟩] := .cons ⟨rfl, rfl, by norm_num, by norm_num⟩ .nil

/-- The bound is small: less than 1e-9 for a million nodes. -/
example : roundingError 1000000 < 1 / 10 ^ 9 := lt_of_le_of_lt (roundingError_le (by norm_num)) (by norm_num)

end Malstroem
