/-
The water balance with rounded arithmetic: error bounds.
-/
import Verif.Proofs.Balance
import Verif.Proofs.Float
import Mathlib.Algebra.Order.Group.MinMax

set_option linter.unusedSectionVars false

namespace Malstroem
open Spec

namespace Float
variable {p : Nat} {emin : Int} {fl : Rat → Rat}

/-- The rounding error is at most half the spacing. -/
theorem fl_error (h : IsRounding p emin fl) (hp : 1 ≤ p) {e : Int} {x : Rat} (hg : IsGap p emin e x) :
    |x - fl x| ≤ 2 ^ (e - 1) := by
  have he := two_pos e
  have hr := abs_sub_round (x / 2 ^ e)
  have hx : x = x / 2 ^ e * 2 ^ e := by field_simp
  have h1 : |x - (round (x / 2 ^ e) : Int) * 2 ^ e| ≤ 2 ^ (e - 1) := by
    calc |x - (round (x / 2 ^ e) : Int) * 2 ^ e| = |(x / 2 ^ e - (round (x / 2 ^ e) : Int)) * 2 ^ e| := by
          congr 1
          rw [sub_mul, ← hx]
      _ = |x / 2 ^ e - (round (x / 2 ^ e) : Int)| * 2 ^ e := by rw [abs_mul, abs_of_pos he]
      _ ≤ 1 / 2 * 2 ^ e := mul_le_mul_of_nonneg_right hr he.le
      _ = 2 ^ (e - 1) := by rw [zpow_sub_one₀ (by norm_num)]; ring
  refine le_trans ((h x).2 _ (isFloat_multiple hg.1 hp ?_)) h1
  have hlt : |x / 2 ^ e| < 2 ^ p := by
    rw [abs_div, abs_of_pos he, div_lt_iff₀ he]
    have := hg.2.1
    rwa [zpow_add₀ (by norm_num), mul_comm, zpow_natCast] at this
  have h3 : |((round (x / 2 ^ e) : Int) : Rat)| < 2 ^ p + 1 := by
    have := abs_sub_abs_le_abs_sub ((round (x / 2 ^ e) : Int) : Rat) (x / 2 ^ e)
    rw [abs_sub_comm] at this
    linarith
  have h4 : |round (x / 2 ^ e)| < 2 ^ p + 1 := by
    rw [← Int.cast_abs] at h3
    exact_mod_cast h3
  omega

/-- Multiples of the least number. -/
def OnGrid (emin : Int) (x : Rat) : Prop := ∃ k : Int, x = k * 2 ^ emin

theorem OnGrid.of_float {x : Rat} (h : IsFloat p emin x) : OnGrid emin x := by
  obtain ⟨m, e, -, he, rfl⟩ := h
  obtain ⟨k, rfl⟩ : ∃ k : Nat, e = emin + k := ⟨(e - emin).toNat, by omega⟩
  exact ⟨m * 2 ^ k, by push_cast; rw [zpow_add₀ (by norm_num), zpow_natCast]; ring⟩

theorem OnGrid.add {x y : Rat} (hx : OnGrid emin x) (hy : OnGrid emin y) : OnGrid emin (x + y) := by
  obtain ⟨a, rfl⟩ := hx
  obtain ⟨b, rfl⟩ := hy
  exact ⟨a + b, by push_cast; ring⟩

theorem OnGrid.sub {x y : Rat} (hx : OnGrid emin x) (hy : OnGrid emin y) : OnGrid emin (x - y) := by
  obtain ⟨a, rfl⟩ := hx
  obtain ⟨b, rfl⟩ := hy
  exact ⟨a - b, by push_cast; ring⟩

theorem OnGrid.mul {x : Rat} (hx : OnGrid emin x) (i : Int) : OnGrid emin (i * x) := by
  obtain ⟨a, rfl⟩ := hx
  exact ⟨i * a, by push_cast; ring⟩

/-- On multiples of the least number the rounding error is relative. -/
theorem fl_relative (h : IsRounding p emin fl) (hp : 1 ≤ p) {x : Rat} (hx : OnGrid emin x) :
    |fl x - x| ≤ (1 / 2 ^ p) * |x| := by
  obtain ⟨e, hg⟩ := exists_gap p emin x
  rw [abs_sub_comm]
  rcases hg.2.2 with rfl | h3
  · obtain ⟨k, rfl⟩ := hx
    have hk : |k| < 2 ^ p := by
      have := hg.2.1
      rw [abs_mul, abs_of_pos (two_pos e), zpow_add₀ (by norm_num), mul_comm, zpow_natCast,
        mul_lt_mul_iff_of_pos_left (two_pos e), ← Int.cast_abs] at this
      exact_mod_cast this
    rw [fl_exact h ⟨k, e, hk, le_refl _, rfl⟩, sub_self, abs_zero]
    positivity
  · refine le_trans (fl_error h hp hg) ?_
    rw [one_div, inv_mul_eq_div, le_div_iff₀ (by positivity)]
    calc (2 : Rat) ^ (e - 1) * 2 ^ p = 2 ^ (e + p - 1) := by
          rw [← zpow_natCast, ← zpow_add₀ (by norm_num)]; congr 1; ring
      _ ≤ |x| := h3

theorem fl_nonneg (h : IsRounding p emin fl) {x : Rat} (hx : 0 ≤ x) : 0 ≤ fl x := by
  have := fl_mono h hx
  rwa [fl_zero h] at this

theorem fl_nonpos (h : IsRounding p emin fl) {x : Rat} (hx : x ≤ 0) : fl x ≤ 0 := by
  have := fl_mono h hx
  rwa [fl_zero h] at this

/-- Above the middle between two neighbours, rounding does not go down. -/
theorem fl_up (h : IsRounding p emin fl) (hp : 1 ≤ p) {e : Int} {a x : Rat} (hg : IsGap p emin e a) (ha : IsFloat p emin a)
    (h0 : 0 ≤ a) (hx : a + 2 ^ (e - 1) < x) : a + 2 ^ e ≤ fl x := by
  have he : (2 : Rat) ^ e = 2 ^ (e - 1) * 2 := by rw [zpow_sub_one₀ (by norm_num)]; ring
  have hpos := two_pos (e - 1)
  by_contra hc
  push Not at hc
  have hle : fl x ≤ a := by
    by_contra hlt
    push Not at hlt
    exact absurd (hg.least ha h0 (h x).1 hlt) (not_le.2 hc)
  have h1 := (h x).2 _ (hg.next hp ha)
  rw [abs_of_nonneg (show 0 ≤ x - fl x by linarith)] at h1
  rcases le_abs.1 h1 with h2 | h2
  · linarith
  · linarith

/-- Below the middle between two neighbours, rounding does not go up. -/
theorem fl_down (h : IsRounding p emin fl) {e : Int} {a x : Rat} (hg : IsGap p emin e a) (ha : IsFloat p emin a)
    (h0 : 0 ≤ a) (hx : x < a + 2 ^ (e - 1)) : fl x ≤ a := by
  have he : (2 : Rat) ^ e = 2 ^ (e - 1) * 2 := by rw [zpow_sub_one₀ (by norm_num)]; ring
  have hpos := two_pos (e - 1)
  by_contra hc
  push Not at hc
  have hle := hg.least ha h0 (h x).1 hc
  have h1 := (h x).2 _ ha
  have h2 : fl x - x ≤ |x - fl x| := by rw [abs_sub_comm]; exact le_abs_self _
  rcases le_abs.1 (h2.trans h1) with h2 | h2
  · linarith
  · linarith

end Float

namespace Network
open Malstroem.Float
variable {p : Nat} {emin : Int} {fl : Rat → Rat}

/-- `x` is `y` up to `k` roundings with relative error `u`. -/
def Near (u : Rat) (k : Nat) (x y : Rat) : Prop := |x - y| ≤ ((1 + u) ^ k - 1) * y

theorem one_le_grow {u : Rat} (hu : 0 ≤ u) (k : Nat) : 1 ≤ (1 + u) ^ k := one_le_pow₀ (by linarith)

theorem grow_mono {u : Rat} (hu : 0 ≤ u) {k l : Nat} (h : k ≤ l) : (1 + u) ^ k ≤ (1 + u) ^ l :=
  pow_le_pow_right₀ (by linarith) h

theorem Near.le {u : Rat} {k : Nat} {x y : Rat} (h : Near u k x y) : x ≤ (1 + u) ^ k * y := by
  have := (abs_le.1 h).2
  linarith

theorem Near.weaken {u : Rat} (hu : 0 ≤ u) {k l : Nat} {x y : Rat} (h : Near u k x y) (hkl : k ≤ l) (hy : 0 ≤ y) :
    Near u l x y :=
  le_trans h (mul_le_mul_of_nonneg_right (by have := grow_mono hu hkl; linarith) hy)

/-- One more rounding. -/
theorem Near.round {u : Rat} (hu : 0 ≤ u) {k : Nat} {x y z : Rat} (h : Near u k x y) (hz : |z - x| ≤ u * x) :
    Near u (k + 1) z y := by
  have h1 := h.le
  have h2 : u * x ≤ u * ((1 + u) ^ k * y) := mul_le_mul_of_nonneg_left h1 hu
  have h3 := abs_sub_le z x y
  unfold Near at *
  rw [pow_succ]
  nlinarith

theorem sumFl_spec (h : IsRounding p emin fl) (hp : 1 ≤ p) (l : List Rat) (hl : ∀ x ∈ l, 0 ≤ x ∧ OnGrid emin x) :
    0 ≤ sumFl fl l ∧ OnGrid emin (sumFl fl l) ∧ 0 ≤ l.sum ∧ Near (1 / 2 ^ p) l.length (sumFl fl l) l.sum := by
  have hu : (0 : Rat) ≤ 1 / 2 ^ p := by positivity
  unfold sumFl
  induction l using List.reverseRecOn with
  | nil => exact ⟨by simp, ⟨0, by simp⟩, by simp, by simp [Near]⟩
  | append_singleton l a ih =>
    obtain ⟨h1, h2, h3, h4⟩ := ih fun x hx => hl x (List.mem_append_left _ hx)
    obtain ⟨ha0, hag⟩ := hl a (by simp)
    rw [List.foldl_append, List.sum_append, List.length_append]
    simp only [List.foldl_cons, List.foldl_nil, List.sum_cons, List.sum_nil, add_zero, List.length_cons, List.length_nil, zero_add]
    set s := l.foldl (fun a b => fl (a + b)) 0
    have hg := h2.add hag
    refine ⟨fl_nonneg h (by linarith), .of_float (h _).1, by linarith, ?_⟩
    refine Near.round hu (x := s + a) ?_ ?_
    · unfold Near at *
      have h5 : s + a - (l.sum + a) = s - l.sum := by ring
      rw [h5]
      refine le_trans h4 ?_
      have := one_le_grow hu l.length
      have h6 : 0 ≤ ((1 + 1 / 2 ^ p : Rat) ^ l.length - 1) * a := mul_nonneg (by linarith) ha0
      linarith
    · have := fl_relative h hp hg
      rwa [abs_of_nonneg (show 0 ≤ s + a by linarith)] at this

/-- What holds of a node whose upstream nodes spill non-negative floating point numbers. -/
theorem node_spec (h : IsRounding p emin fl) (hp : 1 ≤ p) {ns : List (RainNode Rat)} {v spill : Int → Rat} {n : RainNode Rat}
    (hb : BalancedFl fl ns v spill n) (hvol : 0 ≤ n.vol ∧ IsFloat p emin n.vol) (hcap : 0 ≤ n.cap ∧ IsFloat p emin n.cap)
    (hs : ∀ m ∈ upstreamOf ns n, 0 ≤ spill m.id ∧ OnGrid emin (spill m.id)) :
    0 ≤ arriving ns spill n ∧ 0 ≤ arrivingFl fl ns spill n ∧ IsFloat p emin (arrivingFl fl ns spill n) ∧
    Near (1 / 2 ^ p) ((upstreamOf ns n).length + 1) (arrivingFl fl ns spill n) (arriving ns spill n) ∧
    0 ≤ v n.id ∧ v n.id ≤ n.cap ∧ IsFloat p emin (v n.id) ∧ 0 ≤ spill n.id ∧ IsFloat p emin (spill n.id) ∧
    (0 < spill n.id → v n.id = n.cap) ∧ (arrivingFl fl ns spill n ≤ n.cap → v n.id = arrivingFl fl ns spill n ∧ spill n.id = 0) ∧
    |spill n.id - max 0 (arrivingFl fl ns spill n - n.cap)| ≤ (1 / 2 ^ p) * arrivingFl fl ns spill n := by
  have hu : (0 : Rat) ≤ 1 / 2 ^ p := by positivity
  obtain ⟨h1, h2, h3, h4⟩ := sumFl_spec h hp ((upstreamOf ns n).map fun m => spill m.id) (by
    intro x hx
    obtain ⟨m, hm, rfl⟩ := List.mem_map.1 hx
    exact hs m hm)
  rw [List.length_map] at h4
  have ha0 : 0 ≤ arriving ns spill n := add_nonneg hvol.1 h3
  have hA0 : 0 ≤ arrivingFl fl ns spill n := fl_nonneg h (add_nonneg hvol.1 h1)
  have hAf : IsFloat p emin (arrivingFl fl ns spill n) := (h _).1
  have hg := (OnGrid.of_float hvol.2).add h2
  have hnear : Near (1 / 2 ^ p) ((upstreamOf ns n).length + 1) (arrivingFl fl ns spill n) (arriving ns spill n) := by
    refine Near.round hu (x := n.vol + sumFl fl ((upstreamOf ns n).map fun m => spill m.id)) ?_ ?_
    · unfold Near arriving at *
      rw [add_sub_add_left_eq_sub]
      refine le_trans h4 ?_
      have := one_le_grow hu (upstreamOf ns n).length
      have h6 : 0 ≤ ((1 + 1 / 2 ^ p : Rat) ^ (upstreamOf ns n).length - 1) * n.vol := mul_nonneg (by linarith) hvol.1
      linarith
    · have := fl_relative h hp hg
      rwa [abs_of_nonneg (add_nonneg hvol.1 h1)] at this
  set A := arrivingFl fl ns spill n
  have hsub : OnGrid emin (A - n.cap) := (OnGrid.of_float hAf).sub (OnGrid.of_float hcap.2)
  have hdry : A ≤ n.cap → v n.id = A ∧ spill n.id = 0 := fun hc =>
    ⟨by rw [hb.1, min_eq_left hc], by rw [hb.2, max_eq_left (fl_nonpos h (by linarith))]⟩
  refine ⟨ha0, hA0, hAf, hnear, ?_, ?_, ?_, ?_, ?_, ?_, hdry, ?_⟩
  · rw [hb.1]; exact le_min hA0 hcap.1
  · rw [hb.1]; exact min_le_right _ _
  · rw [hb.1]
    rcases min_choice A n.cap with e | e <;> rw [e]
    · exact hAf
    · exact hcap.2
  · rw [hb.2]; exact le_max_left _ _
  · rw [hb.2]
    rcases max_choice 0 (fl (A - n.cap)) with e | e <;> rw [e]
    · exact isFloat_zero
    · exact (h _).1
  · intro hpos
    rcases le_or_gt A n.cap with hc | hc
    · rw [(hdry hc).2] at hpos; exact absurd hpos (lt_irrefl _)
    · rw [hb.1, min_eq_right hc.le]
  · rcases le_or_gt A n.cap with hc | hc
    · rw [(hdry hc).2, max_eq_left (by linarith), sub_self, abs_zero]
      exact mul_nonneg hu hA0
    · rw [hb.2, max_eq_right (fl_nonneg h (by linarith)), max_eq_right (by linarith)]
      refine le_trans (fl_relative h hp hsub) (mul_le_mul_of_nonneg_left ?_ hu)
      rw [abs_of_nonneg (by linarith)]
      have := hcap.1
      linarith

/-! ### Water on its way -/

theorem sum_filter {α : Type} (q : α → Bool) (f : α → Rat) (l : List α) :
    ((l.filter q).map f).sum = (l.map fun m => if q m then f m else 0).sum := by
  induction l with
  | nil => rfl
  | cons a l ih =>
    rw [List.filter_cons, List.map_cons, List.sum_cons, ← ih]
    by_cases hq : q a = true <;> simp [hq]

/-- The sum of `f` over the nodes of `P` whose downstream node is not in `P`. -/
def pending (P : List (RainNode Rat)) (f : Int → Rat) : Rat :=
  ((P.filter fun m => !P.any fun n => m.down = some n.id).map fun m => f m.id).sum

theorem pending_nonneg {P : List (RainNode Rat)} {f : Int → Rat} (hf : ∀ m ∈ P, 0 ≤ f m.id) : 0 ≤ pending P f := by
  refine List.sum_nonneg fun x hx => ?_
  obtain ⟨m, hm, rfl⟩ := List.mem_map.1 hx
  exact hf m (List.mem_filter.1 hm).1

theorem any_down {P : List (RainNode Rat)} {m n : RainNode Rat} (hnew : ∀ m ∈ P, m.id ≠ n.id) (hd : m.down = some n.id) :
    (P.any fun k => m.down = some k.id) = false := by
  rw [List.any_eq_false]
  intro k hk
  rw [hd]
  have := hnew k hk
  simpa using fun e => this e.symm

theorem pending_append {P : List (RainNode Rat)} {n : RainNode Rat} (f : Int → Rat) (hnew : ∀ m ∈ P, m.id ≠ n.id)
    (hdown : ∀ m ∈ P ++ [n], n.down ≠ some m.id) :
    pending (P ++ [n]) f + ((upstreamOf P n).map fun m => f m.id).sum = pending P f + f n.id := by
  unfold pending upstreamOf
  rw [List.filter_append, List.map_append, List.sum_append]
  have h1 : [n].filter (fun m => !(P ++ [n]).any fun k => m.down = some k.id) = [n] := by
    rw [List.filter_eq_self]
    intro m hm
    rw [List.mem_singleton.1 hm]
    have h : ∀ m ∈ P, ¬ n.down = some m.id := fun m hm => hdown m (List.mem_append_left _ hm)
    have h' := hdown n (by simp)
    simpa using ⟨h, h'⟩
  rw [h1, sum_filter, sum_filter, sum_filter]
  simp only [List.map_cons, List.map_nil, List.sum_cons, List.sum_nil, add_zero]
  have h2 : (P.map fun m => if (!P.any fun k => m.down = some k.id) then f m.id else 0).sum =
      (P.map fun m => if (!(P ++ [n]).any fun k => m.down = some k.id) then f m.id else 0).sum +
      (P.map fun m => if decide (m.down = some n.id) then f m.id else 0).sum := by
    rw [← List.sum_map_add]
    congr 1
    apply List.map_congr_left
    intro m _
    rw [List.any_append]
    by_cases hd : m.down = some n.id
    · rw [any_down hnew hd]
      simp [hd]
    · simp [hd]
  rw [h2]
  ring

theorem upstream_sum {ns P : List (RainNode Rat)} {n : RainNode Rat} (hns : ns.Nodup) (hP : P.Nodup)
    (hsub : ∀ m ∈ P, m ∈ ns) (hup : ∀ m ∈ upstreamOf ns n, m ∈ P) (f : Int → Rat) :
    ((upstreamOf ns n).map fun m => f m.id).sum = ((upstreamOf P n).map fun m => f m.id).sum := by
  refine List.Perm.sum_eq (List.Perm.map _ ?_)
  refine (List.perm_ext_iff_of_nodup (hns.filter _) (hP.filter _)).2 fun m => ?_
  change m ∈ upstreamOf ns n ↔ m ∈ upstreamOf P n
  rw [mem_upstreamOf, mem_upstreamOf]
  exact ⟨fun hm => ⟨hup m (mem_upstreamOf.2 hm), hm.2⟩, fun hm => ⟨hsub m hm.1, hm.2⟩⟩

theorem upstream_le_pending {P : List (RainNode Rat)} {n : RainNode Rat} {f : Int → Rat} (hnew : ∀ m ∈ P, m.id ≠ n.id)
    (hf : ∀ m ∈ P, 0 ≤ f m.id) : ((upstreamOf P n).map fun m => f m.id).sum ≤ pending P f := by
  unfold pending upstreamOf
  rw [sum_filter, sum_filter]
  refine List.sum_le_sum fun m hm => ?_
  by_cases hd : m.down = some n.id
  · rw [any_down hnew hd]
    simp [hd]
  · simp only [hd, decide_false]
    split
    · exact absurd ‹_› (by simp)
    · split
      · exact hf m hm
      · exact le_rfl

/-- Number of roundings for the nodes `P`. -/
def ops (ns P : List (RainNode Rat)) : Nat := (P.map fun n => (upstreamOf ns n).length + 2).sum

/-- Rounded and exact balance side by side, for nodes with non-negative floating point volumes and capacities. -/
structure Pair (p : Nat) (emin : Int) (fl : Rat → Rat) (ns : List (RainNode Rat)) (v s v' s' : Int → Rat) (n : RainNode Rat) :
    Prop where
  vol : 0 ≤ n.vol ∧ IsFloat p emin n.vol
  cap : 0 ≤ n.cap ∧ IsFloat p emin n.cap
  rounded : BalancedFl fl ns v s n
  exact : Balanced ns v' s' n

/-- After the nodes `P`: their values are sensible, the water in them and on its way is right up to `ops` roundings, and so is
every value. -/
structure PrefixOk (p : Nat) (emin : Int) (ns : List (RainNode Rat)) (v s v' s' : Int → Rat) (P : List (RainNode Rat)) : Prop where
  spill : ∀ m ∈ P, 0 ≤ s m.id ∧ OnGrid emin (s m.id)
  stock : Near (1 / 2 ^ p) (ops ns P) ((P.map fun n => v n.id).sum + pending P s) (P.map (·.vol)).sum
  drift : pending P (fun i => |s i - s' i|) ≤ ((1 + 1 / 2 ^ p) ^ ops ns P - 1) * (P.map (·.vol)).sum
  close : ∀ m ∈ P, |v m.id - v' m.id| ≤ ((1 + 1 / 2 ^ p) ^ ops ns P - 1) * (P.map (·.vol)).sum ∧
    |s m.id - s' m.id| ≤ ((1 + 1 / 2 ^ p) ^ ops ns P - 1) * (P.map (·.vol)).sum
  retained : ∀ m ∈ P, 0 ≤ v m.id

theorem prefix_step (h : IsRounding p emin fl) (hp : 1 ≤ p) {ns P : List (RainNode Rat)} {n : RainNode Rat}
    {v s v' s' : Int → Rat} (hns : (ns.map (·.id)).Nodup) (hP : ((P ++ [n]).map (·.id)).Nodup) (hsub : ∀ m ∈ P ++ [n], m ∈ ns)
    (hup : ∀ m ∈ upstreamOf ns n, m ∈ P) (hdown : ∀ m ∈ P ++ [n], n.down ≠ some m.id)
    (hpair : ∀ m ∈ P ++ [n], Pair p emin fl ns v s v' s' m) (ih : PrefixOk p emin ns v s v' s' P) :
    PrefixOk p emin ns v s v' s' (P ++ [n]) := by
  have hu : (0 : Rat) ≤ 1 / 2 ^ p := by positivity
  set u : Rat := 1 / 2 ^ p with hu_def
  have hn := hpair n (by simp)
  obtain ⟨a1, a2, a3, a4, a5, a6, a7, a8, a9, a10, a11, a12⟩ := node_spec h hp hn.rounded hn.vol hn.cap
    fun m hm => ih.spill m (hup m hm)
  rw [← hu_def] at a4 a12
  have hnew : ∀ m ∈ P, m.id ≠ n.id := by
    rw [List.map_append, List.nodup_append] at hP
    exact fun m hm he => hP.2.2 _ (List.mem_map_of_mem hm) _ (by simp) he
  have hPn : P.Nodup := by
    have := List.Nodup.of_map _ hP
    rw [List.nodup_append] at this
    exact this.1
  have hups := fun f => upstream_sum (List.Nodup.of_map _ hns) hPn (fun m hm => hsub m (List.mem_append_left _ hm)) hup f
  have hvol0 : ∀ m ∈ P, 0 ≤ m.vol := fun m hm => (hpair m (List.mem_append_left _ hm)).vol.1
  -- abbreviations
  set W := (P.map (·.vol)).sum with hW
  have hW0 : 0 ≤ W := List.sum_nonneg fun x hx => by
    obtain ⟨m, hm, rfl⟩ := List.mem_map.1 hx
    exact hvol0 m hm
  set U := ((upstreamOf ns n).map fun m => s m.id).sum with hU
  have hArr : arriving ns s n = n.vol + U := rfl
  set A := arrivingFl fl ns s n with hA
  set k := (upstreamOf ns n).length with hk
  set G := (1 + u) ^ ops ns P with hG
  have hG1 : 1 ≤ G := one_le_grow hu _
  have hops : ops ns (P ++ [n]) = ops ns P + (k + 2) := by simp [ops, hk]
  have hB1 : 1 ≤ (1 + u) ^ (k + 2) := one_le_grow hu _
  set B := (1 + u) ^ (k + 2) with hB
  have hGB : (1 + u) ^ ops ns (P ++ [n]) = G * B := by rw [hops, pow_add]
  have hWn : ((P ++ [n]).map (·.vol)).sum = W + n.vol := by simp [hW]
  have hV0 := hn.vol.1
  -- water on its way to n
  have hstock := ih.stock
  rw [← hW] at hstock
  have hUP : U ≤ pending P s := by
    rw [hU, hups s]
    exact upstream_le_pending hnew fun m hm => (ih.spill m hm).1
  have hsumv : 0 ≤ (P.map fun n => v n.id).sum := List.sum_nonneg fun x hx => by
    obtain ⟨m, hm, rfl⟩ := List.mem_map.1 hx
    exact ih.retained m hm
  have hUG : U ≤ G * W := by
    have := hstock.le
    linarith
  have hU0 : 0 ≤ U := List.sum_nonneg fun x hx => by
    obtain ⟨m, hm, rfl⟩ := List.mem_map.1 hx
    exact (ih.spill m (hup m hm)).1
  -- the node itself
  have hAle : A ≤ (1 + u) ^ (k + 1) * (n.vol + U) := by rw [← hArr]; exact a4.le
  have hAerr : |A - (n.vol + U)| ≤ ((1 + u) ^ (k + 1) - 1) * (n.vol + U) := by rw [← hArr]; exact a4
  have hexact : v n.id + max 0 (A - n.cap) = A := by
    rcases le_total A n.cap with hc | hc
    · rw [(a11 hc).1, max_eq_left (by linarith), add_zero]
    · rw [hn.rounded.1, ← hA, min_eq_right hc, max_eq_right (by linarith)]; ring
  have hrnd : u * A ≤ u * ((1 + u) ^ (k + 1) * (n.vol + U)) := mul_le_mul_of_nonneg_left hAle hu
  have hBe : B = (1 + u) ^ (k + 1) * (1 + u) := by rw [hB, ← pow_succ]
  have hnode : |v n.id + s n.id - (n.vol + U)| ≤ (B - 1) * (n.vol + U) := by
    have e1 : v n.id + s n.id - (n.vol + U) = (s n.id - max 0 (A - n.cap)) + (A - (n.vol + U)) := by linarith
    rw [e1]
    refine le_trans (abs_add_le _ _) (le_trans (add_le_add a12 hAerr) ?_)
    rw [hBe]
    linarith
  -- the total error factor
  have hfac : (G - 1) * W + (B - 1) * (n.vol + U) ≤ (G * B - 1) * (W + n.vol) := by
    have h1 : (B - 1) * (n.vol + U) ≤ (B - 1) * (n.vol + G * W) :=
      mul_le_mul_of_nonneg_left (by linarith) (by linarith)
    have h2 : 0 ≤ (G - 1) * B * n.vol := mul_nonneg (mul_nonneg (by linarith) (by linarith)) hV0
    nlinarith
  -- drift
  have hdrift := ih.drift
  rw [← hW, ← hu_def, ← hG] at hdrift
  have hdiffU : |U - ((upstreamOf ns n).map fun m => s' m.id).sum| ≤
      ((upstreamOf P n).map fun m => |s m.id - s' m.id|).sum := by
    rw [← hups fun i => |s i - s' i|, hU]
    generalize upstreamOf ns n = l
    induction l with
    | nil => simp
    | cons a l ihl =>
      simp only [List.map_cons, List.sum_cons]
      rw [add_sub_add_comm]
      exact le_trans (abs_add_le _ _) (add_le_add le_rfl ihl)
  set D := ((upstreamOf P n).map fun m => |s m.id - s' m.id|).sum with hD
  have hDP : D ≤ pending P fun i => |s i - s' i| := upstream_le_pending hnew fun m _ => abs_nonneg _
  set A' := arriving ns s' n with hA'
  have hAA' : |A - A'| ≤ ((1 + u) ^ (k + 1) - 1) * (n.vol + U) + D := by
    have e1 : A - A' = (A - (n.vol + U)) + (U - ((upstreamOf ns n).map fun m => s' m.id).sum) := by
      rw [hA']; unfold arriving; ring
    rw [e1]
    exact le_trans (abs_add_le _ _) (add_le_add hAerr hdiffU)
  have hmono : (1 + u) ^ (k + 1) ≤ B := grow_mono hu (by omega)
  have hnU : 0 ≤ n.vol + U := by linarith
  have hvd : |v n.id - v' n.id| ≤ (B - 1) * (n.vol + U) + D := by
    rw [hn.rounded.1, hn.exact.1, ← hA, ← hA']
    refine le_trans (abs_min_sub_min_le_max _ _ _ _) ?_
    rw [sub_self, abs_zero, max_eq_left (abs_nonneg _)]
    refine le_trans hAA' ?_
    have := mul_le_mul_of_nonneg_right (show (1 + u) ^ (k + 1) - 1 ≤ B - 1 by linarith) hnU
    linarith
  have hsd : |s n.id - s' n.id| ≤ (B - 1) * (n.vol + U) + D := by
    have e1 : s n.id - s' n.id = (s n.id - max 0 (A - n.cap)) + (max 0 (A - n.cap) - max 0 (A' - n.cap)) := by
      rw [hn.exact.2]; ring
    rw [e1]
    have h2 : |max 0 (A - n.cap) - max 0 (A' - n.cap)| ≤ |A - A'| := by
      refine le_trans (abs_max_sub_max_le_max _ _ _ _) ?_
      rw [sub_self, abs_zero, max_eq_right (abs_nonneg _), sub_sub_sub_cancel_right]
    refine le_trans (abs_add_le _ _) (le_trans (add_le_add a12 (h2.trans hAA')) ?_)
    rw [hBe]
    linarith
  have hgrow : (G - 1) * W ≤ (G * B - 1) * (W + n.vol) := by
    have : 0 ≤ (B - 1) * (n.vol + U) := mul_nonneg (by linarith) hnU
    linarith
  refine ⟨?_, ?_, ?_, ?_, ?_⟩
  · intro m hm
    rcases List.mem_append.1 hm with hm | hm
    · exact ih.spill m hm
    · rw [List.mem_singleton.1 hm]; exact ⟨a8, .of_float a9⟩
  · unfold Near
    rw [hWn, ← hu_def, hGB]
    have hpa := pending_append s hnew hdown
    rw [← hups s, ← hU] at hpa
    have e1 : ((P ++ [n]).map fun n => v n.id).sum + pending (P ++ [n]) s - (W + n.vol) =
        ((P.map fun n => v n.id).sum + pending P s - W) + (v n.id + s n.id - (n.vol + U)) := by
      rw [List.map_append, List.sum_append]
      simp only [List.map_cons, List.map_nil, List.sum_cons, List.sum_nil]
      linarith
    rw [e1]
    exact le_trans (abs_add_le _ _) (le_trans (add_le_add hstock hnode) hfac)
  · rw [hWn, ← hu_def, hGB]
    have hpa := pending_append (fun i => |s i - s' i|) hnew hdown
    rw [← hD] at hpa
    linarith
  · intro m hm
    rw [hWn, ← hu_def, hGB]
    rcases List.mem_append.1 hm with hm | hm
    · exact ⟨(ih.close m hm).1.trans hgrow, (ih.close m hm).2.trans hgrow⟩
    · rw [List.mem_singleton.1 hm]
      constructor <;> linarith
  · intro m hm
    rcases List.mem_append.1 hm with hm | hm
    · exact ih.retained m hm
    · rw [List.mem_singleton.1 hm]; exact a5

theorem prefix_ok (h : IsRounding p emin fl) (hp : 1 ≤ p) {ns order : List (RainNode Rat)} {v s v' s' : Int → Rat}
    (hns : (ns.map (·.id)).Nodup) (hnd : (order.map (·.id)).Nodup) (hsub : ∀ m ∈ order, m ∈ ns) (ho : UpstreamFirst ns order)
    (hpair : ∀ m ∈ order, Pair p emin fl ns v s v' s' m) : PrefixOk p emin ns v s v' s' order := by
  have key : ∀ P post : List (RainNode Rat), order = P ++ post → PrefixOk p emin ns v s v' s' P := by
    intro P
    induction P using List.reverseRecOn with
    | nil => intro _ _; exact ⟨by simp, by simp [Near, pending], by simp [pending], by simp, by simp⟩
    | append_singleton P n ih =>
      intro post he
      have he' : order = P ++ n :: post := by rw [he]; simp
      have hmem : ∀ m ∈ P ++ [n], m ∈ order := fun m hm => by rw [he]; exact List.mem_append_left _ hm
      have hPn : ((P ++ [n]).map (·.id)).Nodup := by
        rw [he, List.map_append, List.nodup_append] at hnd
        exact hnd.1
      have hnot : n ∉ P := by
        have := List.Nodup.of_map _ hPn
        rw [List.nodup_append] at this
        exact fun hin => this.2.2 _ hin _ (by simp) rfl
      refine prefix_step h hp hns hPn (fun m hm => hsub m (hmem m hm)) (fun m hm => ho P n post he' m hm) ?_
        (fun m hm => hpair m (hmem m hm)) (ih (n :: post) he')
      intro m hm hd
      have hnu : n ∈ upstreamOf ns m := mem_upstreamOf.2 ⟨hsub n (hmem n (by simp)), hd⟩
      rcases List.mem_append.1 hm with hm | hm
      · obtain ⟨a, b, hab⟩ := List.append_of_mem hm
        have := ho a m (b ++ n :: post) (by rw [he', hab]; simp) n hnu
        exact hnot (by rw [hab]; exact List.mem_append_left _ this)
      · rw [List.mem_singleton.1 hm] at hnu
        exact hnot (ho P n post he' n hnu)
  exact key order [] (by simp)

/-- At most three roundings per node. -/
theorem ops_le {ns order : List (RainNode Rat)} (hnd : (order.map (·.id)).Nodup) :
    ops ns order ≤ ns.length + 2 * order.length := by
  have h1 : ops ns order = (order.map fun n => (upstreamOf ns n).length).sum + 2 * order.length := by
    unfold ops
    induction order with
    | nil => rfl
    | cons a l ih =>
      rw [List.map_cons, List.nodup_cons] at hnd
      simp only [List.map_cons, List.sum_cons, List.length_cons]
      rw [ih hnd.2]
      omega
  rw [h1]
  refine Nat.add_le_add_right ?_ _
  have key : ∀ L : List (RainNode Rat), (order.map fun n => (upstreamOf L n).length).sum ≤ L.length := by
    intro L
    induction L with
    | nil => simp [upstreamOf]
    | cons m L ih =>
      have hone : (order.map fun n => if m.down = some n.id then 1 else 0).sum ≤ 1 := by
        clear ih h1
        induction order with
        | nil => simp
        | cons a l ihl =>
          rw [List.map_cons, List.nodup_cons] at hnd
          rw [List.map_cons, List.sum_cons]
          by_cases hd : m.down = some a.id
          · rw [if_pos hd]
            have : (l.map fun n => if m.down = some n.id then 1 else 0) = l.map fun _ => 0 := by
              apply List.map_congr_left
              intro x hx
              rw [if_neg]
              rw [hd]
              intro e
              injection e with e
              exact hnd.1 (e ▸ List.mem_map_of_mem hx)
            rw [this]
            simp
          · rw [if_neg hd, zero_add]
            exact ihl hnd.2
      have hsplit : (order.map fun n => (upstreamOf (m :: L) n).length).sum =
          (order.map fun n => if m.down = some n.id then 1 else 0).sum + (order.map fun n => (upstreamOf L n).length).sum := by
        rw [← List.sum_map_add]
        congr 1
        apply List.map_congr_left
        intro n _
        unfold upstreamOf
        by_cases hd : m.down = some n.id
        · rw [List.filter_cons_of_pos (by simpa using hd), if_pos hd, List.length_cons, Nat.add_comm]
        · rw [List.filter_cons_of_neg (by simpa using hd), if_neg hd, zero_add]
      rw [hsplit, List.length_cons]
      omega
  exact key ns

end Network
end Malstroem
