/-
Property C103: how the water that spills depends on the water put in. All arithmetic is exact.
-/
import Verif.Spec.Response
import Verif.Props.FillUp
import Verif.Props.Downstream

set_option linter.unusedSectionVars false

namespace Malstroem
open Spec Network

section Core
variable {K : Type} [Field K] [LinearOrder K] [IsStrictOrderedRing K] {ι : Type}

/-- Two ways of putting water into the same network have the same upstream nodes. -/
theorem upstream_shared {R : List ι} {g g' : ι → RainNode K} (hid : ∀ r, (g' r).id = (g r).id)
    (hdown : ∀ r, (g' r).down = (g r).down) (s : Int → K) (r : ι) :
    ((upstreamOf (R.map g') (g' r)).map fun m => s m.id).sum =
      ((R.filter fun m => decide ((g m).down = some (g r).id)).map fun m => s (g m).id).sum := by
  unfold upstreamOf
  rw [List.filter_map, List.map_map]
  congr 1
  have : (fun m : RainNode K => decide (m.down = some (g' r).id)) ∘ g' = fun m => decide ((g m).down = some (g r).id) := by
    funext m; simp [hdown, hid]
  rw [this]
  exact List.map_congr_left fun m _ => by simp [hid]

theorem arriving_shared {R : List ι} {g g' : ι → RainNode K} (hid : ∀ r, (g' r).id = (g r).id)
    (hdown : ∀ r, (g' r).down = (g r).down) (s : Int → K) (r : ι) :
    arriving (R.map g') s (g' r) =
      (g' r).vol + ((R.filter fun m => decide ((g m).down = some (g r).id)).map fun m => s (g m).id).sum := by
  unfold arriving
  rw [upstream_shared hid hdown]

/-- Induction over a network from upstream to downstream. -/
theorem shared_induction {R : List ι} {g : ι → RainNode K} {order : List (RainNode K)} (ho : UpstreamFirst (R.map g) order)
    (hsub : ∀ n ∈ order, n ∈ R.map g) {P : Int → Prop}
    (h : ∀ r ∈ R, g r ∈ order → (∀ m ∈ R, (g m).down = some (g r).id → P (g m).id) → P (g r).id) :
    ∀ n ∈ order, P n.id := by
  refine upstream_induction (P := fun n => P n.id) ho fun n hn hup => ?_
  obtain ⟨r, hr, rfl⟩ := List.mem_map.1 (hsub n hn)
  exact h r hr hn fun m hm hd => hup (g m) (mem_upstreamOf.2 ⟨List.mem_map_of_mem hm, hd⟩)

theorem sum_map_add_eq {α : Type} {f g h : α → K} : ∀ {l : List α}, (∀ a ∈ l, h a = f a + g a) →
    (l.map h).sum = (l.map f).sum + (l.map g).sum
  | [], _ => by simp
  | a :: l, H => by
    simp only [List.map_cons, List.sum_cons]
    rw [sum_map_add_eq (l := l) fun b hb => H b (by simp [hb]), H a (by simp)]; ring

theorem sum_map_add_le {α : Type} {f g h : α → K} : ∀ {l : List α}, (∀ a ∈ l, f a + g a ≤ h a) →
    (l.map f).sum + (l.map g).sum ≤ (l.map h).sum
  | [], _ => by simp
  | a :: l, H => by
    simp only [List.map_cons, List.sum_cons]
    have := sum_map_add_le (l := l) fun b hb => H b (by simp [hb])
    have := H a (by simp)
    linarith

theorem sum_map_mix_le {α : Type} {f g h : α → K} {t : K} : ∀ {l : List α}, (∀ a ∈ l, h a ≤ t * f a + (1 - t) * g a) →
    (l.map h).sum ≤ t * (l.map f).sum + (1 - t) * (l.map g).sum
  | [], _ => by simp
  | a :: l, H => by
    simp only [List.map_cons, List.sum_cons]
    have := sum_map_mix_le (l := l) fun b hb => H b (by simp [hb])
    have := H a (by simp)
    linarith

variable {R : List ι} {g g₁ g₂ : ι → RainNode K} {order : List (RainNode K)} {v v₁ v₂ spill spill₁ spill₂ : Int → K}

theorem portions_core (hid₁ : ∀ r, (g₁ r).id = (g r).id) (hid₂ : ∀ r, (g₂ r).id = (g r).id)
    (hdown₁ : ∀ r, (g₁ r).down = (g r).down) (hdown₂ : ∀ r, (g₂ r).down = (g r).down)
    (hvol : ∀ r ∈ R, (g r).vol = (g₁ r).vol + (g₂ r).vol) (hnn : ∀ r ∈ R, 0 ≤ (g₂ r).vol)
    (hcap₁ : ∀ r ∈ R, (g₁ r).cap = (g r).cap) (hcap₂ : ∀ r ∈ R, (g₂ r).cap = (g r).cap - v₁ (g r).id)
    (ho : UpstreamFirst (R.map g) order) (hsub : ∀ n ∈ order, n ∈ R.map g)
    (hb : ∀ r ∈ R, g r ∈ order → Balanced (R.map g) v spill (g r))
    (hb₁ : ∀ r ∈ R, g r ∈ order → Balanced (R.map g₁) v₁ spill₁ (g₁ r))
    (hb₂ : ∀ r ∈ R, g r ∈ order → Balanced (R.map g₂) v₂ spill₂ (g₂ r)) :
    ∀ n ∈ order, (v n.id = v₁ n.id + v₂ n.id ∧ spill n.id = spill₁ n.id + spill₂ n.id) ∧ 0 ≤ spill₂ n.id := by
  refine shared_induction (P := fun i => (v i = v₁ i + v₂ i ∧ spill i = spill₁ i + spill₂ i) ∧ 0 ≤ spill₂ i) ho hsub ?_
  intro r hr hro ih
  obtain ⟨a1, a2⟩ := hb r hr hro
  obtain ⟨b1, b2⟩ := hb₁ r hr hro
  obtain ⟨c1, c2⟩ := hb₂ r hr hro
  rw [arriving_shared (fun _ => rfl) (fun _ => rfl)] at a1 a2
  rw [arriving_shared hid₁ hdown₁, hid₁, hcap₁ r hr] at b1 b2
  rw [arriving_shared hid₂ hdown₂, hid₂, hcap₂ r hr] at c1 c2
  have ih' : ∀ m ∈ R.filter (fun m => decide ((g m).down = some (g r).id)), (spill (g m).id = spill₁ (g m).id + spill₂ (g m).id) ∧
      0 ≤ spill₂ (g m).id := by
    intro m hm
    obtain ⟨h1, h2⟩ := List.mem_filter.1 hm
    have := ih m h1 (by simpa using h2)
    exact ⟨this.1.2, this.2⟩
  rw [sum_map_add_eq fun m hm => (ih' m hm).1, hvol r hr] at a1 a2
  have hs₂ : 0 ≤ ((R.filter fun m => decide ((g m).down = some (g r).id)).map fun m => spill₂ (g m).id).sum :=
    List.sum_nonneg fun x hx => by
      obtain ⟨m, hm, rfl⟩ := List.mem_map.1 hx
      exact (ih' m hm).2
  have hn := hnn r hr
  generalize ((R.filter fun m => decide ((g m).down = some (g r).id)).map fun m => spill₁ (g m).id).sum = S₁ at *
  generalize ((R.filter fun m => decide ((g m).down = some (g r).id)).map fun m => spill₂ (g m).id).sum = S₂ at *
  refine ⟨?_, by rw [c2]; exact le_max_left _ _⟩
  rcases le_total ((g₁ r).vol + S₁) (g r).cap with h | h
  · rw [min_eq_left h] at b1
    rw [max_eq_left (by linarith)] at b2
    rw [b1] at c1 c2
    rcases le_total ((g₂ r).vol + S₂) ((g r).cap - ((g₁ r).vol + S₁)) with h' | h'
    · rw [min_eq_left h'] at c1
      rw [max_eq_left (by linarith)] at c2
      rw [min_eq_left (by linarith)] at a1
      rw [max_eq_left (by linarith)] at a2
      constructor <;> linarith
    · rw [min_eq_right h'] at c1
      rw [max_eq_right (by linarith)] at c2
      rw [min_eq_right (by linarith)] at a1
      rw [max_eq_right (by linarith)] at a2
      constructor <;> linarith
  · rw [min_eq_right h] at b1
    rw [max_eq_right (by linarith)] at b2
    rw [b1, sub_self] at c1 c2
    rw [min_eq_right (by linarith)] at c1
    rw [max_eq_right (by linarith)] at c2
    rw [min_eq_right (by linarith)] at a1
    rw [max_eq_right (by linarith)] at a2
    constructor <;> linarith

theorem together_core (hid₁ : ∀ r, (g₁ r).id = (g r).id) (hid₂ : ∀ r, (g₂ r).id = (g r).id)
    (hdown₁ : ∀ r, (g₁ r).down = (g r).down) (hdown₂ : ∀ r, (g₂ r).down = (g r).down)
    (hvol : ∀ r ∈ R, (g r).vol = (g₁ r).vol + (g₂ r).vol) (hnn₁ : ∀ r ∈ R, 0 ≤ (g₁ r).vol) (hnn₂ : ∀ r ∈ R, 0 ≤ (g₂ r).vol)
    (hcap₁ : ∀ r ∈ R, (g₁ r).cap = (g r).cap) (hcap₂ : ∀ r ∈ R, (g₂ r).cap = (g r).cap) (hcap : ∀ r ∈ R, 0 ≤ (g r).cap)
    (ho : UpstreamFirst (R.map g) order) (hsub : ∀ n ∈ order, n ∈ R.map g)
    (hb : ∀ r ∈ R, g r ∈ order → Balanced (R.map g) v spill (g r))
    (hb₁ : ∀ r ∈ R, g r ∈ order → Balanced (R.map g₁) v₁ spill₁ (g₁ r))
    (hb₂ : ∀ r ∈ R, g r ∈ order → Balanced (R.map g₂) v₂ spill₂ (g₂ r)) :
    ∀ n ∈ order, spill₁ n.id + spill₂ n.id ≤ spill n.id ∧ 0 ≤ spill₁ n.id ∧ 0 ≤ spill₂ n.id := by
  refine shared_induction (P := fun i => spill₁ i + spill₂ i ≤ spill i ∧ 0 ≤ spill₁ i ∧ 0 ≤ spill₂ i) ho hsub ?_
  intro r hr hro ih
  obtain ⟨a1, a2⟩ := hb r hr hro
  obtain ⟨b1, b2⟩ := hb₁ r hr hro
  obtain ⟨c1, c2⟩ := hb₂ r hr hro
  rw [arriving_shared (fun _ => rfl) (fun _ => rfl)] at a1 a2
  rw [arriving_shared hid₁ hdown₁, hid₁, hcap₁ r hr] at b1 b2
  rw [arriving_shared hid₂ hdown₂, hid₂, hcap₂ r hr] at c1 c2
  have ih' : ∀ m ∈ R.filter (fun m => decide ((g m).down = some (g r).id)),
      spill₁ (g m).id + spill₂ (g m).id ≤ spill (g m).id ∧ 0 ≤ spill₁ (g m).id ∧ 0 ≤ spill₂ (g m).id := by
    intro m hm
    obtain ⟨h1, h2⟩ := List.mem_filter.1 hm
    exact ih m h1 (by simpa using h2)
  have hsum := sum_map_add_le fun m hm => (ih' m hm).1
  rw [hvol r hr] at a2
  have hs₁ : 0 ≤ ((R.filter fun m => decide ((g m).down = some (g r).id)).map fun m => spill₁ (g m).id).sum :=
    List.sum_nonneg fun x hx => by
      obtain ⟨m, hm, rfl⟩ := List.mem_map.1 hx
      exact (ih' m hm).2.1
  have hs₂ : 0 ≤ ((R.filter fun m => decide ((g m).down = some (g r).id)).map fun m => spill₂ (g m).id).sum :=
    List.sum_nonneg fun x hx => by
      obtain ⟨m, hm, rfl⟩ := List.mem_map.1 hx
      exact (ih' m hm).2.2
  have hn₁ := hnn₁ r hr
  have hn₂ := hnn₂ r hr
  have hc := hcap r hr
  refine ⟨?_, by rw [b2]; exact le_max_left _ _, by rw [c2]; exact le_max_left _ _⟩
  rw [a2, b2, c2]
  rcases le_total ((g₁ r).vol + ((R.filter fun m => decide ((g m).down = some (g r).id)).map fun m => spill₁ (g m).id).sum)
    (g r).cap with h | h <;>
  rcases le_total ((g₂ r).vol + ((R.filter fun m => decide ((g m).down = some (g r).id)).map fun m => spill₂ (g m).id).sum)
    (g r).cap with h' | h'
  · rw [max_eq_left (sub_nonpos.2 h), max_eq_left (sub_nonpos.2 h'), add_zero]; exact le_max_left _ _
  · rw [max_eq_left (sub_nonpos.2 h), max_eq_right (sub_nonneg.2 h')]
    exact le_max_of_le_right (by linarith)
  · rw [max_eq_right (sub_nonneg.2 h), max_eq_left (sub_nonpos.2 h')]
    exact le_max_of_le_right (by linarith)
  · rw [max_eq_right (sub_nonneg.2 h), max_eq_right (sub_nonneg.2 h')]
    exact le_max_of_le_right (by linarith)

theorem between_core {t : K} (ht0 : 0 ≤ t) (ht1 : t ≤ 1) (hid₁ : ∀ r, (g₁ r).id = (g r).id) (hid₂ : ∀ r, (g₂ r).id = (g r).id)
    (hdown₁ : ∀ r, (g₁ r).down = (g r).down) (hdown₂ : ∀ r, (g₂ r).down = (g r).down)
    (hvol : ∀ r ∈ R, (g r).vol = t * (g₁ r).vol + (1 - t) * (g₂ r).vol)
    (hcap : ∀ r ∈ R, (g r).cap = t * (g₁ r).cap + (1 - t) * (g₂ r).cap)
    (ho : UpstreamFirst (R.map g) order) (hsub : ∀ n ∈ order, n ∈ R.map g)
    (hb : ∀ r ∈ R, g r ∈ order → Balanced (R.map g) v spill (g r))
    (hb₁ : ∀ r ∈ R, g r ∈ order → Balanced (R.map g₁) v₁ spill₁ (g₁ r))
    (hb₂ : ∀ r ∈ R, g r ∈ order → Balanced (R.map g₂) v₂ spill₂ (g₂ r)) :
    ∀ n ∈ order, spill n.id ≤ t * spill₁ n.id + (1 - t) * spill₂ n.id := by
  refine shared_induction (P := fun i => spill i ≤ t * spill₁ i + (1 - t) * spill₂ i) ho hsub ?_
  intro r hr hro ih
  obtain ⟨a1, a2⟩ := hb r hr hro
  obtain ⟨b1, b2⟩ := hb₁ r hr hro
  obtain ⟨c1, c2⟩ := hb₂ r hr hro
  rw [arriving_shared (fun _ => rfl) (fun _ => rfl)] at a2
  rw [arriving_shared hid₁ hdown₁, hid₁] at b2
  rw [arriving_shared hid₂ hdown₂, hid₂] at c2
  have hsum := sum_map_mix_le (t := t) (l := R.filter fun m => decide ((g m).down = some (g r).id))
    (h := fun m => spill (g m).id) (f := fun m => spill₁ (g m).id) (g := fun m => spill₂ (g m).id) fun m hm => by
      obtain ⟨h1, h2⟩ := List.mem_filter.1 hm
      exact ih m h1 (by simpa using h2)
  have hv := hvol r hr
  have hc := hcap r hr
  have ht' : 0 ≤ 1 - t := sub_nonneg.2 ht1
  rw [a2]
  refine max_le ?_ ?_
  · refine add_nonneg (mul_nonneg ht0 ?_) (mul_nonneg ht' ?_)
    · rw [b2]; exact le_max_left _ _
    · rw [c2]; exact le_max_left _ _
  · have h1 := mul_le_mul_of_nonneg_left (b2 ▸ le_max_right 0 _) ht0
    have h2 := mul_le_mul_of_nonneg_left (c2 ▸ le_max_right 0 _) ht'
    rw [hv, hc]
    refine le_trans ?_ (add_le_add h1 h2)
    linarith

end Core

/-! ## The network -/

section Network
variable {K : Type} [Field K] [LinearOrder K] [IsStrictOrderedRing K]
variable {attr : String} {ps ps₁ ps₂ events events₁ events₂ : List (Props K)} {ns : List (RainNode K)}
  {w w₁ w₂ c c₁ c₂ v v₁ v₂ spill spill₁ spill₂ : Int → K}

theorem leads_charged {n : RainNode K} (hl : LeadsToRoot ns n) (w c : Int → K) :
    LeadsToRoot (charged ns w c) (charge w c n) := by
  induction hl with
  | root h => exact .root h
  | @step n m hm hd _ ih => exact .step (m := charge w c m) (List.mem_map_of_mem (f := charge w c) hm) hd ih

/-- The events of a rain event on a network with the given water and capacities are `v` and `spill`. -/
structure Rained (attr : String) (ns : List (RainNode K)) (w c : Int → K) (ps events : List (Props K)) (v spill : Int → K) :
    Prop where
  input : NodeInput attr ps (charged ns w c)
  run : RainRun attr ps events
  shown : ∀ n ∈ charged ns w c, LeadsToRoot (charged ns w c) n → ∃ e ∈ events, IsEvent e n v spill

theorem Rained.spec (h : Rained attr ns w c ps events v spill) : ∃ order : List (RainNode K),
    (∀ n ∈ ns, LeadsToRoot ns n → charge w c n ∈ order) ∧
    (∀ n ∈ order, n ∈ charged ns w c ∧ LeadsToRoot (charged ns w c) n) ∧
    UpstreamFirst (charged ns w c) order := by
  obtain ⟨order, h2, h3, h4, h5⟩ := run_spec h.input h.run
  refine ⟨order, fun n hn hl => (h3 _).2 ⟨List.mem_map_of_mem (f := charge w c) hn,
    leads_charged hl w c⟩, fun n hn => (h3 n).1 hn, h4⟩

theorem leads_uncharged {n : RainNode K} {w c : Int → K} (hl : LeadsToRoot (charged ns w c) n) :
    ∀ m : RainNode K, m.down = n.down → LeadsToRoot ns m := by
  induction hl with
  | root h => intro m hm; exact .root (hm.trans h)
  | step hk hd _ ih =>
    intro m hm
    obtain ⟨k, hk', rfl⟩ := List.mem_map.1 hk
    exact .step (m := k) hk' (hm.trans hd) (ih k rfl)

theorem Rained.balanced (h : Rained attr ns w c ps events v spill) {n : RainNode K} (hn : n ∈ ns) (hl : LeadsToRoot ns n) :
    Balanced (charged ns w c) v spill (charge w c n) :=
  run_balanced h.input h.run h.shown _ (List.mem_map_of_mem (f := charge w c) hn)
    (leads_charged hl w c)

/-- C103: water can be put in by portions. If a second rain event falls on the capacity that the first has left, the two
together leave and spill exactly what one event with all the water does. -/
theorem C103_portions (h : Rained attr ns (fun i => w₁ i + w₂ i) c ps events v spill)
    (h₁ : Rained attr ns w₁ c ps₁ events₁ v₁ spill₁) (h₂ : Rained attr ns w₂ (fun i => c i - v₁ i) ps₂ events₂ v₂ spill₂)
    (hw : ∀ n ∈ ns, 0 ≤ w₂ n.id) :
    ∀ n ∈ ns, LeadsToRoot ns n → v n.id = v₁ n.id + v₂ n.id ∧ spill n.id = spill₁ n.id + spill₂ n.id := by
  obtain ⟨order, k1, k2, k3⟩ := h.spec
  intro n hn hl
  exact (portions_core (R := ns) (g := charge (fun i => w₁ i + w₂ i) c) (g₁ := charge w₁ c)
    (g₂ := charge w₂ fun i => c i - v₁ i) (fun _ => rfl) (fun _ => rfl) (fun _ => rfl) (fun _ => rfl) (fun _ _ => rfl) hw (fun _ _ => rfl)
    (fun _ _ => rfl) k3 (fun n hn => (k2 n hn).1) (fun r hr hro => h.balanced hr (leads_uncharged (k2 _ hro).2 r rfl))
    (fun r hr hro => h₁.balanced hr (leads_uncharged (k2 _ hro).2 r rfl))
    (fun r hr hro => h₂.balanced hr (leads_uncharged (k2 _ hro).2 r rfl)) _ (k1 n hn hl)).1

/-- C103: two rain events that fall together spill at least what they spill one by one. -/
theorem C103_together (h : Rained attr ns (fun i => w₁ i + w₂ i) c ps events v spill)
    (h₁ : Rained attr ns w₁ c ps₁ events₁ v₁ spill₁) (h₂ : Rained attr ns w₂ c ps₂ events₂ v₂ spill₂)
    (hw₁ : ∀ n ∈ ns, 0 ≤ w₁ n.id) (hw₂ : ∀ n ∈ ns, 0 ≤ w₂ n.id) (hc : ∀ n ∈ ns, 0 ≤ c n.id) :
    ∀ n ∈ ns, LeadsToRoot ns n → spill₁ n.id + spill₂ n.id ≤ spill n.id := by
  obtain ⟨order, k1, k2, k3⟩ := h.spec
  intro n hn hl
  exact (together_core (R := ns) (g := charge (fun i => w₁ i + w₂ i) c) (g₁ := charge w₁ c)
    (g₂ := charge w₂ c) (fun _ => rfl) (fun _ => rfl) (fun _ => rfl) (fun _ => rfl) (fun _ _ => rfl) hw₁ hw₂ (fun _ _ => rfl)
    (fun _ _ => rfl) hc k3 (fun n hn => (k2 n hn).1) (fun r hr hro => h.balanced hr (leads_uncharged (k2 _ hro).2 r rfl))
    (fun r hr hro => h₁.balanced hr (leads_uncharged (k2 _ hro).2 r rfl))
    (fun r hr hro => h₂.balanced hr (leads_uncharged (k2 _ hro).2 r rfl)) _ (k1 n hn hl)).1

/-- C103: a network whose water and capacities lie between those of two others, in the same proportion everywhere, spills
nowhere more than what is interpolated between them. -/
theorem C103_between {t : K} (ht0 : 0 ≤ t) (ht1 : t ≤ 1)
    (h : Rained attr ns (fun i => t * w₁ i + (1 - t) * w₂ i) (fun i => t * c₁ i + (1 - t) * c₂ i) ps events v spill)
    (h₁ : Rained attr ns w₁ c₁ ps₁ events₁ v₁ spill₁) (h₂ : Rained attr ns w₂ c₂ ps₂ events₂ v₂ spill₂) :
    ∀ n ∈ ns, LeadsToRoot ns n → spill n.id ≤ t * spill₁ n.id + (1 - t) * spill₂ n.id := by
  obtain ⟨order, k1, k2, k3⟩ := h.spec
  intro n hn hl
  exact between_core (R := ns) (g := charge (fun i => t * w₁ i + (1 - t) * w₂ i) (fun i => t * c₁ i + (1 - t) * c₂ i))
    (g₁ := charge w₁ c₁) (g₂ := charge w₂ c₂) ht0 ht1 (fun _ => rfl) (fun _ => rfl) (fun _ => rfl) (fun _ => rfl) (fun _ _ => rfl)
    (fun _ _ => rfl) k3 (fun n hn => (k2 n hn).1) (fun r hr hro => h.balanced hr (leads_uncharged (k2 _ hro).2 r rfl))
    (fun r hr hro => h₁.balanced hr (leads_uncharged (k2 _ hro).2 r rfl))
    (fun r hr hro => h₂.balanced hr (leads_uncharged (k2 _ hro).2 r rfl)) (charge _ _ n) (k1 n hn hl)

end Network

/-! ## The command -/

section Complete
variable {K : Type} [Field K] [LinearOrder K] [IsStrictOrderedRing K]

/-- Even rain on a network, as a function of its amount. -/
theorem rain_curve {gt : GeoTransform K} {fps : List (Feature K)} {R : List Net.Node}
    {nodes : List (Feature K)} (hf : IsForest R) (hids : (R.map (·.id)).Nodup)
    (hn : List.Forall₂ (IsNodeFeature gt fps) R nodes) {areas caps : List K}
    (hareas : List.Forall₂ (fun f x => f.properties.get? "wshed_area" = some (.num x)) fps areas)
    (hcaps : List.Forall₂ (fun f x => f.properties.get? "bspot_vol" = some (.num x)) fps caps) (hnn : ∀ a ∈ areas, 0 ≤ a)
    (hcc : ∀ a ∈ caps, 0 ≤ a) :
    ∃ vols final : K → List (Feature K), (∀ mm, Rain.simpleVolumes nodes "inputv" mm = .ok (vols mm) ∧
        Returns (Network.finalState (vols mm) "inputv") (.ok (final mm)) ∧
        List.Forall₂ (SameBut ["inputv", "v", "spillv", "pctv"]) nodes (final mm)) ∧
      ∀ i < nodes.length, ∃ v spill : K → K, RainCurve v spill ∧
        ∀ mm, ∃ f, (final mm)[i]? = some f ∧ HasNumber f "v" (v mm) ∧ HasNumber f "spillv" (spill mm) := by
  choose vols final v spill h1 h2 h3 h4 h5 h6 using fun mm => rain_balance hf hids hn hareas hcaps mm
  choose order h5 h5' using h5
  have hpos : ∀ (xs : List K), (∀ x ∈ xs, 0 ≤ x) → ∀ n, 0 ≤ ofPourPoint xs n := by
    intro xs hx n
    unfold ofPourPoint
    split
    · rw [List.getD_eq_getElem?_getD]
      cases hy : xs[n.id.toNat]? with
      | none => simp
      | some y => exact hx y (List.mem_of_getElem? hy)
    · exact le_refl _
  refine ⟨vols, final, fun mm => ⟨h1 mm, h2 mm, h3 mm⟩, fun i hi => ?_⟩
  have hi : i < R.length := by rwa [hn.length_eq]
  have hRi : R[i]? = some R[i] := List.getElem?_eq_getElem hi
  have hmem : ∀ mm, rainNode id areas caps mm R[i] ∈ order mm := fun mm =>
    (h5' mm _).2 (List.mem_map_of_mem (f := fun n => rainNode id areas caps mm n) (List.getElem_mem hi))
  have hbal : ∀ mm, ∀ r ∈ R, Balanced (R.map fun n => rainNode id areas caps mm n) (v mm) (spill mm)
      (rainNode id areas caps mm r) := fun mm r hr =>
    h4 mm _ (List.mem_map_of_mem (f := fun n => rainNode id areas caps mm n) hr)
  have hvol : ∀ mm r, (rainNode id areas caps mm r).vol = ofPourPoint areas r * mm * (1 / 1000) := fun _ _ => rfl
  have hvnn : ∀ mm, 0 ≤ mm → ∀ r ∈ R, 0 ≤ (rainNode id areas caps mm r).vol := fun mm hmm r _ => by
    rw [hvol]; exact mul_nonneg (mul_nonneg (hpos _ hnn r) hmm) (by norm_num)
  have hbetween : ∀ a b t, 0 ≤ t → t ≤ 1 → spill (t * a + (1 - t) * b) R[i].id ≤ t * spill a R[i].id + (1 - t) * spill b R[i].id := by
    intro a b t ht0 ht1
    exact between_core (R := R) (g := fun n => rainNode id areas caps (t * a + (1 - t) * b) n)
      (g₁ := fun n => rainNode id areas caps a n) (g₂ := fun n => rainNode id areas caps b n) ht0 ht1 (fun _ => rfl) (fun _ => rfl)
      (fun _ => rfl) (fun _ => rfl) (fun r _ => by simp only [hvol]; ring)
      (fun r _ => by show ofPourPoint caps r = t * ofPourPoint caps r + (1 - t) * ofPourPoint caps r; ring)
      (h5 _) (fun n hn => (h5' _ n).1 hn) (fun r hr _ => hbal _ r hr) (fun r hr _ => hbal _ r hr) (fun r hr _ => hbal _ r hr)
      _ (hmem _)
  have htogether : ∀ a b, 0 ≤ a → 0 ≤ b → spill a R[i].id + spill b R[i].id ≤ spill (a + b) R[i].id := by
    intro a b ha hb
    exact (together_core (R := R) (g := fun n => rainNode id areas caps (a + b) n)
      (g₁ := fun n => rainNode id areas caps a n) (g₂ := fun n => rainNode id areas caps b n) (fun _ => rfl) (fun _ => rfl)
      (fun _ => rfl) (fun _ => rfl) (fun r _ => by simp only [hvol]; ring) (hvnn a ha) (hvnn b hb)
      (fun _ _ => rfl) (fun _ _ => rfl) (fun r _ => hpos _ hcc r)
      (h5 _) (fun n hn => (h5' _ n).1 hn) (fun r hr _ => hbal _ r hr) (fun r hr _ => hbal _ r hr) (fun r hr _ => hbal _ r hr)
      _ (hmem _)).1
  have hsnn : ∀ mm, 0 ≤ spill mm R[i].id := fun mm => by
    rw [show R[i].id = (rainNode id areas caps mm R[i]).id from rfl, (hbal mm _ (List.getElem_mem hi)).2]
    exact le_max_left _ _
  have hdry : ∀ r ∈ R, spill 0 r.id = 0 := by
    have := shared_induction (R := R) (g := fun n => rainNode id areas caps 0 n) (h5 0) (fun n hn => (h5' _ n).1 hn)
      (P := fun j => spill 0 j = 0) (by
        intro r hr _ ih
        have hb := (hbal 0 r hr).2
        rw [hb]
        refine max_eq_left (sub_nonpos.2 ?_)
        have : arriving (R.map fun n => rainNode id areas caps 0 n) (spill 0) (rainNode id areas caps 0 r) = 0 := by
          unfold arriving
          rw [hvol, List.sum_eq_zero]
          · simp
          · intro x hx
            obtain ⟨m, hm, rfl⟩ := List.mem_map.1 hx
            obtain ⟨hm, hd⟩ := mem_upstreamOf.1 hm
            obtain ⟨m, hm', rfl⟩ := List.mem_map.1 hm
            exact ih m hm' hd
        rw [this]
        exact hpos _ hcc r)
    intro r hr
    exact this _ ((h5' 0 _).2 (List.mem_map_of_mem (f := fun n => rainNode id areas caps 0 n) hr))
  refine ⟨fun mm => v mm R[i].id, fun mm => spill mm R[i].id, ⟨⟨?_, hdry _ (List.getElem_mem hi)⟩, fun a b hab => ?_,
    htogether, fun a k ha hk => ?_, hbetween⟩, fun mm => ?_⟩
  · have hb := (hbal 0 _ (List.getElem_mem hi)).1
    have harr : arriving (R.map fun n => rainNode id areas caps 0 n) (spill 0) (rainNode id areas caps 0 R[i]) = 0 := by
      unfold arriving
      rw [hvol, List.sum_eq_zero]
      · simp
      · intro x hx
        obtain ⟨m, hm, rfl⟩ := List.mem_map.1 hx
        obtain ⟨hm, _⟩ := mem_upstreamOf.1 hm
        obtain ⟨m, hm', rfl⟩ := List.mem_map.1 hm
        exact hdry m hm'
    rw [harr] at hb
    exact hb.trans (min_eq_left (hpos _ hcc _))
  · obtain ⟨x, y⟩ := spill_mono (ns := R.map fun n => rainNode id areas caps a n)
      (ns' := R.map fun n => rainNode id areas caps b n)
      (by
        rw [List.forall₂_map_left_iff, List.forall₂_map_right_iff, List.forall₂_same]
        exact fun n _ => ⟨rfl, rfl, by
          rw [hvol, hvol]
          exact mul_le_mul_of_nonneg_right (mul_le_mul_of_nonneg_left hab (hpos _ hnn _)) (by norm_num), le_refl _⟩) (h5 a)
      (fun n hn => (h5' a n).1 hn) (fun n hn => h4 a n ((h5' a n).1 hn)) (v' := v b) (spill' := spill b)
      (fun n _ n' hn' _ => h4 b n' hn') _ (hmem a)
    exact ⟨y _ (List.mem_map_of_mem (f := fun n => rainNode id areas caps b n) (List.getElem_mem hi)) ⟨rfl, rfl, by
          rw [hvol, hvol]
          exact mul_le_mul_of_nonneg_right (mul_le_mul_of_nonneg_left hab (hpos _ hnn _)) (by norm_num), le_refl _⟩ rfl, x⟩
  · have hk0 : 0 < k := lt_of_lt_of_le one_pos hk
    have := hbetween (k * a) 0 (1 / k) (by positivity) (by rw [div_le_one hk0]; exact hk)
    have e : 1 / k * (k * a) + (1 - 1 / k) * 0 = a := by field_simp; ring
    rw [e, hdry _ (List.getElem_mem hi), mul_zero, add_zero] at this
    have h := mul_le_mul_of_nonneg_left this hk0.le
    have e2 : k * (1 / k * spill (k * a) R[i].id) = spill (k * a) R[i].id := by field_simp
    rwa [e2] at h
  · obtain ⟨f, hf, hx⟩ := forall₂_get (h6 mm) hRi
    exact ⟨f, hf, hx⟩

variable {β : Type} [LinearOrder β] [OrderTop β]
variable {drop : β → β → K} {sub : β → β → K} {scale : K → K} {safe : Raster β → (β → β) × (β → β)}
  {dem : Raster β} {cc : Raster Bool → Raster Int × Nat} {gt : GeoTransform K}

theorem points_nonneg {f : Bluespots.StatUnits K → Bool} {depths : Raster K} {flowdir : Raster Nat}
    {rule : List Cell → Cell → Prop} {b : Bluespots.Out K} (hb : Bluespots.IsResult gt depths f flowdir rule b)
    (hnn : ∀ c, depths.Has c → 0 ≤ depths.get c) :
    (∀ a ∈ b.pourpoints.map (·.wshed_area), 0 ≤ a) ∧ ∀ a ∈ b.pourpoints.map (·.bspot_vol), 0 ≤ a := by
  have hca : 0 ≤ cellArea gt := mul_nonneg (abs_nonneg _) (abs_nonneg _)
  constructor
  · intro a ha
    obtain ⟨p, hp, rfl⟩ := List.mem_map.1 ha
    obtain ⟨i, hi, rfl⟩ := List.getElem_of_mem hp
    obtain ⟨p, hp, hip, _⟩ := hb.points i _ _ (by have := hb.length; omega) (lists_filter _ _ _) (lists_filter _ _ _)
    obtain ⟨_, hp⟩ := List.getElem?_eq_some_iff.1 hp
    rw [hp, hip.wshed_area]
    exact mul_nonneg (Nat.cast_nonneg _) hca
  · intro a ha
    obtain ⟨p, hp, rfl⟩ := List.mem_map.1 ha
    obtain ⟨i, hi, rfl⟩ := List.getElem_of_mem hp
    obtain ⟨p, hp, hip, _⟩ := hb.points i _ _ (by have := hb.length; omega) (lists_filter _ _ _) (lists_filter _ _ _)
    obtain ⟨_, hp⟩ := List.getElem?_eq_some_iff.1 hp
    rw [hp, hip.vol]
    refine mul_nonneg (List.sum_nonneg fun y hy => ?_) hca
    obtain ⟨c, hc, rfl⟩ := List.mem_map.1 hy
    exact hnn c (Flow.mem_cellList.1 (List.mem_filter.1 hc).1)

/-- C103: the `complete` command on one DEM with every amount of rain. The final state always lists the same nodes, and what
each holds and spills depends on the rain as `RainCurve` says. -/
theorem C103_rain_curve (h : SoundTerrain drop sub scale safe dem) (hcc : LabelContract cc) (hsq : SquareCells gt)
    (want : Bool) (f : Bluespots.StatUnits K → Bool) :
    ∃ (nodes : List (Feature K)) (out : K → Complete.Out β K),
      (∀ mm, (Complete.processAll cc (Dem.python drop scale) Bluespots.python sub safe gt dem want (some f) mm).Yields
          (.ok (out mm)) ∧ (out mm).nodes = nodes ∧
        List.Forall₂ (SameBut ["inputv", "v", "spillv", "pctv"]) nodes (out mm).final) ∧
      ∀ i < nodes.length, ∃ v spill : K → K, RainCurve v spill ∧
        ∀ mm, ∃ g, (out mm).final[i]? = some g ∧ HasNumber g "v" (v mm) ∧ HasNumber g "spillv" (spill mm) := by
  obtain ⟨d, hd, _, hdsh, hfsh, hcells, _, ⟨z, _, hdown⟩, hacc, hno⟩ := C62_dem_outputs h want
  obtain ⟨_, _, _, hnf, hfd, _, _⟩ := Dem.process_inv hd
  have hnf : Returns (Fill.fillTerrainNoFlats (safe dem).1 (safe dem).2 dem) (.ok d.noFlats) := hnf
  obtain ⟨hnsh, hfin, _⟩ := noFlats_finite h hnf
  obtain ⟨b, nodes, streams, choose, R, hrun, hb, hR, hforest, hs2, hroots, hids, hperm, hjun⟩ :=
    chain_network (fl := id) (demEngine := Dem.python drop scale) (bluespotEngine := Bluespots.python)
    (.inl rfl) rfl hcc hsq ⟨by have := h.rows; omega, by have := h.cols; omega⟩ want f hd hdsh hfsh hdown hnsh hfin
    h.drop_pos h.scale_pos (fun hw => by
      obtain ⟨a, h1, h2⟩ := hacc hw
      exact ⟨a, a, h1, h2, rfl, rfl, fun _ _ => rfl⟩) hno
  have hnn := points_nonneg hb.exact fun c hc => (hcells c (by
    unfold Raster.Has at hc ⊢; rwa [hdsh.1, hdsh.2] at hc)).2.2.1
  obtain ⟨vols, final, a1, a2⟩ := rain_curve hforest hids hs2 (points_areas b).1 (points_areas b).2 hnn.1 hnn.2
  exact ⟨nodes, fun mm => ⟨d, b, nodes, streams, vols mm, final mm⟩, fun mm => ⟨hrun mm _ _ (a1 mm).1 (a1 mm).2.1, rfl,
    (a1 mm).2.2⟩, a2⟩

/-- C103 with the compiled functions, for every DEM without exactly three rows or columns. -/
theorem C103_rain_curve_compiled (junk : Int × Int) (h : SoundTerrain drop sub scale safe dem) (hr3 : dem.rows ≠ 3)
    (hc3 : dem.cols ≠ 3) (hcc : LabelContract cc) (hsq : SquareCells gt) (want : Bool) (f : Bluespots.StatUnits K → Bool) :
    ∃ (nodes : List (Feature K)) (out : K → Complete.Out β K),
      (∀ mm, (Complete.processAll cc (Dem.compiled junk drop scale) (Bluespots.compiled junk) sub safe gt dem want (some f)
          mm).Yields (.ok (out mm)) ∧ (out mm).nodes = nodes ∧
        List.Forall₂ (SameBut ["inputv", "v", "spillv", "pctv"]) nodes (out mm).final) ∧
      ∀ i < nodes.length, ∃ v spill : K → K, RainCurve v spill ∧
        ∀ mm, ∃ g, (out mm).final[i]? = some g ∧ HasNumber g "v" (v mm) ∧ HasNumber g "spillv" (spill mm) := by
  obtain ⟨d, hd, _, hdsh, hfsh, _, hcells, _, ⟨z, _, hdown⟩, hacc, hno⟩ := C62_dem_outputs_compiled junk h hr3 hc3 want
  obtain ⟨_, _, _, hnf, hfd, _, _⟩ := Dem.process_inv hd
  obtain ⟨nf, hnf', hnr, hnc, _, _, _, hnfin, _⟩ := C11_compiled_noflats_valid (safe dem).1 (safe dem).2 h.mono.1 h.mono.2
    (fun x => (h.ge x).1) (fun x => (h.ge x).2) dem ⟨h.rows, hr3⟩ ⟨h.cols, hc3⟩ h.finite (fun x hx => (h.keep x hx).1)
    (fun x hx => (h.keep x hx).2)
  have heq : Except.ok nf = Except.ok (ε := PyErr) d.noFlats := Returns.unique hnf' hnf
  cases heq
  obtain ⟨b, nodes, streams, choose, R, hrun, hb, hR, hforest, hs2, hroots, hids, hperm, hjun⟩ :=
    chain_network (fl := id) (demEngine := Dem.compiled junk drop scale) (bluespotEngine := Bluespots.compiled junk)
    (.inr ⟨junk, rfl⟩) rfl hcc hsq ⟨by have := h.rows; omega, by have := h.cols; omega⟩ want f hd hdsh hfsh hdown
    ⟨hnr, hnc⟩ hnfin h.drop_pos h.scale_pos hacc hno
  have hnn := points_nonneg hb.exact fun c hc => (hcells c (by
    unfold Raster.Has at hc ⊢; rwa [hdsh.1, hdsh.2] at hc)).2.2.1
  obtain ⟨vols, final, a1, a2⟩ := rain_curve hforest hids hs2 (points_areas b).1 (points_areas b).2 hnn.1 hnn.2
  exact ⟨nodes, fun mm => ⟨d, b, nodes, streams, vols mm, final mm⟩, fun mm => ⟨hrun mm _ _ (a1 mm).1 (a1 mm).2.1, rfl,
    (a1 mm).2.2⟩, a2⟩

end Complete

/-! ### The hypotheses can be met -/

/-- There is a run for every network with distinct ids, all water and all capacities. -/
theorem exists_rained {ns : List (RainNode Rat)} (hnd : (ns.map (·.id)).Nodup) (w c : Int → Rat) :
    ∃ ps events v spill, Rained "inputv" ns w c ps events v spill := by
  have hi : NodeInput "inputv" (ns.map fun n => demoProps n.id n.down (w n.id) (c n.id)) (charged ns w c) := by
    refine ⟨?_, ?_, by decide⟩
    · unfold charged
      rw [List.forall₂_map_left_iff, List.forall₂_map_right_iff, List.forall₂_same]
      exact fun n _ => demo_carries _ _ _ _
    · unfold charged
      rw [List.map_map]; exact hnd
  obtain ⟨events, h1, -⟩ := C36_reports hi
  obtain ⟨v, spill, -, h2⟩ := C34_balance hi h1
  exact ⟨_, events, v, spill, hi, h1, fun n hn hl => (h2 n hn hl).1⟩

/-- C103: the three runs of `C103_portions` on the demo nodes. -/
example : ∃ ps events v spill ps₁ events₁ v₁ spill₁ ps₂ events₂ v₂ spill₂,
    Rained "inputv" demoNodes (fun i => (i : Rat) + 3) (fun _ => 4) ps events v spill ∧
    Rained "inputv" demoNodes (fun i => (i : Rat)) (fun _ => 4) ps₁ events₁ v₁ spill₁ ∧
    Rained "inputv" demoNodes (fun _ => (3 : Rat)) (fun i => 4 - v₁ i) ps₂ events₂ v₂ spill₂ ∧
    (∀ n ∈ demoNodes, (0 : Rat) ≤ n.id) ∧ LeadsToRoot demoNodes ⟨1, some 3, 5, 2⟩ := by
  obtain ⟨ps, events, v, spill, h⟩ := exists_rained (ns := demoNodes) (by decide) (fun i => (i : Rat) + 3) (fun _ => 4)
  obtain ⟨ps₁, events₁, v₁, spill₁, h₁⟩ := exists_rained (ns := demoNodes) (by decide) (fun i => (i : Rat)) (fun _ => 4)
  obtain ⟨ps₂, events₂, v₂, spill₂, h₂⟩ := exists_rained (ns := demoNodes) (by decide) (fun _ => (3 : Rat)) (fun i => 4 - v₁ i)
  exact ⟨_, _, _, _, _, _, _, _, _, _, _, _, h, h₁, h₂, by decide +kernel, demo_leads⟩

/-- What a rain event reports as spilled and held. -/
def demoRain (ps : List (Props Rat)) : Option (Option (List (List (Option (Val Rat))))) :=
  (ExceptT.run (do
      let s ← (ExceptT.mk (some (addNodes State.init ps)) : Net.Comp (State Rat))
      rainEvent s "inputv" 10 : Net.Comp (List (Props Rat)))).map fun r => r.toOption.map fun es => es.map fun e =>
        [Dict.get? e "nodeid", Dict.get? e "spillv", Dict.get? e "v"]

/-- Node 1 spills into node 3. First 2 and 1 m³, then 3 and 3 on the capacity that is left, and both at once. -/
example : demoRain [demoProps 1 (some 3) 2 3, demoProps 3 none 1 4] =
      some (some [[some (.int 1), some (.num 0), some (.num 2)], [some (.int 3), some (.num 0), some (.num 1)]]) ∧
    demoRain [demoProps 1 (some 3) 3 1, demoProps 3 none 3 3] =
      some (some [[some (.int 1), some (.num 2), some (.num 1)], [some (.int 3), some (.num 2), some (.num 3)]]) ∧
    demoRain [demoProps 1 (some 3) 5 3, demoProps 3 none 4 4] =
      some (some [[some (.int 1), some (.num 2), some (.num 3)], [some (.int 3), some (.num 2), some (.num 4)]]) := by
  refine ⟨?_, ?_, ?_⟩ <;> decide +kernel

/-- The second shower alone, on empty bluespots, spills nothing: together they spill more than one by one. -/
example : demoRain [demoProps 1 (some 3) 3 3, demoProps 3 none 3 4] =
    some (some [[some (.int 1), some (.num 0), some (.num 3)], [some (.int 3), some (.num 0), some (.num 3)]]) := by
  decide +kernel

example : ∃ cc, LabelContract cc ∧ SquareCells (⟨0, 2, 0, 0, 0, -2⟩ : GeoTransform Rat) ∧
    SoundTerrain (K := Rat) exactSub exactSub (· * (7/10)) (exactSafe (1/1000) (14/10000)) (finiteDem demoValley) ∧
    demoValley.rows ≠ 3 ∧ demoValley.cols ≠ 3 := by
  obtain ⟨cc, h⟩ := exists_labelContract
  exact ⟨cc, h, by unfold SquareCells; norm_num, exact_sound demoValley (by decide) (by decide) (by norm_num) (by norm_num)
    (by norm_num), by decide, by decide⟩

end Malstroem
