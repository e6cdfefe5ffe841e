/-
Properties C93, C94 and C95: the way water takes over the raster, and the pour point as the place where it leaves a
bluespot.
-/
import Verif.Props.Float
import Verif.Props.Filters
import Verif.Props.Levels
import Verif.Props.Engines
import Verif.Props.EvenRaster
import Mathlib.Tactic.Positivity

set_option linter.unusedSectionVars false

namespace Malstroem
open Spec

/-! ### C94: the lowest way out -/

section
variable {K : Type} [Field K] [LinearOrder K] [IsStrictOrderedRing K] {β : Type} [LinearOrder β] [OrderTop β]
  {drop sub : β → β → K} {scale : K → K} {safe : Raster β → (β → β) × (β → β)} {dem : Raster β}

/-- `num` gives the elevations as numbers; adding `short` or `diag` raises them by at most `m`. -/
structure Steps (num : β → K) (m : K) (short diag : β → β) : Prop where
  order : ∀ a b, a < ⊤ → b < ⊤ → (a ≤ b ↔ num a ≤ num b)
  small : ∀ x, x < ⊤ → num (short x) ≤ num x + m ∧ num (diag x) ≤ num x + m
  nonneg : 0 ≤ m

/-- Besides, different elevations of the DEM are so far apart that adding `m` once for each of its cells does not reach
from one to the next. -/
structure SmallSteps (num : β → K) (m : K) (short diag : β → β) (dem : Raster β) : Prop
    extends Steps num m short diag where
  apart : ∀ a b, dem.Has a → dem.Has b → dem.get a < dem.get b →
    num (dem.get a) + (dem.rows * dem.cols : Nat) * m ≤ num (dem.get b)

/-- Climbing with increments, compared to climbing without. -/
theorem climb_le_add {num : β → K} {m : K} {short diag : β → β} (hs : Steps num m short diag)
    (hkeep : ∀ x, x < ⊤ → short x < ⊤ ∧ diag x < ⊤) (hfin : ∀ c, dem.Has c → dem.get c < ⊤) {c : Cell} {p : List Cell}
    (hp : IsEscape dem.rows dem.cols c p) :
    Fill.climbS (fun _ _ => id) dem.get p < ⊤ ∧ Fill.climbS (Fill.stepSD short diag) dem.get p < ⊤ ∧
      num (Fill.climbS (Fill.stepSD short diag) dem.get p) ≤
        num (Fill.climbS (fun _ _ => id) dem.get p) + (p.length : K) * m := by
  refine IsEscape.rec' (motive := fun c p =>
    Fill.climbS (fun _ _ => id) dem.get p < ⊤ ∧ Fill.climbS (Fill.stepSD short diag) dem.get p < ⊤ ∧
      num (Fill.climbS (Fill.stepSD short diag) dem.get p) ≤
        num (Fill.climbS (fun _ _ => id) dem.get p) + (p.length : K) * m) ?_ ?_ hp
  · intro e he
    refine ⟨hfin e he.1, hfin e he.1, ?_⟩
    show num (dem.get e) ≤ num (dem.get e) + _
    have : (0 : K) ≤ (([e] : List Cell).length : K) * m := mul_nonneg (Nat.cast_nonneg _) hs.nonneg
    linarith
  · rintro a b q ha _ _ ⟨h1, h2, h3⟩
    rw [Fill.climbS_cons a rfl, Fill.climbS_cons a rfl, id]
    set u := Fill.climbS (fun _ _ => id) dem.get (b :: q)
    set v := Fill.climbS (Fill.stepSD short diag) dem.get (b :: q)
    have hstep : Fill.stepSD short diag a b v < ⊤ ∧ num (Fill.stepSD short diag a b v) ≤ num v + m := by
      unfold Fill.stepSD
      split_ifs
      · exact ⟨(hkeep v h2).1, (hs.small v h2).1⟩
      · exact ⟨(hkeep v h2).2, (hs.small v h2).2⟩
    have ha := hfin a ha
    have hmax : max (dem.get a) u < ⊤ := max_lt ha h1
    refine ⟨hmax, max_lt ha hstep.1, ?_⟩
    have hq : (0 : K) ≤ ((b :: q).length : K) * m := mul_nonneg (Nat.cast_nonneg _) hs.nonneg
    have hlen : ((a :: b :: q).length : K) * m = ((b :: q).length : K) * m + m := by
      rw [List.length_cons]; push_cast; ring
    have hm := hs.nonneg
    have hu := (hs.order u (max (dem.get a) u) h1 hmax).1 (le_max_right _ _)
    have hda := (hs.order (dem.get a) (max (dem.get a) u) ha hmax).1 (le_max_left _ _)
    rw [hlen]
    rcases max_choice (dem.get a) (Fill.stepSD short diag a b v) with e | e <;> rw [e]
    · linarith
    · linarith [hstep.2]

/-- The increments never carry the surface without flats past the next elevation that occurs in the DEM. -/
theorem noFlats_below_next (h : SoundTerrain drop sub scale safe dem) {num : β → K} {m : K}
    (hs : SmallSteps num m (safe dem).1 (safe dem).2 dem) {f nf : Raster β}
    (hf : Returns (Fill.fillTerrain dem) (.ok f))
    (hnf : Returns (Fill.fillTerrainNoFlats (safe dem).1 (safe dem).2 dem) (.ok nf)) {c x : Cell} (hc : dem.Has c)
    (hx : dem.Has x) (hlt : f.get c < dem.get x) : nf.get c ≤ dem.get x := by
  obtain ⟨hsh, hfin, hffin⟩ := noFlats_finite h hnf
  obtain ⟨hI, _⟩ := Fill.inv_of_returns hf
  obtain ⟨hIn, hFn⟩ := Fill.inv_of_returns_nf h.mono.1 h.mono.2 (fun x => (h.ge x).1) (fun x => (h.ge x).2) hnf
  obtain ⟨p, hp, hnd, hcl, _⟩ := (hI.wit c hc).resolve_left (hffin f hf c hc).ne
  obtain ⟨h1, h2, h3⟩ := climb_le_add hs.toSteps h.keep h.finite hp
  have hgood := Fill.sd_good h.mono.1 h.mono.2 (fun x => (h.ge x).1) (fun x => (h.ge x).2)
  refine (Fill.fix_le_climb hgood hIn hFn hp).trans ?_
  obtain ⟨y, hy, hye⟩ := climb_attained hp dem
  have hap := hs.apart y x (hp.inside y hy) hx (by rw [hye, hcl]; exact hlt)
  rw [hye] at hap
  refine (hs.order _ _ h2 (h.finite x hx)).2 (h3.trans (le_trans ?_ hap))
  have hlen : p.length ≤ dem.rows * dem.cols := by
    rw [← Flow.length_cellList]
    exact (List.subperm_of_subset hnd fun x hx => Flow.mem_cellList.2 (hp.inside x hx)).length_le
  have : (p.length : K) * m ≤ (dem.rows * dem.cols : Nat) * m :=
    mul_le_mul_of_nonneg_right (Nat.cast_le.2 hlen) hs.nonneg
  linarith

/-- In each step of the flow the filled terrain does not rise. -/
theorem filled_falls (h : SoundTerrain drop sub scale safe dem) {num : β → K} {m : K}
    (hs : SmallSteps num m (safe dem).1 (safe dem).2 dem) {f nf : Raster β}
    (hf : Returns (Fill.fillTerrain dem) (.ok f))
    (hnf : Returns (Fill.fillTerrainNoFlats (safe dem).1 (safe dem).2 dem) (.ok nf)) {a b : Cell} (ha : dem.Has a)
    (hb : dem.Has b) (hlt : nf.get b < nf.get a) : f.get b ≤ f.get a := by
  by_contra hcon
  rw [not_le] at hcon
  obtain ⟨p, hp, ⟨x, hx, hxe⟩, _⟩ := (C04_fill_eq_spill_level dem f hf b hb).1
  have h1 := noFlats_below_next h hs hf hnf ha (hp.inside x hx) (by rw [hxe]; exact hcon)
  obtain ⟨r, hr, _, _, _, _, hle⟩ := C06_noflats_returns_bracketed _ _ h.mono.1 h.mono.2 (fun x => (h.ge x).1)
    (fun x => (h.ge x).2) dem h.rows h.cols
  have heq : Except.ok r = Except.ok (ε := PyErr) nf := Returns.unique hr hnf
  cases heq
  have h2 := hle f hf b hb
  rw [hxe] at h1
  exact absurd (h1.trans h2) (not_le.2 hlt)

/-- A downstream trace is a way out. -/
theorem escape_of_trace {rows cols : Nat} {fd : Cell → Nat} {c : Cell} {l : List Cell} (h : IsTrace rows cols fd c l)
    (hd : ∀ x, InGrid rows cols x → fd x < 8) : IsEscape rows cols c l := by
  refine ⟨h.head, h.chain.imp fun _ _ hab => Flow.flowsTo_adj hab, h.inside, ?_⟩
  obtain ⟨e, he, hstop⟩ := h.stop
  have hin := h.inside e (List.mem_of_getLast? he)
  refine ⟨e, he, ?_⟩
  rcases edge_or_interior hin with h | h
  · exact h
  · have hf : FlowsTo fd e (neighbour e (fd e)) := Flow.flowsTo_iff.2 ⟨hd e hin, rfl⟩
    exact absurd (interior_adj_inGrid h (Flow.flowsTo_adj hf)) (hstop _ hf)

theorem highest_of_falling {c : Cell} {l : List Cell} {rows cols : Nat} {z f : Cell → β} (hl : IsEscape rows cols c l)
    (hle : ∀ x ∈ l, z x ≤ f x) (hch : l.IsChain fun a b => f b ≤ f a) (hs : IsSpillLevel rows cols z c (f c)) :
    IsHighest z l (f c) := by
  have hall : ∀ x ∈ l, f x ≤ f c := by
    obtain ⟨t, rfl⟩ : ∃ t, l = c :: t := by
      cases l with
      | nil => have := hl.head; simp at this
      | cons a t => have := hl.head; simp at this; exact ⟨t, by rw [this]⟩
    intro x hx
    rcases List.mem_cons.1 hx with rfl | hx
    · exact le_rfl
    · have ht : (c :: t).Pairwise fun a b => f b ≤ f a := by
        haveI : IsTrans Cell fun a b => f b ≤ f a := ⟨fun _ _ _ h1 h2 => h2.trans h1⟩
        exact List.isChain_iff_pairwise.1 hch
      exact (List.pairwise_cons.1 ht).1 x hx
  obtain ⟨hi, hhi⟩ : ∃ h, IsHighest z l h := by
    have hne : l ≠ [] := by rintro rfl; have := hl.head; simp at this
    clear hall hs hch hle hl
    induction l with
    | nil => exact absurd rfl hne
    | cons a t ih =>
      by_cases ht : t = []
      · subst ht
        exact ⟨z a, ⟨a, by simp, rfl⟩, by rintro _ ⟨x, hx, rfl⟩; simp at hx; rw [hx]⟩
      · obtain ⟨h, ⟨y, hy, hye⟩, hub⟩ := ih ht
        refine ⟨max (z a) h, ?_, ?_⟩
        · rcases max_choice (z a) h with e | e <;> rw [e]
          · exact ⟨a, by simp, rfl⟩
          · exact ⟨y, by simp [hy], hye⟩
        · rintro _ ⟨x, hx, rfl⟩
          rcases List.mem_cons.1 hx with rfl | hx
          · exact le_max_left _ _
          · exact (hub ⟨x, hx, rfl⟩).trans (le_max_right _ _)
  have h1 : f c ≤ hi := hs.2 ⟨l, hl, hhi⟩
  have h2 : hi ≤ f c := by
    obtain ⟨x, hx, hxe⟩ := hhi.1
    rw [← hxe]
    exact (hle x hx).trans (hall x hx)
  rw [le_antisymm h1 h2]
  exact hhi

/-- C94. Where the increments of the surface without flats cannot add up to the difference of two elevations of the
DEM, the flow from each cell takes a lowest way out: the cells it passes lead over the edge, the filled terrain
never rises on the way, and the highest ground on the way is the spill level of the cell, the lowest that any way out
has to offer. -/
theorem C94_lowest_way_out (h : SoundTerrain drop sub scale safe dem) {num : β → K} {m : K}
    (hs : SmallSteps num m (safe dem).1 (safe dem).2 dem) (want : Bool) :
    ∃ out, Returns (Dem.process (Dem.python drop scale) sub safe true want dem) (.ok out) ∧
      ∀ c, dem.Has c → IsSpillLevel dem.rows dem.cols dem.get c (out.filled.get c) ∧
        ∃ way, IsTrace dem.rows dem.cols out.flowdir.get c way ∧ IsEscape dem.rows dem.cols c way ∧
          way.IsChain (fun a b => out.filled.get b ≤ out.filled.get a) ∧
          IsHighest dem.get way (out.filled.get c) := by
  obtain ⟨out, hout, _, _, _, hcells, _⟩ := C62_dem_outputs h want
  obtain ⟨_, hfill, _, hnf, hfd, _, _⟩ := Dem.process_inv hout
  have hfill : Returns (Fill.fillTerrain dem) (.ok out.filled) := hfill
  have hnf : Returns (Fill.fillTerrainNoFlats (safe dem).1 (safe dem).2 dem) (.ok out.noFlats) := hnf
  have hdown : DrainsDownhill dem.rows dem.cols out.noFlats.get out.flowdir :=
    C15_dem_flow_drains drop sub scale safe true want dem out h.drop_pos h.scale_pos h.finite h.mono h.ge h.keep hout
      (h.strict _ (.inl hnf))
  refine ⟨out, hout, fun c hc => ⟨(hcells c hc).1, ?_⟩⟩
  obtain ⟨_, _, l, _, hl, _, hch⟩ := hdown c hc
  have hesc := escape_of_trace hl fun x hx => (hdown x hx).1
  have hfall : l.IsChain (fun a b => out.filled.get b ≤ out.filled.get a) := by
    have key : ∀ l : List Cell, (∀ x ∈ l, dem.Has x) → l.IsChain (fun a b => out.noFlats.get b < out.noFlats.get a) →
        l.IsChain (fun a b => out.filled.get b ≤ out.filled.get a) := by
      intro l
      induction l with
      | nil => intros; exact .nil
      | cons a t ih =>
        intro hin hch
        cases t with
        | nil => exact .singleton _
        | cons b t =>
          rw [List.isChain_cons_cons] at hch ⊢
          exact ⟨filled_falls h hs hfill hnf (hin a (by simp)) (hin b (by simp)) hch.1,
            ih (fun x hx => hin x (by simp [hx])) hch.2⟩
    exact key l hl.inside hch
  exact ⟨l, hl, hesc, hfall, highest_of_falling hesc
    (fun x hx => (C02_fill_ge_dem_edge dem out.filled hfill).1 x (hl.inside x hx)) hfall (hcells c hc).1⟩

theorem steps_exact {short diag : K} (hs : 0 < short) (dem : Raster (WithTop K)) :
    Steps (·.untopD 0) (max short diag) (exactSafe short diag dem).1 (exactSafe short diag dem).2 where
  order := by
    intro a b ha hb
    lift a to K using ha.ne
    lift b to K using hb.ne
    simp
  small := by
    intro x hx
    lift x to K using hx.ne
    have e : ∀ s : K, ((x : WithTop K) + (s : WithTop K)).untopD 0 = x + s := fun s => rfl
    simp only [exactSafe, e, WithTop.untopD_coe]
    exact ⟨by have := le_max_left short diag; linarith, by have := le_max_right short diag; linarith⟩
  nonneg := hs.le.trans (le_max_left _ _)

theorem smallSteps_exact {dem : Raster K} {short diag : K} (hs : 0 < short) (_ : 0 < diag)
    (hapart : ∀ a b, dem.Has a → dem.Has b → dem.get a < dem.get b →
      dem.get a + (dem.rows * dem.cols : Nat) * max short diag ≤ dem.get b) :
    SmallSteps (·.untopD 0) (max short diag) (exactSafe short diag (finiteDem dem)).1
      (exactSafe short diag (finiteDem dem)).2 (finiteDem dem) where
  toSteps := steps_exact hs _
  apart := by
    intro a b ha hb hlt
    exact hapart a b ha hb (WithTop.coe_lt_coe.1 hlt)

/-- C94 in exact arithmetic with increments `short` and `diag`: it is enough that different elevations differ by the
number of cells times the larger increment. -/
theorem C94_exact {dem : Raster K} (hr : 2 ≤ dem.rows) (hc : 2 ≤ dem.cols) {short diag k : K} (hs : 0 < short)
    (hd : 0 < diag) (hk : 0 < k)
    (hapart : ∀ a b, dem.Has a → dem.Has b → dem.get a < dem.get b →
      dem.get a + (dem.rows * dem.cols : Nat) * max short diag ≤ dem.get b) (want : Bool) :
    ∃ out, Returns (Dem.process (Dem.python exactSub (· * k)) exactSub (exactSafe short diag) true want (finiteDem dem))
        (.ok out) ∧
      ∀ c, dem.Has c → ∃ z : K, out.filled.get c = z ∧ IsSpillLevel dem.rows dem.cols dem.get c z ∧
        ∃ way, IsTrace dem.rows dem.cols out.flowdir.get c way ∧ IsEscape dem.rows dem.cols c way ∧
          way.IsChain (fun a b => out.filled.get b ≤ out.filled.get a) ∧ IsHighest dem.get way z := by
  obtain ⟨out, h1, h2⟩ := C94_lowest_way_out (exact_sound dem hr hc hs hd hk) (smallSteps_exact hs hd hapart) want
  refine ⟨out, h1, fun c hcc => ?_⟩
  obtain ⟨h3, way, w1, w2, w3, w4⟩ := h2 c hcc
  obtain ⟨x, hx, hxe⟩ := w4.1
  have hxe : (dem.get x : WithTop K) = out.filled.get c := hxe
  refine ⟨dem.get x, hxe.symm, ?_, way, w1, w2, w3, ⟨x, hx, rfl⟩, ?_⟩
  · have := spill_of_finite h3
    rwa [← hxe, WithTop.untopD_coe] at this
  · rintro _ ⟨y, hy, rfl⟩
    have := w4.2 ⟨y, hy, rfl⟩
    rw [← hxe] at this
    exact WithTop.coe_le_coe.1 this

end

namespace Float
variable {fl fl32 nextafter : Rat → Rat}

/-- The increments of `minimum_safe_short_and_diag` are at most `H / 2^40` for elevations up to `H`. -/
theorem steps_float (hfl : IsRounding 53 (-1074) fl) (hnext : IsNextAfter nextafter) {dem : Raster (WithTop F64)}
    (hr : 0 < dem.rows) (hc : 0 < dem.cols) {H : Rat} (hH : 1 ≤ H) (hhigh : ∀ c, dem.Has c → |num (dem.get c)| ≤ H) :
    ∃ m, 2 ^ 40 * m ≤ H ∧ Steps num m (fsafe hfl nextafter dem).1 (fsafe hfl nextafter dem).2 := by
  have h64 : ∀ c, dem.Has c → IsF64 (num (dem.get c)) := fun c _ => Subtype.property _
  obtain ⟨j, diag, hj, h1, h2, h3, h4, _, h6⟩ := safe_spec' hfl hnext ⟨dem.rows, dem.cols, fun c => num (dem.get c)⟩
    hr hc h64
  have hsafe : fsafe hfl nextafter dem = (fadd hfl (2 ^ (j + 10)), fadd hfl diag) := by
    unfold fsafe; rw [h1]
  have hp := two_pos (j + 10)
  have hstep : (2 : Rat) ^ 40 * (4 * 2 ^ (j + 10)) ≤ H := by
    have e : (2 : Rat) ^ 40 * (4 * 2 ^ (j + 10)) = 2 ^ (j + 52) := by
      rw [show j + 52 = (j + 10) + 42 by ring, zpow_add₀ (by norm_num : (2 : Rat) ≠ 0) (j + 10)]; norm_num; ring
    rw [e]
    rcases h6 with rfl | ⟨c, hc, hle⟩
    · refine le_trans ?_ hH
      rw [show (1 : Rat) = 2 ^ (0 : Int) by norm_num]
      exact two_le.2 (by norm_num)
    · exact hle.trans (hhigh c hc)
  refine ⟨4 * 2 ^ (j + 10), hstep, ?_⟩
  rw [hsafe]
  refine ⟨?_, ?_, by positivity⟩
  · intro a b ha hb
    lift a to F64 using ha.ne
    lift b to F64 using hb.ne
    rw [WithTop.coe_le_coe]; rfl
  · intro x hx
    lift x to F64 using hx.ne
    constructor
    · show fl (x.1 + 2 ^ (j + 10)) ≤ x.1 + 4 * 2 ^ (j + 10)
      have := fl_add_le hfl x.2 hp.le
      linarith
    · show fl (x.1 + diag) ≤ x.1 + 4 * 2 ^ (j + 10)
      have := fl_add_le hfl x.2 (show (0 : Rat) ≤ diag by linarith)
      linarith

/-- C94 as the program computes: float32 elevations, the surface without flats and the slopes in float64, the increments
those of `minimum_safe_short_and_diag`. It is enough that no elevation is further than `H` from zero (`H` at least 1),
different elevations differ by at least `gap`, and the number of cells is at most `2^40 gap / H`: for elevations below
100 m that differ by 1 mm, 10 million cells. -/
theorem C94_float (hfl : IsRounding 53 (-1074) fl) (hfl32 : IsRounding 24 (-149) fl32)
    (hnext : IsNextAfter nextafter) {dem : Raster (WithTop F64)} (hdem : IsDem32 dem) {H gap : Rat} (hH : 1 ≤ H)
    (hhigh : ∀ c, dem.Has c → |num (dem.get c)| ≤ H)
    (hgap : ∀ a b, dem.Has a → dem.Has b → num (dem.get a) < num (dem.get b) → num (dem.get a) + gap ≤ num (dem.get b))
    (hsize : (dem.rows * dem.cols : Nat) * H ≤ 2 ^ 40 * gap) (hsize' : dem.rows * dem.cols ≤ 2 ^ 50) (want : Bool) :
    ∃ out, Returns (Dem.process (Dem.python (fsub fl) fun x => fl (x * (1 / Fill.sqrt2))) (fsub fl32) (fsafe hfl nextafter)
        true want dem) (.ok out) ∧
      ∀ c, dem.Has c → IsSpillLevel dem.rows dem.cols dem.get c (out.filled.get c) ∧
        ∃ way, IsTrace dem.rows dem.cols out.flowdir.get c way ∧ IsEscape dem.rows dem.cols c way ∧
          way.IsChain (fun a b => out.filled.get b ≤ out.filled.get a) ∧
          IsHighest dem.get way (out.filled.get c) := by
  have h := float_sound hfl hfl32 hnext hdem hsize' (k := 1 / Fill.sqrt2) (by norm_num [Fill.sqrt2])
  obtain ⟨m, hm, hsteps⟩ := steps_float hfl hnext (by have := hdem.rows; omega) (by have := hdem.cols; omega) hH hhigh
  refine C94_lowest_way_out h (num := num) (m := m) ⟨hsteps, ?_⟩ want
  intro a b ha hb hlt
  obtain ⟨x, ex, _⟩ := hdem.f32 a ha
  obtain ⟨y, ey, _⟩ := hdem.f32 b hb
  have hlt' : num (dem.get a) < num (dem.get b) := by
    rw [ex, ey] at hlt ⊢
    exact (WithTop.coe_lt_coe.1 hlt : x < y)
  refine le_trans (add_le_add le_rfl ?_) (hgap a b ha hb hlt')
  have hN : (0 : Rat) ≤ (dem.rows * dem.cols : Nat) := Nat.cast_nonneg _
  have := mul_le_mul_of_nonneg_left hm hN
  linarith

end Float

/-! ### C93: the pour point -/

section
variable {K : Type} [Field K] [LinearOrder K] [IsStrictOrderedRing K] {β : Type} [LinearOrder β] [OrderTop β]
  {cc : Raster Bool → Raster Int × Nat} {eng : Bluespots.Engine β K} {safe : Raster β → (β → β) × (β → β)}
  {gt : GeoTransform K} {depths : Raster K} {flowdir : Raster Nat} {rule : PourPointRule β}

/-- With one cell only from which the flow leaves a labelled area, all flow through the area passes this cell. -/
theorem downstream_of_single {rows cols : Nat} {fd : Cell → Nat} {lab : Cell → Int} {p x : Cell}
    (hone : ∀ y, InGrid rows cols y → lab y = lab p → LeavesLabel rows cols fd lab y → y = p)
    (hx : Drains rows cols fd x) (hlx : lab x = lab p) : Downstream rows cols fd x p := by
  obtain ⟨e, he, hout⟩ := hx
  induction he using Relation.ReflTransGen.head_induction_on with
  | refl =>
    obtain ⟨hin, d, hd, hno⟩ := hout
    rw [hone e hin hlx ⟨d, hd, fun h => absurd h hno⟩]
    exact .refl
  | @head a b hab _ ih =>
    by_cases hlb : lab b = lab p
    · exact .head hab (ih hlb)
    · rw [hone a hab.1 hlx ⟨b, hab.2.2, fun _ => by rw [hlx]; exact hlb⟩]
      exact .refl

/-- From the cell of lowest rank the flow leaves the label. -/
theorem lowest_leaves {γ : Type} [LinearOrder γ] {rank : Cell → γ} {rows cols : Nat} {fd : Cell → Nat} {lab : Cell → Int}
    {pps : List Cell} (h : LowestOutlets rows cols fd lab rank pps) {i : Nat} {p : Cell} (hp : pps[i]? = some p)
    (hin : InGrid rows cols p) (hcode : fd p < 8) :
    FlowsTo fd p (neighbour p (fd p)) ∧ (InGrid rows cols (neighbour p (fd p)) → lab (neighbour p (fd p)) ≠ lab p) := by
  have hf : FlowsTo fd p (neighbour p (fd p)) := Flow.flowsTo_iff.2 ⟨hcode, rfl⟩
  refine ⟨hf, fun hd he => ?_⟩
  rcases h.lowest i p hp with ⟨_, rfl, _⟩ | ⟨_, hl, hlow⟩
  · have := hin.1; omega
  · exact absurd (h.falls p _ ⟨hin, hd, hf⟩) (not_lt.2 (hlow _ hd (he.trans hl)))

/-- What C93 says about the pour point `p` of label `l`: it is a wet cell of the label, the flow goes from it to a dry
cell outside the label (or off the raster); and if this is the only cell from which the flow leaves the label, all flow
through the label passes it. -/
def WaterLeavesAt (depths : Raster K) (flowdir : Raster Nat) (labeled : Raster Int) (l : Nat) (p : Cell) : Prop :=
  depths.Has p ∧ labeled.get p = l ∧ depths.get p ≠ 0 ∧
    (∃ d, FlowsTo flowdir.get p d ∧ (depths.Has d → labeled.get d ≠ l ∧ depths.get d = 0)) ∧
    ((∀ y, depths.Has y → labeled.get y = l → LeavesLabel depths.rows depths.cols flowdir.get labeled.get y → y = p) →
      ∀ x, depths.Has x → labeled.get x = l → Downstream depths.rows depths.cols flowdir.get x p)

theorem waterLeaves_of_result {γ : Type} [LinearOrder γ] {rank : Cell → γ} {f : Bluespots.StatUnits K → Bool}
    {choose : List Cell → Cell → Prop} {out : Bluespots.Out K}
    (hshape : flowdir.rows = depths.rows ∧ flowdir.cols = depths.cols)
    (hdrains : ∀ c, flowdir.Has c → Drains flowdir.rows flowdir.cols flowdir.get c)
    (h2 : Bluespots.IsResult gt depths f flowdir choose out)
    (hlow : LowestOutlets flowdir.rows flowdir.cols flowdir.get out.labeled.get rank
        (out.pourpoints.map fun p => (p.cell_row, p.cell_col))) {l : Nat} (hl : 1 ≤ l) (hl' : l ≤ out.nlabels) :
    ∃ p, out.pourpoints[l]? = some p ∧ p.bspot_id = l ∧
      WaterLeavesAt depths flowdir out.labeled l (p.cell_row, p.cell_col) := by
  obtain ⟨p, p1, p2, _⟩ := h2.points l _ _ hl' (lists_filter _ _ _) (lists_filter _ _ _)
  refine ⟨p, p1, p2.bspot_id, ?_⟩
  have hp : (out.pourpoints.map fun p => (p.cell_row, p.cell_col))[l]? = some (p.cell_row, p.cell_col) := by
    rw [List.getElem?_map, p1]; rfl
  generalize hq : (p.cell_row, p.cell_col) = q at hp ⊢
  rw [hshape.1, hshape.2] at hlow
  rcases hlow.lowest l q hp with ⟨h0, _⟩ | ⟨hin, hlab, _⟩
  · omega
  have hgrid : ∀ c, InGrid depths.rows depths.cols c → flowdir.Has c := by
    intro c hc; show InGrid flowdir.rows flowdir.cols c; rw [hshape.1, hshape.2]; exact hc
  have hwet : depths.get q ≠ 0 ∧ Passes depths.rows depths.cols depths.get (cellArea gt) f q := by
    by_contra hno
    have := (h2.labelling.background q hin).2 hno
    rw [hlab] at this; omega
  obtain ⟨hf, hout⟩ := lowest_leaves hlow hp hin (Flow.Drains.code_lt (hdrains q (hgrid q hin)))
  refine ⟨hin, hlab, hwet.1, ⟨_, hf, fun hd => ?_⟩, fun hone x hx hlx => ?_⟩
  · have hne := hout hd
    refine ⟨by rw [← hlab]; exact hne, ?_⟩
    by_contra hw
    have hcon : ConnectedIn (fun y => InGrid depths.rows depths.cols y ∧ depths.get y ≠ 0) q (neighbour q (flowdir.get q)) :=
      ConnectedIn.step (Flow.flowsTo_adj hf) ⟨hin, hwet.1⟩ ⟨hd, hw⟩
    have hpass := passes_connected hcon hwet.2
    have hnz : out.labeled.get (neighbour q (flowdir.get q)) ≠ 0 := fun h0 =>
      (h2.labelling.background _ hd).1 h0 ⟨hw, hpass⟩
    exact hne (((h2.same _ _ hin hd (by rw [hlab]; omega) hnz).2 hcon).symm)
  · refine downstream_of_single (lab := out.labeled.get) (fun y hy hly => hone y hy (hly.trans hlab)) ?_ (hlx.trans hlab.symm)
    have := hdrains x (hgrid x hx)
    rwa [hshape.1, hshape.2] at this

/-- C93. Of every bluespot BluespotTool lists, with either rule for the pour points: the pour point is a cell of the
bluespot from which the flow goes to a dry cell outside it; and all flow through the bluespot passes the pour point if
there is no other cell from which the flow leaves it. Missing (and false, `C93_all_false`): other bluespots. -/
theorem C93_leaves_partial (h : BluespotInput cc eng safe gt depths flowdir rule) (hfit : rule.Fits flowdir)
    (f : Bluespots.StatUnits K → Bool) :
    ∃ out, (Bluespots.process cc eng safe gt depths (some f) flowdir rule.accumArg rule.demArg).Yields (.ok out) ∧
      ∀ l : Nat, 1 ≤ l → l ≤ out.nlabels → ∃ p, out.pourpoints[l]? = some p ∧ p.bspot_id = l ∧
        WaterLeavesAt depths flowdir out.labeled l (p.cell_row, p.cell_col) := by
  obtain ⟨out, h1, h2⟩ := bluespot_result h f
  obtain ⟨γ, _, rank, hlow⟩ := lowest_of_rule h.nonempty h.shape h.drains h.valid hfit h2.chosen
  exact ⟨out, h1, fun l hl hl' => waterLeaves_of_result h.shape h.drains h2 hlow hl hl'⟩

/-- C93 for the output of DemTool, where the increments of the surface without flats are small (see C94): the flow goes
from the pour point of a bluespot to a dry cell outside it whose ground is exactly at the level at which the bluespot is
full, the spill level of all its cells. -/
theorem C93_threshold_partial {drop sub : β → β → K} {scale : K → K} {dem : Raster β}
    (h : SoundTerrain drop sub scale safe dem) {num : β → K} {m : K} (hs : SmallSteps num m (safe dem).1 (safe dem).2 dem)
    (hcc : LabelContract cc) (hsq : SquareCells gt) (want : Bool) (f : Bluespots.StatUnits K → Bool) :
    ∃ d b, Returns (Dem.process (Dem.python drop scale) sub safe true want dem) (.ok d) ∧
      (Bluespots.process cc Bluespots.python safe gt d.depths (some f) d.flowdir d.accum (some dem)).Yields (.ok b) ∧
      ∀ l : Nat, 1 ≤ l → l ≤ b.nlabels → ∃ p t, b.pourpoints[l]? = some p ∧ p.bspot_id = l ∧
        WaterLeavesAt d.depths d.flowdir b.labeled l (p.cell_row, p.cell_col) ∧
        FlowsTo d.flowdir.get (p.cell_row, p.cell_col) t ∧ dem.Has t ∧ b.labeled.get t ≠ l ∧ d.depths.get t = 0 ∧
        ∀ c, dem.Has c → b.labeled.get c = l → IsSpillLevel dem.rows dem.cols dem.get c (dem.get t) := by
  obtain ⟨d, hd, _, hdsh, hfsh, hcells, hedge, _, hacc, hno⟩ := C62_dem_outputs h want
  obtain ⟨_, hfill, _, hnf, hfd, _, _⟩ := Dem.process_inv hd
  have hfill : Returns (Fill.fillTerrain dem) (.ok d.filled) := hfill
  have hnf : Returns (Fill.fillTerrainNoFlats (safe dem).1 (safe dem).2 dem) (.ok d.noFlats) := hnf
  obtain ⟨hnsh, hfin, _⟩ := noFlats_finite h hnf
  have hdown : DrainsDownhill dem.rows dem.cols d.noFlats.get d.flowdir :=
    C15_dem_flow_drains drop sub scale safe true want dem d h.drop_pos h.scale_pos h.finite h.mono h.ge h.keep hd
      (h.strict _ (.inl hnf))
  have hdrains : ∀ c, d.flowdir.Has c → Drains d.flowdir.rows d.flowdir.cols d.flowdir.get c := by
    intro c hc
    have hc : InGrid d.flowdir.rows d.flowdir.cols c := hc
    rw [hfsh.1, hfsh.2] at hc ⊢
    exact (hdown c hc).2.1
  have hshape : d.flowdir.rows = d.depths.rows ∧ d.flowdir.cols = d.depths.cols :=
    ⟨hfsh.1.trans hdsh.1.symm, hfsh.2.trans hdsh.2.symm⟩
  have hne : 0 < d.depths.rows ∧ 0 < d.depths.cols := by
    rw [hdsh.1, hdsh.2]; have := h.rows; have := h.cols; omega
  have hfits : PourPointRule.Fits d.flowdir (.minFilled dem d.noFlats) := by
    rw [hfd]
    refine fits_of_flowdir drop scale dem d.noFlats (fun a b ha hb => ?_) h.scale_pos
    have ha : InGrid d.noFlats.rows d.noFlats.cols a := ha
    have hb : InGrid d.noFlats.rows d.noFlats.cols b := hb
    rw [hnsh.1, hnsh.2] at ha hb
    exact h.drop_pos _ _ (hfin a ha) (hfin b hb)
  obtain ⟨b, γ, _, rank, choose, hb, hres, hlow⟩ : ∃ (b : Bluespots.Out K) (γ : Type) (_ : LinearOrder γ) (rank : Cell → γ)
      (choose : List Cell → Cell → Prop),
      (Bluespots.process cc Bluespots.python safe gt d.depths (some f) d.flowdir d.accum (some dem)).Yields (.ok b) ∧
      Bluespots.IsResult gt d.depths f d.flowdir choose b ∧
      LowestOutlets d.flowdir.rows d.flowdir.cols d.flowdir.get b.labeled.get rank
        (b.pourpoints.map fun p => (p.cell_row, p.cell_col)) := by
    cases want with
    | true =>
      obtain ⟨a, ha, haR⟩ := hacc rfl
      have hash : a.rows = d.flowdir.rows ∧ a.cols = d.flowdir.cols := by
        obtain ⟨a', ha', hr, hc, _⟩ := C18_accum_counts d.flowdir hdrains
        have heq := Returns.unique ha' haR
        cases heq
        exact ⟨hr, hc⟩
      have hv : a.rows = d.depths.rows ∧ a.cols = d.depths.cols := ⟨hash.1.trans hshape.1, hash.2.trans hshape.2⟩
      obtain ⟨b, h1, h2⟩ := Bluespots.process_accum hcc (.inl rfl : Bluespots.IsEngine Bluespots.python) safe gt hsq d.depths
        hne.1 hne.2 f d.flowdir hshape hdrains a hv (some dem)
      obtain ⟨γ, i, rank, hl⟩ := lowest_of_rule (eng := Bluespots.python) (safe := safe) (rule := .maxAccum a) hne hshape
        hdrains hv ⟨a, haR, rfl, rfl, fun _ _ => rfl⟩ h2.chosen
      exact ⟨b, γ, i, rank, _, by rw [ha]; exact h1, h2, hl⟩
    | false =>
      have hv : (PourPointRule.minFilled dem d.noFlats).Valid (K := K) Bluespots.python safe d.depths.rows d.depths.cols := by
        refine ⟨hnf, ⟨hnsh.1.trans hdsh.1.symm, hnsh.2.trans hdsh.2.symm⟩, fun c hc => ?_⟩
        have hc : InGrid d.noFlats.rows d.noFlats.cols c := hc
        rw [hnsh.1, hnsh.2] at hc
        exact hfin c hc
      obtain ⟨b, h1, h2⟩ := Bluespots.process_dem hcc (.inl rfl : Bluespots.IsEngine Bluespots.python) safe gt hsq d.depths
        hne.1 hne.2 f d.flowdir hshape hdrains dem d.noFlats hv.1 hv.2.1 hv.2.2
      obtain ⟨γ, i, rank, hl⟩ := lowest_of_rule hne hshape hdrains hv hfits h2.chosen
      exact ⟨b, γ, i, rank, _, by rw [hno rfl]; exact h1, h2, hl⟩
  refine ⟨d, b, hd, hb, fun l hl hl' => ?_⟩
  obtain ⟨p, p1, p2, hw⟩ := waterLeaves_of_result hshape hdrains hres hlow hl hl'
  obtain ⟨hin, hlab, hwet, ⟨t, ht, htd⟩, _⟩ := hw
  have hgrid : ∀ c, d.depths.Has c ↔ dem.Has c := by
    intro c; show InGrid _ _ _ ↔ InGrid _ _ _; rw [hdsh.1, hdsh.2]
  have hin' := (hgrid _).1 hin
  have hint : Interior dem.rows dem.cols (p.cell_row, p.cell_col) := by
    rcases edge_or_interior hin' with he | hi
    · exact absurd (hedge _ he) hwet
    · exact hi
  have htin : dem.Has t := interior_adj_inGrid hint (Flow.flowsTo_adj ht)
  obtain ⟨ht1, ht2⟩ := htd ((hgrid t).2 htin)
  have hstep : d.noFlats.get t < d.noFlats.get (p.cell_row, p.cell_col) :=
    hfits _ _ ⟨by rw [hfsh.1, hfsh.2]; exact hin', by rw [hfsh.1, hfsh.2]; exact htin, ht⟩
  have hle := filled_falls h hs hfill hnf hin' htin hstep
  have hge := C02_fill_ge_dem_edge dem d.filled hfill
  have hteq : d.filled.get t = dem.get t := by
    by_contra hne
    have := (hcells t htin).2.2.2.2 (lt_of_le_of_ne (hge.1 t htin) (Ne.symm hne))
    rw [ht2] at this
    exact lt_irrefl _ this
  have hpwet : dem.get (p.cell_row, p.cell_col) < d.filled.get (p.cell_row, p.cell_col) :=
    (hcells _ hin').2.2.2.1 (lt_of_le_of_ne (hcells _ hin').2.2.1 (Ne.symm hwet))
  have hfix := (Fill.inv_of_returns hfill).2 _ hint t (Flow.flowsTo_adj ht)
  have hlevel : d.filled.get (p.cell_row, p.cell_col) = dem.get t := by
    refine le_antisymm ?_ (hteq ▸ hle)
    rcases le_max_iff.1 hfix with h' | h'
    · exact absurd h' (not_le.2 hpwet)
    · rw [← hteq]; exact h'
  refine ⟨p, t, p1, p2, ⟨hin, hlab, hwet, ⟨t, ht, htd⟩, by assumption⟩, ht, htin, ht1, ht2, fun c hc hlc => ?_⟩
  have hcon := (hres.same c _ ((hgrid c).2 hc) hin (by rw [hlc]; omega) (by rw [hlab]; omega)).1 (hlc.trans hlab.symm)
  have hflat := (C12_depths (γ := Int) (fun x y : β => if y < x then 1 else if x = y then 0 else -1)
      (fun x y hxy => by
        rcases hxy.lt_or_eq with e | e
        · simp [e]
        · simp [e])
      (fun x y => by
        rcases lt_trichotomy x y with e | e | e
        · simp [e.ne, not_lt.2 e.le]
        · simp [e]
        · simp [e, e.ne']) dem d.filled hfill).2.2 c _ (hcon.mono fun c hc => by
          have hc' : dem.Has c := (hgrid c).1 hc.1
          refine ⟨hc', ?_⟩
          have hlt := (hcells c hc').2.2.2.1 (lt_of_le_of_ne (hcells c hc').2.2.1 (Ne.symm hc.2))
          show 0 < (if dem.get c < d.filled.get c then (1 : Int) else _)
          rw [if_pos hlt]; decide)
  rw [← hlevel, ← hflat]
  exact (hcells c hc).1

/-! ### C95: the two rules for the pour points -/

theorem process_labels {f : Bluespots.StatUnits K → Bool} {a a' : Option (Raster Int)} {d d' : Option (Raster β)}
    {out out' : Bluespots.Out K} (h : (Bluespots.process cc eng safe gt depths (some f) flowdir a d).Yields (.ok out))
    (h' : (Bluespots.process cc eng safe gt depths (some f) flowdir a' d').Yields (.ok out')) :
    out'.labeled = out.labeled ∧ out'.nlabels = out.nlabels ∧ out'.watersheds = out.watersheds := by
  obtain ⟨n, hn⟩ := h
  obtain ⟨m, hm⟩ := h'
  have h1 : Bluespots.process cc eng safe gt depths (some f) flowdir a d (max n m) = some (.ok out) := hn _ (le_max_left _ _)
  have h2 : Bluespots.process cc eng safe gt depths (some f) flowdir a' d' (max n m) = some (.ok out') := hm _ (le_max_right _ _)
  generalize max n m = k at h1 h2
  have key : ∀ {a : Option (Raster Int)} {d : Option (Raster β)} {o : Bluespots.Out K},
      Bluespots.process cc eng safe gt depths (some f) flowdir a d k = some (.ok o) →
      ∃ raw keep, eng.labelStats depths (Bluespots.connectedComponents cc depths).1 none = .ok raw ∧
        Label.keepLabels (Bluespots.connectedComponents cc depths).1
          (Bluespots.filterbluespotsFl id f (id (|gt.t1| * |gt.t5|)) raw) 0 = .ok keep ∧
        o.labeled = (cc keep).1 ∧ o.nlabels = (cc keep).2 ∧
        eng.watershedsFromLabels flowdir (cc keep).1 0 k = some (.ok o.watersheds) := by
    intro a d o h
    unfold Bluespots.process Bluespots.processFl at h
    by_cases c1 : a.isNone = true ∧ d.isNone = true
    · rw [if_pos c1] at h; exact absurd h Run.fail_ok
    rw [if_neg c1] at h
    dsimp only at h
    by_cases hsq : ¬ |id (|gt.t1| - |gt.t5|)| < id (id (1 / 100) * |(|gt.t1|)|)
    · rw [if_pos hsq] at h; exact absurd h Run.fail_ok
    rw [if_neg hsq] at h
    simp only [Run.bind_ok, Run.ofExcept_ok, Run.ofFuel_ok] at h
    obtain ⟨raw, e1, keep, e2, st, _, ws, e3, ct, _, h⟩ := h
    refine ⟨raw, keep, e1, e2, ?_⟩
    cases a with
    | some a =>
      simp only [Run.bind_ok, Run.ofExcept_ok, Run.pure_ok] at h
      obtain ⟨pix, _, rfl⟩ := h
      exact ⟨rfl, rfl, e3⟩
    | none =>
      cases d with
      | some d =>
        simp only [Run.bind_ok, Run.ofExcept_ok, Run.ofFuel_ok, Run.pure_ok] at h
        obtain ⟨nf, _, pix, _, rfl⟩ := h
        exact ⟨rfl, rfl, e3⟩
      | none => exact absurd h Run.fail_ok
  obtain ⟨raw, keep, e1, e2, e3, e4, e5⟩ := key h1
  obtain ⟨raw', keep', g1, g2, g3, g4, g5⟩ := key h2
  rw [e1] at g1; cases g1
  rw [e2] at g2; cases g2
  rw [e5] at g5
  simp only [Option.some.injEq, Except.ok.injEq] at g5
  exact ⟨g3.trans e3.symm, g4.trans e4.symm, g5.symm⟩

/-- C95. BluespotTool with the two rules for the pour points (or with different rasters for the same rule): the label and
watershed rasters are the same, and so is the whole pour point of every bluespot which the flow leaves from one cell
only. Missing (and false, `C95_false`): bluespots with one threshold cell only. -/
theorem C95_methods_partial {rule' : PourPointRule β} (h : BluespotInput cc eng safe gt depths flowdir rule)
    (h' : BluespotInput cc eng safe gt depths flowdir rule') (hfit : rule.Fits flowdir) (hfit' : rule'.Fits flowdir)
    (f : Bluespots.StatUnits K → Bool) :
    ∃ out out', (Bluespots.process cc eng safe gt depths (some f) flowdir rule.accumArg rule.demArg).Yields (.ok out) ∧
      (Bluespots.process cc eng safe gt depths (some f) flowdir rule'.accumArg rule'.demArg).Yields (.ok out') ∧
      out'.labeled = out.labeled ∧ out'.nlabels = out.nlabels ∧ out'.watersheds = out.watersheds ∧
      ∀ l : Nat, 1 ≤ l → l ≤ out.nlabels →
        (∀ x y, depths.Has x → depths.Has y → out.labeled.get x = l → out.labeled.get y = l →
          LeavesLabel depths.rows depths.cols flowdir.get out.labeled.get x →
          LeavesLabel depths.rows depths.cols flowdir.get out.labeled.get y → x = y) →
        ∃ p, out.pourpoints[l]? = some p ∧ out'.pourpoints[l]? = some p := by
  obtain ⟨out, h1, h2⟩ := bluespot_result h f
  obtain ⟨out', h1', h2'⟩ := bluespot_result h' f
  obtain ⟨γ, _, rank, hlow⟩ := lowest_of_rule h.nonempty h.shape h.drains h.valid hfit h2.chosen
  obtain ⟨γ', _, rank', hlow'⟩ := lowest_of_rule h'.nonempty h'.shape h'.drains h'.valid hfit' h2'.chosen
  obtain ⟨e1, e2, e3⟩ := process_labels h1 h1'
  refine ⟨out, out', h1, h1', e1, e2, e3, fun l hl hl' hone => ?_⟩
  have hcs := lists_filter depths.rows depths.cols fun c => out.labeled.get c = (l : Int)
  have hws := lists_filter depths.rows depths.cols fun c => out.watersheds.get c = (l : Int)
  obtain ⟨p, p1, p2, _⟩ := h2.points l _ _ hl' hcs hws
  obtain ⟨p', p1', p2', _⟩ := h2'.points l _ _ (e2 ▸ hl') (lists_filter _ _ _) (lists_filter _ _ _)
  rw [e1, e3] at p2'
  obtain ⟨q, q1, _, q2⟩ := waterLeaves_of_result h.shape h.drains h2 hlow hl hl'
  obtain ⟨q', q1', _, q2'⟩ := waterLeaves_of_result h'.shape h'.drains h2' hlow' hl (e2 ▸ hl')
  rw [p1] at q1; cases q1
  rw [p1'] at q1'; cases q1'
  have hleaves : ∀ {c}, WaterLeavesAt depths flowdir out.labeled l c →
      LeavesLabel depths.rows depths.cols flowdir.get out.labeled.get c := by
    rintro c ⟨_, hlc, _, ⟨d, hd, hd'⟩, _⟩
    exact ⟨d, hd, fun hin => by rw [hlc]; exact (hd' hin).1⟩
  rw [e1] at q2'
  have hcell := hone _ _ q2.1 q2'.1 q2.2.1 q2'.2.1 (hleaves q2) (hleaves q2')
  refine ⟨p, p1, ?_⟩
  rw [p1']
  have hne : (Raster.cellList depths.rows depths.cols).filter (fun c => out.labeled.get c = (l : Int)) ≠ [] :=
    List.ne_nil_of_mem ((hcs.2 _).2 ⟨q2.1, q2.2.1⟩)
  have hd := (p2.dmax hne).unique (p2'.dmax hne)
  obtain ⟨p_id, p_bs, p_row, p_col, p_dmax, p_area, p_vol, p_ws, p_fumm, p_co⟩ := p
  obtain ⟨p'_id, p'_bs, p'_row, p'_col, p'_dmax, p'_area, p'_vol, p'_ws, p'_fumm, p'_co⟩ := p'
  obtain ⟨a1, a2, _, a3, a4, a5, a6, a7⟩ := p2
  obtain ⟨b1, b2, _, b3, b4, b5, b6, b7⟩ := p2'
  simp only [Prod.mk.injEq] at hcell a1 a2 a3 a4 a5 a6 a7 b1 b2 b3 b4 b5 b6 b7 hd
  obtain ⟨rfl, rfl⟩ := hcell
  subst hd a1 a2 a3 a4 a5 b3 b4 b5
  rw [a6, a7, b6, b7, b1, b2]

end

/-! ### Non-vacuity and counterexamples -/

/-- The hypotheses of C93 and C94 are met by the valley of C56 with increments of 0.01 and 0.014: different elevations
differ by at least 1, and it has 20 cells. -/
example : ∃ cc, LabelContract cc ∧ SquareCells (⟨0, 2, 0, 0, 0, -2⟩ : GeoTransform Rat) ∧
    SoundTerrain exactSub exactSub (· * (7/10)) (exactSafe (1/100) (14/1000)) (finiteDem demoValley) ∧
    SmallSteps (·.untopD 0) (max (1/100) (14/1000)) (exactSafe (1/100) (14/1000) (finiteDem demoValley)).1
      (exactSafe (1/100) (14/1000) (finiteDem demoValley)).2 (finiteDem demoValley) := by
  obtain ⟨cc, h⟩ := exists_labelContract
  refine ⟨cc, h, by unfold SquareCells; norm_num,
    exact_sound demoValley (by decide) (by decide) (by norm_num) (by norm_num) (by norm_num),
    smallSteps_exact (by norm_num) (by norm_num) fun a b ha hb hlt => ?_⟩
  have key : ∀ a ∈ Raster.cellList 4 5, ∀ b ∈ Raster.cellList 4 5, demoValley.get a < demoValley.get b →
      demoValley.get a + (4 * 5 : Nat) * max (1/100) (14/1000) ≤ demoValley.get b := by decide +kernel
  exact key a (Flow.mem_cellList.2 ha) b (Flow.mem_cellList.2 hb) hlt

/-- The hypotheses of `C94_float` are met by a DEM with elevations 0.5 and 10. -/
example : Float.IsDem32 Float.demo ∧ (∀ c, Float.demo.Has c → |Float.num (Float.demo.get c)| ≤ 10) ∧
    (∀ a b, Float.demo.Has a → Float.demo.Has b → Float.num (Float.demo.get a) < Float.num (Float.demo.get b) →
      Float.num (Float.demo.get a) + 9 ≤ Float.num (Float.demo.get b)) ∧
    ((Float.demo.rows * Float.demo.cols : Nat) : Rat) * 10 ≤ 2 ^ 40 * 9 := by
  refine ⟨Float.demo_dem32, fun c _ => ?_, fun a b _ _ => ?_, ?_⟩
  · unfold Float.demo; dsimp only
    split_ifs <;> simp only [Float.num, WithTop.untopD_coe] <;> rw [abs_le] <;> norm_num
  · unfold Float.demo; dsimp only
    split_ifs <;> simp only [Float.num, WithTop.untopD_coe] <;> norm_num
  · unfold Float.demo; norm_num

/-- Flat ground at 0 between an edge cell at 0 and another edge cell half a millimetre higher. -/
def gentle : Raster Rat := Raster.ofRows [[1,1,1,1,1],[0,0,0,0,1/2000],[1,1,1,1,1]]

set_option maxRecDepth 100000 in
/-- The condition on the increments in C94 is needed: with increments of 1 mm, `gentle` drains from the spill level 0 over
ground at 0.5 mm. -/
theorem C94_small_steps_needed : ∃ out,
    Returns (Dem.process (Dem.python exactSub (· * (7/10))) exactSub (exactSafe (1/1000) (14/10000)) true false
      (finiteDem gentle)) (.ok out) ∧
    Step gentle.rows gentle.cols out.flowdir.get (1, 3) (1, 4) ∧
    out.filled.get (1, 3) = ((0 : Rat) : WithTop Rat) ∧ out.filled.get (1, 4) = ((1 / 2000 : Rat) : WithTop Rat) := by
  have h := exact_sound gentle (by decide) (by decide) (short := 1/1000) (diag := 14/10000) (k := 7/10) (by norm_num)
    (by norm_num) (by norm_num)
  obtain ⟨out, hout, _⟩ := C62_dem_outputs h false
  obtain ⟨_, hfill, _, hnf, hfd, _, _⟩ := Dem.process_inv hout
  have hfill : Returns (Fill.fillTerrain (finiteDem gentle)) (.ok out.filled) := hfill
  have hnf : Returns (Fill.fillTerrainNoFlats (exactSafe (1/1000) (14/10000) (finiteDem gentle)).1
      (exactSafe (1/1000) (14/10000) (finiteDem gentle)).2 (finiteDem gentle)) (.ok out.noFlats) := hnf
  refine ⟨out, hout, ⟨by decide, by decide, ?_⟩, python_cell (by decide) hfill (k := 9) (by decide +kernel),
    python_cell (by decide) hfill (k := 9) (by decide +kernel)⟩
  have hcode : out.flowdir.get (1, 3) = 2 := by
    rw [hfd]
    exact noFlats_run (by decide) hnf (fun nf => (Flow.terrainFlowdirection exactSub (· * (7/10)) nf true).get (1, 3)) 9
      (by decide +kernel)
  exact Flow.flowsTo_iff.2 ⟨by rw [hcode]; decide, by rw [hcode]; decide⟩

/-- A bluespot of three cells in a column, and one threshold cell, beside the lowest of the three. -/
def narrowOutlet : Raster Rat := Raster.ofRows [[10,10,10],[10,0,10],[10,0,10],[10,0,5],[10,10,10]]

theorem fill_value {α β : Type} [LinearOrder β] [OrderTop β] {dem r : Raster β} (hs : ¬ (dem.rows < 2 ∨ dem.cols < 2))
    (h : Returns (Fill.fillTerrain dem) (.ok r)) (g : Raster β → α) {v : α} (k : Nat)
    (hk : ((Fill.fillTerrainLoop dem k).map g) = some v) : g r = v := by
  obtain ⟨n, hn⟩ := h
  have h := hn (max n k) (le_max_left _ _)
  obtain ⟨q, hq, hq2⟩ := Option.map_eq_some_iff.1 hk
  have hq' : Fill.fillTerrainLoop dem (max n k) = some q := doWhile_mono hq (le_max_right n k)
  unfold Fill.fillTerrain at h
  rw [if_neg hs, hq'] at h
  simp only [Option.map_some, Option.some.injEq, Except.ok.injEq] at h
  rw [← h]; exact hq2

theorem accum_value {fd : Raster Nat} {a : Raster Int} (hcodes : ∀ c, fd.Has c → fd.get c < 8)
    (h : Returns (Flow.accumulatedFlow fd) (.ok a)) {α : Type} (g : Raster Int → α) {v : α} {k : Nat}
    (hk : (Flow.accumulatedFlow fd k).map (fun r => r.toOption.map g) = some (some v)) : g a = v := by
  obtain ⟨n, hn⟩ := h
  have h := hn (max n k) (le_max_left _ _)
  rw [Flow.accumulatedFlow, Flow.accumLoop_eq hcodes] at h hk
  obtain ⟨r, hr, hr2⟩ := Option.map_eq_some_iff.1 hk
  obtain ⟨A, hA, rfl⟩ := Option.map_eq_some_iff.1 hr
  rw [Flow.traceAll_mono _ _ _ _ _ hA _ (le_max_right n k)] at h
  cases h
  simpa [Except.toOption] using hr2

/-- What DemTool computes from `narrowOutlet`: the bluespot, the flow through it, and the two rasters the pour point is
chosen from. -/
theorem narrowOutlet_dem : ∃ d a, Returns (Dem.process (Dem.python exactSub (· * (7/10))) exactSub
      (exactSafe (1/1000) (14/10000)) true true (finiteDem narrowOutlet)) (.ok d) ∧ d.accum = some a ∧
    (d.depths.rows = 5 ∧ d.depths.cols = 3) ∧ (a.rows = 5 ∧ a.cols = 3) ∧ (d.flowdir.rows = 5 ∧ d.flowdir.cols = 3) ∧
    (∀ c, d.flowdir.Has c → Drains 5 3 d.flowdir.get c) ∧
    (∀ c ∈ Raster.cellList 5 3, d.depths.get c ≠ 0 ↔ c ∈ ([(1, 1), (2, 1), (3, 1)] : List Cell)) ∧
    (d.flowdir.get (1, 1) = 4 ∧ d.flowdir.get (2, 1) = 3 ∧ d.flowdir.get (3, 2) = 2) ∧
    (a.get (1, 1) = 1 ∧ a.get (2, 1) = 2 ∧ a.get (3, 1) = 1) ∧
    (Returns (Fill.fillTerrainNoFlats (exactSafe (1/1000) (14/10000) (finiteDem narrowOutlet)).1
      (exactSafe (1/1000) (14/10000) (finiteDem narrowOutlet)).2 (finiteDem narrowOutlet)) (.ok d.noFlats) ∧
      (d.noFlats.rows = 5 ∧ d.noFlats.cols = 3) ∧ ∀ c, d.noFlats.Has c → d.noFlats.get c < ⊤) ∧
    (d.noFlats.get (3, 1) < d.noFlats.get (1, 1) ∧ d.noFlats.get (3, 1) < d.noFlats.get (2, 1)) ∧
    (∀ c ∈ ([(1, 1), (2, 1), (3, 1)] : List Cell), IsSpillLevel 5 3 (finiteDem narrowOutlet).get c ((5 : Rat) : WithTop Rat)) := by
  have h := exact_sound narrowOutlet (by decide) (by decide) (short := 1/1000) (diag := 14/10000) (k := 7/10) (by norm_num)
    (by norm_num) (by norm_num)
  obtain ⟨d, hd, _, hdsh, hfsh, hcells, _, ⟨s, _, hdrain⟩, hacc, _⟩ := C62_dem_outputs h true
  obtain ⟨a, ha, haR⟩ := hacc rfl
  obtain ⟨_, hfill, hdep, hnf, hfd, _, _⟩ := Dem.process_inv hd
  have hfill : Returns (Fill.fillTerrain (finiteDem narrowOutlet)) (.ok d.filled) := hfill
  have hnf : Returns (Fill.fillTerrainNoFlats (exactSafe (1/1000) (14/10000) (finiteDem narrowOutlet)).1
      (exactSafe (1/1000) (14/10000) (finiteDem narrowOutlet)).2 (finiteDem narrowOutlet)) (.ok d.noFlats) := hnf
  obtain ⟨hnsh, hfin, _⟩ := noFlats_finite h hnf
  have hdr : ∀ c, d.flowdir.Has c → Drains 5 3 d.flowdir.get c := by
    intro c hc
    have hc : InGrid d.flowdir.rows d.flowdir.cols c := hc
    rw [hfsh.1, hfsh.2] at hc
    exact (hdrain c hc).2.1
  have hdr' : ∀ c, d.flowdir.Has c → Drains d.flowdir.rows d.flowdir.cols d.flowdir.get c := by
    intro c hc; rw [hfsh.1, hfsh.2]; exact hdr c hc
  have hash : a.rows = 5 ∧ a.cols = 3 := by
    obtain ⟨a', ha', hr, hc, _⟩ := C18_accum_counts d.flowdir hdr'
    have heq := Returns.unique ha' haR
    cases heq
    exact ⟨hr.trans hfsh.1, hc.trans hfsh.2⟩
  have hwet : ∀ c ∈ Raster.cellList 5 3, d.depths.get c ≠ 0 ↔ c ∈ ([(1, 1), (2, 1), (3, 1)] : List Cell) := by
    have := fill_value (by decide) hfill (fun r => decide (∀ c ∈ Raster.cellList 5 3,
      exactSub (r.get c) ((finiteDem narrowOutlet).get c) ≠ 0 ↔ c ∈ ([(1, 1), (2, 1), (3, 1)] : List Cell))) (v := true) 9
      (by decide +kernel)
    have := of_decide_eq_true this
    rw [hdep]; exact this
  have hcodes : d.flowdir.get (1, 1) = 4 ∧ d.flowdir.get (2, 1) = 3 ∧ d.flowdir.get (3, 2) = 2 := by
    have := noFlats_run (by decide) hnf (fun nf => let fd := Flow.terrainFlowdirection exactSub (· * (7/10)) nf true
      decide (fd.get (1, 1) = 4 ∧ fd.get (2, 1) = 3 ∧ fd.get (3, 2) = 2)) (v := true) 9 (by decide +kernel)
    rw [hfd]; exact of_decide_eq_true this
  have hlow : d.noFlats.get (3, 1) < d.noFlats.get (1, 1) ∧ d.noFlats.get (3, 1) < d.noFlats.get (2, 1) := by
    have := noFlats_run (by decide) hnf (fun nf => decide (nf.get (3, 1) < nf.get (1, 1) ∧ nf.get (3, 1) < nf.get (2, 1)))
      (v := true) 9 (by decide +kernel)
    exact of_decide_eq_true this
  have hav : a.get (1, 1) = 1 ∧ a.get (2, 1) = 2 ∧ a.get (3, 1) = 1 := by
    have := accum_value (fun c hc => Flow.Drains.code_lt (hdr' c hc)) haR
      (fun a => (a.get (1, 1), a.get (2, 1), a.get (3, 1))) (v := (1, 2, 1)) (k := 17) (by
        rw [hfd]
        exact noFlats_run (by decide) hnf (fun nf => Option.map (fun r => r.toOption.map fun a : Raster Int =>
          (a.get (1, 1), a.get (2, 1), a.get (3, 1))) (Flow.accumulatedFlow (Flow.terrainFlowdirection exactSub (· * (7/10)) nf
            true) 17)) 9 (by decide +kernel))
    simpa using this
  have hspill : ∀ c ∈ ([(1, 1), (2, 1), (3, 1)] : List Cell), IsSpillLevel 5 3 (finiteDem narrowOutlet).get c
      ((5 : Rat) : WithTop Rat) := by
    have := fill_value (by decide) hfill (fun r => decide (∀ c ∈ ([(1, 1), (2, 1), (3, 1)] : List Cell),
      r.get c = ((5 : Rat) : WithTop Rat))) (v := true) 9 (by decide +kernel)
    have := of_decide_eq_true this
    intro c hc
    rw [← this c hc]
    refine (hcells c ?_).1
    revert c; decide
  exact ⟨d, a, hd, ha, hdsh, hash, hfsh, hdr, hwet, hcodes, hav, ⟨hnf, hnsh, fun c hc => by
    have hc : InGrid d.noFlats.rows d.noFlats.cols c := hc
    rw [hnsh.1, hnsh.2] at hc; exact hfin c hc⟩, hlow, hspill⟩

/-- The pour points of the bluespot of `narrowOutlet`, for both rules, with any function that meets the contract of
`scipy.ndimage.label`: all its cells spill at 5; (3, 2) is the only dry cell beside it whose ground is at 5; the
accumulated flow gives the pour point (2, 1), the DEM gives (3, 1); and the water of its cell (1, 1) does not pass
(3, 1). -/
theorem narrowOutlet_pourpoints {cc : Raster Bool → Raster Int × Nat} (hcc : LabelContract cc) {gt : GeoTransform Rat}
    (hsq : SquareCells gt) : ∃ (d : Dem.Out (WithTop Rat) Rat) (b b' : Bluespots.Out Rat)
      (p p' : Bluespots.PourPoint Rat),
    Returns (Dem.process (Dem.python exactSub (· * (7/10))) exactSub (exactSafe (1/1000) (14/10000)) true true
      (finiteDem narrowOutlet)) (.ok d) ∧
    (Bluespots.process cc Bluespots.python (exactSafe (1/1000 : Rat) (14/10000)) gt d.depths (some fun _ => true) d.flowdir
      d.accum none).Yields (.ok b) ∧
    (Bluespots.process cc Bluespots.python (exactSafe (1/1000) (14/10000)) gt d.depths (some fun _ => true) d.flowdir none
      (some (finiteDem narrowOutlet))).Yields (.ok b') ∧
    b.nlabels = 1 ∧ b'.nlabels = 1 ∧
    (∀ c, narrowOutlet.Has c → (b.labeled.get c = 1 ↔ c ∈ ([(1, 1), (2, 1), (3, 1)] : List Cell)) ∧
      (b'.labeled.get c = 1 ↔ c ∈ ([(1, 1), (2, 1), (3, 1)] : List Cell))) ∧
    (∀ c ∈ ([(1, 1), (2, 1), (3, 1)] : List Cell), IsSpillLevel 5 3 (finiteDem narrowOutlet).get c ((5 : Rat) : WithTop Rat)) ∧
    b.pourpoints[1]? = some p ∧ (p.cell_row, p.cell_col) = (2, 1) ∧
    b'.pourpoints[1]? = some p' ∧ (p'.cell_row, p'.cell_col) = (3, 1) ∧
    ¬ Downstream 5 3 d.flowdir.get (1, 1) (3, 1) := by
  obtain ⟨d, a, hd, ha, hdsh, hash, hfsh, hdr, hwet, hcodes, hav, hnf, hlow, hspill⟩ := narrowOutlet_dem
  have hdr' : ∀ c, d.flowdir.Has c → Drains d.flowdir.rows d.flowdir.cols d.flowdir.get c := by
    intro c hc; rw [hfsh.1, hfsh.2]; exact hdr c hc
  have hshape : d.flowdir.rows = d.depths.rows ∧ d.flowdir.cols = d.depths.cols :=
    ⟨hfsh.1.trans hdsh.1.symm, hfsh.2.trans hdsh.2.symm⟩
  have hne : 0 < d.depths.rows ∧ 0 < d.depths.cols := by rw [hdsh.1, hdsh.2]; decide
  have hi : BluespotInput cc Bluespots.python (exactSafe (1/1000) (14/10000)) gt d.depths d.flowdir
      (.maxAccum a : PourPointRule (WithTop Rat)) :=
    ⟨hcc, .inl rfl, hsq, hne, hshape, hdr', by rw [hdsh.1, hdsh.2]; exact hash⟩
  have hi' : BluespotInput cc Bluespots.python (exactSafe (1/1000) (14/10000)) gt d.depths d.flowdir
      (.minFilled (finiteDem narrowOutlet) d.noFlats) :=
    ⟨hcc, .inl rfl, hsq, hne, hshape, hdr', by rw [hdsh.1, hdsh.2]; exact hnf⟩
  obtain ⟨b, hb, hres⟩ := bluespot_result hi fun _ => true
  obtain ⟨b', hb', hres'⟩ := bluespot_result hi' fun _ => true
  have hgrid : ∀ c, d.depths.Has c ↔ c ∈ Raster.cellList 5 3 := by
    intro c; rw [Flow.mem_cellList]; show InGrid _ _ _ ↔ _; rw [hdsh.1, hdsh.2]
  have key : ∀ {choose : List Cell → Cell → Prop} {o : Bluespots.Out Rat},
      Bluespots.IsResult gt d.depths (fun _ => true) d.flowdir choose o → o.nlabels = 1 ∧
        (∀ c, narrowOutlet.Has c → (o.labeled.get c = 1 ↔ c ∈ ([(1, 1), (2, 1), (3, 1)] : List Cell))) ∧
        ∃ p, o.pourpoints[1]? = some p ∧ choose [(1, 1), (2, 1), (3, 1)] (p.cell_row, p.cell_col) := by
    intro choose o h
    have hlab : ∀ c, d.depths.Has c → (o.labeled.get c ≠ 0 ↔ c ∈ ([(1, 1), (2, 1), (3, 1)] : List Cell)) := by
      intro c hc
      rw [← hwet c ((hgrid c).1 hc), Ne, h.labelling.background c hc, not_not]
      exact ⟨fun hh => hh.1, fun hh => ⟨hh, passes_all hc hh⟩⟩
    have h1 : d.depths.Has (1, 1) := (hgrid _).2 (by decide)
    have h2 : d.depths.Has (2, 1) := (hgrid _).2 (by decide)
    have h3 : d.depths.Has (3, 1) := (hgrid _).2 (by decide)
    have w1 := (hwet (1, 1) (by decide)).2 (by decide)
    have w2 := (hwet (2, 1) (by decide)).2 (by decide)
    have w3 := (hwet (3, 1) (by decide)).2 (by decide)
    have e12 : o.labeled.get (1, 1) = o.labeled.get (2, 1) :=
      (h.same _ _ h1 h2 ((hlab _ h1).2 (by decide)) ((hlab _ h2).2 (by decide))).2
        (ConnectedIn.step (by decide) ⟨h1, w1⟩ ⟨h2, w2⟩)
    have e23 : o.labeled.get (2, 1) = o.labeled.get (3, 1) :=
      (h.same _ _ h2 h3 ((hlab _ h2).2 (by decide)) ((hlab _ h3).2 (by decide))).2
        (ConnectedIn.step (by decide) ⟨h2, w2⟩ ⟨h3, w3⟩)
    have hall : ∀ c, d.depths.Has c → o.labeled.get c ≠ 0 → o.labeled.get c = o.labeled.get (1, 1) := by
      intro c hc hz
      have := (hlab c hc).1 hz
      simp only [List.mem_cons, List.not_mem_nil, or_false] at this
      rcases this with rfl | rfl | rfl
      · rfl
      · exact e12.symm
      · exact (e12.trans e23).symm
    have hrange := h.labelling.range (1, 1) h1
    have hpos : 1 ≤ o.labeled.get (1, 1) := by
      have := (hlab _ h1).2 (by decide)
      omega
    have hone : ∀ l : Nat, 1 ≤ l → l ≤ o.nlabels → (l : Int) = o.labeled.get (1, 1) := by
      intro l hl hl'
      obtain ⟨c, hc, hcl⟩ := h.labelling.used l hl hl'
      rw [← hcl]
      exact hall c hc (by rw [hcl]; omega)
    have hn1 : 1 ≤ o.nlabels := by omega
    have h11 := hone 1 le_rfl hn1
    have hn : o.nlabels = 1 := by
      have := hone o.nlabels hn1 le_rfl
      omega
    have hiff : ∀ c, d.depths.Has c → (o.labeled.get c = 1 ↔ c ∈ ([(1, 1), (2, 1), (3, 1)] : List Cell)) := by
      intro c hc
      rw [← hlab c hc]
      refine ⟨fun e => by rw [e]; decide, fun e => ?_⟩
      rw [hall c hc e, ← h11]; rfl
    have hcs : CellsOf d.depths.rows d.depths.cols o.labeled.get (1 : Nat) [(1, 1), (2, 1), (3, 1)] := by
      refine ⟨by decide, fun c => ⟨fun hc => ?_, fun hc => (hiff c hc.1).1 hc.2⟩⟩
      have hc' : d.depths.Has c := by
        rw [hgrid]; revert c; decide
      exact ⟨hc', (hiff c hc').2 hc⟩
    obtain ⟨p, p1, _, p3, _⟩ := h.points 1 _ _ hn1 hcs (lists_filter _ _ _)
    refine ⟨hn, fun c hc => hiff c ((hgrid c).2 (Flow.mem_cellList.2 hc)), p, p1, p3 (by simp)⟩
  obtain ⟨n1, l1, p, p1, p2⟩ := key hres
  obtain ⟨n1', l1', p', p1', p2'⟩ := key hres'
  have p2 : IsFirstMax a.get [(1, 1), (2, 1), (3, 1)] (p.cell_row, p.cell_col) := p2
  have p2' : IsFirstMin d.noFlats.get [(1, 1), (2, 1), (3, 1)] (p'.cell_row, p'.cell_col) := p2'
  refine ⟨d, b, b', p, p', hd, by rw [ha]; exact hb, hb', n1, n1', fun c hc => ⟨l1 c hc, l1' c hc⟩, hspill, p1, ?_, p1', ?_, ?_⟩
  · have hm := p2.1
    have hmax := p2.2.1 (2, 1) (by decide)
    generalize (p.cell_row, p.cell_col) = q at hm hmax ⊢
    simp only [List.mem_cons, List.not_mem_nil, or_false] at hm
    rcases hm with rfl | rfl | rfl
    · rw [hav.1, hav.2.1] at hmax; omega
    · rfl
    · rw [hav.2.2, hav.2.1] at hmax; omega
  · have hm := p2'.1
    have hmin := p2'.2.1 (3, 1) (by decide)
    generalize (p'.cell_row, p'.cell_col) = q at hm hmin ⊢
    simp only [List.mem_cons, List.not_mem_nil, or_false] at hm
    rcases hm with rfl | rfl | rfl
    · exact absurd hmin (not_le.2 hlow.1)
    · exact absurd hmin (not_le.2 hlow.2)
    · rfl
  · have hf : ∀ {x y z : Cell} {k : Nat}, d.flowdir.get x = k → k < 8 → Flow.move x k = z →
        Step 5 3 d.flowdir.get x y → y = z := by
      intro x y z k hk h8 hz hs
      have := Flow.flowsTo_det hs.2.2 (Flow.flowsTo_iff.2 ⟨by rw [hk]; exact h8, rfl⟩)
      rw [this, hk, hz]
    have : ∀ y, Downstream 5 3 d.flowdir.get (1, 1) y → y = (1, 1) ∨ y = (2, 1) ∨ y = (3, 2) := by
      intro y hy
      induction hy with
      | refl => exact .inl rfl
      | tail _ hs ih =>
        rcases ih with rfl | rfl | rfl
        · exact .inr (.inl (hf hcodes.1 (by decide) (by decide) hs))
        · exact .inr (.inr (hf hcodes.2.1 (by decide) (by decide) hs))
        · have := hf hcodes.2.2 (by decide) (z := (3, 3)) (by decide) hs
          subst this
          exact absurd hs.2.1 (by decide)
    intro hh
    have := this _ hh
    revert this; decide

/-- C95 is false as documented (docs/cli.rst:287-288): a bluespot with one threshold cell only, the cell (3, 2), for which
the two rules give different pour points. -/
theorem C95_false {cc : Raster Bool → Raster Int × Nat} (hcc : LabelContract cc) {gt : GeoTransform Rat}
    (hsq : SquareCells gt) : ∃ (d : Dem.Out (WithTop Rat) Rat) (b b' : Bluespots.Out Rat)
      (p p' : Bluespots.PourPoint Rat),
    Returns (Dem.process (Dem.python exactSub (· * (7/10))) exactSub (exactSafe (1/1000) (14/10000)) true true
      (finiteDem narrowOutlet)) (.ok d) ∧
    (Bluespots.process cc Bluespots.python (exactSafe (1/1000 : Rat) (14/10000)) gt d.depths (some fun _ => true) d.flowdir
      d.accum none).Yields (.ok b) ∧
    (Bluespots.process cc Bluespots.python (exactSafe (1/1000) (14/10000)) gt d.depths (some fun _ => true) d.flowdir none
      (some (finiteDem narrowOutlet))).Yields (.ok b') ∧
    (∃ t, ∀ x, (narrowOutlet.Has x ∧ b.labeled.get x ≠ 1 ∧ ∃ c, narrowOutlet.Has c ∧ b.labeled.get c = 1 ∧ Adj c x ∧
      ∃ z, IsSpillLevel 5 3 (finiteDem narrowOutlet).get c z ∧ (finiteDem narrowOutlet).get x ≤ z) ↔ x = t) ∧
    b.pourpoints[1]? = some p ∧ b'.pourpoints[1]? = some p' ∧ (p.cell_row, p.cell_col) ≠ (p'.cell_row, p'.cell_col) := by
  obtain ⟨d, b, b', p, p', hd, hb, hb', _, _, hl, hspill, p1, p2, p1', p2', _⟩ := narrowOutlet_pourpoints hcc hsq
  refine ⟨d, b, b', p, p', hd, hb, hb', ⟨(3, 2), fun x => ⟨?_, ?_⟩⟩, p1, p1', by rw [p2, p2']; decide⟩
  · rintro ⟨hx, hlx, c, hc, hlc, hadj, z, hz, hxz⟩
    have hcm := (hl c hc).1.1 hlc
    have hz5 := hz.unique (hspill c hcm)
    subst hz5
    have hxm : x ∉ ([(1, 1), (2, 1), (3, 1)] : List Cell) := fun h => hlx ((hl x hx).1.2 h)
    have hxz : (narrowOutlet.get x : Rat) ≤ 5 := WithTop.coe_le_coe.1 hxz
    have key : ∀ x ∈ Raster.cellList 5 3, x ∉ ([(1, 1), (2, 1), (3, 1)] : List Cell) → narrowOutlet.get x ≤ 5 → x = (3, 2) := by
      decide +kernel
    exact key x (Flow.mem_cellList.2 hx) hxm hxz
  · rintro rfl
    refine ⟨by decide, fun h => absurd ((hl (3, 2) (by decide)).1.1 h) (by decide), (3, 1), by decide,
      (hl (3, 1) (by decide)).1.2 (by decide), by decide, _, hspill (3, 1) (by decide), ?_⟩
    exact WithTop.coe_le_coe.2 (by decide +kernel : narrowOutlet.get (3, 2) ≤ 5)

/-- C93 is false of all bluespots: water in the cell (1, 1) of the only bluespot of `narrowOutlet` leaves it without
passing its pour point. -/
theorem C93_all_false {cc : Raster Bool → Raster Int × Nat} (hcc : LabelContract cc) {gt : GeoTransform Rat}
    (hsq : SquareCells gt) : ∃ (d : Dem.Out (WithTop Rat) Rat) (b : Bluespots.Out Rat)
      (p : Bluespots.PourPoint Rat),
    Returns (Dem.process (Dem.python exactSub (· * (7/10))) exactSub (exactSafe (1/1000) (14/10000)) true true
      (finiteDem narrowOutlet)) (.ok d) ∧
    (Bluespots.process cc Bluespots.python (exactSafe (1/1000) (14/10000)) gt d.depths (some fun _ => true) d.flowdir none
      (some (finiteDem narrowOutlet))).Yields (.ok b) ∧
    b.pourpoints[1]? = some p ∧ narrowOutlet.Has (1, 1) ∧ b.labeled.get (1, 1) = 1 ∧
    ¬ Downstream narrowOutlet.rows narrowOutlet.cols d.flowdir.get (1, 1) (p.cell_row, p.cell_col) := by
  obtain ⟨d, b, b', p, p', hd, hb, hb', _, _, hl, _, p1, p2, p1', p2', hno⟩ := narrowOutlet_pourpoints hcc hsq
  exact ⟨d, b', p', hd, hb', p1', by decide, (hl (1, 1) (by decide)).2.2 (by decide), by rw [p2']; exact hno⟩

/-- The hypotheses of `C95_false` and `C93_all_false`. -/
example : ∃ cc, LabelContract cc ∧ SquareCells (⟨0, 2, 0, 0, 0, -2⟩ : GeoTransform Rat) := by
  obtain ⟨cc, h⟩ := exists_labelContract
  exact ⟨cc, h, by unfold SquareCells; norm_num⟩

end Malstroem
