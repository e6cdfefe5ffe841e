/-
Property C119: flow over filled areas takes the shortest way out. Exact arithmetic.
-/
import Verif.Spec.Nearest
import Verif.Props.Complete

set_option linter.unusedSectionVars false

namespace Malstroem
open Spec

namespace Nearest
variable {K : Type} [Field K] [LinearOrder K] [IsStrictOrderedRing K]

/-- The cost of a step. -/
def stepCost (short diag : K) (a b : Cell) : K := if Orth a b then short else diag

/-- What is needed of the surface `z` without flats over the terrain `dem`. -/
structure Surface (rows cols : Nat) (short diag : K) (dem z : Cell → K) : Prop where
  ge : ∀ c, InGrid rows cols c → dem c ≤ z c
  le : ∀ a b, InGrid rows cols a → InGrid rows cols b → Adj a b → z a ≤ max (dem a) (z b + stepCost short diag a b)
  raised : ∀ c, InGrid rows cols c → dem c < z c → Interior rows cols c ∧ ∃ b, InGrid rows cols b ∧ Adj c b ∧
    z c = z b + stepCost short diag c b

theorem surface {dem nf : Raster (WithTop K)} {dem' : Raster K} (hdem : dem = finiteDem dem') {short diag : K} (hs : 0 < short)
    (hd : 0 < diag) (h : Returns (Fill.fillTerrainNoFlats (· + (short : WithTop K)) (· + (diag : WithTop K)) dem) (.ok nf))
    (hfin : ∀ c, dem.Has c → nf.get c < ⊤) :
    Surface dem'.rows dem'.cols short diag dem'.get fun c => (nf.get c).untopD 0 := by
  subst hdem
  obtain ⟨a1, a2, a3⟩ := exact_add hs
  obtain ⟨b1, b2, b3⟩ := exact_add hd
  have hm := C08_noflats_cheapest_climb _ _ a1 b1 a2 b2 (finiteDem dem') nf h
  obtain ⟨hr, hc⟩ := Fill.shape_of_returns_nf h
  obtain ⟨r, hr', -, -, hedge, hge, -⟩ := C06_noflats_returns_bracketed _ _ a1 b1 a2 b2 (finiteDem dem') hr hc
  obtain rfl : r = nf := Except.ok.inj (Returns.unique hr' h)
  have hcoe : ∀ c, InGrid dem'.rows dem'.cols c → r.get c = (((r.get c).untopD 0 : K) : WithTop K) := by
    intro c hc
    have := hfin c hc
    lift r.get c to K using this.ne with y
    rfl
  have hstep : ∀ (a b : Cell) (x : K), (if Orth a b then (· + (short : WithTop K)) else (· + (diag : WithTop K))) (x : WithTop K) =
      ((x + stepCost short diag a b : K) : WithTop K) := by
    intro a b x
    unfold stepCost
    split <;> rfl
  have hle : ∀ a b, InGrid dem'.rows dem'.cols a → InGrid dem'.rows dem'.cols b → Adj a b →
      (r.get a).untopD 0 ≤ max (dem'.get a) ((r.get b).untopD 0 + stepCost short diag a b) := by
    intro a b ha hb hab
    obtain ⟨⟨p, hp, hpz⟩, -⟩ := hm b hb
    obtain ⟨q, rfl⟩ : ∃ q, p = b :: q := by
      cases p with
      | nil => have := hp.head; cases this
      | cons x q => have := hp.head; simp at this; exact ⟨q, by rw [this]⟩
    have := (hm a ha).2 ⟨a :: b :: q, ⟨rfl, List.isChain_cons_cons.2 ⟨hab, hp.chain⟩, fun x hx => by
      rcases List.mem_cons.1 hx with rfl | hx
      · exact ha
      · exact hp.inside x hx, by simpa using hp.exit⟩, rfl⟩
    unfold climb at this
    rw [hpz, hcoe b hb, hstep, hcoe a ha] at this
    have h2 : max ((finiteDem dem').get a) (((r.get b).untopD 0 + stepCost short diag a b : K) : WithTop K) =
      ((max (dem'.get a) ((r.get b).untopD 0 + stepCost short diag a b) : K) : WithTop K) := (WithTop.coe_max _ _).symm
    rw [h2] at this
    exact WithTop.coe_le_coe.1 this
  refine ⟨fun c hc => ?_, hle, fun c hc hlt => ?_⟩
  · have := hge c hc
    rw [hcoe c hc] at this
    exact WithTop.coe_le_coe.1 this
  · have hint : Interior dem'.rows dem'.cols c := by
      by_contra hne
      have : OnEdge dem'.rows dem'.cols c := by
        unfold Interior OnEdge at *; tauto
      rw [hedge c this] at hlt
      exact lt_irrefl _ hlt
    refine ⟨hint, ?_⟩
    obtain ⟨⟨p, hp, hpz⟩, -⟩ := hm c hc
    cases p with
    | nil => have := hp.head; cases this
    | cons x q =>
      obtain rfl : x = c := by have := hp.head; simpa using this
      cases q with
      | nil =>
        have h1 : (r.get x).untopD 0 = dem'.get x := by rw [← hpz]; rfl
        exact absurd hlt (by rw [h1]; exact lt_irrefl _)
      | cons b q =>
        have hb := hp.inside b (by simp)
        have hadj : Adj x b := (List.isChain_cons_cons.1 hp.chain).1
        refine ⟨b, hb, hadj, le_antisymm ?_ ?_⟩
        · rcases le_max_iff.1 (hle x b hc hb hadj) with h | h
          · exact absurd hlt (not_lt.2 h)
          · exact h
        · have h2 := (hm b hb).2 ⟨b :: q, ⟨rfl, (List.isChain_cons_cons.1 hp.chain).2, fun y hy => hp.inside y (List.mem_cons_of_mem _ hy),
            by simpa using hp.exit⟩, rfl⟩
          have h3 : (if Orth x b then (· + (short : WithTop K)) else (· + (diag : WithTop K))) (r.get b) ≤ r.get x := by
            rw [← hpz]
            unfold climb
            refine le_trans ?_ (le_max_right _ _)
            split
            · exact a1 h2
            · exact b1 h2
          rw [hcoe b hb, hstep, hcoe x hc] at h3
          exact WithTop.coe_le_coe.1 h3

/-- Any way to ground that is not raised costs at least the height of the surface. -/
theorem Surface.le_way {rows cols : Nat} {short diag : K} {dem z : Cell → K} (S : Surface rows cols short diag dem z)
    (hs : 0 < short) (hd : 0 < diag) {k : K} (hk : 0 < k) {o : Cell} (ho : z o = dem o) : ∀ (q : List Cell) (c : Cell), IsWay rows cols c o q →
    (∀ x ∈ q, dem x ≤ dem o) → z c ≤ dem o + max short (diag * k) * wayLength (1 / k) q := by
  have hM : 0 ≤ max short (diag * k) := hs.le.trans (le_max_left _ _)
  intro q
  induction q with
  | nil => intro c h; have := h.head; cases this
  | cons a q ih =>
    intro c h hle
    obtain rfl : a = c := by have := h.head; simpa using this
    cases q with
    | nil =>
      obtain rfl : a = o := by have := h.last; simpa using this
      simp [wayLength, ho]
    | cons b q =>
      have hb := h.inside b (by simp)
      have hch := List.isChain_cons_cons.1 h.chain
      have h1 := ih b ⟨rfl, by have := h.last; simpa using this, hch.2, fun x hx => h.inside x (List.mem_cons_of_mem _ hx)⟩
        fun x hx => hle x (List.mem_cons_of_mem _ hx)
      have h2 := S.le a b (h.inside a (by simp)) hb hch.1
      have h3 := hle a (by simp)
      have hstep : stepCost short diag a b ≤ max short (diag * k) * (if Orth a b then 1 else 1 / k) := by
        unfold stepCost
        split
        · rw [mul_one]; exact le_max_left _ _
        · rw [mul_one_div, le_div_iff₀ hk]; exact le_max_right _ _
      have hnn : ∀ p : List Cell, 0 ≤ wayLength (1 / k) p := by
        intro p
        induction p with
        | nil => exact le_rfl
        | cons x p ih =>
          cases p with
          | nil => exact le_rfl
          | cons y p =>
            unfold wayLength
            refine add_nonneg ?_ ih
            split
            · exact zero_le_one
            · positivity
      have h4 := hnn (b :: q)
      have h5 : 0 ≤ stepCost short diag a b := by unfold stepCost; split <;> linarith
      unfold wayLength
      rw [mul_add]
      have h6 := mul_nonneg hM h4
      rcases le_max_iff.1 h2 with h | h <;> linarith

theorem orth_move (c : Cell) {k : Nat} (hk : k < 8) : Orth c (Flow.move c k) ↔ k % 2 = 0 := by
  have ha := Flow.move_adj c hk
  obtain ⟨r, q⟩ := c
  unfold Orth
  interval_cases k <;> simp [ha] <;> simp [Flow.move, Flow.off, offset]

/-- Raised cells flow down at least as steeply as the cheapest way. -/
theorem Surface.flow {rows cols : Nat} {short diag : K} {dem z : Cell → K} (S : Surface rows cols short diag dem z)
    (hs : 0 < short) (hd : 0 < diag) {k : K} (hk : 0 < k) {nf : Raster (WithTop K)} (hsh : nf.rows = rows ∧ nf.cols = cols)
    (hz : z = fun c => (nf.get c).untopD 0) (hfin : ∀ c, InGrid rows cols c → nf.get c < ⊤) {c : Cell} (hc : InGrid rows cols c)
    (hlt : dem c < z c) :
    ∃ b, Step rows cols (Flow.terrainFlowdirection exactSub (· * k) nf true).get c b ∧
      z b + min short (diag * k) * (if Orth c b then 1 else 1 / k) ≤ z c := by
  obtain ⟨rfl, rfl⟩ := hsh
  obtain ⟨hint, n, hn, hadj, he⟩ := S.raised c hc hlt
  have hm : 0 < min short (diag * k) := lt_min hs (mul_pos hd hk)
  have hsub : ∀ a b, nf.Has a → nf.Has b → (0 < exactSub (nf.get a) (nf.get b) ↔ nf.get b < nf.get a) := by
    intro a b ha hb
    have h1 := hfin a ha
    have h2 := hfin b hb
    lift nf.get a to K using h1.ne with x
    lift nf.get b to K using h2.ne with y
    simp [exactSub, WithTop.coe_lt_coe]
  obtain ⟨h8, hcode⟩ := C13_flowdir_steepest exactSub (· * k) nf hsub (fun a b => by
    exact mul_pos_iff_of_pos_right hk) true c hint
  have hlow : nf.get n < nf.get c := by
    rw [← hsub c n hc hn]
    show 0 < (nf.get c).untopD 0 - (nf.get n).untopD 0
    have : z c = z n + stepCost short diag c n := he
    have h0 : 0 < stepCost short diag c n := by unfold stepCost; split <;> assumption
    simp only [hz] at this
    linarith
  obtain ⟨c8, -, hbest, -⟩ := hcode fun h => (h8.1 h) n hadj hlow
  generalize hcd : (Flow.terrainFlowdirection exactSub (· * k) nf true).get c = code at *
  obtain ⟨j, hj, rfl⟩ := Flow.exists_move_of_adj hadj
  have hsl := hbest j hj
  have hslope : ∀ i < 8, slope exactSub (· * k) nf.get c i = (z c - z (Flow.move c i)) * (if Orth c (Flow.move c i) then 1 else k) := by
    intro i hi
    unfold slope
    rw [Flow.neighbour_eq]
    by_cases h : i % 2 = 0
    · rw [if_pos h, if_pos ((orth_move c hi).2 h), mul_one, hz]; rfl
    · rw [if_neg h, if_neg fun h' => h ((orth_move c hi).1 h'), hz]; rfl
  rw [hslope j hj, hslope code c8] at hsl
  have hj' : min short (diag * k) ≤ (z c - z (Flow.move c j)) * (if Orth c (Flow.move c j) then 1 else k) := by
    rw [he, add_sub_cancel_left]
    unfold stepCost
    split
    · rw [mul_one]; exact min_le_left _ _
    · exact min_le_right _ _
  refine ⟨Flow.move c code, ⟨hc, Flow.interior_move_inGrid hint c8, Flow.flowsTo_iff.2 (by rw [hcd]; exact ⟨c8, rfl⟩)⟩, ?_⟩
  have := hj'.trans hsl
  split at this
  · next h => rw [if_pos h]; linarith
  · next h =>
    rw [if_neg h, mul_one_div]
    have := (div_le_iff₀ hk).2 this
    linarith

/-- Following the flow from a raised cell to the first cell that is not raised. -/
theorem Surface.path {rows cols : Nat} {short diag : K} {dem z : Cell → K} (S : Surface rows cols short diag dem z)
    {fd : Cell → Nat} {m k : K} (hm : 0 < m) (hk : 0 < k) (hflow : ∀ c, InGrid rows cols c → dem c < z c → ∃ b, Step rows cols fd c b ∧
      z b + m * (if Orth c b then 1 else 1 / k) ≤ z c) (c : Cell) (hc : InGrid rows cols c) :
    ∃ p o, p.head? = some c ∧ p.getLast? = some o ∧ p.IsChain (Step rows cols fd) ∧ InGrid rows cols o ∧ z o = dem o ∧
      (∀ x ∈ p, x ≠ o → dem x < z x) ∧ dem o + m * wayLength (1 / k) p ≤ z c := by
  classical
  have key : ∀ N, ∀ c, InGrid rows cols c → ((Raster.cellList rows cols).toFinset.filter fun x => z x < z c).card ≤ N →
      ∃ p o, p.head? = some c ∧ p.getLast? = some o ∧ p.IsChain (Step rows cols fd) ∧ InGrid rows cols o ∧ z o = dem o ∧
      (∀ x ∈ p, x ≠ o → dem x < z x) ∧ dem o + m * wayLength (1 / k) p ≤ z c := by
    intro N
    induction N with
    | zero =>
      intro c hc hN
      by_cases hlt : dem c < z c
      · obtain ⟨b, hb, hle⟩ := hflow c hc hlt
        have hpos : 0 < m * (if Orth c b then (1 : K) else 1 / k) := by split <;> positivity
        have : b ∈ (Raster.cellList rows cols).toFinset.filter fun x => z x < z c :=
          Finset.mem_filter.2 ⟨List.mem_toFinset.2 (Flow.mem_cellList.2 hb.2.1), by linarith⟩
        have := Finset.card_pos.2 ⟨b, this⟩
        omega
      · have he : z c = dem c := le_antisymm (not_lt.1 hlt) (S.ge c hc)
        exact ⟨[c], c, rfl, rfl, List.isChain_singleton _, hc, he, fun x hx hne => absurd (List.mem_singleton.1 hx) hne,
          by simp [wayLength, he]⟩
    | succ N ih =>
      intro c hc hN
      by_cases hlt : dem c < z c
      · obtain ⟨b, hb, hle⟩ := hflow c hc hlt
        have hpos : 0 < m * (if Orth c b then (1 : K) else 1 / k) := by split <;> positivity
        have hbc : z b < z c := by linarith
        have hcard : ((Raster.cellList rows cols).toFinset.filter fun x => z x < z b).card <
            ((Raster.cellList rows cols).toFinset.filter fun x => z x < z c).card := by
          refine Finset.card_lt_card (Finset.ssubset_iff_of_subset (fun x hx => ?_) |>.2 ⟨b, ?_, ?_⟩)
          · obtain ⟨h1, h2⟩ := Finset.mem_filter.1 hx
            exact Finset.mem_filter.2 ⟨h1, h2.trans hbc⟩
          · exact Finset.mem_filter.2 ⟨List.mem_toFinset.2 (Flow.mem_cellList.2 hb.2.1), hbc⟩
          · exact fun h => lt_irrefl _ (Finset.mem_filter.1 h).2
        obtain ⟨p, o, h1, h2, h3, h4, h5, h6, h7⟩ := ih b hb.2.1 (by omega)
        obtain ⟨q, rfl⟩ : ∃ q, p = b :: q := by
          cases p with
          | nil => cases h1
          | cons x q => simp at h1; exact ⟨q, by rw [h1]⟩
        refine ⟨c :: b :: q, o, rfl, by simpa using h2, List.isChain_cons_cons.2 ⟨hb, h3⟩, h4, h5, fun x hx hne => ?_, ?_⟩
        · rcases List.mem_cons.1 hx with rfl | hx
          · exact hlt
          · exact h6 x hx hne
        · unfold wayLength
          rw [mul_add]
          linarith
      · have he : z c = dem c := le_antisymm (not_lt.1 hlt) (S.ge c hc)
        exact ⟨[c], c, rfl, rfl, List.isChain_singleton _, hc, he, fun x hx hne => absurd (List.mem_singleton.1 hx) hne,
          by simp [wayLength, he]⟩
  exact key _ c hc le_rfl

/-- C119. `k` is the factor for slopes to diagonal neighbours, so that `1 / k` is the length of a diagonal; `short` and `diag`
are the smallest drops DemTool leaves per step. From every cell of a bluespot (more generally: every cell that is raised in
the terrain without flats) follow the flow to the first cell `o` that is not raised. Then no other way to ground that is not
raised, and not lower than the cells on the way, is shorter; up to differences in elevation, and up to the ratio of the two
drops per length. -/
theorem C119_short (dem : Raster K) (hr : 2 ≤ dem.rows) (hc : 2 ≤ dem.cols) {short diag k : K} (hs : 0 < short) (hd : 0 < diag)
    (hk : 0 < k) (want : Bool) :
    ∃ d : Dem.Out (WithTop K) K,
      Returns (Dem.process (Dem.python exactSub (· * k)) exactSub (exactSafe short diag) true want (finiteDem dem)) (.ok d) ∧
      (∀ c, dem.Has c → 0 < d.depths.get c → (dem.get c : WithTop K) < d.noFlats.get c) ∧
      ∀ c, dem.Has c → (dem.get c : WithTop K) < d.noFlats.get c →
        ∃ p o, p.head? = some c ∧ p.getLast? = some o ∧ p.IsChain (Step dem.rows dem.cols d.flowdir.get) ∧ dem.Has o ∧
          d.noFlats.get o = (dem.get o : WithTop K) ∧ (∀ x ∈ p, x ≠ o → (dem.get x : WithTop K) < d.noFlats.get x) ∧
          ∀ q o', IsWay dem.rows dem.cols c o' q → d.noFlats.get o' = (dem.get o' : WithTop K) →
            (∀ x ∈ q, dem.get x ≤ dem.get o') →
            dem.get o + min short (diag * k) * wayLength (1 / k) p ≤ dem.get o' + max short (diag * k) * wayLength (1 / k) q := by
  have h := exact_sound dem hr hc hs hd hk
  obtain ⟨d, hdr, hflsh, hdsh, hfsh, hcells, -⟩ := C62_dem_outputs h want
  obtain ⟨-, hfill, -, hnf, hfd, -, -⟩ := Dem.process_inv hdr
  have hfill : Returns (Fill.fillTerrain (finiteDem dem)) (.ok d.filled) := hfill
  have hnf : Returns (Fill.fillTerrainNoFlats (· + (short : WithTop K)) (· + (diag : WithTop K)) (finiteDem dem)) (.ok d.noFlats) := hnf
  have hfd : d.flowdir = Flow.terrainFlowdirection exactSub (· * k) d.noFlats true := hfd
  obtain ⟨hnsh, hfin, -⟩ := noFlats_finite h hnf
  have S := surface rfl hs hd hnf hfin
  have hcoe : ∀ c, dem.Has c → d.noFlats.get c = (((d.noFlats.get c).untopD 0 : K) : WithTop K) := by
    intro c hc
    have := hfin c hc
    lift d.noFlats.get c to K using this.ne with y
    rfl
  obtain ⟨a1, a2, -⟩ := exact_add hs
  obtain ⟨b1, b2, -⟩ := exact_add hd
  obtain ⟨r, hr', -, -, -, -, hbr⟩ := C06_noflats_returns_bracketed _ _ a1 b1 a2 b2 (finiteDem dem) hr hc
  obtain rfl : r = d.noFlats := Except.ok.inj (Returns.unique hr' hnf)
  refine ⟨d, hdr, fun c hc hp => ?_, fun c hc hlt => ?_⟩
  · exact lt_of_lt_of_le (((hcells c hc).2.2.2).1 hp) (hbr _ hfill c hc)
  · have hm : 0 < min short (diag * k) := lt_min hs (mul_pos hd hk)
    obtain ⟨p, o, p1, p2, p3, p4, p5, p6, p7⟩ := S.path (fd := d.flowdir.get) hm hk (fun c hc hlt => by
      rw [hfd]
      exact S.flow hs hd hk hnsh rfl hfin hc hlt) c hc
    refine ⟨p, o, p1, p2, p3, p4, ?_, fun x hx hne => ?_, fun q o' hq ho' hqle => ?_⟩
    · rw [hcoe o p4]; exact congrArg _ p5
    · have hx' : dem.Has x := by
        by_contra hno
        have : ∀ (l : List Cell), l.IsChain (Step dem.rows dem.cols d.flowdir.get) → l.getLast? = some o →
            ∀ x ∈ l, dem.Has x := by
          intro l
          induction l with
          | nil => intro _ h; cases h
          | cons a l ih =>
            intro h1 h2 y hy
            cases l with
            | nil =>
              obtain rfl : a = o := by simpa using h2
              obtain rfl := List.mem_singleton.1 hy
              exact p4
            | cons b l =>
              obtain ⟨h3, h4⟩ := List.isChain_cons_cons.1 h1
              rcases List.mem_cons.1 hy with rfl | hy
              · exact h3.1
              · exact ih h4 (by simpa using h2) y hy
        exact hno (this p p3 p2 x hx)
      rw [hcoe x hx']
      exact WithTop.coe_lt_coe.2 (p6 x hx hne)
    · refine p7.trans (S.le_way hs hd hk ?_ q c hq hqle)
      show (d.noFlats.get o').untopD 0 = _
      rw [ho']; rfl

/-- C119, if diagonal steps are as steep as the others, as they are in the program: `diag` is `short` times the length of a
diagonal. Flow from a bluespot over its surface takes the shortest way out: no ground that is not raised, and as high as
that where it gets to, is nearer. -/
theorem C119_nearest (dem : Raster K) (hr : 2 ≤ dem.rows) (hc : 2 ≤ dem.cols) {short diag k : K} (hs : 0 < short) (hk : 0 < k)
    (hdiag : diag = short * (1 / k)) (want : Bool) :
    ∃ d : Dem.Out (WithTop K) K,
      Returns (Dem.process (Dem.python exactSub (· * k)) exactSub (exactSafe short diag) true want (finiteDem dem)) (.ok d) ∧
      ∀ c, dem.Has c → 0 < d.depths.get c →
        ∃ p o, p.head? = some c ∧ p.getLast? = some o ∧ p.IsChain (Step dem.rows dem.cols d.flowdir.get) ∧ dem.Has o ∧
          d.noFlats.get o = (dem.get o : WithTop K) ∧ (∀ x ∈ p, x ≠ o → (dem.get x : WithTop K) < d.noFlats.get x) ∧
          ∀ q o', IsWay dem.rows dem.cols c o' q → d.noFlats.get o' = (dem.get o' : WithTop K) →
            (∀ x ∈ q, dem.get x ≤ dem.get o') → dem.get o' ≤ dem.get o → wayLength (1 / k) p ≤ wayLength (1 / k) q := by
  have hd : 0 < diag := by rw [hdiag]; positivity
  have he : diag * k = short := by rw [hdiag]; field_simp
  obtain ⟨d, h1, h2, h3⟩ := C119_short dem hr hc hs hd hk want
  refine ⟨d, h1, fun c hc hp => ?_⟩
  obtain ⟨p, o, p1, p2, p3, p4, p5, p6, p7⟩ := h3 c hc (h2 c hc hp)
  refine ⟨p, o, p1, p2, p3, p4, p5, p6, fun q o' hq ho' hqle hle => ?_⟩
  have := p7 q o' hq ho' hqle
  rw [he, min_self, max_self] at this
  exact le_of_mul_le_mul_left (by linarith) hs

/-- C119 for distances as the crow flies between the centres of neighbouring cells: `DemTool` takes `short * √2` for diagonal
steps, and the flow directions divide drops to diagonal neighbours by `√2`. -/
theorem C119_distance (dem : Raster ℝ) (hr : 2 ≤ dem.rows) (hc : 2 ≤ dem.cols) {short : ℝ} (hs : 0 < short) (want : Bool) :
    ∃ d : Dem.Out (WithTop ℝ) ℝ,
      Returns (Dem.process (Dem.python exactSub (· * (1 / √2))) exactSub (exactSafe short (short * √2)) true want (finiteDem dem))
        (.ok d) ∧
      ∀ c, dem.Has c → 0 < d.depths.get c →
        ∃ p o, p.head? = some c ∧ p.getLast? = some o ∧ p.IsChain (Step dem.rows dem.cols d.flowdir.get) ∧ dem.Has o ∧
          d.noFlats.get o = (dem.get o : WithTop ℝ) ∧ (∀ x ∈ p, x ≠ o → (dem.get x : WithTop ℝ) < d.noFlats.get x) ∧
          ∀ q o', IsWay dem.rows dem.cols c o' q → d.noFlats.get o' = (dem.get o' : WithTop ℝ) →
            (∀ x ∈ q, dem.get x ≤ dem.get o') → dem.get o' ≤ dem.get o → wayLength √2 p ≤ wayLength √2 q := by
  have := C119_nearest dem hr hc (diag := short * √2) hs (k := 1 / √2) (by positivity) (by rw [one_div_one_div]) want
  simpa only [one_div_one_div] using this

/-- A bluespot with two outlets of the same elevation. -/
def demoTwoOutlets : Raster Rat := Raster.ofRows
  [[9,9,9,9,9,9,9],
   [9,9,9,1,9,9,9],
   [5,1,1,1,1,1,5],
   [9,9,9,9,9,9,9]]

/-- The hypotheses of `C119_nearest`, and of `C119_short` with drops that are not in the ratio of the lengths. -/
example : 2 ≤ demoTwoOutlets.rows ∧ 2 ≤ demoTwoOutlets.cols ∧ (0 : Rat) < 1/1000 ∧ (0 : Rat) < 5/7 ∧
    (7/5000 : Rat) = 1/1000 * (1 / (5/7)) ∧ (0 : Rat) < 1/700 := by decide +kernel

/-- The flow parts in the middle: west of it the flow goes to the western outlet, east of it to the eastern. There are ways to
either outlet as the theorem has them. -/
example : ((Dem.process (Dem.python exactSub (· * (5/7))) exactSub (exactSafe (1/1000) (7/5000)) true false
      (finiteDem demoTwoOutlets) 200).bind Except.toOption).map (fun d => (d.flowdir.get (2,2), d.flowdir.get (2,4),
        d.noFlats.get (2,0), d.noFlats.get (2,6), d.depths.get (2,2))) = some (6, 2, ((5 : Rat) : WithTop Rat), ((5 : Rat) : WithTop Rat), 4) ∧
    (∀ x ∈ [((2,2) : Cell), (2,1), (2,0)], demoTwoOutlets.get x ≤ demoTwoOutlets.get (2,0)) ∧
    wayLength (7/5 : Rat) [((2,2) : Cell), (2,1), (2,0)] = 2 := by
  decide +kernel

example : IsWay 4 7 (2,2) (2,0) [(2,2), (2,1), (2,0)] where
  head := rfl
  last := rfl
  chain := by simp [Adj]
  inside := by decide

end Nearest
end Malstroem
