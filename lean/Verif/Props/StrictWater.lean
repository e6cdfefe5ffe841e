/-
Property C113: ignoring bluespots does not mean less water in the others. All arithmetic is exact.
-/
import Verif.Spec.Ignored
import Verif.Proofs.ContractRaster
import Verif.Props.Ignored
import Verif.Proofs.Fuel
import Mathlib.Algebra.BigOperators.Field

set_option linter.unusedSectionVars false

namespace Malstroem
open Spec Network

section
variable {K : Type} [Field K] [LinearOrder K] [IsStrictOrderedRing K] {β : Type} [LinearOrder β] [OrderTop β]
variable {drop : β → β → K} {sub : β → β → K} {scale : K → K} {safe : Raster β → (β → β) × (β → β)}
  {gt : GeoTransform K} {dem : Raster β} {cc : Raster Bool → Raster Int × Nat}
variable {demEngine : Dem.Engine β K} {bluespotEngine : Bluespots.Engine β K}

/-- Counting cells by their watershed in the loose run. -/
theorem count_by (L : List Cell) (P : Cell → Prop) [DecidablePred P] (w : Cell → Int) (I : Finset Nat)
    (h : ∀ c ∈ L, 0 ≤ w c ∧ (P c ↔ (w c).toNat ∈ I)) :
    (L.filter P).length = ∑ b ∈ I, (L.filter fun c => w c = ((b : Nat) : Int)).length := by
  induction L with
  | nil => simp
  | cons c L ih =>
    have ih := ih fun x hx => h x (List.mem_cons_of_mem _ hx)
    obtain ⟨h0, hP⟩ := h c (List.mem_cons_self ..)
    have e : ∀ b ∈ I, ((c :: L).filter fun x => w x = ((b : Nat) : Int)).length =
        (if b = (w c).toNat then 1 else 0) + (L.filter fun x => w x = ((b : Nat) : Int)).length := by
      intro b _
      rw [List.filter_cons]
      by_cases hb : w c = (b : Int)
      · rw [if_pos (by simpa using hb), if_pos (by omega), List.length_cons, add_comm]
      · rw [if_neg (by simpa using hb), if_neg (by omega), zero_add]
    rw [Finset.sum_congr rfl e, Finset.sum_add_distrib, ← ih, Finset.sum_ite_eq', List.filter_cons]
    by_cases hc : P c
    · rw [if_pos (by simpa using hc), if_pos (hP.1 hc), List.length_cons, add_comm]
    · rw [if_neg (by simpa using hc), if_neg (fun h => hc (hP.2 h)), zero_add]

/-- The two runs after DemTool. -/
theorem GoodDem.stricter {want : Bool} {d : Dem.Out β K} {z : Cell → β}
    (g : GoodDem drop sub safe dem want demEngine bluespotEngine d z) (hsq : SquareCells gt)
    {strict loose : Bluespots.StatUnits K → Bool} (hsl : ∀ u, strict u = true → loose u = true) {mm : K} (hmm : 0 ≤ mm)
    {s l : Complete.Out β K} (hs : s.dem = d) (hl : l.dem = d)
    {point point' : Nat → Cell} {next next' : Nat → Option Int} {v spill v' spill' : Nat → K}
    (reps : ReportsState dem.rows dem.cols gt mm s point' next' v' spill')
    (repl : ReportsState dem.rows dem.cols gt mm l point next v spill)
    (rs : Bluespots.IsResult gt d.depths strict d.flowdir (pourPointRule dem d).Chooses s.bluespots)
    (rl : Bluespots.IsResult gt d.depths loose d.flowdir (pourPointRule dem d).Chooses l.bluespots)
    {γ γ' : Type} [LinearOrder γ] [LinearOrder γ'] {rank : Cell → γ} {rank' : Cell → γ'}
    (lowl : LowestOutlets dem.rows dem.cols d.flowdir.get l.bluespots.labeled.get rank
      (l.bluespots.pourpoints.map fun p => (p.cell_row, p.cell_col)))
    (lows : LowestOutlets dem.rows dem.cols d.flowdir.get s.bluespots.labeled.get rank'
      (s.bluespots.pourpoints.map fun p => (p.cell_row, p.cell_col)))
    (hone : ∀ c, dem.Has c → l.bluespots.labeled.get c ≠ 0 → s.bluespots.labeled.get c = 0 →
      OneWayOut dem.rows dem.cols d.flowdir.get l.bluespots.labeled.get (l.bluespots.labeled.get c)) :
    ∀ c, dem.Has c → s.bluespots.labeled.get c ≠ 0 →
      v (l.bluespots.labeled.get c).toNat ≤ v' (s.bluespots.labeled.get c).toNat ∧
      spill (l.bluespots.labeled.get c).toNat ≤ spill' (s.bluespots.labeled.get c).toNat := by
  classical
  obtain ⟨hz, hn0⟩ := g.apart hl repl rl lowl
  obtain ⟨hz', hn0'⟩ := g.apart hs reps rs lows
  have hgrid : ∀ c, InGrid dem.rows dem.cols c ↔ d.depths.Has c := fun c => by
    show _ ↔ InGrid _ _ c
    rw [g.depths.1, g.depths.2]
  obtain ⟨-, old, o1, o2, o3, o4⟩ := stricter_results hsq hsl rs rl
  set n := l.bluespots.nlabels with hn
  set m := s.bluespots.nlabels with hm
  have hrl : ∀ c, dem.Has c → 0 ≤ l.bluespots.labeled.get c ∧ l.bluespots.labeled.get c ≤ n := fun c hc =>
    rl.labelling.range c ((hgrid c).1 hc)
  have hrs : ∀ c, dem.Has c → 0 ≤ s.bluespots.labeled.get c ∧ s.bluespots.labeled.get c ≤ m := fun c hc =>
    rs.labelling.range c ((hgrid c).1 hc)
  have hcompat : Contract.Compat dem.rows dem.cols l.bluespots.labeled.get s.bluespots.labeled.get n m old :=
    ⟨o1, o2, fun k h1 h2 c hc => (o4 k h1 h2).1 c ((hgrid c).1 hc), hrl, fun c hc h => o3 c ((hgrid c).1 hc) h⟩
  -- the pour points of the loose run
  have hpoint : ∀ b, 1 ≤ b → b ≤ n → InGrid dem.rows dem.cols (point b) ∧ l.bluespots.labeled.get (point b) = b ∧
      ∀ c, InGrid dem.rows dem.cols c → l.bluespots.labeled.get c = b → rank (point b) ≤ rank c := by
    intro b h1 h2
    obtain ⟨p, hp, he⟩ := repl.outlet b h2
    have hp' : (l.bluespots.pourpoints.map fun p => ((p.cell_row, p.cell_col) : Cell))[b]? = some (point b) := by
      rw [List.getElem?_map, hp, he]; rfl
    rcases lowl.lowest b _ hp' with ⟨h, -⟩ | h
    · omega
    · exact h
  have hgo : ∀ b, 1 ≤ b → b ≤ n → ∃ path, NextLabel dem.rows dem.cols d.flowdir.get l.bluespots.labeled.get (some 0) (point b)
      (next b) path := by
    intro b h1 h2
    rcases repl.goes b h2 with ⟨-, h⟩ | ⟨h, -⟩
    · rw [hl] at h; exact h
    · exact absurd (hpoint b h1 h2).1 h
  have hgo' : ∀ k, 1 ≤ k → k ≤ m → ∃ path, NextLabel dem.rows dem.cols d.flowdir.get s.bluespots.labeled.get (some 0) (point' k)
      (next' k) path := by
    intro k h1 h2
    rcases reps.goes k h2 with ⟨-, h⟩ | ⟨h, -⟩
    · rw [hs] at h; exact h
    · obtain ⟨p, hp, he⟩ := reps.outlet k h2
      have hp' : (s.bluespots.pourpoints.map fun p => ((p.cell_row, p.cell_col) : Cell))[k]? = some (point' k) := by
        rw [List.getElem?_map, hp, he]; rfl
      rcases lows.lowest k _ hp' with ⟨h0, -⟩ | h'
      · omega
      · exact absurd h'.1 h
  have hsame : ∀ k, 1 ≤ k → k ≤ m → point' k = point (old k) := by
    intro k h1 h2
    obtain ⟨-, -, p, q, hp, hq, e, -⟩ := o4 k h1 h2
    obtain ⟨p', hp', e1⟩ := reps.outlet k h2
    obtain ⟨q', hq', e2⟩ := repl.outlet (old k) (o1 k h1 h2).2
    rw [hp] at hp'
    rw [hq] at hq'
    obtain rfl := Option.some.inj hp'
    obtain rfl := Option.some.inj hq'
    rw [e1, e2, e]
  -- next bluespots of the loose run
  have hnext : ∀ a ≤ n, ∀ x, next a = some x → ∃ b : Nat, x = b ∧ 1 ≤ a ∧ 1 ≤ b ∧ b ≤ n ∧ rank (point b) < rank (point a) := by
    intro a ha x e
    have ha1 : 1 ≤ a := by
      rcases Nat.eq_zero_or_pos a with rfl | h
      · rw [hz] at e; exact nomatch e
      · exact h
    obtain ⟨path, t, ht, ⟨pre, y, post, rfl, -, hy, hd, -⟩ | ⟨-, hd, -⟩⟩ := hgo a ha1 ha
    · rw [e] at hd
      obtain rfl := Option.some.inj hd
      have hyin := ht.inside y (by simp)
      obtain ⟨r1, r2⟩ := hrl y hyin
      have hy0 : l.bluespots.labeled.get y ≠ 0 := fun h => hy.2 (by rw [h])
      have hyb : ((l.bluespots.labeled.get y).toNat : Int) = l.bluespots.labeled.get y := by omega
      refine ⟨(l.bluespots.labeled.get y).toNat, hyb.symm, ha1, by omega, by omega, ?_⟩
      refine lt_of_le_of_lt ((hpoint _ (by omega) (by omega)).2.2 y hyin hyb.symm) ?_
      rcases Relation.reflTransGen_iff_eq_or_transGen.1 ((Flow.trace_downstream _ _ ht y).1 (by simp)) with e' | h
      · exact absurd (by rw [e']) hy.1
      · exact lowl.trans h
    · rw [e] at hd; exact nomatch hd
  let nrank : Nat → Nat := fun b => ((Finset.range (n + 1)).filter fun a => rank (point b) < rank (point a)).card
  have hnrank : ∀ a ≤ n, ∀ b : Nat, next a = some (b : Int) → b ≤ n ∧ nrank a < nrank b := by
    intro a ha b e
    obtain ⟨b', e', -, -, h3, h4⟩ := hnext a ha _ e
    obtain rfl : b = b' := by exact_mod_cast e'
    refine ⟨h3, Finset.card_lt_card ⟨fun x hx => ?_, fun hsub => ?_⟩⟩
    · rw [Finset.mem_filter] at hx ⊢
      exact ⟨hx.1, h4.trans hx.2⟩
    · have := hsub (Finset.mem_filter.2 ⟨Finset.mem_range.2 (by omega), h4⟩)
      exact lt_irrefl _ (Finset.mem_filter.1 this).2
  have hnle : ∀ b, nrank b ≤ n + 1 := fun b => (Finset.card_filter_le _ _).trans (by simp)
  have hlands : ∀ N, ∀ b ≤ n, n + 1 - nrank b ≤ N → ∃ r, Contract.Lands m old next b r := by
    intro N
    induction N using Nat.strong_induction_on with
    | _ N ih =>
      intro b hb hN
      by_cases hk : Contract.Kept m old b
      · obtain ⟨k, h1, h2, rfl⟩ := hk
        exact ⟨_, .kept h1 h2⟩
      · rcases e : next b with _ | x
        · exact ⟨_, .gone hk e⟩
        · obtain ⟨b', rfl, -⟩ := hnext b hb x e
          obtain ⟨h3, h4⟩ := hnrank b hb b' e
          have := hnle b'
          obtain ⟨r, hr⟩ := ih (n + 1 - nrank b') (by omega) b' h3 le_rfl
          exact ⟨r, .via hk e hr⟩
  -- every cell of a bluespot that is left out leads to the same next bluespot
  have hdr : ∀ c, InGrid dem.rows dem.cols c → ∃ t, IsTrace dem.rows dem.cols d.flowdir.get c t := by
    intro c hc
    have hlt : ∀ c, d.flowdir.Has c → d.flowdir.get c ≤ 8 := fun c hc => by
      have hc : InGrid d.flowdir.rows d.flowdir.cols c := hc
      rw [g.flowdir.1, g.flowdir.2] at hc
      exact (Flow.Drains.code_lt (g.down c hc).2.1).le
    have := Net.exists_trace hlt (fun c => by rw [g.flowdir.1, g.flowdir.2]; exact lowl.acyclic c) (c := c)
      (by rw [g.flowdir.1, g.flowdir.2]; exact hc)
    rwa [g.flowdir.1, g.flowdir.2] at this
  have hone' : ∀ b : Nat, 1 ≤ b → b ≤ n → ¬ Contract.Kept m old b → ∀ c, InGrid dem.rows dem.cols c →
      l.bluespots.labeled.get c = b →
      ∃ path, NextLabel dem.rows dem.cols d.flowdir.get l.bluespots.labeled.get (some 0) c (next b) path := by
    intro b h1 h2 hk c hc hb
    obtain ⟨t, ht⟩ := hdr c hc
    have hex : ∃ x path, NextLabel dem.rows dem.cols d.flowdir.get l.bluespots.labeled.get (some 0) c x path := by
      by_cases h : ∃ y ∈ t, Foreign l.bluespots.labeled.get (some 0) (l.bluespots.labeled.get c) y
      · obtain ⟨pre, y, post, e, h3, h4⟩ : ∃ pre y post, t = pre ++ y :: post ∧
            (∀ w ∈ pre, ¬ Foreign l.bluespots.labeled.get (some 0) (l.bluespots.labeled.get c) w) ∧
            Foreign l.bluespots.labeled.get (some 0) (l.bluespots.labeled.get c) y := by
          clear ht
          induction t with
          | nil => obtain ⟨_, h, _⟩ := h; exact nomatch h
          | cons w t ih =>
            by_cases hw : Foreign l.bluespots.labeled.get (some 0) (l.bluespots.labeled.get c) w
            · exact ⟨[], w, t, rfl, by simp, hw⟩
            · obtain ⟨pre, y, post, e, h3, h4⟩ := ih (by
                obtain ⟨y, hy, hf⟩ := h
                rcases List.mem_cons.1 hy with rfl | hy
                · exact absurd hf hw
                · exact ⟨y, hy, hf⟩)
              refine ⟨w :: pre, y, post, by rw [e]; rfl, fun x hx => ?_, h4⟩
              rcases List.mem_cons.1 hx with rfl | hx
              · exact hw
              · exact h3 x hx
        exact ⟨_, _, t, ht, .inl ⟨pre, y, post, e, h3, h4, rfl, rfl⟩⟩
      · exact ⟨_, _, t, ht, .inr ⟨fun y hy hf => h ⟨y, hy, hf⟩, rfl, rfl⟩⟩
    obtain ⟨x, path, hx⟩ := hex
    obtain ⟨path', hp'⟩ := hgo b h1 h2
    obtain ⟨q1, q2, -⟩ := hpoint b h1 h2
    have hw := hone c hc (by omega) (hcompat.left hc hb hk)
    rw [hb] at hw
    have := hw c (point b) hc q1 hb q2 _ _ _ _ hx hp'
    exact ⟨path, this ▸ hx⟩
  obtain ⟨water, cap, hst, hwc⟩ := repl.state
  obtain ⟨water', cap', hst', hwc'⟩ := reps.state
  rw [hl] at hwc
  rw [hs] at hwc'
  have ha := cellArea_pos hsq
  have hlen : ∀ b ≤ n, water b =
        (((Raster.cellList dem.rows dem.cols).filter fun c => l.bluespots.watersheds.get c = ((b : Nat) : Int)).length : K) *
          cellArea gt * mm / 1000 ∧
      cap b = (((Raster.cellList dem.rows dem.cols).filter fun c => l.bluespots.labeled.get c = ((b : Nat) : Int)).map
        d.depths.get).sum * cellArea gt := fun b hb =>
    hwc b hb _ _ (lists_filter _ _ _) (lists_filter _ _ _)
  have hlen' : ∀ k ≤ m, water' k =
        (((Raster.cellList dem.rows dem.cols).filter fun c => s.bluespots.watersheds.get c = ((k : Nat) : Int)).length : K) *
          cellArea gt * mm / 1000 ∧
      cap' k = (((Raster.cellList dem.rows dem.cols).filter fun c => s.bluespots.labeled.get c = ((k : Nat) : Int)).map
        d.depths.get).sum * cellArea gt := fun k hk =>
    hwc' k hk _ _ (lists_filter _ _ _) (lists_filter _ _ _)
  have hmain := Contract.more_water (n := n) (m := m) (old := old) (next := next) (next' := next') o1 o2 nrank hnrank
    (fun a ha x e => (hnext a ha x e).imp fun b h => h.1) hst hst'
    (fun b hb => by rw [(hlen b hb).1]; positivity)
    (fun b hb => by
      rw [(hlen b hb).2]
      refine mul_nonneg (List.sum_nonneg fun x hx => ?_) ha.le
      obtain ⟨c, hc, rfl⟩ := List.mem_map.1 hx
      exact g.nonneg c (Flow.mem_cellList.1 (List.mem_filter.1 hc).1))
    (by
      intro k h1 h2 k' h1' h2'
      obtain ⟨path, hp⟩ := hgo (old k) (o1 k h1 h2).1 (o1 k h1 h2).2
      obtain ⟨path', hp'⟩ := hgo' k h1 h2
      rw [hsame k h1 h2] at hp'
      obtain ⟨q1, q2, q3⟩ := hpoint (old k) (o1 k h1 h2).1 (o1 k h1 h2).2
      obtain ⟨c1, c2⟩ := Contract.next_strict hcompat hz hone' h1 h2 q1 q2 (fun w hw e => by
        obtain ⟨y, -, hy⟩ := Relation.TransGen.tail'_iff.1 hw
        have := q3 w hy.2.1 (e.trans q2)
        exact absurd (lowl.trans hw) (not_lt.2 this)) hp
      rcases e : next (old k) with _ | x
      · obtain ⟨path'', hp''⟩ := c1 e
        have := (Net.nextLabel_unique hp' hp'').1
        rw [this]; simp
      · obtain ⟨b, rfl, -, -, hb, -⟩ := hnext (old k) (o1 k h1 h2).2 x e
        obtain ⟨r, hr⟩ := hlands _ b hb le_rfl
        obtain ⟨path'', hp''⟩ := c2 b r e hr
        have := (Net.nextLabel_unique hp' hp'').1
        rw [this]
        constructor
        · intro e'
          refine ⟨b, rfl, ?_⟩
          rcases r with _ | r
          · exact nomatch e'
          · have : r = k' := by simpa using e'
            exact this ▸ hr
        · rintro ⟨b', e', hb'⟩
          obtain rfl : b = b' := by simpa using e'
          rw [hr.unique o2 hb']
          rfl)
    hz'
    (by
      intro k h1 h2 I hI
      rw [(hlen' k h2).1, Finset.sum_congr rfl fun b hb => (hlen b ((hI b).1 hb).1).1, ← Finset.sum_div, ← Finset.sum_mul,
        ← Finset.sum_mul, ← Nat.cast_sum]
      congr 4
      refine count_by _ _ l.bluespots.watersheds.get I fun c hc => ?_
      have hc : InGrid dem.rows dem.cols c := Flow.mem_cellList.1 hc
      obtain ⟨w1, w2⟩ := rl.wlabels.2 c ((hgrid c).1 hc)
      refine ⟨w1, ?_⟩
      have hwb : l.bluespots.watersheds.get c = ((l.bluespots.watersheds.get c).toNat : Int) := by omega
      have hle : (l.bluespots.watersheds.get c).toNat ≤ n := by omega
      have hF := (rl.watershed c ((hgrid c).1 hc)).1
      have hF' := (rs.watershed c ((hgrid c).1 hc)).1
      rw [g.depths.1, g.depths.2] at hF hF'
      obtain ⟨r, hr⟩ := hlands _ _ hle le_rfl
      have hS := Contract.lands_first hcompat hz hone' hr hle c _ hc hF hwb
      have e := Flow.firstLabel_det hF' hS
      rw [hI, e]
      constructor
      · intro e'
        refine ⟨hle, ?_⟩
        rcases r with _ | r
        · have e' : (0 : Int) = k := e'
          omega
        · have e' : (r : Int) = k := e'
          obtain rfl : r = k := by exact_mod_cast e'
          exact hr
      · rintro ⟨-, hk⟩
        rw [hr.unique o2 hk]
        rfl)
    (by
      intro k h1 h2
      rw [(hlen' k h2).2, (hlen (old k) (o1 k h1 h2).2).2]
      congr 3
      refine List.filter_congr fun c hc => ?_
      have := hcompat.same k h1 h2 c (Flow.mem_cellList.1 hc)
      simp only [this])
  intro c hc hc0
  obtain ⟨r1, r2⟩ := hrs c hc
  have h1 : 1 ≤ (s.bluespots.labeled.get c).toNat := by omega
  have h2 : (s.bluespots.labeled.get c).toNat ≤ m := by omega
  have hold := (hcompat.same _ h1 h2 c hc).1 (by omega)
  rw [hold, Int.toNat_natCast]
  exact hmain _ h1 h2

/-- The two features report water in the same bluespot, `fs` at least as much as `fl`. -/
def AtLeast (fs fl : Feature K) (ns nl : Int) : Prop :=
  fs.properties.get? "nodeid" = some (.int ns) ∧ fl.properties.get? "nodeid" = some (.int nl) ∧
  ∃ vs vl os ol, HasNumber fs "v" vs ∧ HasNumber fl "v" vl ∧ HasNumber fs "spillv" os ∧ HasNumber fl "spillv" ol ∧
    vl ≤ vs ∧ ol ≤ os

/-- C113, part: two runs on the same DEM with the same rain, one with a stricter filter. If from each of the bluespots that
only the stricter filter ignores all water goes the same way, then each bluespot both have holds at least as much water
with the stricter filter, and spills at least as much. Missing: ignored bluespots from which water goes several ways
(`C113_false`). -/
theorem C113_more_water_partial (h : SoundTerrain drop sub scale safe dem)
    (hfun : Functions drop scale dem demEngine bluespotEngine) (hcc : LabelContract cc) (hsq : SquareCells gt)
    (want : Bool) (strict loose : Bluespots.StatUnits K → Bool) (hsl : ∀ u, strict u = true → loose u = true)
    (mm : K) (hmm : 0 ≤ mm) :
    ∃ s l, (Complete.processAll cc demEngine bluespotEngine sub safe gt dem want (some strict) mm).Yields (.ok s) ∧
      (Complete.processAll cc demEngine bluespotEngine sub safe gt dem want (some loose) mm).Yields (.ok l) ∧
      ((∀ c, dem.Has c → l.bluespots.labeled.get c ≠ 0 → s.bluespots.labeled.get c = 0 →
          OneWayOut dem.rows dem.cols l.dem.flowdir.get l.bluespots.labeled.get (l.bluespots.labeled.get c)) →
        ∀ c, dem.Has c → s.bluespots.labeled.get c ≠ 0 → ∃ fs ∈ s.final, ∃ fl ∈ l.final,
          AtLeast fs fl (s.bluespots.labeled.get c) (l.bluespots.labeled.get c)) := by
  obtain ⟨d, z, g⟩ := good_dem h hfun want
  obtain ⟨s, point', next', v', spill', s1, s2, s3, s4, γ', iγ', rank', s5⟩ := g.chain hcc hsq strict mm
  obtain ⟨l, point, next, v, spill, l1, l2, l3, l4, γ, iγ, rank, l5⟩ := g.chain hcc hsq loose mm
  refine ⟨s, l, s1, l1, fun hone c hc hc0 => ?_⟩
  rw [l2] at hone
  obtain ⟨e1, e2⟩ := g.stricter hsq hsl hmm s2 l2 s3 l3 s4 l4 l5 s5 hone c hc hc0
  have hc' : d.depths.Has c := by
    show InGrid _ _ c
    rw [g.depths.1, g.depths.2]; exact hc
  have r1 := s4.labelling.range c hc'
  have r2 := l4.labelling.range c hc'
  obtain ⟨fs, f1, f2, f3, f4⟩ := s3.shown (s.bluespots.labeled.get c).toNat (by omega)
  obtain ⟨fl, q1, q2, q3, q4⟩ := l3.shown (l.bluespots.labeled.get c).toNat (by omega)
  rw [show ((s.bluespots.labeled.get c).toNat : Int) = s.bluespots.labeled.get c by omega] at f2
  rw [show ((l.bluespots.labeled.get c).toNat : Int) = l.bluespots.labeled.get c by omega] at q2
  exact ⟨fs, f1, fl, q1, f2, q2, _, _, _, _, f3, q3, f4, q4, e1, e2⟩

/-- C113 for filters on the size: ignoring bluespots of one cell never means less water in the others. -/
theorem C113_single_cells (h : SoundTerrain drop sub scale safe dem)
    (hfun : Functions drop scale dem demEngine bluespotEngine) (hcc : LabelContract cc) (hsq : SquareCells gt)
    (want : Bool) (strict loose : Bluespots.StatUnits K → Bool) (hsl : ∀ u, strict u = true → loose u = true)
    (hone : ∀ u, loose u = true → strict u = false → u.count ≤ 1) (mm : K) (hmm : 0 ≤ mm) :
    ∃ s l, (Complete.processAll cc demEngine bluespotEngine sub safe gt dem want (some strict) mm).Yields (.ok s) ∧
      (Complete.processAll cc demEngine bluespotEngine sub safe gt dem want (some loose) mm).Yields (.ok l) ∧
      ∀ c, dem.Has c → s.bluespots.labeled.get c ≠ 0 → ∃ fs ∈ s.final, ∃ fl ∈ l.final,
        AtLeast fs fl (s.bluespots.labeled.get c) (l.bluespots.labeled.get c) := by
  obtain ⟨s, l, s1, l1, hmain⟩ := C113_more_water_partial h hfun hcc hsq want strict loose hsl mm hmm
  refine ⟨s, l, s1, l1, hmain fun c hc hl0 hs0 => ?_⟩
  obtain ⟨d, z, g⟩ := good_dem h hfun want
  obtain ⟨s', -, -, -, -, s1', -, -, s4, -⟩ := g.chain hcc hsq strict mm
  obtain ⟨l', -, -, -, -, l1', -, -, l4, -⟩ := g.chain hcc hsq loose mm
  obtain rfl : s' = s := by simpa using Run.Yields.unique s1' s1
  obtain rfl : l' = l := by simpa using Run.Yields.unique l1' l1
  have hgrid : ∀ c, InGrid dem.rows dem.cols c → d.depths.Has c := fun c hc => by
    show InGrid _ _ c
    rw [g.depths.1, g.depths.2]; exact hc
  obtain ⟨w, cs, u, u1, u2, u3⟩ := not_not.1 (fun hn => hl0 ((l4.labelling.background c (hgrid c hc)).2 hn))
  have hsf : strict u = false := by
    by_contra hne
    exact (s4.labelling.background c (hgrid c hc)).1 hs0 ⟨w, cs, u, u1, u2, by simpa using hne⟩
  have hlen : cs.length = 1 := by
    have h1 := hone u u3 hsf
    rw [u2.count] at h1
    have h2 := List.length_pos_of_mem ((u1.2 c).2 ⟨hgrid c hc, .refl ⟨hgrid c hc, w⟩⟩)
    omega
  obtain ⟨x, rfl⟩ := List.length_eq_one_iff.1 hlen
  have hall : ∀ a, InGrid dem.rows dem.cols a → l'.bluespots.labeled.get a = l'.bluespots.labeled.get c → a = x := by
    intro a ha e
    have := (l4.same c a (hgrid c hc) (hgrid a ha) hl0 (by rw [e]; exact hl0)).1 e.symm
    have := (u1.2 a).2 ⟨hgrid a ha, this⟩
    simpa using this
  intro a b ha hb ea eb p q g1 g2 h1 h2
  rw [hall a ha ea] at h1
  rw [hall b hb eb] at h2
  exact (Net.nextLabel_unique h1 h2).1

end

/-! The claim is false in general. -/

/-- A labelling in which the cells with the same label are next to each other. -/
theorem labelling_of_neighbours {rows cols : Nat} {wet : Cell → Prop} {lab : Cell → Int} {n : Nat}
    (hbg : ∀ c ∈ Raster.cellList rows cols, lab c = 0 ↔ ¬ wet c)
    (hrange : ∀ c ∈ Raster.cellList rows cols, 0 ≤ lab c ∧ lab c ≤ n)
    (hused : ∀ l ∈ List.range n, ∃ c ∈ Raster.cellList rows cols, lab c = ((l + 1 : Nat) : Int))
    (hadj : ∀ a ∈ Raster.cellList rows cols, ∀ b ∈ Raster.cellList rows cols, lab a ≠ 0 → lab b ≠ 0 → Adj a b → lab a = lab b)
    (hsame : ∀ a ∈ Raster.cellList rows cols, ∀ b ∈ Raster.cellList rows cols, lab a ≠ 0 → lab a = lab b → a = b ∨ Adj a b) :
    IsLabelling rows cols wet lab n where
  background c hc := hbg c (Flow.mem_cellList.2 hc)
  range c hc := hrange c (Flow.mem_cellList.2 hc)
  used l h1 h2 := by
    obtain ⟨c, hc, e⟩ := hused (l - 1) (List.mem_range.2 (by omega))
    exact ⟨c, Flow.mem_cellList.1 hc, by rw [e]; congr 1; omega⟩
  same a b ha hb wa wb := by
    have h0 : ∀ c, InGrid rows cols c → wet c → lab c ≠ 0 := fun c hc w e => (hbg c (Flow.mem_cellList.2 hc)).1 e w
    constructor
    · intro e
      rcases hsame a (Flow.mem_cellList.2 ha) b (Flow.mem_cellList.2 hb) (h0 a ha wa) e with rfl | h
      · exact .refl ⟨ha, wa⟩
      · exact ⟨[a, b], rfl, rfl, by simpa using h, by simp [ha, hb, wa, wb]⟩
    · rintro ⟨p, p1, p2, p3, p4⟩
      have key : ∀ (p : List Cell) (a : Cell), p.head? = some a → p.getLast? = some b → p.IsChain Adj →
          (∀ x ∈ p, InGrid rows cols x ∧ wet x) → lab a = lab b := by
        intro p
        induction p with
        | nil => intro a e; exact nomatch e
        | cons x p ih =>
          intro a e1 e2 e3 e4
          obtain rfl : x = a := by simpa using e1
          cases p with
          | nil =>
            obtain rfl : x = b := by simpa using e2
            rfl
          | cons y p =>
            obtain ⟨h1, h2⟩ := List.isChain_cons_cons.1 e3
            obtain ⟨g1, w1⟩ := e4 x (by simp)
            obtain ⟨g2, w2⟩ := e4 y (by simp)
            rw [hadj x (Flow.mem_cellList.2 g1) y (Flow.mem_cellList.2 g2) (h0 x g1 w1) (h0 y g2 w2) h1]
            exact ih y rfl (by simpa using e2) h2 fun z hz => e4 z (List.mem_cons_of_mem _ hz)
      exact key p a p1 p2 p3 p4

/-- A valley with a deep pit, a ridge east of it and a shallow bluespot on the ridge, from which water goes both ways. -/
def demoSplit : Raster Rat := Raster.ofRows [[9,9,9,9,9,9,9,9],[0,3,-100,5,4,4,5,0],[9,9,9,9,9,9,9,9]]

/-- The labels of both bluespots. -/
def splitBoth (c : Cell) : Int := if c = (1, 2) then 1 else if c = (1, 4) ∨ c = (1, 5) then 2 else 0
/-- The label of the pit. -/
def splitPit (c : Cell) : Int := if c = (1, 2) then 1 else 0

/-- The raster has these cells. -/
def HasMask (lab : Cell → Int) (r : Raster Bool) : Prop :=
  r.rows = 3 ∧ r.cols = 8 ∧ ∀ c ∈ Raster.cellList 3 8, r.get c = decide (lab c ≠ 0)

instance (lab r) : Decidable (HasMask lab r) := by unfold HasMask; infer_instance

/-- A labelling function that is known on the rasters of this example. -/
noncomputable def splitCC (r : Raster Bool) : Raster Int × Nat :=
  if HasMask splitBoth r then (⟨3, 8, splitBoth⟩, 2) else if HasMask splitPit r then (⟨3, 8, splitPit⟩, 1)
  else Classical.choose exists_labelContract r

theorem splitCC_contract : LabelContract splitCC := by
  have key : ∀ (lab : Cell → Int) (n : Nat) (r : Raster Bool), HasMask lab r →
      (∀ c ∈ Raster.cellList 3 8, 0 ≤ lab c ∧ lab c ≤ n) →
      (∀ l ∈ List.range n, ∃ c ∈ Raster.cellList 3 8, lab c = ((l + 1 : Nat) : Int)) →
      (∀ a ∈ Raster.cellList 3 8, ∀ b ∈ Raster.cellList 3 8, lab a ≠ 0 → lab b ≠ 0 → Adj a b → lab a = lab b) →
      (∀ a ∈ Raster.cellList 3 8, ∀ b ∈ Raster.cellList 3 8, lab a ≠ 0 → lab a = lab b → a = b ∨ Adj a b) →
      (3 = r.rows ∧ 8 = r.cols ∧ IsLabelling r.rows r.cols (fun c => r.get c = true) lab n) := by
    intro lab n r ⟨h1, h2, h3⟩ k1 k2 k3 k4
    rw [h1, h2]
    exact ⟨rfl, rfl, labelling_of_neighbours (fun c hc => by rw [h3 c hc]; simp) k1 k2 k3 k4⟩
  intro r
  unfold splitCC
  split
  · next hm => exact key _ _ r hm (by decide +kernel) (by decide +kernel) (by decide +kernel) (by decide +kernel)
  · split
    · next hm => exact key _ _ r hm (by decide +kernel) (by decide +kernel) (by decide +kernel) (by decide +kernel)
    · exact Classical.choose_spec exists_labelContract r

/-- Number of the pit and water in it. -/
def pitReport (o : Complete.Out (WithTop Rat) Rat) : Int × List (Option (Val Rat) × Option (Val Rat)) :=
  (o.bluespots.labeled.get (1, 2), o.final.map fun f => (Dict.get? f.properties "nodeid", Dict.get? f.properties "v"))

set_option synthInstance.maxSize 1000 in
/-- C113 is false in general. In `demoSplit` 10 m of rain fall; with all bluespots the one on the ridge spills all its water
into the pit, which holds 152 m³. When bluespots below 100 m³ are ignored, half of the rain on the ridge flows the other
way, and the pit holds 120 m³. -/
theorem C113_false : ∃ cc, LabelContract cc ∧ ∃ s l,
    (Complete.processAll cc (Dem.python exactSub (· * (7/10))) Bluespots.python exactSub
      (exactSafe (1/1000) (14/10000)) (⟨0, 2, 0, 0, 0, -2⟩ : GeoTransform Rat) (finiteDem demoSplit) false
      (some fun u => decide (100 < u.volume)) 10000).Yields (.ok s) ∧
    (Complete.processAll cc (Dem.python exactSub (· * (7/10))) Bluespots.python exactSub
      (exactSafe (1/1000) (14/10000)) (⟨0, 2, 0, 0, 0, -2⟩ : GeoTransform Rat) (finiteDem demoSplit) false
      (some fun _ => true) 10000).Yields (.ok l) ∧
    pitReport s = (1, [(some (.int 0), some (.num 8)), (some (.int 1), some (.num 120))]) ∧
    pitReport l = (1, [(some (.int 0), some (.num 0)), (some (.int 1), some (.num 152)), (some (.int 2), some (.num 8))]) := by
  obtain ⟨s, s1, s2⟩ := Fuel.yields_of_run (cc := splitCC) (d := Dem.python exactSub (· * (7/10))) (b := Bluespots.python)
    (sub := exactSub) (safe := exactSafe (1/1000) (14/10000)) (gt := (⟨0, 2, 0, 0, 0, -2⟩ : GeoTransform Rat))
    (dem := finiteDem demoSplit) (accum := false) (f := some fun u => decide (100 < u.volume)) (mm := 10000)
    (Fuel.python _ _ id) (g := pitReport) (v := (1, [(some (.int 0), some (.num 8)), (some (.int 1), some (.num 120))])) 80
    (by decide +kernel)
  obtain ⟨l, l1, l2⟩ := Fuel.yields_of_run (cc := splitCC) (d := Dem.python exactSub (· * (7/10))) (b := Bluespots.python)
    (sub := exactSub) (safe := exactSafe (1/1000) (14/10000)) (gt := (⟨0, 2, 0, 0, 0, -2⟩ : GeoTransform Rat))
    (dem := finiteDem demoSplit) (accum := false) (f := some fun _ => true) (mm := 10000)
    (Fuel.python _ _ id) (g := pitReport)
    (v := (1, [(some (.int 0), some (.num 0)), (some (.int 1), some (.num 152)), (some (.int 2), some (.num 8))])) 80
    (by decide +kernel)
  exact ⟨_, splitCC_contract, s, l, s1, l1, s2, l2⟩

/-! Non-vacuity: a pit of two cells below a bluespot of one cell, which the filter ignores. -/

/-- A valley with a pit of two cells and a bluespot of one cell above it. -/
def demoUpper : Raster Rat := Raster.ofRows [[9,9,9,9,9,9,9,9],[0,3,-9,-9,5,4,6,9],[9,9,9,9,9,9,9,9]]

/-- The hypotheses of C113 can be met. -/
example : ∃ cc, LabelContract cc ∧ SquareCells (⟨0, 2, 0, 0, 0, -2⟩ : GeoTransform Rat) ∧
    SoundTerrain (K := Rat) exactSub exactSub (· * (7/10)) (exactSafe (1/1000) (14/10000)) (finiteDem demoUpper) ∧
    Functions exactSub (· * (7/10) : Rat → Rat) (finiteDem demoUpper) (Dem.python exactSub (· * (7/10))) Bluespots.python ∧
    ∀ u : Bluespots.StatUnits Rat, decide (1 < u.count) = false → u.count ≤ 1 := by
  obtain ⟨cc, h⟩ := exists_labelContract
  exact ⟨cc, h, by unfold SquareCells; norm_num, exact_sound demoUpper (by decide) (by decide) (by norm_num) (by norm_num)
    (by norm_num), .inl ⟨rfl, rfl⟩, fun u h => by simpa using h⟩

/-- The labels of its bluespots. -/
def demoUpperCC (r : Raster Bool) : Raster Int × Nat :=
  if r.get (1, 5) = true then (⟨3, 8, fun c => if c = (1, 2) ∨ c = (1, 3) then 1 else if c = (1, 5) then 2 else 0⟩, 2)
  else (⟨3, 8, fun c => if c = (1, 2) ∨ c = (1, 3) then 1 else 0⟩, 1)

/-- What the chain reports of the nodes after 1 m of rain on this DEM. -/
def demoUpperFinal (f : Bluespots.StatUnits Rat → Bool) : Option (Option (Int × List (Option (Val Rat) × Option (Val Rat)))) :=
  ((Complete.processAll demoUpperCC (Dem.python exactSub (· * (7/10))) Bluespots.python exactSub
      (exactSafe (1/1000) (14/10000)) ⟨0, 2, 0, 0, 0, -2⟩ (finiteDem demoUpper) false (some f) (1000 : Rat)).run 80).run.map
    fun r => r.toOption.map pitReport

set_option synthInstance.maxSize 1000 in
/-- With the upper bluespot ignored, the pit holds 20 m³ instead of 16. -/
example : demoUpperFinal (fun _ => true) =
    some (some (1, [(some (.int 0), some (.num 0)), (some (.int 1), some (.num 16)), (some (.int 2), some (.num 4))])) ∧
    demoUpperFinal (fun u => decide (1 < u.count)) =
    some (some (1, [(some (.int 0), some (.num 4)), (some (.int 1), some (.num 20))])) := by
  constructor <;> decide +kernel

end Malstroem
