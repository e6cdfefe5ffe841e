/-
Property C114: what a dug basin relieves. All arithmetic is exact.
-/
import Verif.Props.Dig
import Verif.Props.Ignored
import Verif.Props.Numbering
import Verif.Proofs.Relief

set_option linter.unusedSectionVars false

namespace Malstroem
open Spec Network

section
variable {K : Type} [Field K] [LinearOrder K] [IsStrictOrderedRing K]

theorem comesTo_congr {n : Nat} {next next' : Nat → Option Int} {water water' spill : Nat → K} {l : Nat}
    (h : ∀ k ≤ n, next' k = next k) (hw : water' l = water l) : comesTo n next' water' spill l = comesTo n next water spill l := by
  unfold comesTo
  rw [hw, List.filter_congr fun k hk => by rw [h k (by have := List.mem_range.1 hk; omega)]]

/-- The report of a state does not depend on what is said about bluespots that do not exist. -/
theorem Spec.ReportsState.congr {β : Type} {rows cols : Nat} {gt : GeoTransform K} {mm : K} {out : Complete.Out β K}
    {point point' : Nat → Cell} {next next' : Nat → Option Int} {v spill : Nat → K}
    (h : ReportsState rows cols gt mm out point' next' v spill) (hp : ∀ l ≤ out.bluespots.nlabels, point' l = point l)
    (hn : ∀ l ≤ out.bluespots.nlabels, next' l = next l) : ReportsState rows cols gt mm out point next v spill := by
  obtain ⟨water, cap, hst, hwc⟩ := h.state
  refine ⟨fun l hl => by rw [← hp l hl]; exact h.outlet l hl, fun l hl => by rw [← hp l hl, ← hn l hl]; exact h.goes l hl,
    ⟨water, cap, fun l hl => ?_, hwc⟩, h.shown, h.others⟩
  rw [← comesTo_congr (l := l) hn rfl]
  exact hst l hl

/-- The next bluespot is a bluespot, and its pour point is lower. -/
theorem next_lower {β : Type} {rows cols : Nat} {gt : GeoTransform K} {mm : K} {out : Complete.Out β K} {point : Nat → Cell}
    {next : Nat → Option Int} {v spill : Nat → K} (h : ReportsState rows cols gt mm out point next v spill)
    (hr : ∀ c, InGrid rows cols c → 0 ≤ out.bluespots.labeled.get c ∧ out.bluespots.labeled.get c ≤ out.bluespots.nlabels)
    {γ : Type} [LinearOrder γ] {rank : Cell → γ}
    (hlow : LowestOutlets rows cols out.dem.flowdir.get out.bluespots.labeled.get rank
      (out.bluespots.pourpoints.map fun p => (p.cell_row, p.cell_col))) :
    ∀ a ≤ out.bluespots.nlabels, ∀ b : Nat, next a = some (b : Int) →
      b ≤ out.bluespots.nlabels ∧ rank (point b) < rank (point a) := by
  intro a ha b e
  rcases h.goes a ha with ⟨-, path, hg⟩ | ⟨-, hnone⟩
  · rw [e] at hg
    obtain ⟨x, hx, hxe, hlt⟩ := next_facts hlow hg
    have hrx := hr x hx
    rw [hxe] at hrx
    refine ⟨by omega, hlt _ ?_⟩
    obtain ⟨p, hp, hpe⟩ := h.outlet b (by omega)
    rw [Int.toNat_natCast, List.getElem?_map, hp, hpe]; rfl
  · rw [e] at hnone; cases hnone

end

namespace Complete
variable {K : Type} [Field K] [LinearOrder K] [IsStrictOrderedRing K]

/-- C114. Ground is taken out under water, as in `C98_dig`. Then the same bluespots drain to each other in the same way, and
of every bluespot: it spills no more than before; it holds at most what it held and what was taken out of it; if nothing
was taken out of it and of bluespots upstream it holds and spills what it did; what it spills less is held more in it and
upstream, and that is no more than was taken out there. -/
theorem C114_relief {cc : Raster Bool → Raster Int × Nat} (hcc : LabelContract cc) {gt : GeoTransform K}
    (hsq : SquareCells gt) (dem dem' : Raster K) (hr : 2 ≤ dem.rows) (hc : 2 ≤ dem.cols) {short diag k : K} (hs : 0 < short)
    (hd : 0 < diag) (hk : 0 < k) (want : Bool) (f : Bluespots.StatUnits K → Bool) (hf : SizeOnly f) (mm : K)
    (hsh : dem'.rows = dem.rows ∧ dem'.cols = dem.cols)
    (hch : ∀ c, dem'.get c ≠ dem.get c → dem.Has c ∧
      ∃ z, IsSpillLevel dem.rows dem.cols dem.get c z ∧ dem.get c < z ∧ dem'.get c < z)
    (hdig : ∀ c, dem'.get c ≤ dem.get c) :
    ∃ out out' point next v spill v' spill',
      (Complete.processAll cc (Dem.python exactSub (· * k)) Bluespots.python exactSub (exactSafe short diag) gt
        (finiteDem dem) want (some f) mm).Yields (.ok out) ∧
      (Complete.processAll cc (Dem.python exactSub (· * k)) Bluespots.python exactSub (exactSafe short diag) gt
        (finiteDem dem') want (some f) mm).Yields (.ok out') ∧
      out'.bluespots.nlabels = out.bluespots.nlabels ∧ out'.bluespots.labeled = out.bluespots.labeled ∧
      ReportsState dem.rows dem.cols gt mm out point next v spill ∧
      ReportsState dem.rows dem.cols gt mm out' point next v' spill' ∧
      ∀ l ≤ out.bluespots.nlabels, spill' l ≤ spill l ∧
        (∀ cs, CellsOf dem.rows dem.cols out.bluespots.labeled.get l cs →
          v' l ≤ v l + (cs.map fun c => dem.get c - dem'.get c).sum * cellArea gt) ∧
        ((∀ c, dem.Has c → LeadsTo next (out.bluespots.labeled.get c).toNat l → dem'.get c = dem.get c) →
          v' l = v l ∧ spill' l = spill l) ∧
        (∀ up : Finset Nat, (∀ a, a ∈ up ↔ a ≤ out.bluespots.nlabels ∧ LeadsTo next a l) →
          spill l - spill' l = ∑ a ∈ up, (v' a - v a)) ∧
        (∀ cs : List Cell, cs.Nodup → (∀ c, c ∈ cs ↔ dem.Has c ∧ LeadsTo next (out.bluespots.labeled.get c).toNat l) →
          spill l - spill' l ≤ (cs.map fun c => dem.get c - dem'.get c).sum * cellArea gt) := by
  classical
  have h := exact_sound dem hr hc hs hd hk
  have h' := exact_sound dem' (by rw [hsh.1]; exact hr) (by rw [hsh.2]; exact hc) hs hd hk
  obtain ⟨o, o', r1, r2, e1, e2, e3, e4, e5, e6, e7, e8, e9, -, -, -⟩ :=
    C98_dig hcc hsq dem dem' hr hc hs hd hk want f hf mm hsh hch
  obtain ⟨d, s, g⟩ := good_dem h (demEngine := Dem.python exactSub (· * k)) (bluespotEngine := Bluespots.python)
    (.inl ⟨rfl, rfl⟩) want
  obtain ⟨d', s', g'⟩ := good_dem h' (demEngine := Dem.python exactSub (· * k)) (bluespotEngine := Bluespots.python)
    (.inl ⟨rfl, rfl⟩) want
  obtain ⟨out, point, next, v, spill, h1, rfl, h3, h4, γ, iγ, rank, h5⟩ := g.chain hcc hsq f mm
  obtain ⟨out', point', next', v', spill', h1', rfl, h3', -, -⟩ := g'.chain hcc hsq f mm
  obtain rfl : out = o := Except.ok.inj (Run.Yields.unique h1 r1)
  obtain rfl : out' = o' := Except.ok.inj (Run.Yields.unique h1' r2)
  have hrows : (finiteDem dem').rows = dem.rows := hsh.1
  have hcols : (finiteDem dem').cols = dem.cols := hsh.2
  have hrows' : (finiteDem dem).rows = dem.rows := rfl
  have hcols' : (finiteDem dem).cols = dem.cols := rfl
  rw [hrows, hcols] at h3'
  rw [hrows', hcols'] at h3 h5
  have hp : ∀ l ≤ out'.bluespots.nlabels, point' l = point l := by
    intro l hl
    obtain ⟨p, hp, hpe⟩ := h3.outlet l (e6 ▸ hl)
    obtain ⟨p', hp', hpe'⟩ := h3'.outlet l hl
    obtain ⟨q, hq, hpq⟩ := forall₂_get e8 hp
    rw [hp'] at hq
    obtain rfl := Option.some.inj hq
    rw [hpe, hpe', hpq.cell]
  have hn : ∀ l ≤ out'.bluespots.nlabels, next' l = next l := by
    intro l hl
    have a := h3.goes l (e6 ▸ hl)
    have b := h3'.goes l hl
    rw [e2, e5, hp l hl] at b
    rcases a with ⟨a1, path, a2⟩ | ⟨a1, a2⟩ <;> rcases b with ⟨b1, path', b2⟩ | ⟨b1, b2⟩
    · exact (Net.nextLabel_unique b2 a2).1
    · exact absurd a1 b1
    · exact absurd b1 a1
    · rw [a2, b2]
  have h3'' := h3'.congr hp hn
  have hHas : ∀ c, out.dem.depths.Has c ↔ InGrid dem.rows dem.cols c := fun c => by
    show InGrid _ _ c ↔ _
    rw [g.depths.1, g.depths.2]; rfl
  have hrange : ∀ c, InGrid dem.rows dem.cols c → 0 ≤ out.bluespots.labeled.get c ∧
      out.bluespots.labeled.get c ≤ out.bluespots.nlabels := fun c hc => h4.labelling.range c ((hHas c).2 hc)
  obtain ⟨R, hR⟩ := Relief.natRank (fun l => rank (point l)) (next_lower h3 hrange h5)
  refine ⟨out, out', point, next, v, spill, v', spill', h1, h1', e6, e5, h3, h3'', fun l hl => ?_⟩
  obtain ⟨water, cap, hst, hwc⟩ := h3.state
  obtain ⟨water', cap', hst', hwc'⟩ := h3''.state
  rw [e6] at hst' hwc'
  rw [e5, e7] at hwc'
  set n := out.bluespots.nlabels with hndef
  -- the cells of the bluespots
  have hcap : ∀ l ≤ n, ∀ cs, CellsOf dem.rows dem.cols out.bluespots.labeled.get l cs →
      cap' l = cap l + (cs.map fun c => dem.get c - dem'.get c).sum * cellArea gt := by
    intro l hl cs hcs
    obtain ⟨-, a⟩ := hwc l hl cs _ hcs (lists_filter _ _ _)
    obtain ⟨-, b⟩ := hwc' l hl cs _ hcs (lists_filter _ _ _)
    rw [a, b, ← add_mul, ← List.sum_map_add]
    congr 2
    exact List.map_congr_left fun c hc => e4 c ((hcs.2 c).1 hc).1
  have hwat : ∀ l ≤ n, water' l = water l := by
    intro l hl
    rw [(hwc l hl _ _ (lists_filter _ _ _) (lists_filter _ _ _)).1, (hwc' l hl _ _ (lists_filter _ _ _) (lists_filter _ _ _)).1]
  have hst' : FinalState n next water cap' v' spill' := by
    intro l hl
    rw [← comesTo_congr (l := l) (fun _ _ => rfl) (hwat l hl)]
    exact hst' l hl
  have hle : ∀ l ≤ n, cap l ≤ cap' l := by
    intro l hl
    rw [hcap l hl _ (lists_filter _ _ _)]
    refine le_add_of_nonneg_right (mul_nonneg (List.sum_nonneg fun y hy => ?_) (cellArea_pos hsq).le)
    obtain ⟨c, _, rfl⟩ := List.mem_map.1 hy
    exact sub_nonneg.2 (hdig c)
  have hheld : ∀ l ≤ n, ∀ cs, CellsOf dem.rows dem.cols out.bluespots.labeled.get l cs →
      v' l ≤ v l + (cs.map fun c => dem.get c - dem'.get c).sum * cellArea gt := by
    intro l hl cs hcs
    have := Relief.held_le hR hst hst' hle l hl
    rwa [hcap l hl cs hcs, add_sub_cancel_left] at this
  have hbal : ∀ up : Finset Nat, (∀ a, a ∈ up ↔ a ≤ n ∧ LeadsTo next a l) → spill l - spill' l = ∑ a ∈ up, (v' a - v a) := by
    intro up hup
    have a := Relief.upstream_balance hR hst hl up hup
    have b := Relief.upstream_balance hR hst' hl up hup
    rw [Finset.sum_sub_distrib]
    linarith
  refine ⟨(Relief.spill_le hR hst hst' hle l hl).2, hheld l hl, fun hno => ?_, hbal, fun cs hnd hcs => ?_⟩
  · refine Relief.unchanged hR hst hst' l hl fun a ha hal => ?_
    rw [hcap a ha _ (lists_filter _ _ _), List.sum_eq_zero, zero_mul, add_zero]
    intro y hy
    obtain ⟨c, hc, rfl⟩ := List.mem_map.1 hy
    obtain ⟨hc1, hc2⟩ := List.mem_filter.1 hc
    have hc2 : out.bluespots.labeled.get c = a := by simpa using hc2
    rw [hno c (Flow.mem_cellList.1 hc1) (by rw [hc2, Int.toNat_natCast]; exact hal), sub_self]
  · let up := (Finset.range (n + 1)).filter fun a => LeadsTo next a l
    have hup : ∀ a, a ∈ up ↔ a ≤ n ∧ LeadsTo next a l := fun a => by
      rw [Finset.mem_filter, Finset.mem_range]
      exact ⟨fun h => ⟨by omega, h.2⟩, fun h => ⟨by omega, h.2⟩⟩
    rw [hbal up hup]
    have hstep : ∀ a ∈ up, v' a - v a ≤
        (∑ c ∈ cs.toFinset.filter (fun c => (out.bluespots.labeled.get c).toNat = a), (dem.get c - dem'.get c)) * cellArea gt := by
      intro a ha
      obtain ⟨ha1, ha2⟩ := (hup a).1 ha
      have hca := lists_filter dem.rows dem.cols fun c => out.bluespots.labeled.get c = ((a : Nat) : Int)
      have := hheld a ha1 _ hca
      rw [← List.sum_toFinset _ ((Flow.nodup_cellList _ _).filter _)] at this
      have hset : ((Raster.cellList dem.rows dem.cols).filter fun c => out.bluespots.labeled.get c = ((a : Nat) : Int)).toFinset =
          cs.toFinset.filter (fun c => (out.bluespots.labeled.get c).toNat = a) := by
        ext c
        rw [List.mem_toFinset, Finset.mem_filter, List.mem_toFinset, hcs]
        refine (hca.2 c).trans ⟨?_, ?_⟩
        · rintro ⟨hc, e⟩
          refine ⟨⟨hc, ?_⟩, by omega⟩
          rw [e, Int.toNat_natCast]; exact ha2
        · rintro ⟨⟨hc, -⟩, e⟩
          exact ⟨hc, by have := hrange c hc; omega⟩
      rw [hset] at this
      linarith
    refine (Finset.sum_le_sum hstep).trans (le_of_eq ?_)
    rw [← Finset.sum_mul, Finset.sum_fiberwise_of_maps_to, List.sum_toFinset _ hnd]
    intro c hc
    obtain ⟨hc1, hc2⟩ := (hcs c).1 (List.mem_toFinset.1 hc)
    have := hrange c hc1
    exact (hup _).2 ⟨by omega, hc2⟩

end Complete

/-- The DEM of `Props/Direct.lean` with two pits above a third; one of the upper pits is made 3 m deeper. -/
def dugMeeting : Raster Rat := { demoMeeting with get := fun c => if c = (1, 1) then -2 else demoMeeting.get c }

/-- The hypotheses of C114 can be met. -/
example : ∃ cc, LabelContract cc ∧ SquareCells (⟨0, 2, 0, 0, 0, -2⟩ : GeoTransform Rat) ∧
    SizeOnly (fun u : Bluespots.StatUnits Rat => decide (u.area ≥ 4)) ∧
    (dugMeeting.rows = demoMeeting.rows ∧ dugMeeting.cols = demoMeeting.cols) ∧
    (∀ c, dugMeeting.get c ≠ demoMeeting.get c → demoMeeting.Has c ∧
      ∃ z, IsSpillLevel demoMeeting.rows demoMeeting.cols demoMeeting.get c z ∧ demoMeeting.get c < z ∧ dugMeeting.get c < z) ∧
    ∀ c, dugMeeting.get c ≤ demoMeeting.get c := by
  obtain ⟨cc, h⟩ := exists_labelContract
  obtain ⟨r, hr, _⟩ := Fill.fillTerrain_returns (finiteDem demoMeeting) (by decide) (by decide)
  have hin : ∀ c, dugMeeting.get c ≠ demoMeeting.get c → c = (1, 1) := by
    intro c hne
    by_contra hc
    exact hne (by show (if _ then _ else _) = _; rw [if_neg hc])
  refine ⟨cc, h, by unfold SquareCells; norm_num, fun u u' _ e => by simp only [e], ⟨rfl, rfl⟩, fun c hne => ?_, fun c => ?_⟩
  · obtain rfl := hin c hne
    have hc : demoMeeting.Has (1, 1) := by decide
    refine ⟨hc, 5, ?_⟩
    have hs := spill_of_finite (Fill.fill_spill hr (c := (1, 1)) hc)
    have hv : r.get (1, 1) = ((5 : Rat) : WithTop Rat) := python_run (by decide) hr (fun r => r.get (1, 1)) 40 (by decide +kernel)
    rw [hv] at hs
    exact ⟨hs, by decide +kernel, by decide +kernel⟩
  · by_cases hne : dugMeeting.get c = demoMeeting.get c
    · exact hne.le
    · obtain rfl := hin c hne
      decide +kernel

/-- Bluespot 1 now holds 28 m³ instead of 16. Bluespot 3 below spills 12 m³ less than the 412 it did; bluespot 2 holds and
spills what it did. -/
example : ((Complete.processAll (demoMeetingCC 1 2 3) (Dem.python exactSub (· * (7/10))) Bluespots.python exactSub
      (exactSafe (1/1000) (14/10000)) ⟨0, 2, 0, 0, 0, -2⟩ (finiteDem dugMeeting) false (some fun _ => true) (4000 : Rat)).run 80).run.map
    (fun r => r.toOption.map fun o => o.final.map fun f => [Dict.get? f.properties "nodeid",
      Dict.get? f.properties "dstrnodeid", Dict.get? f.properties "v", Dict.get? f.properties "spillv"]) =
    some (some [[some (.int 0), some .none, some (.num 0), some (.num 448)],
      [some (.int 3), some .none, some (.num 4), some (.num 400)],
      [some (.int 4), some (.int 3), some (.num 0), some (.num 20)],
      [some (.int 1), some (.int 4), some (.num 28), some (.num 4)],
      [some (.int 2), some (.int 4), some (.num 16), some (.num 16)]]) := by
  decide +kernel

end Malstroem
