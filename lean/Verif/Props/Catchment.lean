/-
Property C116: the accumulated flow at a pour point and the watersheds upstream of it. All arithmetic is exact.
-/
import Verif.Props.Relief
import Verif.Props.WayOut
import Verif.Proofs.ContractRaster
import Verif.Spec.Catchment

set_option linter.unusedSectionVars false

namespace Malstroem
open Spec Network

section
variable {rows cols : Nat} {fd : Cell → Nat} {lab ws : Cell → Int} {n : Nat} {point : Nat → Cell} {next : Nat → Option Int}
  {γ : Type} [LinearOrder γ] {rank : Cell → γ}

/-- If the flow steps from the outlet of a bluespot to a cell of the watershed of another one, that is the next one. -/
theorem next_of_step {p b : Cell} {d : Option Int} {g : List Cell} (hn : NextLabel rows cols fd lab (some 0) p d g)
    (hs : Step rows cols fd p b) {j : Int} (hj : FirstLabel rows cols fd lab 0 b j) (hj0 : j ≠ 0) (hjp : j ≠ lab p) :
    d = some j := by
  obtain ⟨t, ht, -⟩ := id hn
  cases t with
  | nil => have := ht.head; simp at this
  | cons y t =>
    have hy := Contract.trace_head ht
    subst hy
    cases t with
    | nil =>
      obtain ⟨e, he, hst⟩ := ht.stop
      obtain rfl : y = e := by simpa using he
      exact absurd hs.2.1 (hst b hs.2.2)
    | cons z t =>
      obtain ⟨htz, hsz⟩ := Contract.trace_tail ht
      obtain rfl := Flow.flowsTo_det hs.2.2 hsz.2.2
      rcases Contract.first_split hj _ htz with ⟨h0, -⟩ | ⟨-, pre, x, post, e, h1, h2⟩
      · exact absurd h0 hj0
      · refine (Net.nextLabel_unique hn (d' := some j) (g' := (y :: pre) ++ [x]) ⟨_, ht, .inl ⟨y :: pre, x, post, by rw [e]; rfl, ?_, ?_, ?_, rfl⟩⟩).1
        · intro w hw
          rcases List.mem_cons.1 hw with rfl | hw
          · exact fun h => h.1 rfl
          · exact fun h => h.2 (by rw [h1 w hw])
        · exact ⟨by rw [h2]; exact hjp, by rw [h2]; simpa using hj0⟩
        · rw [h2]

/-- What the two directions of C116 need of a run. -/
structure CatchmentInput (rows cols : Nat) (fd : Cell → Nat) (lab ws : Cell → Int) (n : Nat) (point : Nat → Cell)
    (next : Nat → Option Int) (rank : Cell → γ) : Prop where
  drains : ∀ c, InGrid rows cols c → Drains rows cols fd c
  falls : ∀ a b, Step rows cols fd a b → rank b < rank a
  range : ∀ c, InGrid rows cols c → 0 ≤ lab c ∧ lab c ≤ n
  own : ∀ l : Nat, 1 ≤ l → l ≤ n → InGrid rows cols (point l) ∧ lab (point l) = l ∧
    ∀ c, InGrid rows cols c → lab c = l → rank (point l) ≤ rank c
  goes : ∀ l : Nat, 1 ≤ l → l ≤ n → ∃ path, NextLabel rows cols fd lab (some 0) (point l) (next l) path
  background : next 0 = none
  watershed : IsWatershed rows cols fd 0 lab ws
  one : OneOutlet rows cols fd lab point

theorem downstream_inGrid {a b : Cell} (h : Downstream rows cols fd a b) (ha : InGrid rows cols a) : InGrid rows cols b := by
  rcases Relation.ReflTransGen.cases_tail h with rfl | ⟨_, -, hs⟩
  · exact ha
  · exact hs.2.1

theorem rank_le_of_downstream (h : ∀ a b, Step rows cols fd a b → rank b < rank a) {a b : Cell}
    (hd : Downstream rows cols fd a b) : rank b ≤ rank a := by
  induction hd with
  | refl => exact le_rfl
  | tail _ hs ih => exact (h _ _ hs).le.trans ih

/-- What passes the pour point comes from a watershed upstream. -/
theorem CatchmentInput.leads (h : CatchmentInput rows cols fd lab ws n point next rank) {l : Nat} (hl : 1 ≤ l) (hl' : l ≤ n)
    {c : Cell} (hc : InGrid rows cols c) (hd : Downstream rows cols fd c (point l)) : LeadsTo next (ws c).toNat l := by
  induction hd using Relation.ReflTransGen.head_induction_on with
  | refl =>
    have := (h.watershed _ hc).2.1 (by rw [(h.own l hl hl').2.1]; omega)
    rw [this, (h.own l hl hl').2.1, Int.toNat_natCast]
    exact .refl
  | @head c b hs hd ih =>
    have ih := ih hs.2.1
    have hwb := h.watershed b hs.2.1
    have hwc := h.watershed c hc
    by_cases h0 : lab c = 0
    · have := Flow.firstLabel_det hwc.1 (FirstLabel.next h0 hs hwb.1)
      rw [this]; exact ih
    · have hrc := h.range c hc
      obtain ⟨k, hk⟩ : ∃ k : Nat, lab c = k := ⟨(lab c).toNat, by omega⟩
      have hwk : ws c = k := (hwc.2.1 h0).trans hk
      rw [hwk, Int.toNat_natCast]
      by_cases hb : lab b = k
      · have : ws b = k := (hwb.2.1 (by rw [hb, ← hk]; exact h0)).trans hb
        rwa [this, Int.toNat_natCast] at ih
      · have hck : c = point k := by
          have := h.one c hc h0 ⟨b, hs.2.2, fun _ => by rw [hk]; exact hb⟩
          rwa [hk, Int.toNat_natCast] at this
        subst hck
        have hk1 : 1 ≤ k := by omega
        have hkn : k ≤ n := by omega
        have hwb0 : ws b ≠ 0 := by
          intro e
          have := hwb.2.2.1.1 e _ hd
          rw [(h.own l hl hl').2.1] at this; omega
        obtain ⟨x, hx, hlx⟩ := hwb.2.2.2 hwb0
        have hxin := downstream_inGrid hx hs.2.1
        have hne : ws b ≠ lab (point k) := by
          intro e
          have h1 := (h.own k hk1 hkn).2.2 x hxin (by rw [hlx, e, hk])
          have h2 := rank_le_of_downstream h.falls hx
          exact absurd (h.falls _ _ hs) (not_lt.2 (h1.trans h2))
        obtain ⟨path, hg⟩ := h.goes k hk1 hkn
        have hnext := next_of_step hg hs hwb.1 hwb0 hne
        have hrx := h.range x hxin
        rw [hlx] at hrx
        refine .head (?_ : next k = some (((ws b).toNat : Nat) : Int)) ih
        rw [hnext, Int.toNat_of_nonneg hrx.1]

/-- All water of a watershed upstream passes the pour point. -/
theorem CatchmentInput.passes (h : CatchmentInput rows cols fd lab ws n point next rank) {a l : Nat} (ha : 1 ≤ a)
    (hal : LeadsTo next a l) : a ≤ n → ∀ c, InGrid rows cols c → ws c = a → Downstream rows cols fd c (point l) := by
  have base : ∀ a : Nat, 1 ≤ a → a ≤ n → ∀ c, InGrid rows cols c → ws c = a → Downstream rows cols fd c (point a) := by
    intro a ha han c hc hw
    obtain ⟨x, hx, hlx⟩ := (h.watershed c hc).2.2.2 (by rw [hw]; omega)
    have hxin := downstream_inGrid hx hc
    rw [hw] at hlx
    refine hx.trans (downstream_of_single (lab := lab) (fun y hy hly hlv => ?_) (h.drains x hxin) ?_)
    · rw [(h.own a ha han).2.1] at hly
      have := h.one y hy (by rw [hly]; omega) hlv
      rwa [hly, Int.toNat_natCast] at this
    · rw [hlx, (h.own a ha han).2.1]
  induction hal using Relation.ReflTransGen.head_induction_on with
  | refl => exact base l ha
  | @head a b e hbl ih =>
    intro han c hc hw
    obtain ⟨path, t, ht, hg⟩ := h.goes a ha han
    rw [e] at hg
    rcases hg with ⟨pre, x, post, rfl, -, hx, hd, -⟩ | ⟨-, hd, -⟩
    · have hxin := ht.inside x (by simp)
      have hd : (b : Int) = lab x := Option.some.inj hd
      have hx0 : lab x ≠ 0 := fun e0 => hx.2 (by rw [e0])
      have hrx := h.range x hxin
      refine (base a ha han c hc hw).trans (((Flow.trace_downstream _ _ ht x).1 (by simp)).trans
        (ih (by omega) (by omega) x hxin ?_))
      rw [(h.watershed x hxin).2.1 hx0, hd]
    · cases hd

theorem CatchmentInput.iff (h : CatchmentInput rows cols fd lab ws n point next rank) {l : Nat} (hl : 1 ≤ l) (hl' : l ≤ n)
    (hw : ∀ c, InGrid rows cols c → 0 ≤ ws c ∧ ws c ≤ n) {c : Cell} (hc : InGrid rows cols c) :
    Downstream rows cols fd c (point l) ↔ LeadsTo next (ws c).toNat l := by
  refine ⟨h.leads hl hl' hc, fun hh => ?_⟩
  have hr := hw c hc
  by_cases h0 : ws c = 0
  · rw [h0] at hh
    rcases Relation.ReflTransGen.cases_head hh with e | ⟨b, e, -⟩
    · simp at e; omega
    · have e : next 0 = some (b : Int) := e
      rw [h.background] at e; cases e
  · exact h.passes (by omega) hh (by omega) c hc (by omega)

end

section
variable {K : Type} [Field K] [LinearOrder K] [IsStrictOrderedRing K] {β : Type} [LinearOrder β] [OrderTop β]
variable {drop : β → β → K} {sub : β → β → K} {scale : K → K} {safe : Raster β → (β → β) × (β → β)}
  {gt : GeoTransform K} {dem : Raster β} {cc : Raster Bool → Raster Int × Nat}
  {demEngine : Dem.Engine β K} {bluespotEngine : Bluespots.Engine β K}

/-- A run of the chain in which the flow leaves every bluespot at its pour point only. -/
theorem GoodDem.catchment {want : Bool} {d : Dem.Out β K} {s : Cell → β}
    (g : GoodDem drop sub safe dem want demEngine bluespotEngine d s) {f : Bluespots.StatUnits K → Bool} {mm : K}
    {out : Complete.Out β K} {point : Nat → Cell} {next : Nat → Option Int} {v spill : Nat → K} (hout : out.dem = d)
    (hrep : ReportsState dem.rows dem.cols gt mm out point next v spill)
    (hres : Bluespots.IsResult gt d.depths f d.flowdir (pourPointRule dem d).Chooses out.bluespots)
    {γ : Type} [LinearOrder γ] {rank : Cell → γ}
    (hlow : LowestOutlets dem.rows dem.cols d.flowdir.get out.bluespots.labeled.get rank
      (out.bluespots.pourpoints.map fun p => (p.cell_row, p.cell_col)))
    (hone : OneOutlet dem.rows dem.cols d.flowdir.get out.bluespots.labeled.get point) :
    CatchmentInput dem.rows dem.cols d.flowdir.get out.bluespots.labeled.get out.bluespots.watersheds.get
      out.bluespots.nlabels point next rank := by
  have hap := g.apart hout hrep hres hlow
  have hsh := g.depths
  have hown : ∀ l : Nat, 1 ≤ l → l ≤ out.bluespots.nlabels → InGrid dem.rows dem.cols (point l) ∧
      out.bluespots.labeled.get (point l) = l ∧
      ∀ c, InGrid dem.rows dem.cols c → out.bluespots.labeled.get c = l → rank (point l) ≤ rank c := by
    intro l hl hl'
    obtain ⟨p, hp, hpe⟩ := hrep.outlet l hl'
    have hp' : (out.bluespots.pourpoints.map fun p => ((p.cell_row, p.cell_col) : Cell))[l]? = some (point l) := by
      rw [List.getElem?_map, hp, hpe]; rfl
    rcases hlow.lowest l _ hp' with ⟨h0, -⟩ | h
    · omega
    · exact h
  refine ⟨fun c hc => (g.down c hc).2.1, hlow.falls, fun c hc => ?_, hown, fun l hl hl' => ?_, hap.1, ?_, hone⟩
  · exact hres.labelling.range c (by rw [hsh.1, hsh.2]; exact hc)
  · rcases hrep.goes l hl' with ⟨-, h⟩ | ⟨h, -⟩
    · rw [← hout]; exact h
    · exact absurd (hown l hl hl').1 h
  · have := hres.watershed
    rwa [hsh.1, hsh.2] at this

/-- C116, part. If the flow leaves every bluespot at its pour point only, then of every bluespot: the cells from which the
flow passes the pour point are those of its watershed and of the watersheds of the bluespots upstream; the accumulated
flow there is their number, and times the cell area it is the sum of the watershed areas; and what the bluespot spills is
the rain on these cells less what is held in it and upstream. Missing (and false, `C116_catchment_false`): bluespots that
the flow leaves at several cells. -/
theorem C116_catchment_partial (h : SoundTerrain drop sub scale safe dem)
    (hfun : Functions drop scale dem demEngine bluespotEngine) (hcc : LabelContract cc) (hsq : SquareCells gt)
    (want : Bool) (f : Bluespots.StatUnits K → Bool) (mm : K) :
    ∃ out point next v spill,
      (Complete.processAll cc demEngine bluespotEngine sub safe gt dem want (some f) mm).Yields (.ok out) ∧
      ReportsState dem.rows dem.cols gt mm out point next v spill ∧
      (OneOutlet dem.rows dem.cols out.dem.flowdir.get out.bluespots.labeled.get point →
        ∀ l : Nat, 1 ≤ l → l ≤ out.bluespots.nlabels →
          (∀ c, dem.Has c → (Downstream dem.rows dem.cols out.dem.flowdir.get c (point l) ↔
            LeadsTo next (out.bluespots.watersheds.get c).toNat l)) ∧
          (∀ a, out.dem.accum = some a → a.get (point l) = upstreamCount dem.rows dem.cols out.dem.flowdir.get (point l)) ∧
          ∀ (up : Finset Nat), (∀ k, k ∈ up ↔ k ≤ out.bluespots.nlabels ∧ LeadsTo next k l) →
            (∀ area : Nat → K, (∀ k p, out.bluespots.pourpoints[k]? = some p → area k = p.wshed_area) →
              upstreamCount dem.rows dem.cols out.dem.flowdir.get (point l) * cellArea gt = ∑ k ∈ up, area k) ∧
            spill l = upstreamCount dem.rows dem.cols out.dem.flowdir.get (point l) * cellArea gt * mm / 1000 -
              ∑ k ∈ up, v k) := by
  classical
  obtain ⟨d, s, g⟩ := good_dem h hfun want
  obtain ⟨out, point, next, v, spill, h1, rfl, h3, h4, γ, iγ, rank, h5⟩ := g.chain hcc hsq f mm
  refine ⟨out, point, next, v, spill, h1, h3, fun hone l hl hl' => ?_⟩
  have hin := g.catchment rfl h3 h4 h5 hone
  set n := out.bluespots.nlabels with hn
  have hHas : ∀ c, out.dem.depths.Has c ↔ InGrid dem.rows dem.cols c := fun c => by
    show InGrid _ _ c ↔ _
    rw [g.depths.1, g.depths.2]
  have hwr : ∀ c, InGrid dem.rows dem.cols c → 0 ≤ out.bluespots.watersheds.get c ∧ out.bluespots.watersheds.get c ≤ n := by
    intro c hc
    by_cases h0 : out.bluespots.watersheds.get c = 0
    · rw [h0]; exact ⟨le_rfl, by omega⟩
    · obtain ⟨x, hx, hlx⟩ := (hin.watershed c hc).2.2.2 h0
      rw [← hlx]; exact hin.range x (downstream_inGrid hx hc)
  have hiff : ∀ c, InGrid dem.rows dem.cols c → (Downstream dem.rows dem.cols out.dem.flowdir.get c (point l) ↔
      LeadsTo next (out.bluespots.watersheds.get c).toNat l) := fun c hc => hin.iff hl hl' hwr hc
  refine ⟨hiff, fun a ha => ?_, fun up hup => ?_⟩
  · have hw : want = true := by
      by_contra hw
      have := g.noacc (by simpa using hw)
      rw [ha] at this; cases this
    obtain ⟨a', A, ha', hA, hsame⟩ := g.acc hw
    rw [ha] at ha'
    obtain rfl := Option.some.inj ha'
    obtain ⟨A', hA', hAr, hAc, hA3⟩ := C18_accum_counts out.dem.flowdir fun c hc => by
      have hc : InGrid _ _ c := hc
      rw [g.flowdir.1, g.flowdir.2] at hc ⊢; exact hin.drains c hc
    obtain rfl : A = A' := Except.ok.inj (Returns.unique hA hA')
    have hp := (hin.own l hl hl').1
    have hp' : out.dem.flowdir.Has (point l) := by show InGrid _ _ _; rw [g.flowdir.1, g.flowdir.2]; exact hp
    have := hA3 _ hp'
    rw [g.flowdir.1, g.flowdir.2] at this
    rw [← this]
    exact hsame.2.2 _ (by show InGrid _ _ _; rw [hsame.1, hsame.2.1, hAr, hAc]; exact hp')
  · let F : Finset Cell := (Raster.cellList dem.rows dem.cols).toFinset.filter fun c =>
      Downstream dem.rows dem.cols out.dem.flowdir.get c (point l)
    have hF : ∀ c, c ∈ F ↔ InGrid dem.rows dem.cols c ∧ Downstream dem.rows dem.cols out.dem.flowdir.get c (point l) := by
      intro c
      rw [Finset.mem_filter, List.mem_toFinset, Flow.mem_cellList]
    let W : Nat → List Cell := fun k => (Raster.cellList dem.rows dem.cols).filter fun c =>
      out.bluespots.watersheds.get c = ((k : Nat) : Int)
    have hW : ∀ k : Nat, CellsOf dem.rows dem.cols out.bluespots.watersheds.get k (W k) := fun k => lists_filter _ _ _
    have hcount : upstreamCount dem.rows dem.cols out.dem.flowdir.get (point l) = ∑ k ∈ up, (W k).length := by
      have e1 : upstreamCount dem.rows dem.cols out.dem.flowdir.get (point l) = F.card := by
        unfold upstreamCount
        rw [← Set.ncard_coe_finset F]
        congr 1
        ext c
        rw [Set.mem_setOf_eq, Finset.mem_coe, hF]
      rw [e1, Finset.card_eq_sum_card_fiberwise (f := fun c => (out.bluespots.watersheds.get c).toNat) (t := up) fun c hc => by
        obtain ⟨hc1, hc2⟩ := (hF c).1 hc
        have := hwr c hc1
        exact (hup _).2 ⟨by show (_ : Int).toNat ≤ _; omega, (hiff c hc1).1 hc2⟩]
      refine Finset.sum_congr rfl fun k hk => ?_
      rw [← List.toFinset_card_of_nodup (show (W k).Nodup from (Flow.nodup_cellList _ _).filter _)]
      congr 1
      ext c
      rw [Finset.mem_filter, hF, List.mem_toFinset, (hW k).2]
      constructor
      · rintro ⟨⟨a1, -⟩, a2⟩
        have := hwr c a1
        exact ⟨a1, by omega⟩
      · rintro ⟨a1, a2⟩
        have e : (out.bluespots.watersheds.get c).toNat = k := by rw [a2, Int.toNat_natCast]
        exact ⟨⟨a1, (hiff c a1).2 (by rw [e]; exact ((hup k).1 hk).2)⟩, e⟩
    have hcK : (upstreamCount dem.rows dem.cols out.dem.flowdir.get (point l) : K) = ∑ k ∈ up, ((W k).length : K) := by
      rw [hcount, Nat.cast_sum]
    refine ⟨fun area harea => ?_, ?_⟩
    · rw [hcK, Finset.sum_mul]
      refine Finset.sum_congr rfl fun k hk => ?_
      have hp := h4.points k
      rw [g.depths.1, g.depths.2] at hp
      obtain ⟨p, p1, p2, -⟩ := hp _ (W k) ((hup k).1 hk).1 (lists_filter _ _ _) (hW k)
      rw [harea k p p1, p2.wshed_area]
    · obtain ⟨R, hR⟩ := Relief.natRank (fun l => rank (point l)) (next_lower h3 hin.range h5)
      obtain ⟨water, cap, hst, hwc⟩ := h3.state
      have hbal := Relief.upstream_balance hR hst hl' up hup
      have hsum : ∑ k ∈ up, water k = ∑ k ∈ up, ((W k).length : K) * (cellArea gt * mm / 1000) :=
        Finset.sum_congr rfl fun k hk => by
          rw [(hwc k ((hup k).1 hk).1 _ _ (lists_filter _ _ _) (hW k)).1]; ring
      rw [hsum, ← Finset.sum_mul, ← hcK] at hbal
      linear_combination hbal

end

/-- C116 is false of all bluespots: less flow passes the pour point of the only bluespot of `narrowOutlet` than falls on its
watershed. -/
theorem C116_catchment_false {cc : Raster Bool → Raster Int × Nat} (hcc : LabelContract cc) {gt : GeoTransform Rat}
    (hsq : SquareCells gt) (mm : Rat) : ∃ (out : Complete.Out (WithTop Rat) Rat) (a : Raster Int) (l : Nat)
      (p : Bluespots.PourPoint Rat),
    (Complete.processAll cc (Dem.python exactSub (· * (7/10))) Bluespots.python exactSub (exactSafe (1/1000) (14/10000)) gt
      (finiteDem narrowOutlet) true (some fun _ => true) mm).Yields (.ok out) ∧ out.dem.accum = some a ∧
    1 ≤ l ∧ l ≤ out.bluespots.nlabels ∧ out.bluespots.pourpoints[l]? = some p ∧
    (a.get (p.cell_row, p.cell_col) : Rat) * cellArea gt < p.wshed_area := by
  have hsound := exact_sound narrowOutlet (by decide) (by decide) (short := 1/1000) (diag := 14/10000) (k := 7/10)
    (by norm_num) (by norm_num) (by norm_num)
  obtain ⟨d, s, g⟩ := good_dem (demEngine := Dem.python exactSub (· * (7/10))) (bluespotEngine := Bluespots.python) hsound
    (.inl ⟨rfl, rfl⟩) true
  obtain ⟨d', a, hd, ha, hdsh, -, -, -, hwet, -, hav, -⟩ := narrowOutlet_dem
  obtain rfl : d' = d := Except.ok.inj (Returns.unique hd g.run)
  obtain ⟨out, point, next, v, spill, h1, rfl, h3, h4, γ, iγ, rank, h5⟩ := g.chain hcc hsq (fun _ => true) mm
  have hgrid : ∀ c, out.dem.depths.Has c ↔ c ∈ Raster.cellList 5 3 := by
    intro c; rw [Flow.mem_cellList]; show InGrid _ _ _ ↔ _; rw [hdsh.1, hdsh.2]
  have hlab : ∀ c, out.dem.depths.Has c → (out.bluespots.labeled.get c ≠ 0 ↔ c ∈ ([(1, 1), (2, 1), (3, 1)] : List Cell)) := by
    intro c hc
    rw [← hwet c ((hgrid c).1 hc), Ne, h4.labelling.background c hc, not_not]
    exact ⟨fun hh => hh.1, fun hh => ⟨hh, passes_all hc hh⟩⟩
  have h11 : out.dem.depths.Has (1, 1) := (hgrid _).2 (by decide)
  have h21 : out.dem.depths.Has (2, 1) := (hgrid _).2 (by decide)
  have h31 : out.dem.depths.Has (3, 1) := (hgrid _).2 (by decide)
  have w1 := (hwet (1, 1) (by decide)).2 (by decide)
  have w2 := (hwet (2, 1) (by decide)).2 (by decide)
  have w3 := (hwet (3, 1) (by decide)).2 (by decide)
  have z1 := (hlab _ h11).2 (by decide)
  have z2 := (hlab _ h21).2 (by decide)
  have z3 := (hlab _ h31).2 (by decide)
  have e12 := (h4.same _ _ h11 h21 z1 z2).2 (ConnectedIn.step (by decide) ⟨h11, w1⟩ ⟨h21, w2⟩)
  have e23 := (h4.same _ _ h21 h31 z2 z3).2 (ConnectedIn.step (by decide) ⟨h21, w2⟩ ⟨h31, w3⟩)
  have hr := h4.labelling.range _ h11
  obtain ⟨l, hl⟩ : ∃ l : Nat, out.bluespots.labeled.get (1, 1) = l := ⟨_, (Int.toNat_of_nonneg hr.1).symm⟩
  have hl1 : 1 ≤ l := by omega
  have hln : l ≤ out.bluespots.nlabels := by omega
  have hcs : CellsOf out.dem.depths.rows out.dem.depths.cols out.bluespots.labeled.get l [(1, 1), (2, 1), (3, 1)] := by
    refine ⟨by decide, fun c => ⟨fun hc => ?_, fun hc => (hlab c hc.1).1 (by rw [hc.2]; omega)⟩⟩
    simp only [List.mem_cons, List.not_mem_nil, or_false] at hc
    rcases hc with rfl | rfl | rfl
    · exact ⟨h11, hl⟩
    · exact ⟨h21, e12.symm.trans hl⟩
    · exact ⟨h31, (e12.trans e23).symm.trans hl⟩
  obtain ⟨ws, hws⟩ : ∃ ws, CellsOf out.dem.depths.rows out.dem.depths.cols out.bluespots.watersheds.get l ws :=
    ⟨_, lists_filter _ _ _⟩
  obtain ⟨p, p1, p2, -⟩ := h4.points l _ _ hln hcs hws
  refine ⟨out, a, l, p, h1, ha, hl1, hln, p1, ?_⟩
  have hin : ∀ c ∈ ([(1, 1), (2, 1), (3, 1)] : List Cell), c ∈ ws := by
    intro c hc
    obtain ⟨hc1, hc2⟩ := (hcs.2 c).1 hc
    exact (hws.2 c).2 ⟨hc1, ((h4.watershed c hc1).2.1 (by rw [hc2]; omega)).trans hc2⟩
  have hlen : 3 ≤ ws.length := by
    have := List.Nodup.subperm (l₁ := [(1, 1), (2, 1), (3, 1)]) (by decide) hin
    exact this.length_le
  have hacc : a.get (p.cell_row, p.cell_col) ≤ 2 := by
    have hm : (p.cell_row, p.cell_col) ∈ ([(1, 1), (2, 1), (3, 1)] : List Cell) := by
      rcases h5.lowest l (p.cell_row, p.cell_col) (by rw [List.getElem?_map, p1]; rfl) with ⟨h0, -⟩ | ⟨hi, hp, -⟩
      · omega
      · exact (hcs.2 _).2 ⟨by rw [hdsh.1, hdsh.2]; exact hi, hp⟩
    generalize (p.cell_row, p.cell_col) = q at hm ⊢
    simp only [List.mem_cons, List.not_mem_nil, or_false] at hm
    rcases hm with rfl | rfl | rfl
    · rw [hav.1]; decide
    · rw [hav.2.1]
    · rw [hav.2.2]; decide
  rw [p2.wshed_area]
  refine mul_lt_mul_of_pos_right ?_ (cellArea_pos hsq)
  have h2 : (a.get (p.cell_row, p.cell_col) : Rat) ≤ 2 := by exact_mod_cast hacc
  have h3' : (3 : Rat) ≤ ws.length := by exact_mod_cast hlen
  linarith

/-- The hypotheses of C116 can be met. -/
example : ∃ cc, LabelContract cc ∧ SquareCells (⟨0, 2, 0, 0, 0, -2⟩ : GeoTransform Rat) ∧
    SoundTerrain (K := Rat) exactSub exactSub (· * (7/10)) (exactSafe (1/1000) (14/10000)) (finiteDem demoMeeting) ∧
    Functions exactSub (· * (7/10) : Rat → Rat) (finiteDem demoMeeting) (Dem.python exactSub (· * (7/10))) Bluespots.python := by
  obtain ⟨cc, h⟩ := exists_labelContract
  exact ⟨cc, h, by unfold SquareCells; norm_num, exact_sound demoMeeting (by decide) (by decide) (by norm_num) (by norm_num)
    (by norm_num), .inl ⟨rfl, rfl⟩⟩

/-- `OneOutlet` for rasters, by looking at each cell. -/
theorem oneOutlet_of_cells {rows cols : Nat} {fd : Cell → Nat} {lab : Cell → Int} {point : Nat → Cell}
    (h : ∀ y ∈ Raster.cellList rows cols, lab y ≠ 0 → (InGrid rows cols (Flow.move y (fd y)) → lab (Flow.move y (fd y)) ≠ lab y) →
      y = point (lab y).toNat) : OneOutlet rows cols fd lab point := by
  rintro y hy h0 ⟨d, hd, hne⟩
  obtain ⟨-, rfl⟩ := Flow.flowsTo_iff.1 hd
  exact h y (Flow.mem_cellList.2 hy) h0 hne

set_option synthInstance.maxSize 1000 in
/-- The three bluespots of `demoMeeting` have one outlet each. 2 cells drain through the pour points of bluespots 1 and 2
(watersheds of 8 m²) and 28 through that of bluespot 3 below them (watershed of 96 m²): 28 · 4 = 96 + 8 + 8. It spills
412 m³ of 4 m of rain (`demoMeetingFinal`): 28 · 4 · 4 - (4 + 16 + 16). -/
example : ((Complete.processAll (demoMeetingCC 1 2 3) (Dem.python exactSub (· * (7/10))) Bluespots.python exactSub
      (exactSafe (1/1000) (14/10000)) ⟨0, 2, 0, 0, 0, -2⟩ (finiteDem demoMeeting) true (some fun _ => true) (4000 : Rat)).run 80).run.map
    (fun r => r.toOption.map fun o => (o.bluespots.pourpoints.map fun p => ((p.cell_row, p.cell_col), p.wshed_area,
        o.dem.accum.map (·.get (p.cell_row, p.cell_col))),
      decide (∀ y ∈ Raster.cellList 8 7, o.bluespots.labeled.get y ≠ 0 →
        (InGrid 8 7 (Flow.move y (o.dem.flowdir.get y)) →
          o.bluespots.labeled.get (Flow.move y (o.dem.flowdir.get y)) ≠ o.bluespots.labeled.get y) →
        some y = o.bluespots.pourpoints[(o.bluespots.labeled.get y).toNat]?.map fun p => (p.cell_row, p.cell_col)))) =
    some (some ([((7, 3), 112, some 29), ((1, 1), 8, some 2), ((1, 5), 8, some 2), ((6, 3), 96, some 28)], true)) := by
  decide +kernel

end Malstroem
