/-
Property C99: areas without data.
-/
import Verif.Props.Tiles
import Verif.Props.WayOut

set_option linter.unusedSectionVars false

namespace Malstroem
open Spec

namespace Spec

/-- The DEM as the commands read it: `s` (-999) stands in the cells without data (`no`), and all elevations are higher. -/
structure Nodata {β : Type*} [LT β] (no : Cell → Prop) (s : β) (dem : Raster β) : Prop where
  subst : ∀ c, dem.Has c → no c → dem.get c = s
  above : ∀ c, dem.Has c → ¬ no c → s < dem.get c

/-- The cell lies in an area without data that reaches the edge of the raster. -/
def OpenNodata (rows cols : Nat) (no : Cell → Prop) (c : Cell) : Prop :=
  ∃ e, OnEdge rows cols e ∧ ConnectedIn (fun x => InGrid rows cols x ∧ no x) c e

/-- `p` is an 8-connected path inside the raster that starts in `c` and ends on the edge of the raster or in an area
without data that reaches the edge. -/
structure IsWayOff (rows cols : Nat) (no : Cell → Prop) (c : Cell) (p : List Cell) : Prop where
  head : p.head? = some c
  chain : p.IsChain Adj
  inside : ∀ x ∈ p, InGrid rows cols x
  exit : ∃ e, p.getLast? = some e ∧ (OnEdge rows cols e ∨ OpenNodata rows cols no e)

end Spec

section
variable {β : Type*} [LinearOrder β] [OrderTop β] {dem r : Raster β} {no : Cell → Prop} {s : β}

theorem Spec.OpenNodata.self {rows cols : Nat} {c : Cell} (h : OpenNodata rows cols no c) : InGrid rows cols c ∧ no c :=
  h.choose_spec.2.left

/-- C99, filling: an area without data that reaches the edge keeps its level. -/
theorem C99_open_level (hn : Nodata no s dem) (h : Returns (Fill.fillTerrain dem) (.ok r)) {c : Cell}
    (hc : OpenNodata dem.rows dem.cols no c) : r.get c = s := by
  obtain ⟨hI, hF⟩ := Fill.inv_of_returns h
  obtain ⟨e, he, hcon⟩ := hc
  have hself : ∀ x, dem.Has x → no x → s ≤ r.get x := fun x hx hno => by rw [← hn.subst x hx hno]; exact hI.ge x hx
  obtain ⟨h1, h2⟩ := connectedIn_iff.1 hcon
  clear hcon
  induction h2 using Relation.ReflTransGen.head_induction_on with
  | refl => rw [hI.edge e he, hn.subst e he.1 h1.2]
  | @head a b hab _ ih =>
    refine le_antisymm ?_ (hself a h1.1 h1.2)
    have hb := ih hab.2.2
    rcases edge_or_interior h1.1 with hE | hE
    · rw [hI.edge a hE, hn.subst a h1.1 h1.2]
    · refine (hF a hE b hab.1).trans ?_
      show max (dem.get a) (r.get b) ≤ s
      rw [hb, hn.subst a h1.1 h1.2, max_self]

/-- C99, filling: every cell is filled to the lowest level at which it can reach the edge of the raster or an area without
data that reaches the edge. -/
theorem C99_level (hn : Nodata no s dem) (h : Returns (Fill.fillTerrain dem) (.ok r)) {c : Cell} (hc : dem.Has c) :
    IsLeast {z | ∃ p, IsWayOff dem.rows dem.cols no c p ∧ IsHighest dem.get p z} (r.get c) := by
  obtain ⟨hI, hF⟩ := Fill.inv_of_returns h
  constructor
  · obtain ⟨p, hp, hz⟩ := (Fill.fill_spill h hc).1
    obtain ⟨e, he, hedge⟩ := hp.exit
    exact ⟨p, ⟨hp.head, hp.chain, hp.inside, e, he, .inl hedge⟩, hz⟩
  · rintro z ⟨p, hp, hz⟩
    have hup : ∀ x ∈ p, dem.get x ≤ z := fun x hx => hz.2 ⟨x, hx, rfl⟩
    clear hz
    obtain ⟨h1, h2, h3, e, he, hout⟩ := hp
    have hre : r.get e = dem.get e := by
      rcases hout with hE | hO
      · exact hI.edge e hE
      · rw [C99_open_level hn h hO, hn.subst e hO.self.1 hO.self.2]
    clear hout
    induction p generalizing c with
    | nil => simp at h1
    | cons a q ih =>
      have : a = c := by simpa using h1
      subst this
      cases q with
      | nil =>
        have : a = e := by simpa using he
        subst this
        rw [hre]
        exact hup a (by simp)
      | cons b q =>
        rw [List.isChain_cons_cons] at h2
        have hb := ih (h3 b (by simp)) (fun x hx => hup x (List.mem_cons_of_mem _ hx)) rfl h2.2
          (fun x hx => h3 x (List.mem_cons_of_mem _ hx)) (by simpa using he)
        rcases edge_or_interior hc with hE | hE
        · rw [hI.edge a hE]; exact hup a (by simp)
        · exact (hF a hE b h2.1).trans (max_le (hup a (by simp)) hb)

/-- C99, filling: a hole in the data is filled at least to the lowest elevation there is. -/
theorem C99_hole_level (hn : Nodata no s dem) (h : Returns (Fill.fillTerrain dem) (.ok r)) {c : Cell} (hc : dem.Has c)
    (hhole : ¬ OpenNodata dem.rows dem.cols no c) :
    s < r.get c ∧ ∀ z, (∀ x, dem.Has x → ¬ no x → z ≤ dem.get x) → z ≤ r.get c := by
  obtain ⟨p, hp, hz⟩ := (Fill.fill_spill h hc).1
  have : ∃ x ∈ p, ¬ no x := by
    by_contra hall
    push Not at hall
    obtain ⟨e, he, hE⟩ := hp.exit
    exact hhole ⟨e, hE, p, hp.head, he, hp.chain, fun x hx => ⟨hp.inside x hx, hall x hx⟩⟩
  obtain ⟨x, hx, hxno⟩ := this
  have hle : dem.get x ≤ r.get c := hz.2 ⟨x, hx, rfl⟩
  exact ⟨(hn.above x (hp.inside x hx) hxno).trans_le hle, fun z hlow => (hlow x (hp.inside x hx) hxno).trans hle⟩

end

section
variable {K : Type} [Field K] [LinearOrder K] [IsStrictOrderedRing K] {β : Type} [LinearOrder β] [OrderTop β]
  {cc : Raster Bool → Raster Int × Nat} {fl : K → K} {drop sub : β → β → K} {scale : K → K}
  {safe : Raster β → (β → β) × (β → β)} {dem : Raster β} {no : Cell → Prop} {s : β} {num : β → K} {m : K}

/-- The surface without flats is at most one increment per cell above the filled terrain. -/
theorem noFlats_le_add (h : SoundTerrain drop sub scale safe dem) (hs : Steps num m (safe dem).1 (safe dem).2)
    {f nf : Raster β} (hf : Returns (Fill.fillTerrain dem) (.ok f))
    (hnf : Returns (Fill.fillTerrainNoFlats (safe dem).1 (safe dem).2 dem) (.ok nf)) {c : Cell} (hc : dem.Has c) :
    num (nf.get c) ≤ num (f.get c) + (dem.rows * dem.cols : Nat) * m := by
  obtain ⟨hsh, hfin, hffin⟩ := noFlats_finite h hnf
  obtain ⟨hI, _⟩ := Fill.inv_of_returns hf
  obtain ⟨hIn, hFn⟩ := Fill.inv_of_returns_nf h.mono.1 h.mono.2 (fun x => (h.ge x).1) (fun x => (h.ge x).2) hnf
  obtain ⟨p, hp, hnd, hcl, _⟩ := (hI.wit c hc).resolve_left (hffin f hf c hc).ne
  obtain ⟨h1, h2, h3⟩ := climb_le_add hs h.keep h.finite hp
  have hgood := Fill.sd_good h.mono.1 h.mono.2 (fun x => (h.ge x).1) (fun x => (h.ge x).2)
  have hle := (hs.order _ _ (hfin c hc) h2).1 (Fill.fix_le_climb hgood hIn hFn hp)
  have hlen : p.length ≤ dem.rows * dem.cols := by
    rw [← Flow.length_cellList]
    exact (List.subperm_of_subset hnd fun x hx => Flow.mem_cellList.2 (hp.inside x hx)).length_le
  have : (p.length : K) * m ≤ (dem.rows * dem.cols : Nat) * m :=
    mul_le_mul_of_nonneg_right (Nat.cast_le.2 hlen) hs.nonneg
  rw [hcl] at h3
  linarith

/-- C99, what holds: DemTool and BluespotTool on a DEM with areas without data, which the commands replace by a level `s`
below all elevations (so far below that one increment of the surface without flats per cell does not reach up to the
lowest elevation).
An area without data that reaches the edge of the raster stays at level `s` and dry, belongs to no bluespot and to no
watershed of a bluespot, and water on it never leaves it but over the edge of the raster. All other cells are filled to
the lowest level at which they can reach such an area or the edge.
Missing: the same for areas without data that do not reach the edge, which fails (see below). -/
theorem C99_open_partial (hcc : LabelContract cc) {gt : GeoTransform K} (hsq : SquareCellsFl fl gt)
    (h : SoundTerrain drop sub scale safe dem) (hn : Nodata no s dem)
    (hs : Steps num m (safe dem).1 (safe dem).2)
    (hgap : ∀ x, dem.Has x → ¬ no x → num s + (dem.rows * dem.cols : Nat) * m ≤ num (dem.get x)) (want : Bool)
    (f : Bluespots.StatUnits K → Bool) :
    ∃ (d : Dem.Out β K) (b : Bluespots.Out K),
      Returns (Dem.process (Dem.python drop scale) sub safe true want dem) (.ok d) ∧
      (Bluespots.processFl fl cc (Bluespots.pythonFl fl) safe gt d.depths (some f) d.flowdir d.accum (some dem)).Yields (.ok b) ∧
      (∀ c, OpenNodata dem.rows dem.cols no c → d.filled.get c = s ∧ d.depths.get c = 0 ∧ b.labeled.get c = 0 ∧
        b.watersheds.get c = 0 ∧ ∀ x, Downstream dem.rows dem.cols d.flowdir.get c x → OpenNodata dem.rows dem.cols no x) ∧
      ∀ c, dem.Has c →
        IsLeast {z | ∃ p, IsWayOff dem.rows dem.cols no c p ∧ IsHighest dem.get p z} (d.filled.get c) := by
  obtain ⟨d, b, choose, hd, hbrun, hfill, hdsh, hcells, hb⟩ := dem_bluespots (fl := fl) hcc hsq h want f
  obtain ⟨_, _, _, hnf, hfd, _, _⟩ := Dem.process_inv hd
  have hnf : Returns (Fill.fillTerrainNoFlats (safe dem).1 (safe dem).2 dem) (.ok d.noFlats) := hnf
  have hdown : DrainsDownhill dem.rows dem.cols d.noFlats.get d.flowdir :=
    C15_dem_flow_drains drop sub scale safe true want dem d h.drop_pos h.scale_pos h.finite h.mono h.ge h.keep hd
      (h.strict _ (.inl hnf))
  obtain ⟨hsh, hfin, hffin⟩ := noFlats_finite h hnf
  obtain ⟨hIn, _⟩ := Fill.inv_of_returns_nf h.mono.1 h.mono.2 (fun x => (h.ge x).1) (fun x => (h.ge x).2) hnf
  -- one step of the flow stays in the area
  have hstep : ∀ a x, OpenNodata dem.rows dem.cols no a → Step dem.rows dem.cols d.flowdir.get a x →
      OpenNodata dem.rows dem.cols no x := by
    intro a x ha hax
    have hlt : d.noFlats.get x < d.noFlats.get a := by
      obtain ⟨_, _, l, _, hl, _, hch⟩ := hdown a hax.1
      obtain ⟨t, rfl⟩ : ∃ t, l = a :: t := by
        have := hl.head
        cases l with
        | nil => simp at this
        | cons y t => simp at this; exact ⟨t, by rw [this]⟩
      cases t with
      | nil =>
        obtain ⟨e, he, hstop⟩ := hl.stop
        have : a = e := by simpa using he
        subst this
        exact absurd hax.2.1 (hstop x hax.2.2)
      | cons y t =>
        have h1 := (List.isChain_cons_cons.1 hl.chain).1
        have h2 := (List.isChain_cons_cons.1 hch).1
        have : y = x := (Flow.flowsTo_iff.1 h1).2.trans (Flow.flowsTo_iff.1 hax.2.2).2.symm
        rwa [this] at h2
    have hx : no x := by
      by_contra hx
      have h1 := noFlats_le_add h hs hfill hnf hax.1
      rw [C99_open_level hn hfill ha] at h1
      have h2 := (hs.order _ _ (hfin a hax.1) (h.finite x hax.2.1)).2 (h1.trans (hgap x hax.2.1 hx))
      exact absurd (hIn.ge x hax.2.1) (not_le.2 (hlt.trans_le h2))
    obtain ⟨e, he, hcon⟩ := ha
    exact ⟨e, he, (ConnectedIn.step (adj_symm (Flow.flowsTo_adj hax.2.2)) ⟨hax.2.1, hx⟩ hcon.left).trans hcon⟩
  have hdown' : ∀ a, OpenNodata dem.rows dem.cols no a → ∀ x, Downstream dem.rows dem.cols d.flowdir.get a x →
      OpenNodata dem.rows dem.cols no x := by
    intro a ha x hx
    induction hx with
    | refl => exact ha
    | tail _ hs ih => exact hstep _ _ ih hs
  have hhas : ∀ c, d.depths.Has c ↔ dem.Has c := fun c => by unfold Raster.Has; rw [hdsh.1, hdsh.2]
  have hdry : ∀ c, OpenNodata dem.rows dem.cols no c → d.filled.get c = s ∧ d.depths.get c = 0 ∧ b.labeled.get c = 0 := by
    intro c hc
    have hf := C99_open_level hn hfill hc
    have hc1 := hc.self
    have h0 : d.depths.get c = 0 := by
      by_contra h0
      have := (hcells c hc1.1).2.1 h0
      rw [hf, hn.subst c hc1.1 hc1.2] at this
      exact lt_irrefl _ this
    exact ⟨hf, h0, (hb.labelling.background c ((hhas c).2 hc1.1)).2 fun hw => hw.1 h0⟩
  refine ⟨d, b, hd, hbrun, fun c hc => ?_, fun c hc => C99_level hn hfill hc⟩
  obtain ⟨h1, h2, h3⟩ := hdry c hc
  refine ⟨h1, h2, h3, ?_, hdown' c hc⟩
  have hw := (hb.watershed c ((hhas c).2 hc.self.1)).1
  have key : ∀ c v, OpenNodata dem.rows dem.cols no c →
      FirstLabel d.depths.rows d.depths.cols d.flowdir.get b.labeled.get 0 c v → v = 0 := by
    intro c v hc hF
    induction hF with
    | here hne => exact absurd (hdry _ hc).2.2 hne
    | next _ hs _ ih => exact ih (hstep _ _ hc (by rwa [hdsh.1, hdsh.2] at hs))
    | out => rfl
  exact key c _ hc hw

/-- C99 is false for holes: every area without data that does not reach the edge becomes part of a bluespot (with a filter
that accepts all), filled from `s` at least to the lowest elevation there is. -/
theorem C99_hole_false (hcc : LabelContract cc) {gt : GeoTransform K} (hsq : SquareCellsFl fl gt)
    (h : SoundTerrain drop sub scale safe dem) (hn : Nodata no s dem) (want : Bool) :
    ∃ (d : Dem.Out β K) (b : Bluespots.Out K),
      Returns (Dem.process (Dem.python drop scale) sub safe true want dem) (.ok d) ∧
      (Bluespots.processFl fl cc (Bluespots.pythonFl fl) safe gt d.depths (some fun _ => true) d.flowdir d.accum
        (some dem)).Yields (.ok b) ∧
      ∀ c, dem.Has c → no c → ¬ OpenNodata dem.rows dem.cols no c → b.labeled.get c ≠ 0 ∧
        d.depths.get c = sub (d.filled.get c) s ∧ s < d.filled.get c ∧
        ∀ z, (∀ x, dem.Has x → ¬ no x → z ≤ dem.get x) → z ≤ d.filled.get c := by
  obtain ⟨d, b, choose, hd, hbrun, hfill, hdsh, hcells, hb⟩ := dem_bluespots (fl := fl) hcc hsq h want (fun _ => true)
  refine ⟨d, b, hd, hbrun, fun c hc hno hhole => ?_⟩
  obtain ⟨h1, h2⟩ := C99_hole_level hn hfill hc hhole
  obtain ⟨hdep, hwet⟩ := hcells c hc
  rw [hn.subst c hc hno] at hdep hwet
  have hhas : d.depths.Has c := by unfold Raster.Has; rw [hdsh.1, hdsh.2]; exact hc
  refine ⟨fun h0 => (hb.labelling.background c hhas).1 h0 ⟨hwet.2 h1, ?_⟩, hdep, h1, h2⟩
  classical
  have hl := lists_filter d.depths.rows d.depths.cols
    (fun x => ConnectedIn (fun y => InGrid d.depths.rows d.depths.cols y ∧ d.depths.get y ≠ 0) c x)
  have hm := (hl.2 c).2 ⟨hhas, .refl ⟨hhas, hwet.2 h1⟩⟩
  exact ⟨_, _, hl, Bluespots.stat_isStats fl d.depths (cellAreaFl fl gt) (List.ne_nil_of_mem hm), rfl⟩

end

section Float
open Malstroem.Float
variable {fl fl32 nextafter : Rat → Rat}

/-- C99 as the program computes: float32 elevations at most `H` (at least 1) from zero and at least `gap` above the
substitute, and at most `2^40 gap / H` cells; for -999 and elevations from -998 m to 9000 m 122 million cells. -/
theorem Float.C99_float {cc : Raster Bool → Raster Int × Nat} (hcc : LabelContract cc)
    (hfl : IsRounding 53 (-1074) fl) (hfl32 : IsRounding 24 (-149) fl32) (hnext : IsNextAfter nextafter)
    {gt : GeoTransform Rat} (hsq : SquareCellsFl fl gt) {dem : Raster (WithTop F64)} (hdem : IsDem32 dem)
    {no : Cell → Prop} {s : WithTop F64} (hn : Nodata no s dem) {H gap : Rat} (hH : 1 ≤ H)
    (hhigh : ∀ c, dem.Has c → |num (dem.get c)| ≤ H)
    (hgap : ∀ c, dem.Has c → ¬ no c → num s + gap ≤ num (dem.get c))
    (hsize : (dem.rows * dem.cols : Nat) * H ≤ 2 ^ 40 * gap) (hsize' : dem.rows * dem.cols ≤ 2 ^ 50) (want : Bool)
    (f : Bluespots.StatUnits Rat → Bool) :
    ∃ (d : Dem.Out (WithTop F64) Rat) (b : Bluespots.Out Rat),
      Returns (Dem.process (Dem.python (fsub fl) fun x => fl (x * (1 / Fill.sqrt2))) (fsub fl32) (fsafe hfl nextafter) true want
        dem) (.ok d) ∧
      (Bluespots.processFl fl cc (Bluespots.pythonFl fl) (fsafe hfl nextafter) gt d.depths (some f) d.flowdir d.accum
        (some dem)).Yields (.ok b) ∧
      (∀ c, OpenNodata dem.rows dem.cols no c → d.filled.get c = s ∧ d.depths.get c = 0 ∧ b.labeled.get c = 0 ∧
        b.watersheds.get c = 0 ∧ ∀ x, Downstream dem.rows dem.cols d.flowdir.get c x → OpenNodata dem.rows dem.cols no x) ∧
      ∀ c, dem.Has c →
        IsLeast {z | ∃ p, IsWayOff dem.rows dem.cols no c p ∧ IsHighest dem.get p z} (d.filled.get c) := by
  obtain ⟨m, hm, hsteps⟩ := steps_float hfl hnext (by have := hdem.rows; omega) (by have := hdem.cols; omega) hH hhigh
  refine C99_open_partial hcc hsq
    (float_sound hfl hfl32 hnext hdem hsize' (k := 1 / Fill.sqrt2) (by norm_num [Fill.sqrt2])) hn hsteps
    (fun x hx hno => le_trans (add_le_add le_rfl ?_) (hgap x hx hno)) want f
  have hN : (0 : Rat) ≤ (dem.rows * dem.cols : Nat) := Nat.cast_nonneg _
  have := mul_le_mul_of_nonneg_left hm hN
  linarith

end Float
/-! ### Non-vacuity and counterexample -/

/-- A coast: an area without data at the left edge, a pit beside it that drains into it, and a hole in the data. -/
def demoCoast : Raster Rat :=
  Raster.ofRows [[-999,9,9,9,9],[-999,-999,9,9,9],[9,3,9,-999,9],[9,9,9,9,9]]
def demoCoastCC (_ : Raster Bool) : Raster Int × Nat :=
  (Raster.ofRows [[0,0,0,0,0],[0,0,0,0,0],[0,0,0,1,0],[0,0,0,0,0]], 1)

theorem demoCoast_nodata : Nodata (fun c => demoCoast.get c = -999) ((-999 : Rat) : WithTop Rat) (finiteDem demoCoast) where
  subst := fun c _ h => by show ((demoCoast.get c : Rat) : WithTop Rat) = _; rw [h]
  above := fun c hc h => by
    have key : ∀ c ∈ Raster.cellList 4 5, demoCoast.get c ≠ -999 → -999 < demoCoast.get c := by decide +kernel
    exact WithTop.coe_lt_coe.2 (key c (Flow.mem_cellList.2 hc) h)

/-- The hypotheses of `C99_open_partial` and `C99_hole_false` hold for `demoCoast`; (1, 1) is in the area that reaches the
edge, (2, 3) is not. -/
example : ∃ cc, LabelContract cc ∧ SquareCellsFl id (⟨0, 2, 0, 0, 0, -2⟩ : GeoTransform Rat) ∧
    SoundTerrain exactSub exactSub (· * (7/10)) (exactSafe (1/1000) (14/10000)) (finiteDem demoCoast) ∧
    Nodata (fun c => demoCoast.get c = -999) ((-999 : Rat) : WithTop Rat) (finiteDem demoCoast) ∧
    Steps (·.untopD 0) (max (1/1000) (14/10000)) (exactSafe (1/1000) (14/10000) (finiteDem demoCoast)).1
      (exactSafe (1/1000) (14/10000) (finiteDem demoCoast)).2 ∧
    (∀ x, demoCoast.Has x → demoCoast.get x ≠ -999 →
      -999 + (demoCoast.rows * demoCoast.cols : Nat) * max (1/1000) (14/10000) ≤ demoCoast.get x) ∧
    OpenNodata 4 5 (fun c => demoCoast.get c = -999) (1, 1) ∧ ¬ OpenNodata 4 5 (fun c => demoCoast.get c = -999) (2, 3) := by
  obtain ⟨cc, h⟩ := exists_labelContract
  refine ⟨cc, h, by unfold SquareCellsFl; norm_num,
    exact_sound demoCoast (by decide) (by decide) (by norm_num) (by norm_num) (by norm_num), demoCoast_nodata,
    steps_exact (by norm_num) _, fun x hx => ?_, ⟨(1, 0), by decide, [(1, 1), (1, 0)], rfl, rfl, by decide, by decide +kernel⟩, ?_⟩
  · have key : ∀ c ∈ Raster.cellList 4 5, demoCoast.get c ≠ -999 →
        -999 + (4 * 5 : Nat) * max (1/1000) (14/10000) ≤ demoCoast.get c := by decide +kernel
    exact key x (Flow.mem_cellList.2 hx)
  · rintro ⟨e, he, hcon⟩
    obtain ⟨_, h2⟩ := connectedIn_iff.1 hcon
    rcases Relation.ReflTransGen.cases_head h2 with rfl | ⟨b, hb, _⟩
    · revert he; decide
    · have key : ∀ b ∈ Raster.cellList 4 5, Adj (2, 3) b → demoCoast.get b ≠ -999 := by decide +kernel
      exact key b (Flow.mem_cellList.2 hb.2.2.1) hb.1 hb.2.2.2

set_option synthInstance.maxSize 1000 in
/-- The whole run on `demoCoast`: nothing stands in the pit at 3 or in the area at the edge; the hole is the only bluespot,
1008 m deep, and takes up 4032 m³ of water. -/
example : ((Complete.processAll demoCoastCC (Dem.python exactSub (· * (7/10))) Bluespots.python exactSub
      (exactSafe (1/1000) (14/10000)) ⟨0, 2, 0, 0, 0, -2⟩ (finiteDem demoCoast) false (some fun _ => true) (10 : Rat)).run 40).run.map
        (fun r => r.toOption.map fun o => (o.dem.depths.toRows, o.bluespots.watersheds.get (1, 1),
          o.bluespots.pourpoints.map fun p => [p.bspot_dmax.unbotD 0, p.bspot_area, p.bspot_vol])) =
    some (some ([[0,0,0,0,0],[0,0,0,0,0],[0,0,0,1008,0],[0,0,0,0,0]], 0,
      [[0, 76, 0], [1008, 4, 4032]])) := by
  decide +kernel

/-- -999 along the left edge of a DEM of float32 numbers, 10 elsewhere. -/
def Float.demoShore : Raster (WithTop Float.F64) :=
  ⟨4, 4, fun c => if c.2 = 0 then ((⟨-999, -999, 0, by norm_num, by norm_num, by norm_num⟩ : Float.F64) : WithTop Float.F64) else
    ((⟨10, 10, 0, by norm_num, by norm_num, by norm_num⟩ : Float.F64) : WithTop Float.F64)⟩

/-- The hypotheses of `Float.C99_float` hold for `demoShore`. -/
example : Float.IsDem32 Float.demoShore ∧
    Nodata (fun c => c.2 = 0) (((⟨-999, -999, 0, by norm_num, by norm_num, by norm_num⟩ : Float.F64)) : WithTop Float.F64)
      Float.demoShore ∧
    (∀ c, Float.demoShore.Has c → |Float.num (Float.demoShore.get c)| ≤ 1000) ∧
    (∀ c, Float.demoShore.Has c → ¬ c.2 = 0 → (-999 : Rat) + 1 ≤ Float.num (Float.demoShore.get c)) ∧
    ((Float.demoShore.rows * Float.demoShore.cols : Nat) : Rat) * 1000 ≤ 2 ^ 40 * 1 ∧
    OpenNodata 4 4 (fun c => c.2 = 0) (1, 0) := by
  refine ⟨⟨by decide, by decide, fun c _ => ?_⟩, ⟨fun c _ h => ?_, fun c _ h => ?_⟩, fun c _ => ?_, fun c _ h => ?_, ?_,
    ⟨(1, 0), by decide, [(1, 0)], rfl, rfl, by decide, by decide⟩⟩
  · unfold Float.demoShore; dsimp only
    split_ifs
    · exact ⟨_, rfl, -999, 0, by norm_num, by norm_num, by norm_num⟩
    · exact ⟨_, rfl, 10, 0, by norm_num, by norm_num, by norm_num⟩
  · unfold Float.demoShore; dsimp only; rw [if_pos h]
  · unfold Float.demoShore; dsimp only; rw [if_neg h]
    exact WithTop.coe_lt_coe.2 (by show (-999 : Rat) < 10; norm_num)
  · unfold Float.demoShore; dsimp only
    split_ifs <;> simp only [Float.num, WithTop.untopD_coe] <;> rw [abs_le] <;> norm_num
  · unfold Float.demoShore; dsimp only; rw [if_neg h]
    simp only [Float.num, WithTop.untopD_coe]; norm_num
  · unfold Float.demoShore; norm_num

end Malstroem
