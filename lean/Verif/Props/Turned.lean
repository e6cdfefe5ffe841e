/-
Property C100: turning and mirroring the DEM.
-/
import Verif.Props.Tiles
import Verif.Props.WayOut

set_option linter.unusedSectionVars false

namespace Malstroem
open Spec

namespace Spec

/-- `dem'` is `dem` turned or mirrored: `σ` takes the cells of `dem'` to those of `dem`, `τ` takes them back, and both take
neighbours to neighbours, cells with a common side to such, and the edge to the edge. -/
structure Turned {β : Type*} (σ τ : Cell → Cell) (dem dem' : Raster β) : Prop where
  there : GridMap dem'.rows dem'.cols dem.rows dem.cols σ
  back : GridMap dem.rows dem.cols dem'.rows dem'.cols τ
  same : ∀ c, τ (σ c) = c
  same' : ∀ c, σ (τ c) = c
  side : ∀ a b, Orth (σ a) (σ b) ↔ Orth a b
  get : ∀ c, dem'.Has c → dem'.get c = dem.get (σ c)

end Spec

section
variable {β : Type*} {σ τ : Cell → Cell} {dem dem' : Raster β}

/-- Rows and columns exchanged. -/
theorem turned_transpose (dem : Raster β) : Turned (fun c => (c.2, c.1)) (fun c => (c.2, c.1)) dem dem.transpose :=
  ⟨gridMap_transpose _ _, gridMap_transpose _ _, fun _ => rfl, fun _ => rfl,
    fun a b => by
      rw [orth_iff, orth_iff]; obtain ⟨a1, a2⟩ := a; obtain ⟨b1, b2⟩ := b; simp only [Prod.mk.injEq]; omega, fun _ _ => rfl⟩

/-- Upside down. -/
theorem turned_flipud (dem : Raster β) : Turned (fun c => ((dem.rows : Int) - 1 - c.1, c.2))
    (fun c => ((dem.rows : Int) - 1 - c.1, c.2)) dem dem.flipud :=
  ⟨gridMap_flipud dem.rows dem.cols, gridMap_flipud dem.rows dem.cols, fun c => by simp, fun c => by simp,
    fun a b => by
      rw [orth_iff, orth_iff]; obtain ⟨a1, a2⟩ := a; obtain ⟨b1, b2⟩ := b; simp only [Prod.mk.injEq]; omega, fun _ _ => rfl⟩

/-- Mirrored. -/
theorem turned_fliplr (dem : Raster β) : Turned (fun c => (c.1, (dem.cols : Int) - 1 - c.2))
    (fun c => (c.1, (dem.cols : Int) - 1 - c.2)) dem dem.fliplr :=
  ⟨gridMap_fliplr dem.rows dem.cols, gridMap_fliplr dem.rows dem.cols, fun c => by simp, fun c => by simp,
    fun a b => by
      rw [orth_iff, orth_iff]; obtain ⟨a1, a2⟩ := a; obtain ⟨b1, b2⟩ := b; simp only [Prod.mk.injEq]; omega, fun _ _ => rfl⟩

theorem Spec.Turned.symm (h : Turned σ τ dem dem') : Turned τ σ dem' dem :=
  ⟨h.back, h.there, h.same', h.same, fun a b => by rw [← h.side, h.same', h.same'], fun c hc => by rw [h.get _ (h.back.grid c hc), h.same']⟩

/-- One after the other: with the three above all turns by quarters, with and without mirroring. -/
theorem Spec.Turned.trans {σ' τ' : Cell → Cell} {dem'' : Raster β} (h : Turned σ τ dem dem') (h' : Turned σ' τ' dem' dem'') :
    Turned (σ ∘ σ') (τ' ∘ τ) dem dem'' where
  there := ⟨fun c hc => h.there.grid _ (h'.there.grid c hc), fun c hc => h.there.edge _ (h'.there.edge c hc),
    fun a b hab => h.there.adj _ _ (h'.there.adj a b hab)⟩
  back := ⟨fun c hc => h'.back.grid _ (h.back.grid c hc), fun c hc => h'.back.edge _ (h.back.edge c hc),
    fun a b hab => h'.back.adj _ _ (h.back.adj a b hab)⟩
  same := fun c => by simp only [Function.comp_apply]; rw [h.same, h'.same]
  same' := fun c => by simp only [Function.comp_apply]; rw [h'.same', h.same']
  side := fun a b => (h.side _ _).trans (h'.side a b)
  get := fun c hc => by simp only [Function.comp_apply]; rw [h'.get c hc, h.get _ (h'.there.grid c hc)]

/-- A quarter turn. -/
theorem turned_quarter (dem : Raster β) : Turned (fun c => (c.2, (dem.cols : Int) - 1 - c.1))
    (fun c => ((dem.cols : Int) - 1 - c.2, c.1)) dem dem.transpose.flipud :=
  (turned_transpose dem).trans (turned_flipud dem.transpose)

variable [LinearOrder β] [OrderTop β] {r r' : Raster β}

/-- C100, filling. -/
theorem C100_filled (ht : Turned σ τ dem dem') (h : Returns (Fill.fillTerrain dem) (.ok r))
    (h' : Returns (Fill.fillTerrain dem') (.ok r')) {c : Cell} (hc : dem'.Has c) : r'.get c = r.get (σ c) := by
  have h3 := ht.back.spill (dem := dem.get) (dem' := dem'.get) ht.there (fun c _ => ht.same' c)
    (fun c hc => (ht.symm.get c hc).symm) (fun c hc => (ht.get c hc).symm) (ht.there.grid c hc)
    (C04_fill_eq_spill_level dem r h _ (ht.there.grid c hc))
  rw [ht.same] at h3
  exact (C04_fill_eq_spill_level dem' r' h' c hc).unique h3

theorem climb_turned {short diag : β → β} (ht : Turned σ τ dem dem') : ∀ p : List Cell, (∀ x ∈ p, dem'.Has x) →
    climb short diag dem.get (p.map σ) = climb short diag dem'.get p
  | [], _ => rfl
  | [e], h => (ht.get e (h e (by simp))).symm
  | a :: b :: p, h => by
    have ih := climb_turned (short := short) (diag := diag) ht (b :: p) (fun x hx => h x (List.mem_cons_of_mem _ hx))
    simp only [List.map_cons, climb] at ih ⊢
    rw [ih, ht.get a (h a (by simp))]
    simp only [ht.side]

/-- C100, filling without flats. -/
theorem C100_noflats {short diag : β → β} (hs : Monotone short) (hd : Monotone diag) (hs' : ∀ x, x ≤ short x)
    (hd' : ∀ x, x ≤ diag x) (ht : Turned σ τ dem dem') (h : Returns (Fill.fillTerrainNoFlats short diag dem) (.ok r))
    (h' : Returns (Fill.fillTerrainNoFlats short diag dem') (.ok r')) {c : Cell} (hc : dem'.Has c) :
    r'.get c = r.get (σ c) := by
  have h1 := C08_noflats_cheapest_climb short diag hs hd hs' hd' dem r h _ (ht.there.grid c hc)
  have h2 := C08_noflats_cheapest_climb short diag hs hd hs' hd' dem' r' h' c hc
  refine h2.unique ?_
  rw [show {z | ∃ p, IsEscape dem'.rows dem'.cols c p ∧ climb short diag dem'.get p = z} =
      {z | ∃ p, IsEscape dem.rows dem.cols (σ c) p ∧ climb short diag dem.get p = z} from ?_]
  · exact h1
  · ext z
    constructor
    · rintro ⟨p, hp, rfl⟩
      exact ⟨p.map σ, ht.there.escape hp, climb_turned ht p hp.inside⟩
    · rintro ⟨p, hp, rfl⟩
      have := ht.back.escape hp
      rw [ht.same] at this
      exact ⟨p.map τ, this, climb_turned ht.symm p hp.inside⟩

end

section Bluespots
variable {K : Type} [Field K] [LinearOrder K] [IsStrictOrderedRing K] {β : Type} [LinearOrder β] [OrderTop β]
  {cc : Raster Bool → Raster Int × Nat} {fl : K → K} {drop sub : β → β → K} {scale : K → K}
  {safe : Raster β → (β → β) × (β → β)} {σ τ : Cell → Cell} {dem dem' : Raster β}

/-- The filter decides by minimum, maximum, number of cells and area; by sum and volume only if these are not rounded
(`fl = id`): with roundings a sum depends on the order of its summands. -/
def OrderFree (fl : K → K) (f : Bluespots.StatUnits K → Bool) : Prop :=
  ∀ u v, u.min = v.min → u.max = v.max → u.count = v.count → u.area = v.area →
    (fl = id → u.sum = v.sum ∧ u.volume = v.volume) → f u = f v

theorem orderFree_exact (f : Bluespots.StatUnits K → Bool) : OrderFree id f := by
  rintro ⟨⟩ ⟨⟩ h1 h2 h3 h4 h5
  obtain ⟨h5, h6⟩ := h5 rfl
  dsimp only at *
  subst_vars
  rfl

/-- One run, as far as it matters here. -/
structure Ran (fl : K → K) (sub : β → β → K) (gt : GeoTransform K) (dem : Raster β) (f : Bluespots.StatUnits K → Bool)
    (d : Dem.Out β K) (b : Bluespots.Out K) : Prop where
  fill : Returns (Fill.fillTerrain dem) (.ok d.filled)
  shape : d.depths.rows = dem.rows ∧ d.depths.cols = dem.cols
  cells : ∀ c, dem.Has c → d.depths.get c = sub (d.filled.get c) (dem.get c) ∧
    (d.depths.get c ≠ 0 ↔ dem.get c < d.filled.get c)
  result : ∃ choose, Bluespots.IsResultFl fl gt d.depths f d.flowdir choose b

theorem Ran.has {gt : GeoTransform K} {f : Bluespots.StatUnits K → Bool} {d : Dem.Out β K} {b : Bluespots.Out K}
    (h : Ran fl sub gt dem f d b) (c : Cell) : d.depths.Has c ↔ dem.Has c := by
  unfold Raster.Has; rw [h.shape.1, h.shape.2]

theorem turned_depths (ht : Turned σ τ dem dem') {gt gt' : GeoTransform K} {f : Bluespots.StatUnits K → Bool}
    {d d' : Dem.Out β K} {b b' : Bluespots.Out K} (h : Ran fl sub gt dem f d b) (h' : Ran fl sub gt' dem' f d' b') {c : Cell}
    (hc : dem'.Has c) : d'.depths.get c = d.depths.get (σ c) := by
  rw [(h'.cells c hc).1, (h.cells _ (ht.there.grid c hc)).1, C100_filled ht h.fill h'.fill hc, ht.get c hc]

/-- Each bluespot of `dem` is found in `dem'`. -/
theorem turned_bluespots (ht : Turned σ τ dem dem') {gt gt' : GeoTransform K} (harea : cellAreaFl fl gt' = cellAreaFl fl gt)
    {f : Bluespots.StatUnits K → Bool} (hf : OrderFree fl f) {d d' : Dem.Out β K} {b b' : Bluespots.Out K}
    (h : Ran fl sub gt dem f d b) (h' : Ran fl sub gt' dem' f d' b') {l : Nat} (hl1 : 1 ≤ l) (hl2 : l ≤ b.nlabels) :
    ∃ k : Nat, 1 ≤ k ∧ k ≤ b'.nlabels ∧ (∀ y, dem'.Has y → (b'.labeled.get y = k ↔ b.labeled.get (σ y) = l)) ∧
      ∃ p p', b.pourpoints[l]? = some p ∧ b'.pourpoints[k]? = some p' ∧ p'.bspot_dmax = p.bspot_dmax ∧
        p'.bspot_area = p.bspot_area ∧ (fl = id → p'.bspot_vol = p.bspot_vol) := by
  obtain ⟨choose, hb⟩ := h.result
  obtain ⟨choose', hb'⟩ := h'.result
  have hdep := fun c hc => turned_depths ht h h' (c := c) hc
  obtain ⟨c, hc, hcl⟩ := hb.labelling.used l hl1 hl2
  have hcd : dem.Has c := (h.has c).1 hc
  have hc0 : b.labeled.get c ≠ 0 := by rw [hcl]; omega
  obtain ⟨y, rfl⟩ : ∃ y, c = σ y := ⟨τ c, (ht.same' c).symm⟩
  have hy : dem'.Has y := by have := ht.back.grid _ hcd; rwa [ht.same] at this
  have hyd : d'.depths.Has y := (h'.has y).2 hy
  -- connected wet cells
  have hconn : ∀ a x, ConnectedIn (fun z => d'.depths.Has z ∧ d'.depths.get z ≠ 0) a x ↔
      ConnectedIn (fun z => d.depths.Has z ∧ d.depths.get z ≠ 0) (σ a) (σ x) := by
    intro a x
    constructor
    · refine connected_map (fun a b hab _ _ => ht.there.adj a b hab) fun x hx => ?_
      have hx1 := (h'.has x).1 hx.1
      exact ⟨(h.has _).2 (ht.there.grid x hx1), by rw [← hdep x hx1]; exact hx.2⟩
    · intro hcon
      have := connected_map (T := fun z => d'.depths.Has z ∧ d'.depths.get z ≠ 0) (g := τ)
        (fun a b hab _ _ => ht.back.adj a b hab) (fun x hx => by
          have hx1 := ht.back.grid x ((h.has x).1 hx.1)
          exact ⟨(h'.has _).2 hx1, by rw [hdep _ hx1, ht.same']; exact hx.2⟩) hcon
      rwa [ht.same, ht.same] at this
  have hcomp : ∀ x, dem.Has x → (b.labeled.get x = l ↔
      ConnectedIn (fun z => d.depths.Has z ∧ d.depths.get z ≠ 0) (σ y) x) := fun x hx => by
    rw [← hcl]; exact result_component hb hc hc0 ((h.has x).2 hx)
  classical
  have hL' := lists_filter d'.depths.rows d'.depths.cols
    (fun x => ConnectedIn (fun z => d'.depths.Has z ∧ d'.depths.get z ≠ 0) y x)
  generalize (Raster.cellList d'.depths.rows d'.depths.cols).filter
    (fun x => decide (ConnectedIn (fun z => d'.depths.Has z ∧ d'.depths.get z ≠ 0) y x)) = cs' at hL'
  have hcw := not_not.1 (fun h => hc0 ((hb.labelling.background _ hc).2 h))
  obtain ⟨cs, u, h1, h2, h3⟩ := hcw.2
  have h1 : Lists d.depths.rows d.depths.cols
      (fun x => ConnectedIn (fun z => d.depths.Has z ∧ d.depths.get z ≠ 0) (σ y) x) cs := h1
  -- the two lists of cells
  have hinj : Function.Injective σ := Function.LeftInverse.injective ht.same
  have hperm : (cs'.map σ).Perm cs := by
    refine (List.perm_ext_iff_of_nodup (hL'.nodup.map hinj) h1.nodup).2 fun x => ?_
    rw [List.mem_map, h1.2]
    constructor
    · rintro ⟨x, hx, rfl⟩
      have hx := ((hL'.2 x).1 hx).2
      exact ⟨(h.has _).2 (ht.there.grid x ((h'.has x).1 hx.right.1)), (hconn y x).1 hx⟩
    · rintro ⟨_, hx⟩
      refine ⟨τ x, (hL'.2 _).2 ?_, ht.same' x⟩
      rw [← ht.same' x] at hx
      have := (hconn y (τ x)).2 hx
      exact ⟨this.right.1, this⟩
  have hmap : (cs'.map d'.depths.get).Perm (cs.map d.depths.get) := by
    rw [show cs'.map d'.depths.get = (cs'.map σ).map d.depths.get from ?_]
    · exact hperm.map _
    · rw [List.map_map]
      exact List.map_congr_left fun x hx => hdep x ((h'.has x).1 ((hL'.2 x).1 hx).1)
  have hlen : cs'.length = cs.length := by simpa using hmap.length_eq
  have hset : ∀ {A : Type} (g : K → A), {x | ∃ c ∈ cs', x = g (d'.depths.get c)} = {x | ∃ c ∈ cs, x = g (d.depths.get c)} := by
    intro A g
    have e : ∀ (L : List Cell) (v : Cell → K), {x | ∃ c ∈ L, x = g (v c)} = {x | ∃ z ∈ L.map v, x = g z} := by
      intro L v; ext x; simp
    rw [e, e]
    ext x
    simp only [hmap.mem_iff]
  have hsum : fl = id → sumFl fl (cs'.map d'.depths.get) = sumFl fl (cs.map d.depths.get) := by
    rintro rfl
    rw [Bluespots.sumFl_id, Bluespots.sumFl_id, hmap.sum_eq]
  have hycs : y ∈ cs' := (hL'.2 y).2 ⟨hyd, (hconn y y).2 (.refl ⟨hc, hcw.1⟩)⟩
  have hne' : cs' ≠ [] := List.ne_nil_of_mem hycs
  have hne : cs ≠ [] := fun e => hne' (by simpa [e] using hlen)
  have hst := Bluespots.stat_isStats fl d'.depths (cellAreaFl fl gt') hne'
  have hpass : PassesFl fl d'.depths.rows d'.depths.cols d'.depths.get (cellAreaFl fl gt') f y := by
    refine ⟨cs', _, hL', hst, ?_⟩
    rw [← h3]
    refine hf _ _ ?_ ?_ ?_ ?_ ?_
    · have := hst.min; rw [hset] at this; exact this.unique h2.min
    · have := hst.max; rw [hset] at this; exact this.unique h2.max
    · rw [hst.count, h2.count, hlen]
    · rw [hst.area, h2.area, hlen, harea]
    · intro e
      exact ⟨by rw [hst.sum, h2.sum, hsum e], by rw [hst.volume, h2.volume, hsum e, harea]⟩
  have hyw : d'.depths.get y ≠ 0 := by rw [hdep y hy]; exact hcw.1
  have hy0 : b'.labeled.get y ≠ 0 := fun e => (hb'.labelling.background y hyd).1 e ⟨hyw, hpass⟩
  obtain ⟨r1, r2⟩ := hb'.labelling.range y hyd
  obtain ⟨k, hk⟩ := Int.eq_ofNat_of_zero_le r1
  have hcomp' : ∀ x, dem'.Has x → (b'.labeled.get x = k ↔
      ConnectedIn (fun z => d'.depths.Has z ∧ d'.depths.get z ≠ 0) y x) := fun x hx => by
    rw [← hk]; exact result_component hb' hyd hy0 ((h'.has x).2 hx)
  refine ⟨k, by omega, by omega, fun x hx => by rw [hcomp' x hx, hcomp _ (ht.there.grid x hx), hconn], ?_⟩
  have hC : CellsOf d.depths.rows d.depths.cols b.labeled.get l cs :=
    ⟨h1.1, fun x => by rw [h1.2]; exact and_congr_right fun hx => (hcomp x ((h.has x).1 hx)).symm⟩
  have hC' : CellsOf d'.depths.rows d'.depths.cols b'.labeled.get k cs' :=
    ⟨hL'.1, fun x => by rw [hL'.2]; exact and_congr_right fun hx => (hcomp' x ((h'.has x).1 hx)).symm⟩
  obtain ⟨p, hp1, hp2, -⟩ := hb.points l _ _ hl2 hC (lists_filter _ _ _)
  obtain ⟨p', hp1', hp2', -⟩ := hb'.points k _ _ (by omega) hC' (lists_filter _ _ _)
  refine ⟨p, p', hp1, hp1', ?_, ?_, fun e => ?_⟩
  · have m := hp2'.dmax hne'
    rw [hset] at m
    exact m.unique (hp2.dmax hne)
  · rw [hp2.area, hp2'.area, harea, hlen]
  · rw [hp2.vol, hp2'.vol, harea, hsum e]

theorem turned_count (ht : Turned σ τ dem dem') {gt gt' : GeoTransform K} (harea : cellAreaFl fl gt' = cellAreaFl fl gt)
    {f : Bluespots.StatUnits K → Bool} (hf : OrderFree fl f) {d d' : Dem.Out β K} {b b' : Bluespots.Out K}
    (h : Ran fl sub gt dem f d b) (h' : Ran fl sub gt' dem' f d' b') : b.nlabels ≤ b'.nlabels := by
  have key : ∀ l : Fin b.nlabels, ∃ k : Fin b'.nlabels, ∀ y, dem'.Has y →
      (b'.labeled.get y = (k.1 + 1 : Nat) ↔ b.labeled.get (σ y) = (l.1 + 1 : Nat)) := by
    intro l
    obtain ⟨k, h1, h2, h3, _⟩ := turned_bluespots ht harea hf h h' (l := l.1 + 1) (by omega) l.2
    exact ⟨⟨k - 1, by omega⟩, by rw [show k - 1 + 1 = k by omega]; exact h3⟩
  choose g hg using key
  have hinj : Function.Injective g := by
    intro l l' e
    obtain ⟨choose, hb⟩ := h.result
    obtain ⟨c, hc, hcl⟩ := hb.labelling.used (l.1 + 1) (by omega) l.2
    have hy := ht.back.grid c ((h.has c).1 hc)
    have e1 := hg l (τ c) hy
    have e2 := hg l' (τ c) hy
    rw [ht.same', ← e, e1, ht.same', hcl] at e2
    have := e2.1 rfl
    ext; omega
  simpa using Fintype.card_le_of_injective g hinj

/-- C100. DemTool and BluespotTool on a DEM and on the DEM turned or mirrored, with the same filter and the same cell area.
The filled terrain and the depths are turned; the same cells are in bluespots; there are as many bluespots, each turned,
with the same maximal depth and area, and without roundings the same volume. -/
theorem C100_turned (hcc : LabelContract cc) {gt gt' : GeoTransform K} (hsq : SquareCellsFl fl gt) (hsq' : SquareCellsFl fl gt')
    (harea : cellAreaFl fl gt' = cellAreaFl fl gt) (ht : Turned σ τ dem dem')
    (hdem : SoundTerrain drop sub scale safe dem) (hdem' : SoundTerrain drop sub scale safe dem') (want want' : Bool)
    {f : Bluespots.StatUnits K → Bool} (hf : OrderFree fl f) :
    ∃ (d : Dem.Out β K) (b : Bluespots.Out K) (d' : Dem.Out β K) (b' : Bluespots.Out K),
      Returns (Dem.process (Dem.python drop scale) sub safe true want dem) (.ok d) ∧
      (Bluespots.processFl fl cc (Bluespots.pythonFl fl) safe gt d.depths (some f) d.flowdir d.accum (some dem)).Yields (.ok b) ∧
      Returns (Dem.process (Dem.python drop scale) sub safe true want' dem') (.ok d') ∧
      (Bluespots.processFl fl cc (Bluespots.pythonFl fl) safe gt' d'.depths (some f) d'.flowdir d'.accum (some dem')).Yields
        (.ok b') ∧
      (∀ c, dem'.Has c → d'.filled.get c = d.filled.get (σ c) ∧ d'.depths.get c = d.depths.get (σ c) ∧
        (b'.labeled.get c = 0 ↔ b.labeled.get (σ c) = 0)) ∧
      b'.nlabels = b.nlabels ∧
      ∀ l : Nat, 1 ≤ l → l ≤ b.nlabels → ∃ k : Nat, 1 ≤ k ∧ k ≤ b.nlabels ∧
        (∀ y, dem'.Has y → (b'.labeled.get y = k ↔ b.labeled.get (σ y) = l)) ∧
        ∃ p p', b.pourpoints[l]? = some p ∧ b'.pourpoints[k]? = some p' ∧ p'.bspot_dmax = p.bspot_dmax ∧
          p'.bspot_area = p.bspot_area ∧ (fl = id → p'.bspot_vol = p.bspot_vol) := by
  obtain ⟨d, b, choose, hd, hbrun, hfill, hdsh, hcells, hb⟩ := dem_bluespots (fl := fl) hcc hsq hdem want f
  obtain ⟨d', b', choose', hd', hbrun', hfill', hdsh', hcells', hb'⟩ := dem_bluespots (fl := fl) hcc hsq' hdem' want' f
  have h : Ran fl sub gt dem f d b := ⟨hfill, hdsh, hcells, _, hb⟩
  have h' : Ran fl sub gt' dem' f d' b' := ⟨hfill', hdsh', hcells', _, hb'⟩
  have hn : b'.nlabels = b.nlabels :=
    le_antisymm (turned_count ht.symm harea.symm hf h' h) (turned_count ht harea hf h h')
  have hzero : ∀ {σ τ : Cell → Cell} {dem dem' : Raster β} {gt gt' : GeoTransform K} {d d' : Dem.Out β K}
      {b b' : Bluespots.Out K}, Turned σ τ dem dem' → cellAreaFl fl gt' = cellAreaFl fl gt → Ran fl sub gt dem f d b →
      Ran fl sub gt' dem' f d' b' → ∀ c, dem'.Has c → b'.labeled.get c = 0 → b.labeled.get (σ c) = 0 := by
    intro σ τ dem dem' gt gt' d d' b b' ht harea h h' c hc h0
    by_contra hne
    obtain ⟨_, hb⟩ := h.result
    obtain ⟨r1, r2⟩ := hb.labelling.range _ ((h.has _).2 (ht.there.grid c hc))
    obtain ⟨l, hl⟩ := Int.eq_ofNat_of_zero_le r1
    obtain ⟨k, hk1, _, hk, _⟩ := turned_bluespots ht harea hf h h' (l := l) (by omega) (by omega)
    have := (hk c hc).2 hl
    omega
  refine ⟨d, b, d', b', hd, hbrun, hd', hbrun', fun c hc => ⟨C100_filled ht hfill hfill' hc, turned_depths ht h h' hc,
    hzero ht harea h h' c hc, fun h0 => ?_⟩, hn, fun l h1 h2 => ?_⟩
  · have := hzero ht.symm harea.symm h' h (σ c) (ht.there.grid c hc) h0
    rwa [ht.same] at this
  · obtain ⟨k, h3, h4, h5⟩ := turned_bluespots ht harea hf h h' h1 h2
    exact ⟨k, h3, hn ▸ h4, h5⟩

end Bluespots

section Float
open Malstroem.Float
variable {fl fl32 nextafter : Rat → Rat} {σ τ : Cell → Cell}

/-- C100 for float32 DEMs with the arithmetic of the program, and filters that do not look at sum and volume. -/
theorem Float.C100_float {cc : Raster Bool → Raster Int × Nat} (hcc : LabelContract cc)
    (hfl : IsRounding 53 (-1074) fl) (hfl32 : IsRounding 24 (-149) fl32) (hnext : IsNextAfter nextafter)
    {gt gt' : GeoTransform Rat} (hsq : SquareCellsFl fl gt) (hsq' : SquareCellsFl fl gt')
    (harea : cellAreaFl fl gt' = cellAreaFl fl gt) {dem dem' : Raster (WithTop F64)} (ht : Turned σ τ dem dem')
    (hdem : IsDem32 dem) (hdem' : IsDem32 dem') (hsize : dem.rows * dem.cols ≤ 2 ^ 50)
    (hsize' : dem'.rows * dem'.cols ≤ 2 ^ 50) (want want' : Bool) {f : Bluespots.StatUnits Rat → Bool} (hf : OrderFree fl f) :
    ∃ (d : Dem.Out (WithTop F64) Rat) (b : Bluespots.Out Rat) (d' : Dem.Out (WithTop F64) Rat) (b' : Bluespots.Out Rat),
      Returns (Dem.process (Dem.python (fsub fl) fun x => fl (x * (1 / Fill.sqrt2))) (fsub fl32) (fsafe hfl nextafter) true want
        dem) (.ok d) ∧
      (Bluespots.processFl fl cc (Bluespots.pythonFl fl) (fsafe hfl nextafter) gt d.depths (some f) d.flowdir d.accum
        (some dem)).Yields (.ok b) ∧
      Returns (Dem.process (Dem.python (fsub fl) fun x => fl (x * (1 / Fill.sqrt2))) (fsub fl32) (fsafe hfl nextafter) true want'
        dem') (.ok d') ∧
      (Bluespots.processFl fl cc (Bluespots.pythonFl fl) (fsafe hfl nextafter) gt' d'.depths (some f) d'.flowdir d'.accum
        (some dem')).Yields (.ok b') ∧
      (∀ c, dem'.Has c → d'.filled.get c = d.filled.get (σ c) ∧ d'.depths.get c = d.depths.get (σ c) ∧
        (b'.labeled.get c = 0 ↔ b.labeled.get (σ c) = 0)) ∧
      b'.nlabels = b.nlabels ∧
      ∀ l : Nat, 1 ≤ l → l ≤ b.nlabels → ∃ k : Nat, 1 ≤ k ∧ k ≤ b.nlabels ∧
        (∀ y, dem'.Has y → (b'.labeled.get y = k ↔ b.labeled.get (σ y) = l)) ∧
        ∃ p p', b.pourpoints[l]? = some p ∧ b'.pourpoints[k]? = some p' ∧ p'.bspot_dmax = p.bspot_dmax ∧
          p'.bspot_area = p.bspot_area ∧ (fl = id → p'.bspot_vol = p.bspot_vol) :=
  C100_turned hcc hsq hsq' harea ht
    (float_sound hfl hfl32 hnext hdem hsize (k := 1 / Fill.sqrt2) (by norm_num [Fill.sqrt2]))
    (float_sound hfl hfl32 hnext hdem' hsize' (k := 1 / Fill.sqrt2) (by norm_num [Fill.sqrt2])) want want' hf

end Float

/-! ### Non-vacuity and counterexample -/

/-- Two pits, each with a way out over the edge, and a ridge cell between them. -/
def demoCrest : Raster Rat := Raster.ofRows [[9,9,9,9,9],[1,0,5,0,1],[9,9,9,9,9]]
def demoCrestCC (_ : Raster Bool) : Raster Int × Nat := (Raster.ofRows [[0,0,0,0,0],[0,1,0,2,0],[0,0,0,0,0]], 2)

/-- The hypotheses of `C100_turned` hold for a quarter turn of `demoCrest`. -/
example : ∃ cc, LabelContract cc ∧ SquareCellsFl id (⟨0, 2, 0, 0, 0, -2⟩ : GeoTransform Rat) ∧
    Turned (fun c => (c.2, 5 - 1 - c.1)) (fun c => (5 - 1 - c.2, c.1)) (finiteDem demoCrest)
      (finiteDem demoCrest).transpose.flipud ∧
    SoundTerrain exactSub exactSub (· * (7/10)) (exactSafe (1/1000) (14/10000)) (finiteDem demoCrest) ∧
    SoundTerrain exactSub exactSub (· * (7/10)) (exactSafe (1/1000) (14/10000)) (finiteDem demoCrest).transpose.flipud ∧
    OrderFree id (fun u : Bluespots.StatUnits Rat => decide (10 < u.volume)) := by
  obtain ⟨cc, h⟩ := exists_labelContract
  refine ⟨cc, h, by unfold SquareCellsFl; norm_num, turned_quarter (finiteDem demoCrest),
    exact_sound demoCrest (by decide) (by decide) (by norm_num) (by norm_num) (by norm_num),
    exact_sound demoCrest.transpose.flipud (by decide) (by decide) (by norm_num) (by norm_num) (by norm_num),
    orderFree_exact _⟩

/-- The hypotheses of `Float.C100_float` hold for a mirrored DEM. -/
example : Turned (fun c => (c.1, 4 - 1 - c.2)) (fun c => (c.1, 4 - 1 - c.2)) Float.demo Float.demo.fliplr ∧
    Float.IsDem32 Float.demo ∧ Float.IsDem32 Float.demo.fliplr ∧
    ∀ fl, OrderFree fl (fun u : Bluespots.StatUnits Rat => decide (3 < u.count)) := by
  refine ⟨turned_fliplr Float.demo, Float.demo_dem32, ⟨by decide, by decide, fun c hc => ?_⟩, fun fl u v _ _ h _ _ => ?_⟩
  · exact Float.demo_dem32.f32 _ ((gridMap_fliplr 4 4).grid c hc)
  · dsimp only; rw [h]

set_option synthInstance.maxSize 1000 in
/-- Flow directions and watersheds need not be turned: of two neighbours with the same drop the first in the order of the
codes is taken. In `demoCrest` and in its mirror image the ridge cell drains to the right, so the watershed of the
right one has 2 cells (8 m²) in both, instead of 2 in one and 1 in the other. -/
theorem C100_watershed_false :
    ((Complete.processAll demoCrestCC (Dem.python exactSub (· * (7/10))) Bluespots.python exactSub
      (exactSafe (1/1000) (14/10000)) ⟨0, 2, 0, 0, 0, -2⟩ (finiteDem demoCrest) false (some fun _ => true) (10 : Rat)).run 40).run.map
        (fun r => r.toOption.map fun o => (o.bluespots.watersheds.toRows, o.bluespots.pourpoints.map fun p => [p.wshed_area])) =
    some (some ([[0,0,0,0,0],[0,1,2,2,0],[0,0,0,0,0]], [[48], [4], [8]])) ∧
    ((Complete.processAll demoCrestCC (Dem.python exactSub (· * (7/10))) Bluespots.python exactSub
      (exactSafe (1/1000) (14/10000)) ⟨0, 2, 0, 0, 0, -2⟩ (finiteDem demoCrest.fliplr) false (some fun _ => true) (10 : Rat)).run
        40).run.map
        (fun r => r.toOption.map fun o => (o.bluespots.watersheds.toRows, o.bluespots.pourpoints.map fun p => [p.wshed_area])) =
    some (some ([[0,0,0,0,0],[0,1,2,2,0],[0,0,0,0,0]], [[48], [4], [8]])) := by decide +kernel

end Malstroem
