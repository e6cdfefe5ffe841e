/-
Property C97: cutting a window out of the DEM.
-/
import Verif.Spec.Window
import Verif.Props.Dig

set_option linter.unusedSectionVars false

namespace Malstroem
open Spec

section
variable {o : Cell}

theorem shift_inj {a b : Cell} (h : shift o a = shift o b) : a = b := by
  unfold shift at h
  rw [Prod.mk.injEq] at h
  ext <;> omega

theorem shift_adj {a b : Cell} : Adj (shift o a) (shift o b) ↔ Adj a b := by
  unfold Adj
  rw [show (shift o a).1 - (shift o b).1 = a.1 - b.1 by unfold shift; simp,
    show (shift o a).2 - (shift o b).2 = a.2 - b.2 by unfold shift; simp]
  exact and_congr_left fun _ => not_congr ⟨shift_inj, fun h => by rw [h]⟩

theorem shift_before {a b : Cell} : Before (shift o a) (shift o b) ↔ Before a b := by
  unfold Before shift; simp

theorem shift_back (c : Cell) : shift o (c.1 - o.1, c.2 - o.2) = c := by
  unfold shift; ext <;> simp

variable {β : Type*} [LinearOrder β] [OrderTop β] {win dem : Raster β}

theorem window_has (hw : IsWindow win dem o) {c : Cell} (hc : win.Has c) : dem.Has (shift o c) := by
  obtain ⟨h1, h2, h3, h4⟩ := hw.inside
  obtain ⟨k1, k2, k3, k4⟩ := hc
  refine ⟨?_, ?_, ?_, ?_⟩ <;> unfold shift <;> dsimp only <;> omega

theorem window_edge (hw : IsWindow win dem o) {c : Cell} (hc : win.Has c) (he : OnEdge dem.rows dem.cols (shift o c)) :
    OnEdge win.rows win.cols c := by
  obtain ⟨h1, h2, h3, h4⟩ := hw.inside
  obtain ⟨k1, k2, k3, k4⟩ := hc
  refine ⟨⟨k1, k2, k3, k4⟩, ?_⟩
  have := he.2
  unfold shift at this
  dsimp only at this
  omega

/-- A way out of the DEM, cut off at the edge of the window, is a way out of the window. -/
theorem window_escape (hw : IsWindow win dem o) {c : Cell} {q : List Cell} (hq : IsEscape dem.rows dem.cols c q) :
    ∀ c', win.Has c' → c = shift o c' → ∃ p, IsEscape win.rows win.cols c' p ∧ ∀ x ∈ p, shift o x ∈ q := by
  refine IsEscape.rec' (motive := fun c q => ∀ c', win.Has c' → c = shift o c' → ∃ p, IsEscape win.rows win.cols c' p ∧
    ∀ x ∈ p, shift o x ∈ q) ?_ ?_ hq
  · rintro e he c' hc' rfl
    exact ⟨[c'], ⟨rfl, by simp, by simpa using hc', c', rfl, window_edge hw hc' he⟩, by simp⟩
  · rintro a b q ha hab _ ih c' hc' rfl
    rcases edge_or_interior hc' with he | hi
    · exact ⟨[c'], ⟨rfl, by simp, by simpa using hc', c', rfl, he⟩, by simp⟩
    · have hb : b = shift o (b.1 - o.1, b.2 - o.2) := (shift_back b).symm
      rw [hb, shift_adj] at hab
      obtain ⟨p, hp, hpq⟩ := ih _ (interior_adj_inGrid hi hab) hb
      refine ⟨c' :: p, hp.cons hc' hab, fun x hx => ?_⟩
      rcases List.mem_cons.1 hx with rfl | hx
      · simp
      · exact List.mem_cons_of_mem _ (hpq x hx)

variable {r rw' : Raster β}

/-- C97, filling: the water surface of a window is nowhere above that of the whole DEM. -/
theorem C97_surface_le (hw : IsWindow win dem o) (h : Returns (Fill.fillTerrain dem) (.ok r))
    (h' : Returns (Fill.fillTerrain win) (.ok rw')) {c : Cell} (hc : win.Has c) : rw'.get c ≤ r.get (shift o c) := by
  obtain ⟨q, hq, hhigh⟩ := (Fill.fill_spill h (window_has hw hc)).1
  obtain ⟨p, hp, hpq⟩ := window_escape hw hq c hc rfl
  have hne : p ≠ [] := by obtain ⟨p', rfl⟩ := hp.exists_cons; simp
  have hp2 := Fill.isHighest_climb win.get hne
  refine ((Fill.fill_spill h' hc).2 ⟨p, hp, hp2⟩).trans ?_
  obtain ⟨x, hx, e⟩ := hp2.1
  rw [← e, hw.get x (hp.inside x hx)]
  exact hhigh.2 ⟨_, hpq x hx, rfl⟩

/-- From a cell of the window whose water surface is lower than in the whole DEM, the edge of the window can be reached
through cells that are under water in the whole DEM. -/
theorem window_leak (hw : IsWindow win dem o) (h : Returns (Fill.fillTerrain dem) (.ok r)) {z : β} {c : Cell} {p : List Cell}
    (hp : IsEscape win.rows win.cols c p) : (∀ x ∈ p, dem.get (shift o x) < z) → z ≤ r.get (shift o c) →
      ∃ e, OnEdge win.rows win.cols e ∧ ConnectedIn (Under dem r) (shift o c) (shift o e) := by
  obtain ⟨hI, hF⟩ := Fill.inv_of_returns h
  refine IsEscape.rec' (motive := fun c p => (∀ x ∈ p, dem.get (shift o x) < z) → z ≤ r.get (shift o c) →
      ∃ e, OnEdge win.rows win.cols e ∧ ConnectedIn (Under dem r) (shift o c) (shift o e)) ?_ ?_ hp
  · intro e he hlow hz
    exact ⟨e, he, .refl ⟨window_has hw he.1, (hlow e (by simp)).trans_le hz⟩⟩
  · intro a b q ha hab hq ih hlow hz
    have hda := hlow a (by simp)
    have hzb : z ≤ r.get (shift o b) := by
      have hr : r.get (shift o a) ≤ max (dem.get (shift o a)) (r.get (shift o b)) := by
        rcases edge_or_interior (window_has hw ha) with h | h
        · rw [hI.edge _ h]; exact le_max_left _ _
        · exact hF _ h _ (shift_adj.2 hab)
      exact (le_max_iff.1 (hz.trans hr)).resolve_left (not_le.2 hda)
    obtain ⟨e, he, hcon⟩ := ih (fun x hx => hlow x (List.mem_cons_of_mem _ hx)) hzb
    exact ⟨e, he, (ConnectedIn.step (shift_adj.2 hab) ⟨window_has hw ha, hda.trans_le hz⟩ hcon.left).trans hcon⟩

/-- C97, filling: over a bluespot of the DEM that lies inside the window and touches no edge cell of it, the water surface
is the same. -/
theorem C97_surface_eq (hw : IsWindow win dem o) (h : Returns (Fill.fillTerrain dem) (.ok r))
    (h' : Returns (Fill.fillTerrain win) (.ok rw')) {c : Cell} (hc : win.Has c)
    (hin : InsideWindow win dem r o (shift o c)) : rw'.get c = r.get (shift o c) := by
  refine le_antisymm (C97_surface_le hw h h' hc) (not_lt.1 fun hlt => ?_)
  obtain ⟨p, hp, hhigh⟩ := (Fill.fill_spill h' hc).1
  have hlow : ∀ x ∈ p, dem.get (shift o x) < r.get (shift o c) := fun x hx => by
    rw [← hw.get x (hp.inside x hx)]
    exact (hhigh.2 ⟨x, hx, rfl⟩).trans_lt hlt
  obtain ⟨e, he, hcon⟩ := window_leak hw h hp hlow le_rfl
  obtain ⟨y, hy, hey⟩ := hin _ hcon
  rw [← shift_inj hey] at hy
  exact hy.2 he

/-- C97: what is under water in the window is under water in the DEM. -/
theorem C97_under (hw : IsWindow win dem o) (h : Returns (Fill.fillTerrain dem) (.ok r))
    (h' : Returns (Fill.fillTerrain win) (.ok rw')) {c : Cell} (hu : Under win rw' c) : Under dem r (shift o c) := by
  refine ⟨window_has hw hu.1, ?_⟩
  rw [← hw.get c hu.1]
  exact hu.2.trans_le (C97_surface_le hw h h' hu.1)

theorem connected_map {S T : Cell → Prop} {g : Cell → Cell} (hg : ∀ a b, Adj a b → S a → S b → Adj (g a) (g b))
    (hST : ∀ x, S x → T (g x)) {a b : Cell} (h : ConnectedIn S a b) : ConnectedIn T (g a) (g b) := by
  obtain ⟨h1, h2⟩ := connectedIn_iff.1 h
  refine connectedIn_iff.2 ⟨hST a h1, ?_⟩
  induction h2 with
  | refl => exact .refl
  | tail _ hbc ih =>
    have hb := ih (connectedIn_iff.2 ⟨h1, ‹_›⟩)
    exact hb.tail ⟨hg _ _ hbc.1 hbc.2.1 hbc.2.2, hST _ hbc.2.1, hST _ hbc.2.2⟩

/-- C97: a bluespot of the DEM inside the window is a bluespot of the window, with the same cells. -/
theorem C97_same_cells (hw : IsWindow win dem o) (h : Returns (Fill.fillTerrain dem) (.ok r))
    (h' : Returns (Fill.fillTerrain win) (.ok rw')) {c : Cell} (hin : InsideWindow win dem r o (shift o c)) (x : Cell) :
    ConnectedIn (Under dem r) (shift o c) x ↔ ∃ y, x = shift o y ∧ ConnectedIn (Under win rw') c y := by
  constructor
  · intro hx
    -- every cell of the bluespot is a wet cell of the window
    have key : ∀ y, ConnectedIn (Under dem r) (shift o c) y → Under win rw' (y.1 - o.1, y.2 - o.2) := by
      intro y hy
      obtain ⟨y', hy', rfl⟩ := hin y hy
      have e : ((shift o y').1 - o.1, (shift o y').2 - o.2) = y' := shift_inj (shift_back _)
      rw [e]
      refine ⟨hy'.1, ?_⟩
      have := C97_surface_eq hw h h' hy'.1 (fun x hx => hin x (hy.trans hx))
      rw [this, hw.get y' hy'.1]
      exact hy.right.2
    have hx' : ConnectedIn (fun y => ConnectedIn (Under dem r) (shift o c) y) (shift o c) x := by
      obtain ⟨h1, h2⟩ := connectedIn_iff.1 hx
      refine connectedIn_iff.2 ⟨.refl h1, ?_⟩
      clear hx
      induction h2 with
      | refl => exact .refl
      | tail hab hbc ih =>
        have hb := connectedIn_iff.2 ⟨h1, hab⟩
        exact ih.tail ⟨hbc.1, hb, hb.trans (.step hbc.1 hbc.2.1 hbc.2.2)⟩
    refine ⟨(x.1 - o.1, x.2 - o.2), (shift_back x).symm, ?_⟩
    have := connected_map (T := Under win rw') (g := fun y => (y.1 - o.1, y.2 - o.2)) (fun a b hab _ _ => by
      rw [← shift_adj (o := o), shift_back, shift_back]; exact hab) key hx'
    have e : ((shift o c).1 - o.1, (shift o c).2 - o.2) = c := shift_inj (shift_back _)
    rw [e] at this
    exact this
  · rintro ⟨y, rfl, hy⟩
    exact connected_map (fun a b hab _ _ => shift_adj.2 hab) (fun x hx => C97_under hw h h' hx) hy

end

section Bluespots
variable {K : Type} [Field K] [LinearOrder K] [IsStrictOrderedRing K] {β : Type} [LinearOrder β] [OrderTop β]
  {cc : Raster Bool → Raster Int × Nat} {fl : K → K} {drop sub : β → β → K} {scale : K → K}
  {safe : Raster β → (β → β) × (β → β)}

/-- DemTool and BluespotTool in a row. -/
theorem dem_bluespots (hcc : LabelContract cc) {gt : GeoTransform K} (hsq : SquareCellsFl fl gt) {dem : Raster β}
    (h : SoundTerrain drop sub scale safe dem) (want : Bool) (f : Bluespots.StatUnits K → Bool) :
    ∃ (d : Dem.Out β K) (b : Bluespots.Out K) (choose : List Cell → Cell → Prop),
      Returns (Dem.process (Dem.python drop scale) sub safe true want dem) (.ok d) ∧
      (Bluespots.processFl fl cc (Bluespots.pythonFl fl) safe gt d.depths (some f) d.flowdir d.accum (some dem)).Yields (.ok b) ∧
      Returns (Fill.fillTerrain dem) (.ok d.filled) ∧
      (d.depths.rows = dem.rows ∧ d.depths.cols = dem.cols) ∧
      (∀ c, dem.Has c → d.depths.get c = sub (d.filled.get c) (dem.get c) ∧
        (d.depths.get c ≠ 0 ↔ dem.get c < d.filled.get c)) ∧
      Bluespots.IsResultFl fl gt d.depths f d.flowdir choose b := by
  obtain ⟨d, hd, hflsh, hdsh, hfsh, hcells, _, ⟨z, _, hdown⟩, hacc, hno⟩ := C62_dem_outputs h want
  obtain ⟨_, hfill, hdep, hnf, hfd, _, _⟩ := Dem.process_inv hd
  have hfill : Returns (Fill.fillTerrain dem) (.ok d.filled) := hfill
  have hnf : Returns (Fill.fillTerrainNoFlats _ _ dem) (.ok d.noFlats) := hnf
  obtain ⟨hnsh, hfin, hffin⟩ := noFlats_finite h hnf
  obtain ⟨b, nodes, streams, choose, R, hbrun, hstr, hrun, hb, _⟩ :=
    chain_network_runs (fl := fl) (demEngine := Dem.python drop scale) (bluespotEngine := Bluespots.pythonFl fl)
    (.inl rfl) rfl hcc hsq ⟨by have := h.rows; omega, by have := h.cols; omega⟩ want f hd hdsh hfsh hdown hnsh hfin
    h.drop_pos h.scale_pos (fun hw => by
      obtain ⟨a, h1, h2⟩ := hacc hw
      exact ⟨a, a, h1, h2, rfl, rfl, fun _ _ => rfl⟩) hno
  refine ⟨d, b, choose, hd, hbrun, hfill, hdsh, fun c hc => ?_, hb⟩
  obtain ⟨_, h1, h2, h3⟩ := hcells c hc
  exact ⟨h1, by rw [← h3]; exact ⟨fun h => lt_of_le_of_ne h2 (Ne.symm h), fun h => h.ne'⟩⟩

/-- The bluespot carrying the label of `c` is the set of wet cells connected to `c`. -/
theorem result_component {gt : GeoTransform K} {depths : Raster K} {f : Bluespots.StatUnits K → Bool} {flowdir : Raster Nat}
    {choose : List Cell → Cell → Prop} {b : Bluespots.Out K} (hb : Bluespots.IsResultFl fl gt depths f flowdir choose b)
    {c : Cell} (hc : depths.Has c) (h0 : b.labeled.get c ≠ 0) {x : Cell} (hx : depths.Has x) :
    b.labeled.get x = b.labeled.get c ↔ ConnectedIn (fun y => depths.Has y ∧ depths.get y ≠ 0) c x := by
  constructor
  · intro e
    exact (hb.same c x hc hx h0 (by rw [e]; exact h0)).1 e.symm
  · intro hcon
    have hcw := not_not.1 (fun h => h0 ((hb.labelling.background c hc).2 h))
    obtain ⟨cs, u, h1, h2, h3⟩ := hcw.2
    have hxw : depths.get x ≠ 0 ∧ PassesFl fl depths.rows depths.cols depths.get (cellAreaFl fl gt) f x := by
      refine ⟨hcon.right.2, cs, u, ⟨h1.1, fun y => ?_⟩, h2, h3⟩
      rw [h1.2 y]
      exact and_congr_right fun _ => ⟨fun h => hcon.symm.trans h, fun h => hcon.trans h⟩
    have hx0 : b.labeled.get x ≠ 0 := fun e => (hb.labelling.background x hx).1 e hxw
    exact ((hb.same c x hc hx h0 hx0).2 hcon).symm

/-- C97. DemTool and BluespotTool on a DEM and on a window of it, with the same filter and the same cell area, in any
arithmetic that is sound on both. A bluespot of the DEM that lies inside the window and touches no edge cell of the
window is found in the window as well: the same cells, the same depths, the same maximal depth, area and volume. -/
theorem C97_tiles (hcc : LabelContract cc) {gt gt' : GeoTransform K} (hsq : SquareCellsFl fl gt) (hsq' : SquareCellsFl fl gt')
    (harea : cellAreaFl fl gt' = cellAreaFl fl gt) {win dem : Raster β} {o : Cell} (hw : IsWindow win dem o)
    (h : SoundTerrain drop sub scale safe dem) (h' : SoundTerrain drop sub scale safe win) (want want' : Bool)
    (f : Bluespots.StatUnits K → Bool) :
    ∃ (d : Dem.Out β K) (b : Bluespots.Out K) (d' : Dem.Out β K) (b' : Bluespots.Out K),
      Returns (Dem.process (Dem.python drop scale) sub safe true want dem) (.ok d) ∧
      (Bluespots.processFl fl cc (Bluespots.pythonFl fl) safe gt d.depths (some f) d.flowdir d.accum (some dem)).Yields (.ok b) ∧
      Returns (Dem.process (Dem.python drop scale) sub safe true want' win) (.ok d') ∧
      (Bluespots.processFl fl cc (Bluespots.pythonFl fl) safe gt' d'.depths (some f) d'.flowdir d'.accum (some win)).Yields
        (.ok b') ∧
      (∀ c, win.Has c → d'.filled.get c ≤ d.filled.get (shift o c)) ∧
      ∀ l : Nat, 1 ≤ l → l ≤ b.nlabels →
        (∀ c, dem.Has c → b.labeled.get c = l → ∃ y, Interior win.rows win.cols y ∧ c = shift o y) →
        ∃ k : Nat, 1 ≤ k ∧ k ≤ b'.nlabels ∧ (∀ y, win.Has y → (b'.labeled.get y = k ↔ b.labeled.get (shift o y) = l)) ∧
          (∀ y, win.Has y → b'.labeled.get y = k → d'.filled.get y = d.filled.get (shift o y) ∧
            d'.depths.get y = d.depths.get (shift o y)) ∧
          ∃ p p', b.pourpoints[l]? = some p ∧ b'.pourpoints[k]? = some p' ∧ p'.bspot_dmax = p.bspot_dmax ∧
            p'.bspot_area = p.bspot_area ∧ p'.bspot_vol = p.bspot_vol := by
  obtain ⟨d, b, choose, hd, hbrun, hfill, hdsh, hcells, hb⟩ := dem_bluespots (fl := fl) hcc hsq h want f
  obtain ⟨d', b', choose', hd', hbrun', hfill', hdsh', hcells', hb'⟩ := dem_bluespots (fl := fl) hcc hsq' h' want' f
  refine ⟨d, b, d', b', hd, hbrun, hd', hbrun', fun c hc => C97_surface_le hw hfill hfill' hc, fun l hl1 hl2 hin => ?_⟩
  have hhas : ∀ c, d.depths.Has c ↔ dem.Has c := fun c => by unfold Raster.Has; rw [hdsh.1, hdsh.2]
  have hhas' : ∀ c, d'.depths.Has c ↔ win.Has c := fun c => by unfold Raster.Has; rw [hdsh'.1, hdsh'.2]
  have hwet : (fun y => d.depths.Has y ∧ d.depths.get y ≠ 0) = Under dem d.filled := funext fun y => propext <| by
    rw [hhas]; exact and_congr_right fun hy => (hcells y hy).2
  have hwet' : (fun y => d'.depths.Has y ∧ d'.depths.get y ≠ 0) = Under win d'.filled := funext fun y => propext <| by
    rw [hhas']; exact and_congr_right fun hy => (hcells' y hy).2
  obtain ⟨c, hc, hcl⟩ := hb.labelling.used l hl1 hl2
  have hcd : dem.Has c := (hhas c).1 hc
  have hc0 : b.labeled.get c ≠ 0 := by rw [hcl]; omega
  have hcomp : ∀ x, dem.Has x → (b.labeled.get x = l ↔ ConnectedIn (Under dem d.filled) c x) := fun x hx => by
    rw [← hcl, ← hwet]; exact result_component hb hc hc0 ((hhas x).2 hx)
  obtain ⟨y, hy, rfl⟩ := hin c hcd hcl
  have hins : InsideWindow win dem d.filled o (shift o y) := fun x hx => hin x hx.right.1 ((hcomp x hx.right.1).2 hx)
  have hcells2 := C97_same_cells hw hfill hfill' hins
  have hconn : ∀ x, ConnectedIn (Under win d'.filled) y x ↔ ConnectedIn (Under dem d.filled) (shift o y) (shift o x) := fun x => by
    rw [hcells2]
    exact ⟨fun h => ⟨x, rfl, h⟩, fun ⟨x', e, h⟩ => by rw [shift_inj e]; exact h⟩
  have hsurf : ∀ x, win.Has x → ConnectedIn (Under dem d.filled) (shift o y) (shift o x) →
      d'.filled.get x = d.filled.get (shift o x) := fun x hx hcon =>
    C97_surface_eq hw hfill hfill' hx fun z hz => hins z (hcon.trans hz)
  have hdep : ∀ x, win.Has x → ConnectedIn (Under dem d.filled) (shift o y) (shift o x) →
      d'.depths.get x = d.depths.get (shift o x) := fun x hx hcon => by
    rw [(hcells' x hx).1, (hcells _ (window_has hw hx)).1, hsurf x hx hcon, hw.get x hx]
  -- the cells of the bluespot, listed in the window and in the DEM
  classical
  have hL' := lists_filter d'.depths.rows d'.depths.cols (fun x => ConnectedIn (Under win d'.filled) y x)
  generalize ecs : (Raster.cellList d'.depths.rows d'.depths.cols).filter
    (fun x => decide (ConnectedIn (Under win d'.filled) y x)) = cs at hL'
  have hL : Lists d.depths.rows d.depths.cols (fun x => ConnectedIn (Under dem d.filled) (shift o y) x) (cs.map (shift o)) := by
    refine ⟨List.pairwise_map.2 (hL'.1.imp fun hab => shift_before.2 hab), fun x => ?_⟩
    rw [List.mem_map]
    constructor
    · rintro ⟨x, hx, rfl⟩
      have hx := ((hL'.2 x).1 hx).2
      exact ⟨(hhas _).2 (window_has hw hx.right.1), (hconn x).1 hx⟩
    · rintro ⟨_, hx⟩
      obtain ⟨x', rfl, hx'⟩ := (hcells2 x).1 hx
      exact ⟨x', (hL'.2 x').2 ⟨(hhas' _).2 hx'.right.1, hx'⟩, rfl⟩
  have hmap : (cs.map (shift o)).map d.depths.get = cs.map d'.depths.get := by
    rw [List.map_map]
    refine List.map_congr_left fun x hx => ?_
    have hx := ((hL'.2 x).1 hx).2
    exact (hdep x hx.right.1 ((hconn x).1 hx)).symm
  have hset : ∀ {A : Type} (g : K → A), {x | ∃ c ∈ cs.map (shift o), x = g (d.depths.get c)} = {x | ∃ c ∈ cs, x = g (d'.depths.get c)} := by
    intro A g
    have e : ∀ (L : List Cell) (v : Cell → K), {x | ∃ c ∈ L, x = g (v c)} = {x | ∃ z ∈ L.map v, x = g z} := by
      intro L v; ext x; simp
    rw [e, e, hmap]
  -- it passes the filter in the window
  have hcw := not_not.1 (fun h => hc0 ((hb.labelling.background _ hc).2 h))
  obtain ⟨cs2, u, h1, h2, h3⟩ := hcw.2
  have hyw : d'.depths.get y ≠ 0 := by
    rw [hdep y hy.1 (.refl (hwet ▸ ⟨hc, hcw.1⟩))]; exact hcw.1
  have hyd : d'.depths.Has y := (hhas' y).2 hy.1
  have h1 : Lists d.depths.rows d.depths.cols (fun x => ConnectedIn (Under dem d.filled) (shift o y) x) cs2 := by
    rw [← hwet]; exact h1
  cases lists_unique h1 hL
  have hpass : PassesFl fl d'.depths.rows d'.depths.cols d'.depths.get (cellAreaFl fl gt') f y := by
    refine ⟨cs, u, ?_, ⟨?_, ?_, ?_, ?_, ?_, ?_⟩, h3⟩
    · have := hL'; rw [← hwet'] at this; exact this
    · rw [← hset]; exact h2.min
    · rw [← hset]; exact h2.max
    · rw [← hmap]; exact h2.sum
    · rw [h2.count, List.length_map]
    · rw [harea, ← hmap]; exact h2.volume
    · rw [harea, h2.area, List.length_map]
  have hy0 : b'.labeled.get y ≠ 0 := fun e => (hb'.labelling.background y hyd).1 e ⟨hyw, hpass⟩
  obtain ⟨r1, r2⟩ := hb'.labelling.range y hyd
  obtain ⟨k, hk⟩ := Int.eq_ofNat_of_zero_le r1
  have hcomp' : ∀ x, win.Has x → (b'.labeled.get x = k ↔ ConnectedIn (Under win d'.filled) y x) := fun x hx => by
    rw [← hk, ← hwet']; exact result_component hb' hyd hy0 ((hhas' x).2 hx)
  have hkeq : ∀ x, win.Has x → (b'.labeled.get x = k ↔ b.labeled.get (shift o x) = l) := fun x hx => by
    rw [hcomp' x hx, hcomp _ (window_has hw hx), hconn]
  refine ⟨k, by omega, by omega, hkeq, fun x hx hxk => ?_, ?_⟩
  · have := (hconn x).1 ((hcomp' x hx).1 hxk)
    exact ⟨hsurf x hx this, hdep x hx this⟩
  · have hC : CellsOf d.depths.rows d.depths.cols b.labeled.get l (cs.map (shift o)) :=
      ⟨hL.1, fun x => by
        rw [hL.2]; exact and_congr_right fun hx => (hcomp x ((hhas x).1 hx)).symm⟩
    have hC' : CellsOf d'.depths.rows d'.depths.cols b'.labeled.get k cs :=
      ⟨hL'.1, fun x => by
        rw [hL'.2]; exact and_congr_right fun hx => (hcomp' x ((hhas' x).1 hx)).symm⟩
    obtain ⟨p, hp1, hp2, -⟩ := hb.points l _ _ hl2 hC (lists_filter _ _ _)
    obtain ⟨p', hp1', hp2', -⟩ := hb'.points k _ _ (by omega) hC' (lists_filter _ _ _)
    have hne : cs ≠ [] := by
      have : y ∈ cs := (hL'.2 y).2 ⟨hyd, .refl (hwet' ▸ ⟨hyd, hyw⟩)⟩
      intro e; rw [e] at this; simp at this
    refine ⟨p, p', hp1, hp1', ?_, ?_, ?_⟩
    · have m := hp2.dmax (by simpa using hne)
      rw [hset] at m
      exact (hp2'.dmax hne).unique m
    · rw [hp2.area, hp2'.area, harea, List.length_map]
    · rw [hp2.vol, hp2'.vol, harea, hmap]

end Bluespots
end Malstroem

namespace Malstroem
open Spec

section Float
open Malstroem.Float
variable {fl : Rat → Rat} {nextafter : Rat → Rat}

/-- C97 for float32 DEMs with the arithmetic of the program: float64 surface, float32 depths, float64 statistics. -/
theorem Float.C97_float {cc : Raster Bool → Raster Int × Nat} (hcc : LabelContract cc) {fl32 : Rat → Rat}
    (hfl : IsRounding 53 (-1074) fl) (hfl32 : IsRounding 24 (-149) fl32) (hnext : IsNextAfter nextafter)
    {gt gt' : GeoTransform Rat} (hsq : SquareCellsFl fl gt) (hsq' : SquareCellsFl fl gt')
    (hpix : |gt'.t1| = |gt.t1| ∧ |gt'.t5| = |gt.t5|) {win dem : Raster (WithTop F64)} {o : Cell} (hw : IsWindow win dem o)
    (hdem : IsDem32 dem) (hsize : dem.rows * dem.cols ≤ 2 ^ 50) (hwin : 2 ≤ win.rows ∧ 2 ≤ win.cols) (want want' : Bool)
    (f : Bluespots.StatUnits Rat → Bool) :
    ∃ (d : Dem.Out (WithTop F64) Rat) (b : Bluespots.Out Rat) (d' : Dem.Out (WithTop F64) Rat) (b' : Bluespots.Out Rat),
      Returns (Dem.process (Dem.python (fsub fl) fun x => fl (x * (1 / Fill.sqrt2))) (fsub fl32) (fsafe hfl nextafter) true want
        dem) (.ok d) ∧
      (Bluespots.processFl fl cc (Bluespots.pythonFl fl) (fsafe hfl nextafter) gt d.depths (some f) d.flowdir d.accum
        (some dem)).Yields (.ok b) ∧
      Returns (Dem.process (Dem.python (fsub fl) fun x => fl (x * (1 / Fill.sqrt2))) (fsub fl32) (fsafe hfl nextafter) true want'
        win) (.ok d') ∧
      (Bluespots.processFl fl cc (Bluespots.pythonFl fl) (fsafe hfl nextafter) gt' d'.depths (some f) d'.flowdir d'.accum
        (some win)).Yields (.ok b') ∧
      (∀ c, win.Has c → d'.filled.get c ≤ d.filled.get (shift o c)) ∧
      ∀ l : Nat, 1 ≤ l → l ≤ b.nlabels →
        (∀ c, dem.Has c → b.labeled.get c = l → ∃ y, Interior win.rows win.cols y ∧ c = shift o y) →
        ∃ k : Nat, 1 ≤ k ∧ k ≤ b'.nlabels ∧ (∀ y, win.Has y → (b'.labeled.get y = k ↔ b.labeled.get (shift o y) = l)) ∧
          (∀ y, win.Has y → b'.labeled.get y = k → d'.filled.get y = d.filled.get (shift o y) ∧
            d'.depths.get y = d.depths.get (shift o y)) ∧
          ∃ p p', b.pourpoints[l]? = some p ∧ b'.pourpoints[k]? = some p' ∧ p'.bspot_dmax = p.bspot_dmax ∧
            p'.bspot_area = p.bspot_area ∧ p'.bspot_vol = p.bspot_vol := by
  have hwd : IsDem32 win :=
    ⟨hwin.1, hwin.2, fun c hc => by rw [hw.get c hc]; exact hdem.f32 _ (window_has hw hc)⟩
  have hle : win.rows * win.cols ≤ dem.rows * dem.cols := by
    obtain ⟨h1, h2, h3, h4⟩ := hw.inside
    exact Nat.mul_le_mul (by omega) (by omega)
  exact C97_tiles hcc hsq hsq' (by unfold cellAreaFl; rw [hpix.1, hpix.2]) hw
    (float_sound hfl hfl32 hnext hdem hsize (k := 1 / Fill.sqrt2) (by norm_num [Fill.sqrt2]))
    (float_sound hfl hfl32 hnext hwd (hle.trans hsize) (k := 1 / Fill.sqrt2) (by norm_num [Fill.sqrt2])) want want' f

end Float

/-- A plain with a pit of two cells and another of one. -/
def demoPits : Raster Rat :=
  ⟨5, 7, fun c => if c = (2, 2) then 1 else if c = (2, 3) then 0 else if c = (3, 5) then 2 else 3⟩

/-- Three rows and `cols` columns of it. -/
def demoTile (cols : Nat) : Raster Rat := ⟨3, cols, fun c => demoPits.get (shift (1, 1) c)⟩

/-- A labelling that is right for `demoPits` and its tiles: one bluespot left of column 4, one right of it. -/
def demoPitsCC (m : Raster Bool) : Raster Int × Nat :=
  (⟨m.rows, m.cols, fun c => if m.get c then (if c.2 < 4 then 1 else 2) else 0⟩, (if m.get (3, 5) then 2 else 1))

/-- The hypotheses of `C97_tiles` hold for a tile whose georeference is moved by the tile's origin. -/
example : ∃ cc, LabelContract cc ∧ SquareCellsFl id (⟨0, 2, 0, 0, 0, -2⟩ : GeoTransform Rat) ∧
    SquareCellsFl id (⟨2, 2, 0, -2, 0, -2⟩ : GeoTransform Rat) ∧
    cellAreaFl id (⟨2, 2, 0, -2, 0, -2⟩ : GeoTransform Rat) = cellAreaFl id ⟨0, 2, 0, 0, 0, -2⟩ ∧
    IsWindow (finiteDem (demoTile 4)) (finiteDem demoPits) (1, 1) ∧
    SoundTerrain exactSub exactSub (· * (7/10)) (exactSafe (1/1000) (14/10000)) (finiteDem demoPits) ∧
    SoundTerrain exactSub exactSub (· * (7/10)) (exactSafe (1/1000) (14/10000)) (finiteDem (demoTile 4)) := by
  obtain ⟨cc, h⟩ := exists_labelContract
  refine ⟨cc, h, by unfold SquareCellsFl; norm_num, by unfold SquareCellsFl; norm_num, by unfold cellAreaFl; norm_num,
    ⟨by decide, fun _ _ => rfl⟩, exact_sound demoPits (by decide) (by decide) (by norm_num) (by norm_num) (by norm_num),
    exact_sound (demoTile 4) (by decide) (by decide) (by norm_num) (by norm_num) (by norm_num)⟩

set_option synthInstance.maxSize 1000 in
/-- Labels and pour points of the two runs: bluespot 1 (cells (2,2) and (2,3)) lies inside the tile of four columns and has
there the cells (1,1) and (1,2) and the same depth, area and volume. -/
example : ((Complete.processAll demoPitsCC (Dem.python exactSub (· * (7/10))) Bluespots.python exactSub
      (exactSafe (1/1000) (14/10000)) ⟨0, 2, 0, 0, 0, -2⟩ (finiteDem demoPits) false (some fun _ => true) (10 : Rat)).run 40).run.map
        (fun r => r.toOption.map fun o => (o.bluespots.labeled.toRows,
          o.bluespots.pourpoints.map fun p => [p.bspot_dmax.unbotD 0, p.bspot_area, p.bspot_vol])) =
    some (some ([[0,0,0,0,0,0,0],[0,0,0,0,0,0,0],[0,0,1,1,0,0,0],[0,0,0,0,0,2,0],[0,0,0,0,0,0,0]],
      [[0, 128, 0], [3, 8, 20], [1, 4, 4]])) := by
  decide +kernel

set_option synthInstance.maxSize 1000 in
example : ((Complete.processAll demoPitsCC (Dem.python exactSub (· * (7/10))) Bluespots.python exactSub
      (exactSafe (1/1000) (14/10000)) ⟨2, 2, 0, -2, 0, -2⟩ (finiteDem (demoTile 4)) false (some fun _ => true) (10 : Rat)).run
        40).run.map (fun r => r.toOption.map fun o => (o.bluespots.labeled.toRows,
          o.bluespots.pourpoints.map fun p => [p.bspot_dmax.unbotD 0, p.bspot_area, p.bspot_vol])) =
    some (some ([[0,0,0,0],[0,1,1,0],[0,0,0,0]],
      [[0, 40, 0], [3, 8, 20]])) := by decide +kernel

/-- Without the condition the claim fails: the edge of the tile of three columns cuts through the bluespot, and in the tile
nothing is left of it. -/
example : (Fill.fillTerrain (finiteDem (demoTile 3)) 40).map (fun r => r.toOption.map fun r => r.get (1, 1)) =
      some (some ((1 : Rat) : WithTop Rat)) ∧
    (Fill.fillTerrain (finiteDem demoPits) 40).map (fun r => r.toOption.map fun r => r.get (2, 2)) =
      some (some ((3 : Rat) : WithTop Rat)) := by decide +kernel

end Malstroem
