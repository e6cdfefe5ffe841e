/-
Property C98: changing the DEM under the water surface of the bluespots.
-/
import Verif.Props.FillUp
import Verif.Proofs.Engines

set_option linter.unusedSectionVars false

namespace Malstroem
open Spec Network

namespace Spec

/-- `dem'` is `dem` with changes only in cells that lie under the surface `filled` before and after the change. -/
structure ChangedUnderWater {β : Type*} [LT β] (filled dem dem' : Raster β) : Prop where
  rows : dem'.rows = dem.rows
  cols : dem'.cols = dem.cols
  under : ∀ c, dem'.get c ≠ dem.get c → dem.Has c ∧ dem.get c < filled.get c ∧ dem'.get c < filled.get c

end Spec

namespace Fill
variable {β : Type*} [LinearOrder β] [OrderTop β]

/-- No way out of the raster notices what is under water. -/
theorem climb_under {step : Cell → Cell → β → β} (hstep : GoodStep step) {dem dem' r : Raster β}
    (h : Returns (fillTerrain dem) (.ok r)) (hch : ChangedUnderWater r dem dem') {c : Cell} {p : List Cell}
    (hp : IsEscape dem.rows dem.cols c p) :
    climbS step dem'.get p = climbS step dem.get p ∧ r.get c ≤ climbS step dem.get p := by
  obtain ⟨hI, hF⟩ := inv_of_returns h
  refine IsEscape.rec' (motive := fun c p => climbS step dem'.get p = climbS step dem.get p ∧
    r.get c ≤ climbS step dem.get p) ?_ ?_ hp
  · intro e he
    refine ⟨?_, (hI.edge e he).le⟩
    show dem'.get e = dem.get e
    by_contra hne
    obtain ⟨_, h1, _⟩ := hch.under e hne
    rw [hI.edge e he] at h1
    exact lt_irrefl _ h1
  · rintro a b q ha hab hq ⟨h1, h2⟩
    rw [climbS_cons a rfl, climbS_cons a rfl, h1]
    have hr : r.get a ≤ max (dem.get a) (r.get b) := by
      rcases edge_or_interior ha with h | h
      · rw [hI.edge a h]; exact le_max_left _ _
      · exact hF a h b hab
    have hs : r.get b ≤ step a b (climbS step dem.get (b :: q)) := h2.trans (hstep.infl _ _ _)
    refine ⟨?_, hr.trans (max_le_max le_rfl hs)⟩
    by_cases hne : dem'.get a = dem.get a
    · rw [hne]
    · obtain ⟨_, k1, k2⟩ := hch.under a hne
      have hab' : r.get a ≤ r.get b := (le_max_iff.1 hr).resolve_left (not_le.2 k1)
      rw [max_eq_right (k2.le.trans (hab'.trans hs)), max_eq_right (k1.le.trans (hab'.trans hs))]

theorem least_under {step : Cell → Cell → β → β} (hstep : GoodStep step) {dem dem' r s s' : Raster β}
    (h : Returns (fillTerrain dem) (.ok r)) (hch : ChangedUnderWater r dem dem')
    (hs : Inv step dem s ∧ IsFix step dem s) (hs' : Inv step dem' s' ∧ IsFix step dem' s')
    (hu : Untouched dem s) (hu' : Untouched dem' s') : s' = s := by
  have hsame : ∀ c, ¬ dem.Has c → dem'.get c = dem.get c := fun c hc => by
    by_contra hne; exact hc (hch.under c hne).1
  have hhas : ∀ c, dem'.Has c ↔ dem.Has c := fun c => by
    unfold Raster.Has; rw [hch.rows, hch.cols]
  refine Raster.Same.eq ⟨hs'.1.rows.trans (hch.rows.trans hs.1.rows.symm), hs'.1.cols.trans (hch.cols.trans hs.1.cols.symm),
    fun c hc => ?_⟩ fun c hc => ?_
  · have hc : dem'.Has c := by
      have : InGrid s'.rows s'.cols c := hc
      rw [hs'.1.rows, hs'.1.cols] at this; exact this
    have l' := fix_isLeast hstep hs'.1 hs'.2 hc
    have l := fix_isLeast hstep hs.1 hs.2 ((hhas c).1 hc)
    rw [hch.rows, hch.cols] at l'
    have e : {x | ∃ p, IsEscape dem.rows dem.cols c p ∧ climbS step dem'.get p = x} =
        {x | ∃ p, IsEscape dem.rows dem.cols c p ∧ climbS step dem.get p = x} := by
      ext x
      exact exists_congr fun p => and_congr_right fun hp => by rw [(climb_under hstep h hch hp).1]
    rw [e] at l'
    exact l'.unique l
  · have hc' : ¬ dem'.Has c := by
      intro h; apply hc
      show InGrid s'.rows s'.cols c
      rw [hs'.1.rows, hs'.1.cols]; exact h
    have hc : ¬ dem.Has c := fun h => hc' ((hhas c).2 h)
    rw [hu c hc, hu' c hc']
    show (if _ then _ else _) = (if _ then _ else _)
    rw [hch.rows, hch.cols, hsame c hc]

end Fill

section Fills
variable {β : Type} [LinearOrder β] [OrderTop β]

/-- C98, filling: a DEM that is changed under the water surface only has the same filled terrain, for floats too. -/
theorem C98_same_filled {dem dem' r : Raster β} (h : Returns (Fill.fillTerrain dem) (.ok r))
    (hch : ChangedUnderWater r dem dem') : Returns (Fill.fillTerrain dem') (.ok r) := by
  obtain ⟨hr, hc⟩ := Fill.shape_of_returns h
  obtain ⟨r', h', hi'⟩ := Fill.fillTerrain_returns dem' (by rw [hch.rows]; exact hr) (by rw [hch.cols]; exact hc)
  have := Fill.least_under Fill.id_good h hch (Fill.inv_of_returns h) hi' (Fill.fillTerrain_untouched h)
    (Fill.fillTerrain_untouched h')
  rw [← this]; exact h'

/-- C98, no-flats surface: the same, with the same increments. -/
theorem C98_same_noflats {short diag : β → β} (hs : Monotone short) (hd : Monotone diag) (hs' : ∀ x, x ≤ short x)
    (hd' : ∀ x, x ≤ diag x) {dem dem' r nf : Raster β} (h : Returns (Fill.fillTerrain dem) (.ok r))
    (hch : ChangedUnderWater r dem dem') (hnf : Returns (Fill.fillTerrainNoFlats short diag dem) (.ok nf)) :
    Returns (Fill.fillTerrainNoFlats short diag dem') (.ok nf) := by
  obtain ⟨hr, hc⟩ := Fill.shape_of_returns h
  obtain ⟨nf', h', hi'⟩ := Fill.fillTerrainNoFlats_returns short diag hs hd hs' hd' dem' (by rw [hch.rows]; exact hr)
    (by rw [hch.cols]; exact hc)
  have := Fill.least_under (Fill.sd_good hs hd hs' hd') h hch (Fill.inv_of_returns_nf hs hd hs' hd' hnf) hi'
    (Fill.noFlats_untouched hs hd hnf) (Fill.noFlats_untouched hs hd h')
  rw [← this]; exact h'

/-- C98, DemTool: filled terrain, flow directions and accumulated flow are the same; the depths are those of the changed
DEM under the same surface. -/
theorem C98_same_dem_outputs {γ : Type} [LinearOrder γ] [Zero γ] {drop sub : β → β → γ} {scale : γ → γ}
    {safe : Raster β → (β → β) × (β → β)} {want : Bool}
    {dem dem' : Raster β} {out : Dem.Out β γ} (hmono : Monotone (safe dem).1 ∧ Monotone (safe dem).2)
    (hge : ∀ x, x ≤ (safe dem).1 x ∧ x ≤ (safe dem).2 x) (hsafe : safe dem' = safe dem)
    (h : Returns (Dem.process (Dem.python drop scale) sub safe true want dem) (.ok out))
    (hch : ChangedUnderWater out.filled dem dem') :
    Returns (Dem.process (Dem.python drop scale) sub safe true want dem')
      (.ok { out with depths := Dem.depths sub out.filled dem' }) := by
  obtain ⟨_, h1, h2, h3, h4, h5, h6⟩ := Dem.process_inv h
  have h1 : Returns (Fill.fillTerrain dem) (.ok out.filled) := h1
  have h3 : Returns (Fill.fillTerrainNoFlats (safe dem).1 (safe dem).2 dem) (.ok out.noFlats) := h3
  have k1 := C98_same_filled h1 hch
  have k3 := C98_same_noflats hmono.1 hmono.2 (fun x => (hge x).1) (fun x => (hge x).2) h1 hch h3
  obtain ⟨filled, depths, noFlats, flowdir, accum⟩ := out
  simp only at *
  subst h4
  cases want with
  | false =>
    rw [h6 rfl]
    exact Dem.process_intro (want := false) (acc := ⟨0, 0, fun _ => 0⟩) k1 (by rw [hsafe]; exact k3) (by simp)
  | true =>
    obtain ⟨a, ha, hR⟩ := h5 rfl
    rw [ha]
    exact Dem.process_intro (want := true) k1 (by rw [hsafe]; exact k3) fun _ => hR

end Fills

namespace Spec

/-- The pour points `p` and `p'` are the same place with the same areas; depth and volume of the bluespot may differ. -/
structure SamePlace {K : Type} (p p' : Bluespots.PourPoint K) : Prop where
  id : p'.id = p.id
  bspot_id : p'.bspot_id = p.bspot_id
  cell : (p'.cell_row, p'.cell_col) = (p.cell_row, p.cell_col)
  area : p'.bspot_area = p.bspot_area
  wshed_area : p'.wshed_area = p.wshed_area
  coordinates : p'.coordinates = p.coordinates

/-- The filter looks at the size of a bluespot only: its number of cells and its area. -/
def SizeOnly {K : Type} (f : Bluespots.StatUnits K → Bool) : Prop :=
  ∀ u u' : Bluespots.StatUnits K, u'.count = u.count → u'.area = u.area → f u' = f u

end Spec

theorem scan_rel {ρ σ : Type} (R : ρ → σ → Prop) {upd : Cell → ρ → ρ} {upd' : Cell → σ → σ}
    (h : ∀ c r s, R r s → R (upd c r) (upd' c s)) (lab : Raster Int) : ∀ (cs : List Cell) {st : List ρ} {st' : List σ}
    {t : List ρ}, List.Forall₂ R st st' → Label.scan upd lab cs st = .ok t →
      ∃ t', Label.scan upd' lab cs st' = .ok t' ∧ List.Forall₂ R t t' := by
  intro cs
  induction cs with
  | nil => intro st st' t hst ht; cases ht; exact ⟨st', rfl, hst⟩
  | cons c cs ih =>
    intro st st' t hst ht
    unfold Label.scan at ht ⊢
    rw [← hst.length_eq]
    rcases hi : pyIdx st.length (lab.get c) with _ | i
    · rw [hi] at ht; cases ht
    · rw [hi] at ht
      refine ih ?_ ht
      rw [List.forall₂_iff_get] at hst ⊢
      refine ⟨by simpa using hst.1, fun j h1 h2 => ?_⟩
      simp only [List.get_eq_getElem, List.getElem_modify]
      have := hst.2 j (by simpa using h1) (by simpa using h2)
      simp only [List.get_eq_getElem] at this
      split_ifs
      · exact h _ _ _ this
      · exact this

section Bluespots
variable {K : Type} [Field K] [LinearOrder K] {β : Type} [LinearOrder β] [OrderTop β]

theorem statUpd_count (fl : K → K) (data : Raster K) (c : Cell) (r : Label.Stat K) :
    (Label.statUpdFl fl data c r).count = r.count + 1 := by
  unfold Label.statUpdFl
  dsimp only
  split_ifs <;> rfl

theorem stats_counts (fl : K → K) {data data' : Raster K} (hsh : data'.rows = data.rows ∧ data'.cols = data.cols)
    {lab : Raster Int} {nl : Option Int} {st : List (Label.Stat K)} (h : Label.labelStatsFl fl data lab nl = .ok st) :
    ∃ st', Label.labelStatsFl fl data' lab nl = .ok st' ∧ List.Forall₂ (fun s s' => s'.count = s.count) st st' := by
  unfold Label.labelStatsFl at h ⊢
  cases hr : Label.resolve lab nl with
  | error e => rw [hr] at h; cases h
  | ok k =>
    rw [hr] at h
    replace h : (Label.table k Label.Stat.init >>= fun t => Label.scan (Label.statUpdFl fl data) lab data.cells t) = .ok st := h
    show ∃ st', (Label.table k Label.Stat.init >>= fun t => Label.scan (Label.statUpdFl fl data') lab data'.cells t) = .ok st' ∧ _
    unfold Label.table at h ⊢
    split_ifs at h ⊢ with hk
    · cases h
    · have hcells : data'.cells = data.cells := by unfold Raster.cells; rw [hsh.1, hsh.2]
      rw [hcells]
      refine scan_rel (fun (s s' : Label.Stat K) => s'.count = s.count) (fun c r s hrs => ?_) lab _ ?_ h
      · rw [statUpd_count, statUpd_count, hrs]
      · exact List.forall₂_same.2 fun _ _ => rfl

/-- BluespotTool on depths that are positive in the same cells, with a filter that does not look at the depths. -/
theorem same_wet {fl : K → K} {cc : Raster Bool → Raster Int × Nat} {safe : Raster β → (β → β) × (β → β)}
    {gt : GeoTransform K} {depths depths' : Raster K} (hsh : depths'.rows = depths.rows ∧ depths'.cols = depths.cols)
    (hwet : ∀ c, depths'.get c ≠ 0 ↔ depths.get c ≠ 0) {f : Bluespots.StatUnits K → Bool} (hf : SizeOnly f)
    {flowdir : Raster Nat} {accum : Option (Raster Int)} {dem dem' nf : Raster β}
    (hnf : Returns (Fill.fillTerrainNoFlats (safe dem).1 (safe dem).2 dem) (.ok nf))
    (hnf' : Returns (Fill.fillTerrainNoFlats (safe dem').1 (safe dem').2 dem') (.ok nf)) {out out' : Bluespots.Out K}
    (h : (Bluespots.processFl fl cc (Bluespots.pythonFl fl) safe gt depths (some f) flowdir accum (some dem)).Yields (.ok out))
    (h' : (Bluespots.processFl fl cc (Bluespots.pythonFl fl) safe gt depths' (some f) flowdir accum (some dem')).Yields
      (.ok out')) :
    out'.labeled = out.labeled ∧ out'.nlabels = out.nlabels ∧ out'.watersheds = out.watersheds ∧
      List.Forall₂ SamePlace out.pourpoints out'.pourpoints := by
  obtain ⟨n, hn⟩ := h
  obtain ⟨m, hm⟩ := h'
  obtain ⟨n1, hn1⟩ := hnf
  obtain ⟨n2, hn2⟩ := hnf'
  let N := max (max n m) (max n1 n2)
  have h1 : Bluespots.processFl fl cc (Bluespots.pythonFl fl) safe gt depths (some f) flowdir accum (some dem) N = some (.ok out) :=
    hn _ (by omega)
  have h2 : Bluespots.processFl fl cc (Bluespots.pythonFl fl) safe gt depths' (some f) flowdir accum (some dem') N =
    some (.ok out') := hm _ (by omega)
  have g1 := hn1 N (by omega)
  have g2 := hn2 N (by omega)
  generalize N = k at h1 h2 g1 g2
  have key : ∀ {depths : Raster K} {d : Raster β} {o : Bluespots.Out K},
      Fill.fillTerrainNoFlats (safe d).1 (safe d).2 d k = some (.ok nf) →
      Bluespots.processFl fl cc (Bluespots.pythonFl fl) safe gt depths (some f) flowdir accum (some d) k = some (.ok o) →
      ∃ raw keep st ct, ∃ (γ : Type) (pix : List (Label.Index γ)),
        Label.labelStatsFl fl depths (Bluespots.connectedComponents cc depths).1 none = .ok raw ∧
        Label.keepLabels (Bluespots.connectedComponents cc depths).1
          (Bluespots.filterbluespotsFl fl f (fl (|gt.t1| * |gt.t5|)) raw) 0 = .ok keep ∧
        Label.labelStatsFl fl depths (cc keep).1 none = .ok st ∧
        Flow.watershedsFromLabels flowdir (cc keep).1 0 k = some (.ok o.watersheds) ∧
        Label.labelCount o.watersheds = .ok ct ∧ o.labeled = (cc keep).1 ∧ o.nlabels = (cc keep).2 ∧
        o.pourpoints = Bluespots.assemblePourpointsFl fl gt pix st ct ∧
        ((∃ a e, accum = some a ∧ γ = WithBot Int ∧ HEq pix (e : List (Label.Index (WithBot Int))) ∧
            Label.labelMaxIndex ⟨a.rows, a.cols, fun c => (a.get c : WithBot Int)⟩ (cc keep).1 (some (cc keep).2) = .ok e) ∨
          (∃ e, accum = none ∧ γ = β ∧ HEq pix (e : List (Label.Index β)) ∧
            Label.labelMinIndex nf (cc keep).1 (some (cc keep).2) = .ok e)) := by
    intro depths d o hnf h
    unfold Bluespots.processFl at h
    rw [if_neg (by simp)] at h
    dsimp only at h
    by_cases hsq : ¬ |fl (|gt.t1| - |gt.t5|)| < fl (fl (1 / 100) * |(|gt.t1|)|)
    · rw [if_pos hsq] at h; exact absurd h Run.fail_ok
    rw [if_neg hsq] at h
    simp only [Run.bind_ok, Run.ofExcept_ok, Run.ofFuel_ok] at h
    obtain ⟨raw, e1, keep, e2, st, e3, ws, e4, ct, e5, h⟩ := h
    cases accum with
    | some a =>
      simp only [Run.bind_ok, Run.ofExcept_ok, Run.pure_ok] at h
      obtain ⟨pix, e6, rfl⟩ := h
      exact ⟨raw, keep, st, ct, _, pix, e1, e2, e3, e4, e5, rfl, rfl, rfl, .inl ⟨a, pix, rfl, rfl, .rfl, e6⟩⟩
    | none =>
      simp only [Run.bind_ok, Run.ofExcept_ok, Run.ofFuel_ok, Run.pure_ok] at h
      obtain ⟨nf', e6, pix, e7, rfl⟩ := h
      have e6 : Fill.fillTerrainNoFlats (safe d).1 (safe d).2 d k = some (.ok nf') := e6
      rw [hnf] at e6; cases e6
      exact ⟨raw, keep, st, ct, _, pix, e1, e2, e3, e4, e5, rfl, rfl, rfl, .inr ⟨pix, rfl, rfl, .rfl, e7⟩⟩
  obtain ⟨raw, keep, st, ct, γ, pix, a1, a2, a3, a4, a5, a6, a7, a8, a9⟩ := key g1 h1
  obtain ⟨raw', keep', st', ct', γ', pix', b1, b2, b3, b4, b5, b6, b7, b8, b9⟩ := key g2 h2
  have hcc : Bluespots.connectedComponents cc depths' = Bluespots.connectedComponents cc depths := by
    unfold Bluespots.connectedComponents
    have : (fun c => decide (depths'.get c ≠ 0)) = fun c => decide (depths.get c ≠ 0) :=
      funext fun c => by rw [decide_eq_decide]; exact hwet c
    rw [hsh.1, hsh.2, this]
  rw [hcc] at b1 b2
  obtain ⟨_, c1, c2⟩ := stats_counts fl hsh a1
  rw [b1] at c1; cases c1
  have hkeep : Bluespots.filterbluespotsFl fl f (fl (|gt.t1| * |gt.t5|)) raw' =
      Bluespots.filterbluespotsFl fl f (fl (|gt.t1| * |gt.t5|)) raw := by
    unfold Bluespots.filterbluespotsFl
    clear a1 b1 a2 b2
    induction c2 with
    | nil => rfl
    | cons hab _ ih =>
      simp only [List.map_cons]
      rw [ih]
      congr 1
      exact hf _ _ hab (by rw [hab])
  rw [hkeep, a2] at b2; cases b2
  rw [a4] at b4
  simp only [Option.some.injEq, Except.ok.injEq] at b4
  rw [← b4, a5] at b5; cases b5
  obtain ⟨_, c3, c4⟩ := stats_counts fl hsh a3
  rw [b3] at c3; cases c3
  refine ⟨b6.trans a6.symm, b7.trans a7.symm, b4.symm, ?_⟩
  rw [a8, b8]
  have hpix : ∃ pix'' : List (Label.Index γ), γ' = γ ∧ HEq pix' pix'' ∧ pix'' = pix := by
    rcases a9 with ⟨a, e, ha, rfl, e1, e2⟩ | ⟨e, ha, rfl, e1, e2⟩ <;>
    rcases b9 with ⟨a', e', ha', rfl, e1', e2'⟩ | ⟨e', ha', rfl, e1', e2'⟩
    · rw [ha] at ha'; cases ha'
      rw [e2] at e2'; cases e2'
      exact ⟨e, rfl, e1', (eq_of_heq e1).symm⟩
    · rw [ha] at ha'; cases ha'
    · rw [ha] at ha'; cases ha'
    · rw [e2] at e2'; cases e2'
      exact ⟨e, rfl, e1', (eq_of_heq e1).symm⟩
  obtain ⟨_, rfl, hh, rfl⟩ := hpix
  cases hh
  unfold Bluespots.assemblePourpointsFl
  rw [List.forall₂_map_left_iff, List.forall₂_map_right_iff, List.forall₂_iff_get]
  have hlen := c4.length_eq
  refine ⟨by simp [hlen], fun i hi hi' => ?_⟩
  simp only [List.get_eq_getElem, List.getElem_zipIdx, List.getElem_zip]
  have := (List.forall₂_iff_get.1 c4).2 i (by simp at hi; omega) (by simp at hi; omega)
  simp only [List.get_eq_getElem] at this
  exact ⟨rfl, rfl, rfl, by simp only [Bluespots.pourPointFl, this], rfl, rfl⟩

end Bluespots

namespace Spec

/-- The node features `f` and `f'` agree in everything but the volume of the bluespot. -/
structure SameNode {K : Type} (f f' : Feature K) : Prop where
  id : f'.id = f.id
  geometry : f'.geometry = f.geometry
  others : ∀ key ∈ ["nodeid", "nodetype", "dstrnodeid", "cell_row", "cell_col", "bspot_id", "bspot_area", "wshed_area"],
    f'.properties.get? key = f.properties.get? key

end Spec

section Complete
variable {K : Type} [Field K] [LinearOrder K] [IsStrictOrderedRing K]

theorem samePlace_map {α : Type} {ps ps' : List (Bluespots.PourPoint K)} (h : List.Forall₂ SamePlace ps ps')
    (g g' : Bluespots.PourPoint K → α) (hg : ∀ p p', SamePlace p p' → g' p' = g p) : ps'.map g' = ps.map g := by
  induction h with
  | nil => rfl
  | cons hab _ ih => rw [List.map_cons, List.map_cons, ih, hg _ _ hab]

theorem samePlace_get {ps ps' : List (Bluespots.PourPoint K)} (h : List.Forall₂ SamePlace ps ps') {i : Nat}
    {g g' : Feature K} (hg : (ps.map (·.feature))[i]? = some g) (hg' : (ps'.map (·.feature))[i]? = some g') :
    ∀ key ∈ ["bspot_id", "bspot_area", "wshed_area"], g'.properties.get? key = g.properties.get? key := by
  rw [List.getElem?_map, Option.map_eq_some_iff] at hg hg'
  obtain ⟨p, hp, rfl⟩ := hg
  obtain ⟨p', hp', rfl⟩ := hg'
  obtain ⟨q, hq, hs⟩ := forall₂_get h hp
  rw [hp'] at hq; cases hq
  intro key hk
  simp only [List.mem_cons, List.not_mem_nil, or_false] at hk
  rcases hk with rfl | rfl | rfl
  · show some (Val.int p'.bspot_id) = some (Val.int p.bspot_id); rw [hs.bspot_id]
  · show some (Val.num p'.bspot_area) = some (Val.num p.bspot_area); rw [hs.area]
  · show some (Val.num p'.wshed_area) = some (Val.num p.wshed_area); rw [hs.wshed_area]

theorem sameNode {gt : GeoTransform K} {ps ps' : List (Bluespots.PourPoint K)} (h : List.Forall₂ SamePlace ps ps') {n : Net.Node}
    {f f' : Feature K} (hf : IsNodeFeature gt (ps.map (·.feature)) n f) (hf' : IsNodeFeature gt (ps'.map (·.feature)) n f') :
    SameNode f f' := by
  refine ⟨hf'.id.trans hf.id.symm, hf'.point.trans hf.point.symm, fun key hk => ?_⟩
  simp only [List.mem_cons, List.not_mem_nil, or_false] at hk
  have hcop : ∀ key ∈ ["bspot_id", "bspot_area", "wshed_area"], f'.properties.get? key = f.properties.get? key := by
    intro key hk
    have hkc : key ∈ copied := by
      simp only [List.mem_cons, List.not_mem_nil, or_false, copied] at hk ⊢
      tauto
    cases ht : n.nodetype with
    | pourpoint =>
      obtain ⟨_, i, p, e1, e2, e3⟩ := hf.pourpoint ht
      obtain ⟨_, j, p', e1', e2', e3'⟩ := hf'.pourpoint ht
      have : j = i := by omega
      subst this
      rw [e3 key hkc, e3' key hkc]
      exact samePlace_get h e2 e2' key hk
    | junction =>
      obtain ⟨_, a1, a2, _, a3⟩ := hf.junction ht
      obtain ⟨_, b1, b2, _, b3⟩ := hf'.junction ht
      simp only [List.mem_cons, List.not_mem_nil, or_false] at hk
      rcases hk with rfl | rfl | rfl
      · rw [a1, b1]
      · rw [a2, b2]
      · rw [a3, b3]
  rcases hk with rfl | rfl | rfl | rfl | rfl | hk
  · rw [hf'.nodeid, hf.nodeid]
  · cases ht : n.nodetype with
    | pourpoint => rw [(hf'.pourpoint ht).1, (hf.pourpoint ht).1]
    | junction => rw [(hf'.junction ht).1, (hf.junction ht).1]
  · rw [hf'.down, hf.down]
  · rw [hf'.row, hf.row]
  · rw [hf'.col, hf.col]
  · exact hcop key (by simpa using hk)

/-- The same rain on the same network, where the bluespots of the second hold at least as much. -/
theorem rain_larger {gt : GeoTransform K} {fps fps' : List (Feature K)} {R : List Net.Node}
    {nodes nodes' : List (Feature K)} (hf : IsForest R) (hids : (R.map (·.id)).Nodup)
    (hn : List.Forall₂ (IsNodeFeature gt fps) R nodes) (hn' : List.Forall₂ (IsNodeFeature gt fps') R nodes')
    {areas caps caps' : List K}
    (hareas : List.Forall₂ (fun f x => f.properties.get? "wshed_area" = some (.num x)) fps areas)
    (hareas' : List.Forall₂ (fun f x => f.properties.get? "wshed_area" = some (.num x)) fps' areas)
    (hcaps : List.Forall₂ (fun f x => f.properties.get? "bspot_vol" = some (.num x)) fps caps)
    (hcaps' : List.Forall₂ (fun f x => f.properties.get? "bspot_vol" = some (.num x)) fps' caps') (mm : K) :
    ∃ vols final vols' final', (Rain.simpleVolumes nodes "inputv" mm = .ok vols ∧
        Returns (Network.finalState vols "inputv") (.ok final)) ∧
      (Rain.simpleVolumes nodes' "inputv" mm = .ok vols' ∧ Returns (Network.finalState vols' "inputv") (.ok final')) ∧
      (List.Forall₂ (· ≤ ·) caps caps' → List.Forall₂ (fun g g' => ∃ s s', HasNumber g "spillv" s ∧ HasNumber g' "spillv" s' ∧
        s' ≤ s) final final') := by
  obtain ⟨vols, final, v, spill, h1, h2, h3, h4, -, h6⟩ := rain_balance hf hids hn hareas hcaps mm
  obtain ⟨vols', final', v', spill', k1, k2, k3, k4, ⟨order, k5, k5'⟩, k6⟩ := rain_balance hf hids hn' hareas' hcaps' mm
  refine ⟨vols, final, vols', final', ⟨h1, h2⟩, ⟨k1, k2⟩, fun hle => ?_⟩
  have hw : ∀ n, Wetter (rainNode id areas caps' mm n) (rainNode id areas caps mm n) := by
    intro n
    refine ⟨rfl, rfl, le_refl _, ?_⟩
    show ofPourPoint caps n ≤ ofPourPoint caps' n
    unfold ofPourPoint
    split
    · rw [List.getD_eq_getElem?_getD, List.getD_eq_getElem?_getD]
      cases hx : caps[n.id.toNat]? with
      | none =>
        have : caps'[n.id.toNat]? = none := by
          rw [List.getElem?_eq_none_iff] at hx ⊢; rw [← hle.length_eq]; exact hx
        rw [this]
      | some x =>
        obtain ⟨y, hy, hxy⟩ := forall₂_get hle hx
        rw [hy]; exact hxy
    · exact le_refl _
  have hmono : ∀ n ∈ R, spill' n.id ≤ spill n.id := by
    intro n hnR
    have hmem := List.mem_map_of_mem (f := fun n => rainNode id areas caps' mm n) hnR
    exact (spill_mono (ns := R.map fun n => rainNode id areas caps' mm n) (ns' := R.map fun n => rainNode id areas caps mm n)
      (by rw [List.forall₂_map_left_iff, List.forall₂_map_right_iff, List.forall₂_same]; exact fun n _ => hw n) k5
      (fun n hn => (k5' n).1 hn) (fun n hn => k4 n ((k5' n).1 hn)) (v' := v) (spill' := spill)
      (fun n _ n' hn' _ => h4 n' hn') _ ((k5' _).2 hmem)).1
  rw [List.forall₂_iff_get]
  have e1 := h6.length_eq
  have e2 := k6.length_eq
  refine ⟨by omega, fun i hi hi' => ?_⟩
  have a := (List.forall₂_iff_get.1 h6).2 i (by omega) hi
  have b := (List.forall₂_iff_get.1 k6).2 i (by omega) hi'
  exact ⟨_, _, a.2, b.2, hmono _ (List.getElem_mem _)⟩

/-- C98. The `complete` command on a DEM and on a DEM that differs from it only in cells under water (below their spill
level, before and after the change), with a filter that looks at the size of a bluespot only. The filled terrain, the
flow directions, the accumulated flow, bluespots, watersheds, pour points, nodes and streams are the same, but for the depths
and volumes of the bluespots: the volume of a bluespot grows by what was taken out. If ground was only taken out, no
node spills more water. -/
theorem C98_dig {cc : Raster Bool → Raster Int × Nat} (hcc : LabelContract cc) {gt : GeoTransform K}
    (hsq : SquareCells gt) (dem dem' : Raster K) (hr : 2 ≤ dem.rows) (hc : 2 ≤ dem.cols) {short diag k : K} (hs : 0 < short)
    (hd : 0 < diag) (hk : 0 < k) (want : Bool) (f : Bluespots.StatUnits K → Bool) (hf : SizeOnly f) (mm : K)
    (hsh : dem'.rows = dem.rows ∧ dem'.cols = dem.cols)
    (hch : ∀ c, dem'.get c ≠ dem.get c → dem.Has c ∧
      ∃ z, IsSpillLevel dem.rows dem.cols dem.get c z ∧ dem.get c < z ∧ dem'.get c < z) :
    ∃ out out', (Complete.processAll cc (Dem.python exactSub (· * k)) Bluespots.python exactSub (exactSafe short diag) gt
        (finiteDem dem) want (some f) mm).Yields (.ok out) ∧
      (Complete.processAll cc (Dem.python exactSub (· * k)) Bluespots.python exactSub (exactSafe short diag) gt
        (finiteDem dem') want (some f) mm).Yields (.ok out') ∧
      out'.dem.filled = out.dem.filled ∧ out'.dem.flowdir = out.dem.flowdir ∧ out'.dem.accum = out.dem.accum ∧
      (∀ c, dem.Has c → out'.dem.depths.get c = out.dem.depths.get c + (dem.get c - dem'.get c)) ∧
      out'.bluespots.labeled = out.bluespots.labeled ∧ out'.bluespots.nlabels = out.bluespots.nlabels ∧
      out'.bluespots.watersheds = out.bluespots.watersheds ∧
      List.Forall₂ SamePlace out.bluespots.pourpoints out'.bluespots.pourpoints ∧
      (∀ (l : Nat) (cs : List Cell), l ≤ out.bluespots.nlabels → CellsOf dem.rows dem.cols out.bluespots.labeled.get l cs →
        ∃ p p', out.bluespots.pourpoints[l]? = some p ∧ out'.bluespots.pourpoints[l]? = some p' ∧
          p'.bspot_vol = p.bspot_vol + (cs.map fun c => dem.get c - dem'.get c).sum * cellArea gt) ∧
      List.Forall₂ SameNode out.nodes out'.nodes ∧ out'.streams = out.streams ∧
      ((∀ c, dem'.get c ≤ dem.get c) → List.Forall₂ (fun g g' => ∃ s s', HasNumber g "spillv" s ∧ HasNumber g' "spillv" s' ∧
        s' ≤ s) out.final out'.final) := by
  have h := exact_sound dem hr hc hs hd hk
  have h' := exact_sound dem' (by rw [hsh.1]; exact hr) (by rw [hsh.2]; exact hc) hs hd hk
  obtain ⟨d, hd, hflsh, hdsh, hfsh, hcells, _, ⟨z, _, hdown⟩, hacc, hno⟩ := C62_dem_outputs h want
  obtain ⟨_, hfill, hdep, hnf, hfd, _, _⟩ := Dem.process_inv hd
  have hfill : Returns (Fill.fillTerrain (finiteDem dem)) (.ok d.filled) := hfill
  have hnf : Returns (Fill.fillTerrainNoFlats _ _ (finiteDem dem)) (.ok d.noFlats) := hnf
  obtain ⟨hnsh, hfin, hffin⟩ := noFlats_finite h hnf
  have hspill : ∀ c, dem.Has c → IsSpillLevel dem.rows dem.cols dem.get c ((d.filled.get c).untopD 0) :=
    fun c hc => spill_of_finite (hcells c hc).1
  have hunder : ChangedUnderWater d.filled (finiteDem dem) (finiteDem dem') := by
    refine ⟨hsh.1, hsh.2, fun c hne => ?_⟩
    have hne : dem'.get c ≠ dem.get c := fun e => hne (by simp [finiteDem, e])
    obtain ⟨hc, z, hz, h1, h2⟩ := hch c hne
    have e : (z : WithTop K) = d.filled.get c := by
      rw [IsLeast.unique hz (hspill c hc)]
      lift d.filled.get c to K using (hffin _ hfill c hc).ne with y
      rfl
    rw [← e]
    exact ⟨hc, WithTop.coe_lt_coe.2 h1, WithTop.coe_lt_coe.2 h2⟩
  have hd' := C98_same_dem_outputs (γ := K) (dem' := finiteDem dem') h.mono h.ge rfl hd hunder
  obtain ⟨b, nodes, streams, choose, R, hbrun, hstr, hrun, hb, hR, hforest, hs2, hroots, hids, hperm, hjun⟩ :=
    chain_network_runs (fl := id) (demEngine := Dem.python exactSub (· * k)) (bluespotEngine := Bluespots.python)
    (.inl rfl) rfl hcc hsq ⟨by have := h.rows; omega, by have := h.cols; omega⟩ want f hd hdsh hfsh hdown hnsh hfin
    h.drop_pos h.scale_pos (fun hw => by
      obtain ⟨a, h1, h2⟩ := hacc hw
      exact ⟨a, a, h1, h2, rfl, rfl, fun _ _ => rfl⟩) hno
  have hhas : ∀ c, (finiteDem dem').Has c ↔ dem.Has c := fun c => by
    show InGrid dem'.rows dem'.cols c ↔ _
    rw [hsh.1, hsh.2]
  obtain ⟨b', nodes', streams', choose', R', hbrun', hstr', hrun', hb', hR', hforest', hs2', hroots', hids', hperm', hjun'⟩ :=
    chain_network_runs (fl := id) (demEngine := Dem.python exactSub (· * k)) (bluespotEngine := Bluespots.python) (s := z)
    (.inl rfl) rfl hcc hsq ⟨by have := h'.rows; omega, by have := h'.cols; omega⟩ want f hd'
    ⟨hflsh.1.trans hsh.1.symm, hflsh.2.trans hsh.2.symm⟩ ⟨hfsh.1.trans hsh.1.symm, hfsh.2.trans hsh.2.symm⟩
    (by
      show DrainsDownhill dem'.rows dem'.cols z d.flowdir
      rw [hsh.1, hsh.2]; exact hdown)
    ⟨hnsh.1.trans hsh.1.symm, hnsh.2.trans hsh.2.symm⟩ (fun c hc => hfin c ((hhas c).1 hc))
    h.drop_pos h.scale_pos (fun hw => by
      obtain ⟨a, h1, h2⟩ := hacc hw
      exact ⟨a, a, h1, h2, rfl, rfl, fun _ _ => rfl⟩) hno
  have hdepth : ∀ c, dem.Has c → exactSub (d.filled.get c) ((finiteDem dem').get c) =
      d.depths.get c + (dem.get c - dem'.get c) := by
    intro c hc
    rw [(hcells c hc).2.1]
    have := hffin _ hfill c hc
    lift d.filled.get c to K using this.ne with y
    simp only [exactSub, finiteDem, WithTop.untopD_coe]
    ring
  have hwet : ∀ c, exactSub (d.filled.get c) ((finiteDem dem').get c) ≠ 0 ↔ d.depths.get c ≠ 0 := by
    intro c
    by_cases hne : dem'.get c = dem.get c
    · rw [hdep]
      show exactSub _ ((dem'.get c : K) : WithTop K) ≠ 0 ↔ exactSub _ ((dem.get c : K) : WithTop K) ≠ 0
      rw [hne]
    · obtain ⟨hc, z, hz, h1, h2⟩ := hch c hne
      have hz := IsLeast.unique hz (hspill c hc)
      rw [hdepth c hc, (hcells c hc).2.1]
      have e : exactSub (d.filled.get c) ((finiteDem dem).get c) = z - dem.get c := by
        rw [hz]; rfl
      rw [e]
      constructor
      · intro _; exact (sub_pos.2 h1).ne'
      · intro _
        have : z - dem.get c + (dem.get c - dem'.get c) = z - dem'.get c := by ring
        rw [this]; exact (sub_pos.2 h2).ne'
  have hnf' : Returns (Fill.fillTerrainNoFlats _ _ (finiteDem dem')) (.ok d.noFlats) :=
    C98_same_noflats h.mono.1 h.mono.2 (fun x => (h.ge x).1) (fun x => (h.ge x).2) hfill hunder hnf
  obtain ⟨e1, e2, e3, e4⟩ := same_wet (safe := exactSafe short diag) (dem := finiteDem dem) (dem' := finiteDem dem')
    (depths := d.depths) (depths' := Dem.depths exactSub d.filled (finiteDem dem'))
    (by rw [hdep]; exact ⟨rfl, rfl⟩) hwet hf hnf hnf' hbrun hbrun'
  have hpts : b'.pourpoints.map (fun p => Net.PourPointArg.pix (p.cell_row, p.cell_col)) =
      b.pourpoints.map fun p => Net.PourPointArg.pix (p.cell_row, p.cell_col) :=
    samePlace_map e4 _ _ fun p p' h => by rw [h.cell]
  rw [e1, hpts] at hR'
  have hRR := Returns.unique hR hR'
  cases hRR
  replace hb := hb.exact
  replace hb' := hb'.exact
  have hw : b'.pourpoints.map (·.wshed_area) = b.pourpoints.map (·.wshed_area) :=
    samePlace_map e4 _ _ fun p p' h => h.wshed_area
  have hvol : ∀ (l : Nat) (cs : List Cell), l ≤ b.nlabels → CellsOf dem.rows dem.cols b.labeled.get l cs →
        ∃ p p', b.pourpoints[l]? = some p ∧ b'.pourpoints[l]? = some p' ∧
          p'.bspot_vol = p.bspot_vol + (cs.map fun c => dem.get c - dem'.get c).sum * cellArea gt := by
    intro l cs hl hcs
    obtain ⟨p, hp, hip, _⟩ := hb.points l cs _ hl (by rw [hdsh.1, hdsh.2]; exact hcs) (lists_filter _ _ _)
    obtain ⟨p', hp', hip', _⟩ := hb'.points l cs _ (e2 ▸ hl) (by
      show CellsOf d.filled.rows d.filled.cols _ _ _
      rw [e1]
      have a1 : d.filled.rows = d.depths.rows := by rw [hdep]; rfl
      have a2 : d.filled.cols = d.depths.cols := by rw [hdep]; rfl
      rw [a1, a2, hdsh.1, hdsh.2]; exact hcs) (lists_filter _ _ _)
    refine ⟨p, p', hp, hp', ?_⟩
    rw [hip'.vol, hip.vol, ← add_mul, ← List.sum_map_add]
    congr 2
    exact List.map_congr_left fun c hc => hdepth c ((hcs.2 c).1 hc).1
  obtain ⟨vols, final, vols', final', ⟨r1, r2⟩, ⟨r3, r4⟩, r5⟩ := rain_larger hforest hids hs2 hs2' (points_areas b).1
    (by rw [← hw]; exact (points_areas b').1) (points_areas b).2 (points_areas b').2 mm
  refine ⟨_, _, hrun mm vols final r1 r2, hrun' mm vols' final' r3 r4, rfl, rfl, rfl, hdepth, e1, e2, e3, e4, hvol, ?_, ?_,
    fun hle => r5 ?_⟩
  · show List.Forall₂ SameNode nodes nodes'
    rw [List.forall₂_iff_get]
    have l1 := hs2.length_eq
    have l2 := hs2'.length_eq
    refine ⟨by omega, fun i hi hi' => ?_⟩
    exact sameNode e4 ((List.forall₂_iff_get.1 hs2).2 i (by omega) hi) ((List.forall₂_iff_get.1 hs2').2 i (by omega) hi')
  · show streams' = streams
    refine List.ext_get (hstr'.length_eq.symm.trans hstr.length_eq) fun i hi hi' => ?_
    have a := (List.forall₂_iff_get.1 hstr').2 i (by rw [hstr'.length_eq]; exact hi) hi
    have b := (List.forall₂_iff_get.1 hstr).2 i (by rw [hstr.length_eq]; exact hi') hi'
    have : ∀ x y : Feature K, x.id = y.id → x.geometry = y.geometry → x.properties = y.properties → x = y := by
      intro x y; cases x; cases y; simp; tauto
    exact this _ _ (a.id.trans b.id.symm) (a.line.trans b.line.symm) (a.properties.trans b.properties.symm)
  · rw [List.forall₂_map_left_iff, List.forall₂_map_right_iff, List.forall₂_iff_get]
    refine ⟨by rw [hb.length, hb'.length, e2], fun i hi hi' => ?_⟩
    obtain ⟨p, p', hp, hp', hv⟩ := hvol i _ (by have := hb.length; omega) (lists_filter _ _ _)
    rw [List.getElem?_eq_getElem hi] at hp
    rw [List.getElem?_eq_getElem hi'] at hp'
    cases hp; cases hp'
    rw [List.get_eq_getElem, List.get_eq_getElem, hv]
    refine le_add_of_nonneg_right (mul_nonneg (List.sum_nonneg fun y hy => ?_) (cellArea_pos hsq).le)
    obtain ⟨c, _, rfl⟩ := List.mem_map.1 hy
    exact sub_nonneg.2 (hle c)

end Complete

/-- The valley of `Props/Complete.lean`, dug one deeper in two places. Its water surface is at 4. -/
def dugValley : Raster Rat :=
  { demoValley with get := fun c => if c = (1, 1) then 2 else if c = (1, 3) then 0 else demoValley.get c }

theorem valley_fill : ∀ r, Returns (Fill.fillTerrain (finiteDem demoValley)) (.ok r) →
    ∀ c ∈ [((1, 1) : Cell), (1, 3)], r.get c = (4 : Rat) := by
  rintro r ⟨n, hn⟩
  obtain ⟨r', hr', _⟩ := Fill.fillTerrain_returns (finiteDem demoValley) (by decide) (by decide)
  obtain ⟨m, hm⟩ := hr'
  have key : ∀ r', Fill.fillTerrain (finiteDem demoValley) 40 = some (.ok r') →
      ∀ c ∈ [((1, 1) : Cell), (1, 3)], r'.get c = (4 : Rat) := by
    have : (Fill.fillTerrain (finiteDem demoValley) 40).map (fun x => x.toOption.map fun r => (r.get (1, 1), r.get (1, 3))) =
        some (some (((4 : Rat) : WithTop Rat), ((4 : Rat) : WithTop Rat))) := by decide +kernel
    intro r' h c hc
    rw [h] at this
    simp only [Option.map_some, Except.toOption, Option.some.injEq, Prod.mk.injEq] at this
    simp only [List.mem_cons, List.not_mem_nil, or_false] at hc
    rcases hc with rfl | rfl
    · exact this.1
    · exact this.2
  have hsome : ∃ r', Fill.fillTerrain (finiteDem demoValley) 40 = some (.ok r') := by
    have : (Fill.fillTerrain (finiteDem demoValley) 40).isSome = true := by decide +kernel
    rcases hx : Fill.fillTerrain (finiteDem demoValley) 40 with _ | (e | r')
    · rw [hx] at this; cases this
    · unfold Fill.fillTerrain at hx
      rw [if_neg (by decide)] at hx
      obtain ⟨_, _, h⟩ := Option.map_eq_some_iff.1 hx
      cases h
    · exact ⟨r', rfl⟩
  obtain ⟨r', h⟩ := hsome
  have hR : Returns (Fill.fillTerrain (finiteDem demoValley)) (.ok r') := by
    refine Returns.of_mono h fun n r h => ?_
    unfold Fill.fillTerrain at h ⊢
    rw [if_neg (by decide)] at h ⊢
    obtain ⟨q, hq, he⟩ := Option.map_eq_some_iff.1 h
    exact Option.map_eq_some_iff.2 ⟨q, doWhile_mono hq (Nat.le_succ _), he⟩
  have := Returns.unique ⟨n, hn⟩ hR
  cases this
  exact key r h

/-- The hypotheses of `C98_dig` hold for the dug valley. -/
example : ∃ cc, LabelContract cc ∧ SquareCells (⟨0, 2, 0, 0, 0, -2⟩ : GeoTransform Rat) ∧
    SizeOnly (fun u : Bluespots.StatUnits Rat => decide (u.area ≥ 8)) ∧
    (dugValley.rows = demoValley.rows ∧ dugValley.cols = demoValley.cols) ∧
    (∀ c, dugValley.get c ≠ demoValley.get c → demoValley.Has c ∧
      ∃ z, IsSpillLevel demoValley.rows demoValley.cols demoValley.get c z ∧ demoValley.get c < z ∧ dugValley.get c < z) ∧
    ∀ c, dugValley.get c ≤ demoValley.get c := by
  obtain ⟨cc, h⟩ := exists_labelContract
  obtain ⟨r, hr, _⟩ := Fill.fillTerrain_returns (finiteDem demoValley) (by decide) (by decide)
  have hin : ∀ c, dugValley.get c ≠ demoValley.get c → c = (1, 1) ∨ c = (1, 3) := by
    intro c hne
    by_contra hc
    rw [not_or] at hc
    exact hne (by show (if _ then _ else if _ then _ else _) = _; rw [if_neg hc.1, if_neg hc.2])
  refine ⟨cc, h, by unfold SquareCells; norm_num, fun u u' _ e => by simp only [e], ⟨rfl, rfl⟩, fun c hne => ?_, fun c => ?_⟩
  · have hc : demoValley.Has c := by rcases hin c hne with rfl | rfl <;> decide
    refine ⟨hc, 4, ?_⟩
    have hs := spill_of_finite (Fill.fill_spill hr (c := c) hc)
    have hv := valley_fill r hr c (by rcases hin c hne with rfl | rfl <;> simp)
    rw [hv] at hs
    refine ⟨hs, ?_⟩
    rcases hin c hne with rfl | rfl <;> decide +kernel
  · by_cases hne : dugValley.get c = demoValley.get c
    · exact hne.le
    · rcases hin c hne with rfl | rfl <;> decide +kernel

set_option synthInstance.maxSize 1000 in
/-- It holds 8 m³ more than the valley before (two cells of 4 m²), and after 2000 mm of rain all 48 m³ stay in it. -/
example : ((Complete.processAll demoValleyCC (Dem.python exactSub (· * (7/10))) Bluespots.python exactSub
      (exactSafe (1/1000) (14/10000)) ⟨0, 2, 0, 0, 0, -2⟩ (finiteDem dugValley) false (some fun _ => true) (2000 : Rat)).run 40).run.map
        (fun r => r.toOption.map fun o => (o.dem.filled.toRows == (Raster.toRows ⟨4, 5, fun c => if demoValley.get c < 4 then (4 : WithTop Rat) else demoValley.get c⟩),
          o.bluespots.pourpoints.map (·.bspot_vol), o.final.map fun f => [Dict.get? f.properties "nodeid",
          Dict.get? f.properties "dstrnodeid", Dict.get? f.properties "v", Dict.get? f.properties "spillv"])) =
    some (some (true, [0, 48], [[some (.int 0), some .none, some (.num 0), some (.num 112)],
      [some (.int 1), some .none, some (.num 48), some (.num 0)]])) := by decide +kernel

end Malstroem
