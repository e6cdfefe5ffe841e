/-
Property C118: errors in the elevations are not amplified.
-/
import Verif.Props.Tiles
import Verif.Props.OwnFiles

set_option linter.unusedSectionVars false

namespace Malstroem
open Spec

section Order
variable {β : Type} [LinearOrder β] [OrderTop β]

/-- C118, filling. `φ` is any bound on the elevations that keeps the order, for example 0.1 m more. If no cell of the second
DEM is higher than `φ` of the same cell of the first, then no cell of its filled terrain is. (For floats too.) -/
theorem C118_filled (φ : β → β) (hφ : Monotone φ) (dem dem' r r' : Raster β) (hrows : dem'.rows = dem.rows)
    (hcols : dem'.cols = dem.cols) (hle : ∀ c, dem.Has c → dem'.get c ≤ φ (dem.get c))
    (h : Returns (Fill.fillTerrain dem) (.ok r)) (h' : Returns (Fill.fillTerrain dem') (.ok r')) :
    ∀ c, dem.Has c → r'.get c ≤ φ (r.get c) := by
  intro c hc
  obtain ⟨⟨p, hp, hhigh⟩, -⟩ := C04_fill_eq_spill_level dem r h c hc
  have hs := C04_fill_eq_spill_level dem' r' h' c (by unfold Raster.Has at *; rwa [hrows, hcols])
  rw [hrows, hcols] at hs
  have hne : (p.map dem'.get) ≠ [] := by
    intro e
    have := hp.head
    rw [List.map_eq_nil_iff.1 e] at this; cases this
  obtain ⟨z, hz⟩ : ∃ z, IsHighest dem'.get p z := by
    obtain ⟨m, hm, hmax⟩ := (p.map dem'.get).toFinset.exists_max_image id (by
      rwa [List.toFinset_nonempty_iff])
    rw [List.mem_toFinset, List.mem_map] at hm
    refine ⟨m, hm, ?_⟩
    rintro _ ⟨x, hx, rfl⟩
    exact hmax _ (List.mem_toFinset.2 (List.mem_map_of_mem hx))
  refine (hs.2 ⟨p, hp, hz⟩).trans ?_
  obtain ⟨x, hx, rfl⟩ := hz.1
  exact (hle x (hp.inside x hx)).trans (hφ (hhigh.2 ⟨x, hx, rfl⟩))

theorem climb_le {φ : β → β} (hφ : Monotone φ) {short diag : β → β} (hs : Monotone short) (hd : Monotone diag)
    (hsφ : ∀ x, short (φ x) ≤ φ (short x)) (hdφ : ∀ x, diag (φ x) ≤ φ (diag x)) {dem dem' : Cell → β} :
    ∀ p : List Cell, p ≠ [] → (∀ x ∈ p, dem' x ≤ φ (dem x)) → climb short diag dem' p ≤ φ (climb short diag dem p)
  | [], h, _ => absurd rfl h
  | [e], _, h => h e (List.mem_singleton_self e)
  | a :: b :: rest, _, h => by
    have ih := climb_le hφ hs hd hsφ hdφ (b :: rest) (by simp) fun x hx => h x (List.mem_cons_of_mem _ hx)
    unfold climb
    refine max_le ((h a (List.mem_cons_self ..)).trans (hφ (le_max_left _ _))) (le_trans ?_ (hφ (le_max_right _ _)))
    split
    · exact (hs ih).trans (hsφ _)
    · exact (hd ih).trans (hdφ _)

/-- C118, no-flats surface: the same for the terrain with the flats removed, if the steps `short` and `diag` take `φ` of an
elevation to no more than `φ` of where they take the elevation. -/
theorem C118_noflats (φ : β → β) (hφ : Monotone φ) (short diag : β → β) (hs : Monotone short) (hd : Monotone diag)
    (hs' : ∀ x, x ≤ short x) (hd' : ∀ x, x ≤ diag x) (hsφ : ∀ x, short (φ x) ≤ φ (short x))
    (hdφ : ∀ x, diag (φ x) ≤ φ (diag x)) (dem dem' r r' : Raster β) (hrows : dem'.rows = dem.rows)
    (hcols : dem'.cols = dem.cols) (hle : ∀ c, dem.Has c → dem'.get c ≤ φ (dem.get c))
    (h : Returns (Fill.fillTerrainNoFlats short diag dem) (.ok r))
    (h' : Returns (Fill.fillTerrainNoFlats short diag dem') (.ok r')) :
    ∀ c, dem.Has c → r'.get c ≤ φ (r.get c) := by
  intro c hc
  obtain ⟨⟨p, hp, hz⟩, -⟩ := C08_noflats_cheapest_climb short diag hs hd hs' hd' dem r h c hc
  have hm := C08_noflats_cheapest_climb short diag hs hd hs' hd' dem' r' h' c (by unfold Raster.Has at *; rwa [hrows, hcols])
  rw [hrows, hcols] at hm
  refine (hm.2 ⟨p, hp, rfl⟩).trans ?_
  rw [← hz]
  refine climb_le hφ hs hd hsφ hdφ p ?_ fun x hx => hle x (hp.inside x hx)
  rintro rfl
  have := hp.head; cases this

end Order

section Tools
variable {K : Type} [Field K] [LinearOrder K] [IsStrictOrderedRing K] {cc cc' : Raster Bool → Raster Int × Nat}

theorem deep_labelled {gt : GeoTransform K} {depths : Raster K} {f : Bluespots.StatUnits K → Bool} {fd : Raster Nat}
    {rule : List Cell → Cell → Prop} {out : Bluespots.Out K} (hb : Bluespots.IsResult gt depths f fd rule out) {t : K} (ht : 0 ≤ t)
    (hf : ∀ u, (t : WithBot K) < u.max → f u = true) {c : Cell} (hc : InGrid depths.rows depths.cols c) (hdeep : t < depths.get c) :
    out.labeled.get c ≠ 0 := by
  intro h0
  refine (hb.labelling.background c hc).1 h0 ⟨(ht.trans_lt hdeep).ne', ?_⟩
  obtain ⟨cs, u, hcs, hu⟩ := Command.exists_stats depths.get (cellArea gt) hc (ht.trans_lt hdeep).ne'
  refine ⟨cs, u, hcs, hu, hf u (lt_of_lt_of_le (WithBot.coe_lt_coe.2 hdeep) (hu.max.2 ⟨c, ?_, rfl⟩))⟩
  exact (hcs.2 c).2 ⟨hc, .refl ⟨hc, (ht.trans_lt hdeep).ne'⟩⟩

theorem deep_together {gt : GeoTransform K} {depths : Raster K} {f : Bluespots.StatUnits K → Bool} {fd : Raster Nat}
    {rule : List Cell → Cell → Prop} {out : Bluespots.Out K} (hb : Bluespots.IsResult gt depths f fd rule out) {t : K} (ht : 0 ≤ t)
    (hf : ∀ u, (t : WithBot K) < u.max → f u = true) {S : Cell → Prop}
    (hS : ∀ c, S c → InGrid depths.rows depths.cols c ∧ t < depths.get c) {x y : Cell} (hxy : ConnectedIn S x y) :
    out.labeled.get x = out.labeled.get y := by
  obtain ⟨p, h1, h2, h3, h4⟩ := hxy
  have hx := hS x (h4 x (List.mem_of_mem_head? (by rw [h1]; rfl)))
  have hy := hS y (h4 y (List.mem_of_getLast? h2))
  exact (hb.same x y hx.1 hy.1 (deep_labelled hb ht hf hx.1 hx.2) (deep_labelled hb ht hf hy.1 hy.2)).2
    ⟨p, h1, h2, h3, fun c hc => ⟨(hS c (h4 c hc)).1, (ht.trans_lt (hS c (h4 c hc)).2).ne'⟩⟩

theorem sum_close {cs : List Cell} {g g' : Cell → K} {e : K} (h : ∀ c ∈ cs, |g' c - g c| ≤ e) :
    |(cs.map g').sum - (cs.map g).sum| ≤ cs.length * e := by
  induction cs with
  | nil => simp
  | cons c cs ih =>
    have h1 := abs_le.1 (h c (List.mem_cons_self ..))
    have h2 := abs_le.1 (ih fun x hx => h x (List.mem_cons_of_mem _ hx))
    simp only [List.map_cons, List.sum_cons, List.length_cons, Nat.cast_add, Nat.cast_one]
    rw [abs_le]
    constructor <;> nlinarith

/-- C118. DemTool and BluespotTool on two DEMs whose elevations differ by at most `e`, with filters that let pass every
bluespot deeper than `t`. The filled levels differ by at most `e`, the depths by at most `2 e`. Cells that are deeper than
`t + 2 e` in the first are in a bluespot in both, and those that are connected through such cells in the first are in the same
one in both. A bluespot that consists of the same cells in both differs by at most `2 e` in depth and `2 e` times its area in
volume. -/
theorem C118_depths (hcc : LabelContract cc) (hcc' : LabelContract cc') {gt : GeoTransform K} (hsq : SquareCells gt)
    (dem dem' : Raster K) (hr : 2 ≤ dem.rows) (hc : 2 ≤ dem.cols) (hsh : dem'.rows = dem.rows ∧ dem'.cols = dem.cols)
    {e : K} (he : ∀ c, dem.Has c → |dem'.get c - dem.get c| ≤ e) {short diag k short' diag' k' : K} (hs : 0 < short) (hd : 0 < diag)
    (hk : 0 < k) (hs' : 0 < short') (hd' : 0 < diag') (hk' : 0 < k') (want want' : Bool) (f f' : Bluespots.StatUnits K → Bool)
    {t : K} (ht : 0 ≤ t) (hf : ∀ u, (t : WithBot K) < u.max → f u = true) (hf' : ∀ u, (t : WithBot K) < u.max → f' u = true) :
    ∃ (d : Dem.Out (WithTop K) K) (b : Bluespots.Out K) (d' : Dem.Out (WithTop K) K) (b' : Bluespots.Out K),
      Returns (Dem.process (Dem.python exactSub (· * k)) exactSub (exactSafe short diag) true want (finiteDem dem)) (.ok d) ∧
      (Bluespots.process cc Bluespots.python (exactSafe short diag) gt d.depths (some f) d.flowdir d.accum
        (some (finiteDem dem))).Yields (.ok b) ∧
      Returns (Dem.process (Dem.python exactSub (· * k')) exactSub (exactSafe short' diag') true want' (finiteDem dem')) (.ok d') ∧
      (Bluespots.process cc' Bluespots.python (exactSafe short' diag') gt d'.depths (some f') d'.flowdir d'.accum
        (some (finiteDem dem'))).Yields (.ok b') ∧
      (∀ c, dem.Has c → ∃ z z' : K, d.filled.get c = z ∧ d'.filled.get c = z' ∧ |z' - z| ≤ e ∧
        |d'.depths.get c - d.depths.get c| ≤ 2 * e) ∧
      (∀ c, dem.Has c → t + 2 * e < d.depths.get c → b.labeled.get c ≠ 0 ∧ b'.labeled.get c ≠ 0) ∧
      (∀ x y, ConnectedIn (fun c => dem.Has c ∧ t + 2 * e < d.depths.get c) x y →
        b.labeled.get x = b.labeled.get y ∧ b'.labeled.get x = b'.labeled.get y) ∧
      ∀ (l l' : Nat) (cs : List Cell), 1 ≤ l → l ≤ b.nlabels → 1 ≤ l' → l' ≤ b'.nlabels →
        CellsOf dem.rows dem.cols b.labeled.get l cs → CellsOf dem.rows dem.cols b'.labeled.get l' cs →
        ∃ p p' m m', b.pourpoints[l]? = some p ∧ b'.pourpoints[l']? = some p' ∧ p'.bspot_area = p.bspot_area ∧
          p.bspot_dmax = (m : K) ∧ p'.bspot_dmax = (m' : K) ∧ |m' - m| ≤ 2 * e ∧
          |p'.bspot_vol - p.bspot_vol| ≤ 2 * e * p.bspot_area := by
  have hsqf : SquareCellsFl id gt := hsq
  have h := exact_sound dem hr hc hs hd hk
  have h' := exact_sound dem' (by rw [hsh.1]; exact hr) (by rw [hsh.2]; exact hc) hs' hd' hk'
  obtain ⟨d, b, choose, hd, hbrun, hfill, hdsh, hcells, hb⟩ := dem_bluespots (fl := id) hcc hsqf h want f
  obtain ⟨d', b', choose', hd', hbrun', hfill', hdsh', hcells', hb'⟩ := dem_bluespots (fl := id) hcc' hsqf h' want' f'
  replace hb := hb.exact
  replace hb' := hb'.exact
  have hhas : ∀ c, (finiteDem dem').Has c ↔ dem.Has c := fun c => by
    show InGrid dem'.rows dem'.cols c ↔ _
    rw [hsh.1, hsh.2]
  have hg : ∀ c, InGrid d.depths.rows d.depths.cols c ↔ dem.Has c := fun c => by rw [hdsh.1, hdsh.2]; rfl
  have hg' : ∀ c, InGrid d'.depths.rows d'.depths.cols c ↔ dem.Has c := fun c => by rw [hdsh'.1, hdsh'.2]; exact hhas c
  have hmono : Monotone fun x : WithTop K => x + (e : WithTop K) := fun a b hab => add_le_add_left hab _
  have up := C118_filled (fun x => x + (e : WithTop K)) hmono (finiteDem dem) (finiteDem dem') _ _ hsh.1 hsh.2
    (fun c hc => by
      show ((dem'.get c : K) : WithTop K) ≤ (dem.get c : WithTop K) + (e : WithTop K)
      rw [← WithTop.coe_add]
      exact WithTop.coe_le_coe.2 (by have := (abs_le.1 (he c hc)).2; linarith)) hfill hfill'
  have down := C118_filled (fun x => x + (e : WithTop K)) hmono (finiteDem dem') (finiteDem dem) _ _ hsh.1.symm hsh.2.symm
    (fun c hc => by
      show ((dem.get c : K) : WithTop K) ≤ (dem'.get c : WithTop K) + (e : WithTop K)
      rw [← WithTop.coe_add]
      exact WithTop.coe_le_coe.2 (by have := (abs_le.1 (he c ((hhas c).1 hc))).1; linarith)) hfill' hfill
  have hlev : ∀ c, dem.Has c → ∃ z z' : K, d.filled.get c = z ∧ d'.filled.get c = z' ∧ |z' - z| ≤ e ∧
        |d'.depths.get c - d.depths.get c| ≤ 2 * e := by
    intro c hc
    have u1 := up c hc
    have u2 := down c ((hhas c).2 hc)
    have e1 := (hcells c hc).1
    have e2 := (hcells' c ((hhas c).2 hc)).1
    obtain ⟨⟨p, -, ⟨⟨x, -, hx⟩, -⟩⟩, -⟩ := C04_fill_eq_spill_level _ _ hfill c hc
    obtain ⟨⟨p', -, ⟨⟨x', -, hx'⟩, -⟩⟩, -⟩ := C04_fill_eq_spill_level _ _ hfill' c ((hhas c).2 hc)
    have hx : d.filled.get c = ((dem.get x : K) : WithTop K) := hx.symm
    have hx' : d'.filled.get c = ((dem'.get x' : K) : WithTop K) := hx'.symm
    refine ⟨dem.get x, dem'.get x', hx, hx', ?_⟩
    rw [hx, hx', ← WithTop.coe_add] at u1 u2
    have u1 := WithTop.coe_le_coe.1 u1
    have u2 := WithTop.coe_le_coe.1 u2
    have h0 := abs_le.1 (he c hc)
    have e1 : d.depths.get c = dem.get x - dem.get c := by rw [e1, hx]; rfl
    have e2 : d'.depths.get c = dem'.get x' - dem'.get c := by rw [e2, hx']; rfl
    rw [e1, e2]
    constructor <;> rw [abs_le] <;> constructor <;> linarith
  have hdeep : ∀ c, dem.Has c → t + 2 * e < d.depths.get c → t < d.depths.get c ∧ t < d'.depths.get c := by
    intro c hc h
    obtain ⟨_, _, _, _, _, hde⟩ := hlev c hc
    have h1 := abs_le.1 hde
    have h2 := abs_nonneg (d'.depths.get c - d.depths.get c)
    constructor <;> linarith
  refine ⟨d, b, d', b', hd, hbrun, hd', hbrun', hlev, fun c hc h => ?_, fun x y hxy => ?_, fun l l' cs h1 hl h1' hl' hcs hcs' => ?_⟩
  · obtain ⟨a, a'⟩ := hdeep c hc h
    exact ⟨deep_labelled hb ht hf ((hg c).2 hc) a, deep_labelled hb' ht hf' ((hg' c).2 hc) a'⟩
  · exact ⟨deep_together hb ht hf (fun c hc => ⟨(hg c).2 hc.1, (hdeep c hc.1 hc.2).1⟩) hxy,
      deep_together hb' ht hf' (fun c hc => ⟨(hg' c).2 hc.1, (hdeep c hc.1 hc.2).2⟩) hxy⟩
  · have hne : cs ≠ [] := by
      rintro rfl
      obtain ⟨c, hc, hcl⟩ := hb.labelling.used l h1 hl
      have := (hcs.2 c).2 ⟨(hg c).1 hc, hcl⟩
      cases this
    obtain ⟨p, hp, hip, -⟩ := hb.points l cs _ hl (by rw [hdsh.1, hdsh.2]; exact hcs) (lists_filter _ _ _)
    obtain ⟨p', hp', hip', -⟩ := hb'.points l' cs _ hl' (by
      rw [hdsh'.1, hdsh'.2]
      show CellsOf dem'.rows dem'.cols _ _ _
      rw [hsh.1, hsh.2]; exact hcs') (lists_filter _ _ _)
    have hclose : ∀ c ∈ cs, |d'.depths.get c - d.depths.get c| ≤ 2 * e := by
      intro c hc
      obtain ⟨_, _, _, _, _, h⟩ := hlev c ((hcs.2 c).1 hc).1
      exact h
    obtain ⟨⟨x, hx, ex⟩, hxm⟩ := hip.dmax hne
    obtain ⟨⟨x', hx', ex'⟩, hxm'⟩ := hip'.dmax hne
    refine ⟨p, p', _, _, hp, hp', by rw [hip'.area, hip.area], ex, ex', ?_, ?_⟩
    · have a1 := hxm ⟨x', hx', rfl⟩
      have a2 := hxm' ⟨x, hx, rfl⟩
      rw [ex] at a1
      rw [ex'] at a2
      have a1 := WithBot.coe_le_coe.1 a1
      have a2 := WithBot.coe_le_coe.1 a2
      have b1 := abs_le.1 (hclose x hx)
      have b2 := abs_le.1 (hclose x' hx')
      rw [abs_le]
      constructor <;> linarith
    · rw [hip'.vol, hip.vol, hip.area, ← sub_mul, abs_mul, abs_of_pos (cellArea_pos hsq)]
      have := mul_le_mul_of_nonneg_right (sum_close hclose) (cellArea_pos hsq).le
      linarith

end Tools

/-- A pit of 3 m. -/
def demoSurvey : Raster Rat := Raster.ofRows [[9,9,9,9],[9,4,7,6],[9,9,9,9]]

/-- The same with errors of 1 m: the pit is surveyed too low, its outlet too high. -/
def demoResurvey : Raster Rat := Raster.ofRows [[9,9,9,9],[9,3,8,7],[9,9,9,9]]

/-- The hypotheses of `C118_depths` are met, with `t = 1/2` and the filter `maxdepth > 0.5`. -/
example : ∃ cc, LabelContract cc ∧ SquareCells (⟨0, 2, 0, 0, 0, -2⟩ : GeoTransform Rat) ∧ 2 ≤ demoSurvey.rows ∧ 2 ≤ demoSurvey.cols ∧
    (demoResurvey.rows = demoSurvey.rows ∧ demoResurvey.cols = demoSurvey.cols) ∧
    (∀ c, demoSurvey.Has c → |demoResurvey.get c - demoSurvey.get c| ≤ 1) ∧
    ∀ u : Bluespots.StatUnits Rat, (((1/2 : Rat)) : WithBot Rat) < u.max →
      (fun u : Bluespots.StatUnits Rat => decide (((1/2 : Rat) : WithBot Rat) < u.max)) u = true := by
  obtain ⟨cc, h⟩ := exists_labelContract
  refine ⟨cc, h, by unfold SquareCells; norm_num, by decide, by decide, by decide, fun c hc => ?_, fun u hu => by simpa using hu⟩
  have : ∀ c ∈ Raster.cellList 3 4, |demoResurvey.get c - demoSurvey.get c| ≤ 1 := by decide +kernel
  exact this c (Flow.mem_cellList.2 hc)

/-- The bound on the depths is sharp: 3 m become 5 m. -/
example : (((Fill.fillTerrain (finiteDem demoSurvey) 40).bind Except.toOption).map fun r =>
      (Dem.depths exactSub r (finiteDem demoSurvey)).toRows) = some [[0,0,0,0],[0,3,0,0],[0,0,0,0]] ∧
    (((Fill.fillTerrain (finiteDem demoResurvey) 40).bind Except.toOption).map fun r =>
      (Dem.depths exactSub r (finiteDem demoResurvey)).toRows) = some [[0,0,0,0],[0,5,0,0],[0,0,0,0]] := by
  decide +kernel

end Malstroem
