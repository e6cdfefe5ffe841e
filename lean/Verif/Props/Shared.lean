/-
Property C122: two DEMs that share the terrain of a basin. All arithmetic is exact.
-/
import Verif.Props.LevelRule

set_option linter.unusedSectionVars false

namespace Malstroem
open Spec

namespace Shared

theorem placed_shift {o : Cell} {B : Cell → Prop} {y : Cell} : Placed o B (shift o y) ↔ B y := by
  constructor
  · rintro ⟨x, hx, e⟩
    rw [shift_inj e]; exact hx
  · exact fun h => ⟨y, h, rfl⟩

section Compose
variable {β K : Type} {rows cols rows' cols' wrows wcols : Nat} {o o' : Cell} {B : Cell → Prop} {σ σ' : Nat → Nat}
  {out out' w : Complete.Out β K}

/-- A bluespot of the one is one of the other. -/
theorem spot_over (hB : ∀ y, B y → InGrid wrows wcols y) (grid' : ∀ y, B y → InGrid rows' cols' (shift o' y))
    (A : SameBasin rows cols wrows wcols o (Placed o B) σ out w) (A' : SameBasin rows' cols' wrows wcols o' (Placed o' B) σ' out' w)
    {l : Nat} (hl : SpotIn out.bluespots.labeled.get out.bluespots.nlabels (Placed o B) l) :
    ∃ l', SpotIn out'.bluespots.labeled.get out'.bluespots.nlabels (Placed o' B) l' ∧ σ' l' = σ l := by
  have h1 := (A.spots l hl).1
  obtain ⟨-, -, c, ⟨y, hy, rfl⟩, e⟩ := hl
  have e1 := (A.labels y (hB y hy) (placed_shift.2 hy)).1
  have e2 := (A'.labels y (hB y hy) (placed_shift.2 hy)).1
  rw [e, Int.toNat_natCast] at e1
  have h0 : out'.bluespots.labeled.get (shift o' y) ≠ 0 := by
    intro h0
    rw [h0, Int.toNat_zero, A'.background] at e2
    omega
  exact ⟨_, (A'.named _ (grid' y hy) (placed_shift.2 hy)).1 h0, by omega⟩

theorem number_inj (hB : ∀ y, B y → InGrid wrows wcols y)
    (A' : SameBasin rows' cols' wrows wcols o' (Placed o' B) σ' out' w) {l k : Nat}
    (hl : SpotIn out'.bluespots.labeled.get out'.bluespots.nlabels (Placed o' B) l)
    (hk : SpotIn out'.bluespots.labeled.get out'.bluespots.nlabels (Placed o' B) k) (e : σ' l = σ' k) : l = k := by
  obtain ⟨-, -, c, ⟨y, hy, rfl⟩, h⟩ := hl
  have e1 := (A'.labels y (hB y hy) (placed_shift.2 hy)).1
  rw [h, Int.toNat_natCast, e] at e1
  have := (((A'.spots k hk).2.2.2 y (hB y hy)).1).1 e1
  omega

/-- Two DEMs that agree with the same window agree. -/
theorem compose (hB : ∀ y, B y → InGrid wrows wcols y) (grid : ∀ y, B y → InGrid rows cols (shift o y))
    (grid' : ∀ y, B y → InGrid rows' cols' (shift o' y))
    (A : SameBasin rows cols wrows wcols o (Placed o B) σ out w) (A' : SameBasin rows' cols' wrows wcols o' (Placed o' B) σ' out' w) :
    ∃ τ, SharedBasin rows cols rows' cols' o o' B τ out out' ∧
      ∀ l, SpotIn out.bluespots.labeled.get out.bluespots.nlabels (Placed o B) l → σ' (τ l) = σ l := by
  classical
  set P : Nat → Nat → Prop := fun l l' =>
    SpotIn out'.bluespots.labeled.get out'.bluespots.nlabels (Placed o' B) l' ∧ σ' l' = σ l with hP
  obtain ⟨τ, hτ, hτ0⟩ : ∃ τ : Nat → Nat, (∀ l, (∃ l', P l l') → P l (τ l)) ∧ ∀ l, (¬ ∃ l', P l l') → τ l = 0 :=
    ⟨fun l => if h : ∃ l', P l l' then h.choose else 0, fun l h => by simp only [dif_pos h]; exact h.choose_spec,
      fun l h => dif_neg h⟩
  have over : ∀ l, SpotIn out.bluespots.labeled.get out.bluespots.nlabels (Placed o B) l → P l (τ l) := fun l hl =>
    hτ l (spot_over hB grid' A A' hl)
  have zero : τ 0 = 0 := hτ0 0 (by
    rintro ⟨l', h1, h2⟩
    have := (A'.spots l' h1).1
    rw [A.background] at h2
    omega)
  have agree : ∀ l, SpotIn out.bluespots.labeled.get out.bluespots.nlabels (Placed o B) l → ∀ y, B y →
      (out'.bluespots.labeled.get (shift o' y) = τ l ↔ out.bluespots.labeled.get (shift o y) = l) ∧
      (out'.bluespots.watersheds.get (shift o' y) = τ l ↔ out.bluespots.watersheds.get (shift o y) = l) := by
    intro l hl y hy
    obtain ⟨h1, h2⟩ := over l hl
    obtain ⟨a1, a2⟩ := (A.spots l hl).2.2.2 y (hB y hy)
    obtain ⟨b1, b2⟩ := (A'.spots _ h1).2.2.2 y (hB y hy)
    rw [h2] at b1 b2
    exact ⟨b1.symm.trans a1, b2.symm.trans a2⟩
  refine ⟨τ, ⟨fun y hy => ?_, zero, fun y hy => ⟨?_, ?_⟩, fun l hl => ?_, fun l' hl' => ?_, fun l hl => ?_⟩,
    fun l hl => (over l hl).2⟩
  · obtain ⟨a1, a2, a3⟩ := A.terrain y (hB y hy) (placed_shift.2 hy)
    obtain ⟨b1, b2, b3⟩ := A'.terrain y (hB y hy) (placed_shift.2 hy)
    exact ⟨b1.symm.trans a1, b2.symm.trans a2, b3.symm.trans a3⟩
  · by_cases h0 : out.bluespots.labeled.get (shift o y) = 0
    · rw [h0, Int.toNat_zero, zero]
      by_contra h
      have h1 := (A'.spots _ ((A'.named _ (grid' y hy) (placed_shift.2 hy)).1 h)).1
      have e1 := (A.labels y (hB y hy) (placed_shift.2 hy)).1
      have e2 := (A'.labels y (hB y hy) (placed_shift.2 hy)).1
      rw [h0, Int.toNat_zero, A.background] at e1
      omega
    · have hs := (A.named _ (grid y hy) (placed_shift.2 hy)).1 h0
      have := hs.1
      exact (agree _ hs y hy).1.2 (by omega)
  · by_cases h0 : out.bluespots.watersheds.get (shift o y) = 0
    · rw [h0, Int.toNat_zero, zero]
      by_contra h
      have h1 := (A'.spots _ ((A'.named _ (grid' y hy) (placed_shift.2 hy)).2 h)).1
      have e1 := (A.labels y (hB y hy) (placed_shift.2 hy)).2
      have e2 := (A'.labels y (hB y hy) (placed_shift.2 hy)).2
      rw [h0, Int.toNat_zero, A.background] at e1
      omega
    · have hs := (A.named _ (grid y hy) (placed_shift.2 hy)).2 h0
      have := hs.1
      exact (agree _ hs y hy).2.2 (by omega)
  · obtain ⟨h1, h2⟩ := over l hl
    exact ⟨h1, (A.spots l hl).2.2.1, (A'.spots _ h1).2.2.1, agree l hl⟩
  · obtain ⟨l, h1, h2⟩ := spot_over hB grid A' A hl'
    obtain ⟨h3, h4⟩ := over l h1
    exact ⟨l, h1, number_inj hB A' h3 hl' (h4.trans h2)⟩
  · obtain ⟨h1, h2⟩ := over l hl
    obtain ⟨p, q, p1, p2, p3, p4, p5, p6, p7, p8, p9⟩ := A.points l hl
    obtain ⟨p', q', r1, r2, r3, r4, r5, r6, r7, r8, r9⟩ := A'.points _ h1
    rw [h2, p2] at r2
    cases r2
    exact ⟨p, p', _, p1, r1, p3, r3, r4 ▸ p4, r5 ▸ p5, r6 ▸ p6, r7 ▸ p7, r8 ▸ p8, r9 ▸ p9⟩

end Compose

section State
variable {β K : Type} [LinearOrder β] [OrderTop β] [Field K] [LinearOrder K] [IsStrictOrderedRing K]
  {drop : β → β → K} {sub : β → β → K} {scale : K → K} {safe : Raster β → (β → β) × (β → β)}
  {gt : GeoTransform K} {dem : Raster β} {cc : Raster Bool → Raster Int × Nat}

/-- What a run reports is determined by its results. -/
theorem reports_unique (h : SoundTerrain drop sub scale safe dem) (hcc : LabelContract cc) (hsq : SquareCells gt) {want : Bool}
    {f : Bluespots.StatUnits K → Bool} {mm : K} {out : Complete.Out β K}
    (hrun : (Complete.processAll cc (Dem.python drop scale) Bluespots.python sub safe gt dem want (some f) mm).Yields (.ok out))
    {point point' : Nat → Cell} {next next' : Nat → Option Int} {v v' spill spill' : Nat → K}
    (R : ReportsState dem.rows dem.cols gt mm out point next v spill)
    (R' : ReportsState dem.rows dem.cols gt mm out point' next' v' spill') :
    ∀ l ≤ out.bluespots.nlabels, point' l = point l ∧ next' l = next l ∧ v' l = v l ∧ spill' l = spill l := by
  obtain ⟨d, s, g⟩ := good_dem h (.inl ⟨rfl, rfl⟩) want
  obtain ⟨out1, -, -, -, -, a1, a2, -, a4, γ, _, rank, a5⟩ := g.chain (gt := gt) hcc hsq f mm
  obtain rfl : out1 = out := Except.ok.inj (Run.Yields.unique a1 hrun)
  obtain ⟨σ, N, key⟩ := same_but_numbers a2 a2 g.depths R R' a4 a4 a5
  have hL := a4.labelling
  rw [g.depths.1, g.depths.2] at hL
  have hσ : ∀ l ≤ out1.bluespots.nlabels, σ l = l := by
    intro l hl
    rcases Nat.eq_zero_or_pos l with rfl | h1
    · exact N.numbers.zero
    · obtain ⟨c, hc, hcl⟩ := hL.used l h1 hl
      have := N.labeled c hc
      rw [hcl, Int.toNat_natCast] at this
      omega
  intro l hl
  obtain ⟨k1, k2, k3, k4⟩ := key l hl
  rw [hσ l hl] at k1 k2 k3 k4
  refine ⟨k1, ?_, k3, k4⟩
  rw [k2]
  rcases e : next l with _ | e1
  · rfl
  · rcases R.goes l hl with ⟨-, path, hp⟩ | ⟨-, hnone⟩
    · rw [e] at hp
      obtain ⟨x, x1, -, x3, -⟩ := Basin.next_cell hp
      have hrx := hL.range x x1
      rw [show out1.bluespots.labeled.get x = e1 from x3] at hrx
      rw [Option.map_some, hσ _ (by omega)]
      congr 1
      omega
    · rw [e] at hnone; cases hnone

end State

section Exact
variable {K : Type} [Field K] [LinearOrder K] [IsStrictOrderedRing K]

/-- The transform of a window. -/
theorem exists_transform (o : Cell) (gt : GeoTransform K) :
    ∃ gt' : GeoTransform K, ∀ c, transformCellToWorld c gt' = transformCellToWorld (shift o c) gt := by
  refine ⟨⟨gt.t0 + o.2 * gt.t1 + o.1 * gt.t2, gt.t1, gt.t2, gt.t3 + o.2 * gt.t4 + o.1 * gt.t5, gt.t4, gt.t5⟩, fun c => ?_⟩
  simp only [transformCellToWorld, applyGeoTransform, shift]
  push_cast
  ext <;> ring

theorem in_window {win dem : Raster K} {nf : Raster (WithTop K)} {fd : Cell → Nat} {o : Cell} {B : Cell → Prop}
    (C : CoversBasin (finiteDem win) (finiteDem dem) nf fd o (Placed o B)) {y : Cell} (hy : B y) :
    win.Has y ∧ dem.Has (shift o y) := by
  have h1 := C.inside _ (placed_shift.2 hy)
  obtain ⟨z, hz, e⟩ := C.covered _ (placed_shift.2 hy) _ h1 (.inl rfl)
  rw [shift_inj e]
  rw [shift_inj e] at h1
  exact ⟨hz, h1⟩

/-- C122. Two DEMs, of whatever size, have the terrain of a window in common, and the window covers a basin in the one as in the
other, as in C120. Then both runs agree over the basin: terrain, bluespots, watersheds, pour points and the water. -/
theorem C122_shared {cc : Raster Bool → Raster Int × Nat} (hcc : LabelContract cc) {gt gt' : GeoTransform K} (hsq : SquareCells gt)
    {o o' : Cell} (hgt : ∀ c, transformCellToWorld (shift o' c) gt' = transformCellToWorld (shift o c) gt) {win dem dem' : Raster K}
    (hw : IsWindow win dem o) (hw' : IsWindow win dem' o') (hr : 2 ≤ win.rows) (hc : 2 ≤ win.cols) {short diag k : K}
    (hs : 0 < short) (hd : 0 < diag) (hk : 0 < k) (want : Bool) (f : Bluespots.StatUnits K → Bool) (mm : K) :
    ∃ out out' point point' next next' v v' spill spill',
      (Complete.processAll cc (Dem.python exactSub (· * k)) Bluespots.python exactSub (exactSafe short diag) gt (finiteDem dem) want
        (some f) mm).Yields (.ok out) ∧
      (Complete.processAll cc (Dem.python exactSub (· * k)) Bluespots.python exactSub (exactSafe short diag) gt' (finiteDem dem') want
        (some f) mm).Yields (.ok out') ∧
      ReportsState dem.rows dem.cols gt mm out point next v spill ∧
      ReportsState dem'.rows dem'.cols gt' mm out' point' next' v' spill' ∧
      ∀ B, CoversBasin (finiteDem win) (finiteDem dem) out.dem.noFlats out.dem.flowdir.get o (Placed o B) →
        CoversBasin (finiteDem win) (finiteDem dem') out'.dem.noFlats out'.dem.flowdir.get o' (Placed o' B) →
        ∃ τ, SharedBasin dem.rows dem.cols dem'.rows dem'.cols o o' B τ out out' ∧
          ∀ l, SpotIn out.bluespots.labeled.get out.bluespots.nlabels (Placed o B) l →
            (∃ y, point l = shift o y ∧ point' (τ l) = shift o' y) ∧
            next' (τ l) = (next l).map (fun x => (τ x.toNat : Int)) ∧ v' (τ l) = v l ∧ spill' (τ l) = spill l := by
  obtain ⟨gtw, hgw⟩ := exists_transform o gt
  have hgw' : ∀ c, transformCellToWorld c gtw = transformCellToWorld (shift o' c) gt' := fun c => (hgw c).trans (hgt c).symm
  obtain ⟨hgw1, hgw5⟩ := Basin.same_cells_size hgw
  obtain ⟨hgw1', hgw5'⟩ := Basin.same_cells_size hgw'
  have hsqw : SquareCells gtw := by unfold SquareCells; rw [hgw1, hgw5]; exact hsq
  have hsq' : SquareCells gt' := by unfold SquareCells; rw [← hgw1', ← hgw5']; exact hsqw
  have hin := hw.inside
  have hin' := hw'.inside
  obtain ⟨out, w, point, pointw, next, nextw, v, vw, spill, spillw, q1, q2, R1, R2, key⟩ :=
    Basin.C120_exact hcc hsq hgw hw (by omega) (by omega) hr hc hs hd hk want f mm
  obtain ⟨out', w', point', pointw', next', nextw', v', vw', spill', spillw', q1', q2', R1', R2', key'⟩ :=
    Basin.C120_exact hcc hsq' hgw' hw' (by omega) (by omega) hr hc hs hd hk want f mm
  obtain rfl : w = w' := Except.ok.inj (Run.Yields.unique q2 q2')
  have uniq := reports_unique (exact_sound win hr hc hs hd hk) hcc hsqw q2 R2 R2'
  refine ⟨out, out', point, point', next, next', v, v', spill, spill', q1, q1', R1, R1', fun B C C' => ?_⟩
  obtain ⟨σ, A, W⟩ := key _ C
  obtain ⟨σ', A', W'⟩ := key' _ C'
  have hB : ∀ y, B y → InGrid win.rows win.cols y := fun y hy => (in_window C hy).1
  obtain ⟨τ, T, hτ⟩ := compose hB (fun y hy => (in_window C hy).2) (fun y hy => (in_window C' hy).2) A A'
  refine ⟨τ, T, fun l hl => ?_⟩
  have hl' := (T.spots l hl).1
  have e := hτ l hl
  obtain ⟨a1, a2, a3, a4, a5⟩ := W l hl
  obtain ⟨b1, b2, b3, b4, b5⟩ := W' _ hl'
  rw [e] at b1 b2 b4 b5
  obtain ⟨u1, u2, u3, u4⟩ := uniq (σ l) (A.spots l hl).2.1
  refine ⟨⟨pointw (σ l), a1, u1 ▸ b1⟩, ?_, by rw [← b4, u3, a4], by rw [← b5, u4, a5]⟩
  rw [u2, a2] at b2
  rcases e1 : next l with _ | x <;> rcases e2 : next' (τ l) with _ | x'
  · rfl
  · rw [e1, e2] at b2; cases b2
  · rw [e1, e2] at b2; cases b2
  · rw [e1, e2] at b2
    simp only [Option.map_some, Option.some.injEq] at b2 ⊢
    obtain ⟨x1, x2⟩ := a3 x e1
    obtain ⟨y1, y2⟩ := b3 x' e2
    have := number_inj hB A' y2 (T.spots _ x2).1 (by rw [hτ _ x2]; omega)
    omega

end Exact

section Levels
variable {K : Type} [Field K] [LinearOrder K] [IsStrictOrderedRing K] [FloorRing K]

/-- C122, levels: in both runs of `complete` the bluespots of the basin get the same final levels, and its cells are flooded to the
same depth. -/
theorem C122_levels {cc : Raster Bool → Raster Int × Nat} (hcc : LabelContract cc) {gt gt' : GeoTransform K} (hsq : SquareCells gt)
    {o o' : Cell} (hgt : ∀ c, transformCellToWorld (shift o' c) gt' = transformCellToWorld (shift o c) gt) {win dem dem' : Raster K}
    (hw : IsWindow win dem o) (hw' : IsWindow win dem' o') (hr : 2 ≤ win.rows) (hc : 2 ≤ win.cols) {short diag k : K}
    (hs : 0 < short) (hd : 0 < diag) (hk : 0 < k) (want : Bool) (f : Bluespots.StatUnits K → Bool) (mm : K) {res : K} (hres : 0 < res)
    (hnn : ∀ c z, dem.Has c → IsSpillLevel dem.rows dem.cols dem.get c z → dem.get c < z → 0 ≤ dem.get c)
    (hnn' : ∀ c z, dem'.Has c → IsSpillLevel dem'.rows dem'.cols dem'.get c z → dem'.get c < z → 0 ≤ dem'.get c) :
    ∃ out lv depths extent out' lv' depths' extent',
      (Complete.processWithLevels (·.untopD 0) cc (Dem.python exactSub (· * k)) Bluespots.python exactSub (exactSafe short diag) gt
        (finiteDem dem) want (some f) mm res).Yields (.ok (out, lv)) ∧ lv.depths = some depths ∧ lv.extent = some extent ∧
      (Complete.processWithLevels (·.untopD 0) cc (Dem.python exactSub (· * k)) Bluespots.python exactSub (exactSafe short diag) gt'
        (finiteDem dem') want (some f) mm res).Yields (.ok (out', lv')) ∧ lv'.depths = some depths' ∧ lv'.extent = some extent' ∧
      ∀ B, CoversBasin (finiteDem win) (finiteDem dem) out.dem.noFlats out.dem.flowdir.get o (Placed o B) →
        CoversBasin (finiteDem win) (finiteDem dem') out'.dem.noFlats out'.dem.flowdir.get o' (Placed o' B) →
        ∃ τ, SharedBasin dem.rows dem.cols dem'.rows dem'.cols o o' B τ out out' ∧
          (∀ l, SpotIn out.bluespots.labeled.get out.bluespots.nlabels (Placed o B) l → ∃ g ∈ lv.levels, ∃ g' ∈ lv'.levels, ∃ v z dz,
            g.properties.get? "bspot_id" = some (.int l) ∧ g'.properties.get? "bspot_id" = some (.int (τ l)) ∧
            HasNumber g "v" v ∧ HasNumber g' "v" v ∧
            g.properties.get? "approx_z" = some (.num z) ∧ g'.properties.get? "approx_z" = some (.num z) ∧
            g.properties.get? "approx_dmax" = some (.num dz) ∧ g'.properties.get? "approx_dmax" = some (.num dz)) ∧
          ∀ y, B y → extent'.get (shift o' y) = τ (extent.get (shift o y)).toNat ∧
            (out.bluespots.labeled.get (shift o y) ≠ 0 ∨ -999 ≤ dem.get (shift o y) →
              depths'.get (shift o' y) = depths.get (shift o y)) := by
  classical
  obtain ⟨gtw, hgw⟩ := exists_transform o gt
  have hgw' : ∀ c, transformCellToWorld c gtw = transformCellToWorld (shift o' c) gt' := fun c => (hgw c).trans (hgt c).symm
  obtain ⟨hgw1, hgw5⟩ := Basin.same_cells_size hgw
  obtain ⟨hgw1', hgw5'⟩ := Basin.same_cells_size hgw'
  have harea : cellArea gt' = cellArea gt := by unfold cellArea; rw [← hgw1', ← hgw5', hgw1, hgw5]
  have hsq' : SquareCells gt' := by unfold SquareCells; rw [← hgw1', ← hgw5', hgw1, hgw5]; exact hsq
  have hin := hw.inside
  have hin' := hw'.inside
  obtain ⟨out, lv, depths, extent, h1, r1, p1, hlab, h2, h3, -, level, h5, h6, -, hrows⟩ :=
    complete_levels_rule hcc hsq dem (by omega) (by omega) hs hd hk want f mm hres hnn
  obtain ⟨out', lv', depths', extent', h1', r1', p1', hlab', h2', h3', -, level', h5', h6', -, hrows'⟩ :=
    complete_levels_rule hcc hsq' dem' (by omega) (by omega) hs hd hk want f mm hres hnn'
  refine ⟨out, lv, depths, extent, out', lv', depths', extent', h1, h2, h3, h1', h2', h3', fun B C C' => ?_⟩
  obtain ⟨o1, o2, point, point', next, next', v, v', spill, spill', q1, q2, R1, R2, key⟩ :=
    C122_shared hcc hsq hgt hw hw' hr hc hs hd hk want f mm
  obtain rfl : o1 = out := Except.ok.inj (Run.Yields.unique q1 r1)
  obtain rfl : o2 = out' := Except.ok.inj (Run.Yields.unique q2 r1')
  obtain ⟨τ, T, W⟩ := key B C C'
  have same : ∀ y, B y → dem'.get (shift o' y) = dem.get (shift o y) := fun y hy => by
    rw [← hw.get y (in_window C hy).1, ← hw'.get y (in_window C hy).1]
  have main : ∀ l, SpotIn o1.bluespots.labeled.get o1.bluespots.nlabels (Placed o B) l → level' (τ l) = level l ∧
      ∃ g ∈ lv.levels, ∃ g' ∈ lv'.levels, ∃ v z dz,
        g.properties.get? "bspot_id" = some (.int l) ∧ g'.properties.get? "bspot_id" = some (.int (τ l)) ∧
        HasNumber g "v" v ∧ HasNumber g' "v" v ∧
        g.properties.get? "approx_z" = some (.num z) ∧ g'.properties.get? "approx_z" = some (.num z) ∧
        g.properties.get? "approx_dmax" = some (.num dz) ∧ g'.properties.get? "approx_dmax" = some (.num dz) := by
    intro l hl
    obtain ⟨s1, s2, s3, s4⟩ := T.spots l hl
    obtain ⟨ys, hys⟩ : ∃ ys, Lists win.rows win.cols (fun y => B y ∧ o1.bluespots.labeled.get (shift o y) = l) ys :=
      ⟨_, lists_filter _ _ _⟩
    have hcs : CellsOf dem.rows dem.cols o1.bluespots.labeled.get l (ys.map (shift o)) := by
      refine ⟨List.pairwise_map.2 (hys.1.imp fun hab => shift_before.2 hab), fun x => ?_⟩
      rw [List.mem_map]
      constructor
      · rintro ⟨y, hy, rfl⟩
        obtain ⟨y1, y2, y3⟩ := (hys.2 y).1 hy
        exact ⟨(in_window C y2).2, y3⟩
      · rintro ⟨x1, x2⟩
        obtain ⟨y, hy, rfl⟩ := s2 x x1 (.inl x2)
        exact ⟨y, (hys.2 y).2 ⟨(in_window C hy).1, hy, x2⟩, rfl⟩
    have hcs' : CellsOf dem'.rows dem'.cols o2.bluespots.labeled.get (τ l) (ys.map (shift o')) := by
      refine ⟨List.pairwise_map.2 (hys.1.imp fun hab => shift_before.2 hab), fun x => ?_⟩
      rw [List.mem_map]
      constructor
      · rintro ⟨y, hy, rfl⟩
        obtain ⟨y1, y2, y3⟩ := (hys.2 y).1 hy
        exact ⟨(in_window C' y2).2, (s4 y y2).1.2 y3⟩
      · rintro ⟨x1, x2⟩
        obtain ⟨y, hy, rfl⟩ := s3 x x1 (.inl x2)
        exact ⟨y, (hys.2 y).2 ⟨(in_window C hy).1, hy, (s4 y hy).1.1 x2⟩, rfl⟩
    have hmap : (ys.map (shift o')).map dem'.get = (ys.map (shift o)).map dem.get := by
      rw [List.map_map, List.map_map]
      exact List.map_congr_left fun y hy => same y ((hys.2 y).1 hy).2.1
    obtain ⟨zmin, zmax, sp, a1, a2, a3, f1, hf, g, hg, w, b1, b2, b3, b4, b5, b6, b7, b8, b9, b10⟩ := h5 l _ hl.1 hl.2.1 hcs
    obtain ⟨zmin', zmax', sp', a1', a2', a3', f1', hf', g', hg', w', b1', b2', b3', b4', b5', b6', b7', b8', b9', b10'⟩ :=
      h5' (τ l) _ s1.1 s1.2.1 hcs'
    obtain ⟨-, -, ev, -⟩ := W l hl
    obtain ⟨F, hF, hF1, hF2, -⟩ := R1.shown l hl.2.1
    obtain ⟨F', hF', hF1', hF2', -⟩ := R2.shown (τ l) s1.2.1
    obtain rfl := b10 F hF hF1
    obtain rfl := b10' F' hF' hF1'
    obtain rfl := hasNumber_unique b5 hF2
    obtain rfl := hasNumber_unique b5' hF2'
    rw [hmap] at a1' b8'
    have emin := isMin_unique a1 a1'
    obtain ⟨y, hy, hBy, hyl⟩ : ∃ y, y ∈ ys ∧ B y ∧ o1.bluespots.labeled.get (shift o y) = l := by
      obtain ⟨-, -, c, ⟨y, hy, rfl⟩, e⟩ := hl
      exact ⟨y, (hys.2 y).2 ⟨(in_window C hy).1, hy, e⟩, hy, e⟩
    have esp : sp' = sp := by
      have e1 := isSpillLevel_unique (a3 _ (List.mem_map_of_mem hy)) (p1 _ (in_window C hBy).2)
      have e2 := isSpillLevel_unique (a3' _ (List.mem_map_of_mem hy)) (p1' _ (in_window C' hBy).2)
      rw [e1, e2, (T.terrain y hBy).1]
    rw [esp, ev, harea] at b8'
    have elev : level' (τ l) = level l := b8'.unique hres (List.Perm.refl _) b8
    refine ⟨elev, g, hg, g', hg', v l, level l, level l - zmin, ?_, ?_, ?_, ?_, b6.level, elev ▸ b6'.level, b6.depth, ?_⟩
    · rw [b6.others _ (by decide) (by decide), b4]
    · rw [b6'.others _ (by decide) (by decide), b4']
    · obtain ⟨x, hx, hx'⟩ := b5
      exact ⟨x, by rw [b6.others _ (by decide) (by decide), hx], hx'⟩
    · obtain ⟨x, hx, hx'⟩ := b5'
      exact ⟨x, by rw [b6'.others _ (by decide) (by decide), hx], by rw [hx', ev]⟩
    · rw [b6'.depth, elev, emin]
  refine ⟨τ, T, fun l hl => (main l hl).2, fun y hy => ?_⟩
  obtain ⟨g1, g2⟩ := in_window C hy
  obtain ⟨-, g3⟩ := in_window C' hy
  have hc1 : InGrid o1.bluespots.labeled.rows o1.bluespots.labeled.cols (shift o y) := by rw [hrows.1, hrows.2]; exact g2
  have hc2 : InGrid o2.bluespots.labeled.rows o2.bluespots.labeled.cols (shift o' y) := by rw [hrows'.1, hrows'.2]; exact g3
  have hrange := hlab _ g2
  have n1 := (T.labels y hy).1
  by_cases h0 : o1.bluespots.labeled.get (shift o y) = 0
  · rw [h0, Int.toNat_zero, T.background] at n1
    refine ⟨?_, fun hor => ?_⟩
    · rw [h6'.outside _ hc2 n1, h6.outside _ hc1 h0]
      simp [T.background]
    · have hlow := hor.resolve_left (fun h => h h0)
      rw [h6'.dry _ hc2 n1 (by rw [same y hy]; exact hlow), h6.dry _ hc1 h0 hlow]
  · obtain ⟨l, hl⟩ : ∃ l : Nat, o1.bluespots.labeled.get (shift o y) = l := ⟨_, (Int.toNat_of_nonneg hrange.1).symm⟩
    have hs : SpotIn o1.bluespots.labeled.get o1.bluespots.nlabels (Placed o B) l :=
      ⟨by omega, by omega, _, placed_shift.2 hy, hl⟩
    have n2 : o2.bluespots.labeled.get (shift o' y) = τ l := ((T.spots l hs).2.2.2 y hy).1.2 hl
    obtain ⟨elev, -⟩ := main l hs
    have := (T.spots l hs).1.1
    have h0' : o2.bluespots.labeled.get (shift o' y) ≠ 0 := by omega
    refine ⟨?_, fun _ => ?_⟩
    · rw [h6'.wet _ hc2 h0', h6.wet _ hc1 h0, hl, n2, elev, same y hy]
      split
      · rfl
      · simp [T.background]
    · rw [h6'.depth _ hc2 h0', h6.depth _ hc1 h0, hl, n2, elev, same y hy]

end Levels
/-! ### Examples -/

/-- A DEM with other terrain west of the ridge of `demoTwoBasins`, and less of it. -/
def demoOther : Raster Rat := Raster.ofRows
  [[7,7,9,8,8,8,8,8,8],
   [0,6,9,6,2,5,1,4,3],
   [1,3,9,6,2,5,1,4,3],
   [4,2,9,6,2,5,1,4,3],
   [7,7,9,8,8,8,8,8,8]]

/-- The eastern basin, in `demoEast`. -/
def EastPart (y : Cell) : Prop := InGrid 5 7 y ∧ 1 ≤ y.2

/-- East of the ridge, in `demoOther`. -/
def EastOther (c : Cell) : Prop := InGrid 5 9 c ∧ 3 ≤ c.2

instance : DecidablePred EastOther := fun c => inferInstanceAs (Decidable (InGrid 5 9 c ∧ 3 ≤ c.2))

theorem placed_east : Placed (0, 3) EastPart = Basin.East := by
  funext c
  obtain ⟨a, b⟩ := c
  apply propext
  simp only [Placed, EastPart, Basin.East, InGrid, shift]
  constructor
  · rintro ⟨⟨x, y⟩, h, e⟩
    simp only [Prod.mk.injEq] at e
    omega
  · intro h
    exact ⟨(a, b - 3), by omega, by simp only [Prod.mk.injEq]; omega⟩

theorem placed_eastOther : Placed (0, 2) EastPart = EastOther := by
  funext c
  obtain ⟨a, b⟩ := c
  apply propext
  simp only [Placed, EastPart, EastOther, InGrid, shift]
  constructor
  · rintro ⟨⟨x, y⟩, h, e⟩
    simp only [Prod.mk.injEq] at e
    omega
  · intro h
    exact ⟨(a, b - 2), by omega, by simp only [Prod.mk.injEq]; omega⟩

/-- The hypotheses of C122, but for the basin. -/
example : ∃ cc, LabelContract cc ∧ SquareCells (⟨0, 2, 0, 0, 0, -2⟩ : GeoTransform Rat) ∧
    (∀ c, transformCellToWorld (shift (0, 2) c) (⟨2, 2, 0, 0, 0, -2⟩ : GeoTransform Rat) =
      transformCellToWorld (shift (0, 3) c) ⟨0, 2, 0, 0, 0, -2⟩) ∧
    IsWindow Basin.demoEast Basin.demoTwoBasins (0, 3) ∧ IsWindow Basin.demoEast demoOther (0, 2) ∧
    2 ≤ Basin.demoEast.rows ∧ 2 ≤ Basin.demoEast.cols ∧
    ∀ c z, demoOther.Has c → IsSpillLevel demoOther.rows demoOther.cols demoOther.get c z →
      demoOther.get c < z → 0 ≤ demoOther.get c := by
  obtain ⟨cc, h⟩ := exists_labelContract
  refine ⟨cc, h, by unfold SquareCells; norm_num, fun c => ?_, ⟨by decide, fun _ _ => rfl⟩, ⟨by decide, fun c hc => ?_⟩, by decide,
    by decide, fun c z hc _ _ => ?_⟩
  · simp only [transformCellToWorld, applyGeoTransform, shift]
    push_cast
    ext <;> ring
  · have key : ∀ c ∈ Raster.cellList 5 7, Basin.demoEast.get c = demoOther.get (shift (0, 2) c) := by decide +kernel
    exact key c (Flow.mem_cellList.2 hc)
  · have key : ∀ c ∈ Raster.cellList 5 9, 0 ≤ demoOther.get c := by decide +kernel
    exact key c (Flow.mem_cellList.2 hc)

set_option maxRecDepth 100000 in
/-- The window covers the eastern basin in `demoOther` too; for `demoTwoBasins` see C120 and `placed_east`. -/
example : ∃ d, Returns (Dem.process (Dem.python exactSub (· * (5/7))) exactSub (exactSafe (1/1000) (7/5000)) true false
      (finiteDem demoOther)) (.ok d) ∧
    CoversBasin (finiteDem Basin.demoEast) (finiteDem demoOther) d.noFlats d.flowdir.get (0, 2) (Placed (0, 2) EastPart) := by
  rw [placed_eastOther]
  have key : ((Dem.process (Dem.python exactSub (· * (5/7))) exactSub (exactSafe (1/1000) (7/5000)) true false
      (finiteDem demoOther) 400).bind Except.toOption).map (fun d =>
        (decide ((∀ a ∈ Raster.cellList 5 9, d.flowdir.get a < 8 → InGrid 5 9 (Flow.move a (d.flowdir.get a)) →
          (EastOther a ↔ EastOther (Flow.move a (d.flowdir.get a)))) ∧
        ∀ c ∈ Raster.cellList 5 9, EastOther c → ∀ x ∈ Raster.cellList 5 9, Adj c x → ¬ EastOther x →
          d.noFlats.get x = (finiteDem demoOther).get x))) = some true := by decide +kernel
  rcases e : Dem.process (Dem.python exactSub (· * (5/7))) exactSub (exactSafe (1/1000) (7/5000)) true false
      (finiteDem demoOther) 400 with _ | ⟨_ | d⟩
  · rw [e] at key; cases key
  · rw [e] at key; cases key
  · rw [e] at key
    obtain ⟨h1, h2⟩ : _ ∧ _ := of_decide_eq_true (Option.some.inj key)
    refine ⟨d, (Fuel.demProcess (Fuel.python _ _ id) _ _ _ _ _).returns e, ?_⟩
    obtain ⟨h3, h4⟩ := Basin.covers_check (win := finiteDem Basin.demoEast) (dem := finiteDem demoOther) (o := (0, 2)) (fun c hc => hc.1) h1
      (by decide +kernel)
    exact ⟨fun c hc => hc.1, h3, h4, fun c hc x hx hcx hno =>
      h2 c (Flow.mem_cellList.2 hc.1) hc x (Flow.mem_cellList.2 hx) hcx hno⟩

end Shared
end Malstroem
