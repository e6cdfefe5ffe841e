/-
Property C121: what the final water level of a bluespot depends on. All arithmetic is exact.
-/
import Verif.Props.Basin
import Verif.Props.Levels

set_option linter.unusedSectionVars false

namespace Malstroem
open Spec

namespace LevelRule
variable {K : Type} [Field K] [LinearOrder K] [IsStrictOrderedRing K] [FloorRing K]

theorem exists_rule : ∃ level : K → K → Multiset K → K → K → K, ∀ {area res : K} (_ : 0 < res) {zs : List K} {spill v z : K},
    LevelGiven area res zs spill v z → level area res zs spill v = z := by
  classical
  refine ⟨fun area res zs spill v => if h : ∃ z, ∃ t : List K, (t : Multiset K) = zs ∧ LevelGiven area res t spill v z then h.choose
    else 0, fun {area res} hres {zs spill v z} hz => ?_⟩
  have hex : ∃ z, ∃ t : List K, (t : Multiset K) = ↑zs ∧ LevelGiven area res t spill v z := ⟨_, _, rfl, hz⟩
  obtain ⟨t, ht, h⟩ := hex.choose_spec
  exact (dif_pos hex).trans (h.unique hres (Multiset.coe_eq_coe.1 ht) hz)

/-- C121. The `complete` command, under the assumptions of C67. There is one rule `level` for all DEMs, numberings, filters and
amounts of rain, that gives the final level of every bluespot from the cell area, the resolution, the elevations of its cells
(no matter where they are), its spill level and the volume the network left in it. -/
theorem C121_level_rule : ∃ level : K → K → Multiset K → K → K → K,
    ∀ {cc : Raster Bool → Raster Int × Nat} (_ : LabelContract cc) {gt : GeoTransform K}
      (_ : SquareCells gt) (dem : Raster K) (_ : 2 ≤ dem.rows) (_ : 2 ≤ dem.cols) {short diag k : K} (_ : 0 < short)
      (_ : 0 < diag) (_ : 0 < k) (want : Bool) (f : Bluespots.StatUnits K → Bool) (mm : K) {res : K} (_ : 0 < res)
      (_ : ∀ c z, dem.Has c → IsSpillLevel dem.rows dem.cols dem.get c z → dem.get c < z → 0 ≤ dem.get c),
    ∃ out lv depths extent, (Complete.processWithLevels (·.untopD 0) cc (Dem.python exactSub (· * k)) Bluespots.python
        exactSub (exactSafe short diag) gt (finiteDem dem) want (some f) mm res).Yields (.ok (out, lv)) ∧
      lv.depths = some depths ∧ lv.extent = some extent ∧
      ∀ (l : Nat) (cs : List Cell), 1 ≤ l → l ≤ out.bluespots.nlabels →
        CellsOf dem.rows dem.cols out.bluespots.labeled.get l cs →
        ∃ zmin spill v, IsMin (cs.map dem.get) zmin ∧ (∀ c ∈ cs, IsSpillLevel dem.rows dem.cols dem.get c spill) ∧
          ∃ f ∈ out.final, ∃ g ∈ lv.levels, f.properties.get? "bspot_id" = some (.int l) ∧ HasNumber f "v" v ∧
            IsLevelFeature (.num (level (cellArea gt) res ↑(cs.map dem.get) spill v))
              (.num (level (cellArea gt) res ↑(cs.map dem.get) spill v - zmin)) f g ∧
            ∀ c ∈ cs, depths.get c = Max.max 0 (level (cellArea gt) res ↑(cs.map dem.get) spill v - dem.get c) ∧
              extent.get c = if dem.get c ≤ level (cellArea gt) res ↑(cs.map dem.get) spill v then (l : Int) else 0 := by
  obtain ⟨F, hF⟩ := exists_rule (K := K)
  refine ⟨F, fun {cc} hcc {gt} hsq dem hr hc {short diag k} hs hd hk want f mm {res} hres hnn => ?_⟩
  obtain ⟨out, lv, depths, extent, h1, -, -, -, h2, h3, -, level, h5, h6, -, hrows⟩ :=
    complete_levels_rule hcc hsq dem hr hc hs hd hk want f mm hres hnn
  refine ⟨out, lv, depths, extent, h1, h2, h3, fun l cs hl1 hl2 hcs => ?_⟩
  obtain ⟨zmin, zmax, spill, a1, a2, a3, f, hf, g, hg, v, b1, b2, b3, b4, b5, b6, b7, b8, -⟩ := h5 l cs hl1 hl2 hcs
  refine ⟨zmin, spill, v, a1, a3, f, hf, g, hg, b4, b5, ?_⟩
  rw [hF hres b8]
  refine ⟨b6, fun c hc => ?_⟩
  obtain ⟨c1, c2⟩ := (hcs.2 c).1 hc
  have c3 : InGrid out.bluespots.labeled.rows out.bluespots.labeled.cols c := by rw [hrows.1, hrows.2]; exact c1
  have c4 : out.bluespots.labeled.get c ≠ 0 := by rw [c2]; omega
  have w := h6.wet c c3 c4
  have d := h6.depth c c3 c4
  rw [c2] at w d
  exact ⟨d, w⟩

/-- In a window the spill levels are not higher. -/
theorem window_spill {win dem : Raster K} {o : Cell} (hw : IsWindow win dem o) {c : Cell} (hc : win.Has c) {z z' : K}
    (h : IsSpillLevel dem.rows dem.cols dem.get (shift o c) z) (h' : IsSpillLevel win.rows win.cols win.get c z') : z' ≤ z := by
  obtain ⟨q, hq, hhigh⟩ := h.1
  obtain ⟨p, hp, hpq⟩ := window_escape (win := finiteDem win) (dem := finiteDem dem)
    ⟨hw.inside, fun c hc => congrArg _ (hw.get c hc)⟩ hq c hc rfl
  have hne : p ≠ [] := by obtain ⟨p', rfl⟩ := hp.exists_cons; simp
  obtain ⟨m, hm1, hm2⟩ : ∃ m, IsHighest win.get p m ∧ m ≤ z := by
    obtain ⟨-, m, -, hm⟩ := exists_min_max (zs := p.map win.get) (by simpa using hne)
    obtain ⟨x, hx, e⟩ := List.mem_map.1 hm.1
    refine ⟨m, ⟨⟨x, hx, e⟩, ?_⟩, ?_⟩
    · rintro _ ⟨y, hy, rfl⟩
      exact hm.2 _ (List.mem_map_of_mem hy)
    · rw [← e, hw.get x (hp.inside x hx)]
      exact hhigh.2 ⟨_, hpq x hx, rfl⟩
  exact (h'.2 ⟨p, hp, hm1⟩).trans hm2

/-- C121, windows: on a window that covers a basin, as in C120, the `complete` command gives every bluespot of the basin the
final level it gets on the whole DEM, and floods the same cells of the basin to the same depth. -/
theorem C121_basin {cc : Raster Bool → Raster Int × Nat} (hcc : LabelContract cc) {gt gt' : GeoTransform K} (hsq : SquareCells gt)
    {o : Cell} (hgt : ∀ c, transformCellToWorld c gt' = transformCellToWorld (shift o c) gt) {win dem : Raster K}
    (hw : IsWindow win dem o) (hr : 2 ≤ dem.rows) (hc : 2 ≤ dem.cols) (hr' : 2 ≤ win.rows) (hc' : 2 ≤ win.cols) {short diag k : K}
    (hs : 0 < short) (hd : 0 < diag) (hk : 0 < k) (want : Bool) (f : Bluespots.StatUnits K → Bool) (mm : K) {res : K} (hres : 0 < res)
    (hnn : ∀ c z, dem.Has c → IsSpillLevel dem.rows dem.cols dem.get c z → dem.get c < z → 0 ≤ dem.get c) :
    ∃ out lv depths extent out' lv' depths' extent',
      (Complete.processWithLevels (·.untopD 0) cc (Dem.python exactSub (· * k)) Bluespots.python exactSub (exactSafe short diag) gt
        (finiteDem dem) want (some f) mm res).Yields (.ok (out, lv)) ∧ lv.depths = some depths ∧ lv.extent = some extent ∧
      (Complete.processWithLevels (·.untopD 0) cc (Dem.python exactSub (· * k)) Bluespots.python exactSub (exactSafe short diag) gt'
        (finiteDem win) want (some f) mm res).Yields (.ok (out', lv')) ∧ lv'.depths = some depths' ∧ lv'.extent = some extent' ∧
      ∀ S, CoversBasin (finiteDem win) (finiteDem dem) out.dem.noFlats out.dem.flowdir.get o S →
        ∃ σ, SameBasin dem.rows dem.cols win.rows win.cols o S σ out out' ∧
          (∀ l, SpotIn out.bluespots.labeled.get out.bluespots.nlabels S l → ∃ g ∈ lv.levels, ∃ g' ∈ lv'.levels, ∃ v z dz,
            g.properties.get? "bspot_id" = some (.int l) ∧ g'.properties.get? "bspot_id" = some (.int (σ l)) ∧
            HasNumber g "v" v ∧ HasNumber g' "v" v ∧
            g.properties.get? "approx_z" = some (.num z) ∧ g'.properties.get? "approx_z" = some (.num z) ∧
            g.properties.get? "approx_dmax" = some (.num dz) ∧ g'.properties.get? "approx_dmax" = some (.num dz)) ∧
          ∀ y, win.Has y → S (shift o y) → extent'.get y = σ (extent.get (shift o y)).toNat ∧
            (out.bluespots.labeled.get (shift o y) ≠ 0 ∨ -999 ≤ dem.get (shift o y) →
              depths'.get y = depths.get (shift o y)) := by
  have harea : cellArea gt' = cellArea gt := by
    obtain ⟨ht1, ht5⟩ := Basin.same_cells_size hgt
    unfold cellArea; rw [ht1, ht5]
  have hsq' : SquareCells gt' := by
    obtain ⟨ht1, ht5⟩ := Basin.same_cells_size hgt
    unfold SquareCells; rw [ht1, ht5]; exact hsq
  obtain ⟨out, lv, depths, extent, h1, r1, p1, hlab, h2, h3, -, level, h5, h6, -, hrows⟩ :=
    complete_levels_rule hcc hsq dem hr hc hs hd hk want f mm hres hnn
  obtain ⟨out', lv', depths', extent', h1', r1', p1', -, h2', h3', -, level', h5', h6', -, hrows'⟩ :=
    complete_levels_rule (gt := gt') hcc hsq' win hr' hc' hs hd hk want f mm hres fun c z hc hz hlt => by
      have hcd := window_has (win := finiteDem win) (dem := finiteDem dem) ⟨hw.inside, fun c hc => congrArg _ (hw.get c hc)⟩ hc
      rw [hw.get c hc] at hlt ⊢
      exact hnn _ _ hcd (p1 _ hcd) (hlt.trans_le (window_spill hw hc (p1 _ hcd) hz))
  refine ⟨out, lv, depths, extent, out', lv', depths', extent', h1, h2, h3, h1', h2', h3', fun S C => ?_⟩
  obtain ⟨o1, o2, point, point', next, next', v, v', spill, spill', q1, q2, R1, R2, key⟩ :=
    Basin.C120_exact hcc hsq hgt hw hr hc hr' hc' hs hd hk want f mm
  obtain rfl : o1 = out := Except.ok.inj (Run.Yields.unique q1 r1)
  obtain rfl : o2 = out' := Except.ok.inj (Run.Yields.unique q2 r1')
  obtain ⟨σ, B, W⟩ := key S C
  have grid : ∀ y, win.Has y → dem.Has (shift o y) := fun y hy =>
    window_has (win := finiteDem win) (dem := finiteDem dem) ⟨hw.inside, fun c hc => congrArg _ (hw.get c hc)⟩ hy
  -- the levels
  have main : ∀ l, SpotIn o1.bluespots.labeled.get o1.bluespots.nlabels S l → level' (σ l) = level l ∧
      ∃ g ∈ lv.levels, ∃ g' ∈ lv'.levels, ∃ v z dz,
        g.properties.get? "bspot_id" = some (.int l) ∧ g'.properties.get? "bspot_id" = some (.int (σ l)) ∧
        HasNumber g "v" v ∧ HasNumber g' "v" v ∧
        g.properties.get? "approx_z" = some (.num z) ∧ g'.properties.get? "approx_z" = some (.num z) ∧
        g.properties.get? "approx_dmax" = some (.num dz) ∧ g'.properties.get? "approx_dmax" = some (.num dz) := by
    intro l hl
    obtain ⟨s1, s2, s3, s4⟩ := B.spots l hl
    obtain ⟨cs, hcs⟩ : ∃ cs, CellsOf win.rows win.cols o2.bluespots.labeled.get (σ l) cs := ⟨_, lists_filter _ _ _⟩
    have hcs' : CellsOf dem.rows dem.cols o1.bluespots.labeled.get l (cs.map (shift o)) := by
      refine ⟨List.pairwise_map.2 (hcs.1.imp fun hab => shift_before.2 hab), fun x => ?_⟩
      rw [List.mem_map]
      constructor
      · rintro ⟨y, hy, rfl⟩
        obtain ⟨y1, y2⟩ := (hcs.2 y).1 hy
        exact ⟨grid y y1, ((s4 y y1).1).1 y2⟩
      · rintro ⟨x1, x2⟩
        obtain ⟨y, hy, rfl⟩ := C.covered x (s3 x x1 (.inl x2)) x x1 (.inl rfl)
        exact ⟨y, (hcs.2 y).2 ⟨hy, ((s4 y hy).1).2 x2⟩, rfl⟩
    have hmap : (cs.map (shift o)).map dem.get = cs.map win.get := by
      rw [List.map_map]
      exact List.map_congr_left fun y hy => (hw.get y ((hcs.2 y).1 hy).1).symm
    obtain ⟨zmin, zmax, sp, a1, a2, a3, f1, hf, g, hg, w, b1, b2, b3, b4, b5, b6, b7, b8, b9, b10⟩ := h5 l _ hl.1 hl.2.1 hcs'
    obtain ⟨zmin', zmax', sp', a1', a2', a3', f1', hf', g', hg', w', b1', b2', b3', b4', b5', b6', b7', b8', b9', b10'⟩ :=
      h5' (σ l) _ s1 s2 hcs
    rw [hmap] at a1 a2 b8
    obtain ⟨-, -, -, ev, -⟩ := W l hl
    obtain ⟨F, hF, hF1, hF2, -⟩ := R1.shown l hl.2.1
    obtain ⟨F', hF', hF1', hF2', -⟩ := R2.shown (σ l) s2
    obtain rfl := b10 F hF hF1
    obtain rfl := b10' F' hF' hF1'
    obtain rfl := hasNumber_unique b5 hF2
    obtain rfl := hasNumber_unique b5' hF2'
    have emin := isMin_unique a1 a1'
    obtain ⟨c0, hc0, -⟩ := List.mem_map.1 a1'.1
    have hc0w := ((hcs.2 c0).1 hc0).1
    have hS0 : S (shift o c0) := s3 _ (grid c0 hc0w) (.inl (((s4 c0 hc0w).1).1 ((hcs.2 c0).1 hc0).2))
    have e1 := isSpillLevel_unique (a3 _ (List.mem_map_of_mem hc0)) (p1 _ (grid c0 hc0w))
    have e2 := isSpillLevel_unique (a3' _ hc0) (p1' _ hc0w)
    have esp : sp' = sp := by rw [e1, e2, (B.terrain c0 hc0w hS0).1]
    rw [esp, harea, ev] at b8'
    have elev : level' (σ l) = level l := b8'.unique hres (List.Perm.refl _) b8
    refine ⟨elev, g, hg, g', hg', v l, level l, level l - zmin, ?_, ?_, ?_, ?_, b6.level, elev ▸ b6'.level, b6.depth, ?_⟩
    · rw [b6.others _ (by decide) (by decide), b4]
    · rw [b6'.others _ (by decide) (by decide), b4']
    · obtain ⟨x, hx, hx'⟩ := b5
      exact ⟨x, by rw [b6.others _ (by decide) (by decide), hx], hx'⟩
    · obtain ⟨x, hx, hx'⟩ := b5'
      exact ⟨x, by rw [b6'.others _ (by decide) (by decide), hx], by rw [hx', ev]⟩
    · rw [b6'.depth, elev, emin]
  refine ⟨σ, B, fun l hl => (main l hl).2, fun y hy hS => ?_⟩
  have hy' : InGrid o2.bluespots.labeled.rows o2.bluespots.labeled.cols y := by rw [hrows'.1, hrows'.2]; exact hy
  have hx' : InGrid o1.bluespots.labeled.rows o1.bluespots.labeled.cols (shift o y) := by
    rw [hrows.1, hrows.2]; exact grid y hy
  obtain ⟨n1, -⟩ := B.labels y hy hS
  have hrange := hlab _ (grid y hy)
  by_cases h0 : o1.bluespots.labeled.get (shift o y) = 0
  · rw [h0] at n1
    have n1 : o2.bluespots.labeled.get y = 0 := by rw [n1]; simp [B.background]
    refine ⟨?_, fun hor => ?_⟩
    · rw [h6'.outside y hy' n1, h6.outside _ hx' h0]
      simp [B.background]
    · have hlow := hor.resolve_left (fun h => h h0)
      rw [h6'.dry y hy' n1 (by rw [hw.get y hy]; exact hlow), h6.dry _ hx' h0 hlow]
  · obtain ⟨l, hl⟩ : ∃ l : Nat, o1.bluespots.labeled.get (shift o y) = l := ⟨_, (Int.toNat_of_nonneg hrange.1).symm⟩
    have hspot : SpotIn o1.bluespots.labeled.get o1.bluespots.nlabels S l := ⟨by omega, by omega, _, hS, hl⟩
    have n2 : o2.bluespots.labeled.get y = σ l := by rw [n1, hl]; rfl
    have h0' : o2.bluespots.labeled.get y ≠ 0 := by
      have := (B.spots l hspot).1
      omega
    have elev := (main l hspot).1
    refine ⟨?_, fun _ => ?_⟩
    · rw [h6'.wet y hy' h0', h6.wet _ hx' h0, hl, n2, elev, hw.get y hy]
      split
      · rfl
      · simp [B.background]
    · rw [h6'.depth y hy' h0', h6.depth _ hx' h0, hl, n2, elev, hw.get y hy]

/-- C121, numbers: whichever way the bluespots are numbered, the `complete` command gives them the same final levels, and floods
the same cells to the same depth. -/
theorem C121_numbers {cc cc' : Raster Bool → Raster Int × Nat} (hcc : LabelContract cc) (hcc' : LabelContract cc')
    {gt : GeoTransform K} (hsq : SquareCells gt) (dem : Raster K) (hr : 2 ≤ dem.rows) (hc : 2 ≤ dem.cols) {short diag k : K}
    (hs : 0 < short) (hd : 0 < diag) (hk : 0 < k) (want : Bool) (f : Bluespots.StatUnits K → Bool) (mm : K) {res : K} (hres : 0 < res)
    (hnn : ∀ c z, dem.Has c → IsSpillLevel dem.rows dem.cols dem.get c z → dem.get c < z → 0 ≤ dem.get c) :
    ∃ out lv depths extent out' lv' depths' extent' σ,
      (Complete.processWithLevels (·.untopD 0) cc (Dem.python exactSub (· * k)) Bluespots.python exactSub (exactSafe short diag) gt
        (finiteDem dem) want (some f) mm res).Yields (.ok (out, lv)) ∧ lv.depths = some depths ∧ lv.extent = some extent ∧
      (Complete.processWithLevels (·.untopD 0) cc' (Dem.python exactSub (· * k)) Bluespots.python exactSub (exactSafe short diag) gt
        (finiteDem dem) want (some f) mm res).Yields (.ok (out', lv')) ∧ lv'.depths = some depths' ∧ lv'.extent = some extent' ∧
      SameButNumbers dem.rows dem.cols σ out out' ∧
      (∀ l, 1 ≤ l → l ≤ out.bluespots.nlabels → ∃ g ∈ lv.levels, ∃ g' ∈ lv'.levels, ∃ v z dz,
        g.properties.get? "bspot_id" = some (.int l) ∧ g'.properties.get? "bspot_id" = some (.int (σ l)) ∧
        HasNumber g "v" v ∧ HasNumber g' "v" v ∧
        g.properties.get? "approx_z" = some (.num z) ∧ g'.properties.get? "approx_z" = some (.num z) ∧
        g.properties.get? "approx_dmax" = some (.num dz) ∧ g'.properties.get? "approx_dmax" = some (.num dz)) ∧
      ∀ c, dem.Has c → extent'.get c = σ (extent.get c).toNat ∧
        (out.bluespots.labeled.get c ≠ 0 ∨ -999 ≤ dem.get c → depths'.get c = depths.get c) := by
  obtain ⟨out, lv, depths, extent, h1, r1, p1, hlab, h2, h3, -, level, h5, h6, -, hrows⟩ :=
    complete_levels_rule hcc hsq dem hr hc hs hd hk want f mm hres hnn
  obtain ⟨out', lv', depths', extent', h1', r1', p1', hlab', h2', h3', -, level', h5', h6', -, hrows'⟩ :=
    complete_levels_rule hcc' hsq dem hr hc hs hd hk want f mm hres hnn
  obtain ⟨o1, o2, σ, point, point', next, next', v, v', spill, spill', q1, q2, R1, R2, N, W⟩ :=
    C111_numbers (exact_sound dem hr hc hs hd hk) hcc hcc' hsq want f mm
  obtain rfl : o1 = out := Except.ok.inj (Run.Yields.unique q1 r1)
  obtain rfl : o2 = out' := Except.ok.inj (Run.Yields.unique q2 r1')
  have main : ∀ l : Nat, 1 ≤ l → l ≤ o1.bluespots.nlabels → 1 ≤ σ l ∧ level' (σ l) = level l ∧
      ∃ g ∈ lv.levels, ∃ g' ∈ lv'.levels, ∃ v z dz,
        g.properties.get? "bspot_id" = some (.int l) ∧ g'.properties.get? "bspot_id" = some (.int (σ l)) ∧
        HasNumber g "v" v ∧ HasNumber g' "v" v ∧
        g.properties.get? "approx_z" = some (.num z) ∧ g'.properties.get? "approx_z" = some (.num z) ∧
        g.properties.get? "approx_dmax" = some (.num dz) ∧ g'.properties.get? "approx_dmax" = some (.num dz) := by
    intro l l1 l2
    have s2 : σ l ≤ o2.bluespots.nlabels := by rw [N.nlabels]; exact N.numbers.range l l2
    have s1 : 1 ≤ σ l := by
      rcases Nat.eq_zero_or_pos (σ l) with h | h
      · have := N.numbers.injective l l2 0 (by omega) (h.trans N.numbers.zero.symm)
        omega
      · exact h
    obtain ⟨cs, hcs⟩ : ∃ cs, CellsOf dem.rows dem.cols o1.bluespots.labeled.get l cs := ⟨_, lists_filter _ _ _⟩
    have hcs' : CellsOf dem.rows dem.cols o2.bluespots.labeled.get (σ l) cs := by
      refine ⟨hcs.1, fun x => (hcs.2 x).trans (and_congr_right fun hx => ?_)⟩
      have hrx := hlab x hx
      show o1.bluespots.labeled.get x = (l : Int) ↔ o2.bluespots.labeled.get x = (σ l : Int)
      rw [N.labeled x hx]
      constructor
      · intro e; rw [e]; rfl
      · intro e
        have := N.numbers.injective _ (by omega) l l2 (Int.ofNat_inj.1 e)
        omega
    obtain ⟨zmin, zmax, sp, a1, a2, a3, f1, hf, g, hg, w, b1, b2, b3, b4, b5, b6, b7, b8, b9, b10⟩ := h5 l _ l1 l2 hcs
    obtain ⟨zmin', zmax', sp', a1', a2', a3', f1', hf', g', hg', w', b1', b2', b3', b4', b5', b6', b7', b8', b9', b10'⟩ :=
      h5' (σ l) _ s1 s2 hcs'
    obtain ⟨-, -, ev, -⟩ := W l l2
    obtain ⟨F, hF, hF1, hF2, -⟩ := R1.shown l l2
    obtain ⟨F', hF', hF1', hF2', -⟩ := R2.shown (σ l) s2
    obtain rfl := b10 F hF hF1
    obtain rfl := b10' F' hF' hF1'
    obtain rfl := hasNumber_unique b5 hF2
    obtain rfl := hasNumber_unique b5' hF2'
    have emin := isMin_unique a1 a1'
    obtain ⟨c0, hc0, -⟩ := List.mem_map.1 a1'.1
    have esp : sp' = sp := isSpillLevel_unique (a3' _ hc0) (a3 _ hc0)
    rw [esp, ev] at b8'
    have elev : level' (σ l) = level l := b8'.unique hres (List.Perm.refl _) b8
    refine ⟨s1, elev, g, hg, g', hg', v l, level l, level l - zmin, ?_, ?_, ?_, ?_, b6.level, elev ▸ b6'.level, b6.depth, ?_⟩
    · rw [b6.others _ (by decide) (by decide), b4]
    · rw [b6'.others _ (by decide) (by decide), b4']
    · obtain ⟨x, hx, hx'⟩ := b5
      exact ⟨x, by rw [b6.others _ (by decide) (by decide), hx], hx'⟩
    · obtain ⟨x, hx, hx'⟩ := b5'
      exact ⟨x, by rw [b6'.others _ (by decide) (by decide), hx], by rw [hx', ev]⟩
    · rw [b6'.depth, elev, emin]
  refine ⟨o1, lv, depths, extent, o2, lv', depths', extent', σ, h1, h2, h3, h1', h2', h3', N, fun l l1 l2 => (main l l1 l2).2.2,
    fun c hc => ?_⟩
  have hc1 : InGrid o1.bluespots.labeled.rows o1.bluespots.labeled.cols c := by rw [hrows.1, hrows.2]; exact hc
  have hc2 : InGrid o2.bluespots.labeled.rows o2.bluespots.labeled.cols c := by rw [hrows'.1, hrows'.2]; exact hc
  have hrange := hlab c hc
  have n1 := N.labeled c hc
  by_cases h0 : o1.bluespots.labeled.get c = 0
  · rw [h0] at n1
    have n1 : o2.bluespots.labeled.get c = 0 := by rw [n1]; simp [N.numbers.zero]
    refine ⟨?_, fun hor => ?_⟩
    · rw [h6'.outside c hc2 n1, h6.outside c hc1 h0]
      simp [N.numbers.zero]
    · have hlow := hor.resolve_left (fun h => h h0)
      rw [h6'.dry c hc2 n1 hlow, h6.dry c hc1 h0 hlow]
  · obtain ⟨l, hl⟩ : ∃ l : Nat, o1.bluespots.labeled.get c = l := ⟨_, (Int.toNat_of_nonneg hrange.1).symm⟩
    have n2 : o2.bluespots.labeled.get c = σ l := by rw [n1, hl]; rfl
    obtain ⟨s1, elev, -⟩ := main l (by omega) (by omega)
    have h0' : o2.bluespots.labeled.get c ≠ 0 := by omega
    refine ⟨?_, fun _ => ?_⟩
    · rw [h6'.wet c hc2 h0', h6.wet c hc1 h0, hl, n2, elev]
      split
      · rfl
      · simp [N.numbers.zero]
    · rw [h6'.depth c hc2 h0', h6.depth c hc1 h0, hl, n2, elev]

/-- The hypotheses, met by the two basins of C120; that the window covers the eastern basin is shown there. -/
example : ∃ cc, LabelContract cc ∧ SquareCells (⟨0, 2, 0, 0, 0, -2⟩ : GeoTransform Rat) ∧
    IsWindow Basin.demoEast Basin.demoTwoBasins (0, 3) ∧ 2 ≤ Basin.demoEast.rows ∧ 2 ≤ Basin.demoEast.cols ∧
    ∀ c z, Basin.demoTwoBasins.Has c → IsSpillLevel Basin.demoTwoBasins.rows Basin.demoTwoBasins.cols Basin.demoTwoBasins.get c z →
      Basin.demoTwoBasins.get c < z → 0 ≤ Basin.demoTwoBasins.get c := by
  obtain ⟨cc, h⟩ := exists_labelContract
  refine ⟨cc, h, by unfold SquareCells; norm_num, ⟨by decide, fun _ _ => rfl⟩, by decide, by decide, fun c z hc _ _ => ?_⟩
  have key : ∀ c ∈ Raster.cellList 5 10, 0 ≤ Basin.demoTwoBasins.get c := by decide +kernel
  exact key c (Flow.mem_cellList.2 hc)

def demoTwoBasinsCC (_ : Raster Bool) : Raster Int × Nat := (Raster.ofRows
  [[0,0,0,0,0,0,0,0,0,0],[0,1,0,0,0,2,0,3,0,0],[0,1,0,0,0,2,0,3,0,0],[0,1,0,0,0,2,0,3,0,0],[0,0,0,0,0,0,0,0,0,0]], 3)

def demoEastCC (_ : Raster Bool) : Raster Int × Nat := (Raster.ofRows
  [[0,0,0,0,0,0,0],[0,0,1,0,2,0,0],[0,0,1,0,2,0,0],[0,0,1,0,2,0,0],[0,0,0,0,0,0,0]], 2)

set_option synthInstance.maxSize 1000 in
/-- The command on the DEM with 1.6 m of rain: the eastern bluespots, 2 and 3, stand at 5 and 4. -/
example : ((Complete.processWithLevels (·.untopD 0) demoTwoBasinsCC (Dem.python exactSub (· * (5/7))) Bluespots.python exactSub
      (exactSafe (1/1000) (7/5000)) ⟨0, 2, 0, 0, 0, -2⟩ (finiteDem Basin.demoTwoBasins) false (some fun _ => true) (1600 : Rat)
        (1/4)).run 400).run.map (fun r => r.toOption.map fun o => (o.2.levels.map fun f =>
          [Dict.get? f.properties "bspot_id", Dict.get? f.properties "v", Dict.get? f.properties "approx_z"],
          o.2.depths.map (·.toRows), o.2.extent.map (·.toRows))) =
    some (some ([[some (.int 0), some (.num 12), some (.num 4)], [some (.int 1), some (.num 36), some (.num 5)],
        [some (.int 3), some (.num 36), some (.num 4)], [some (.int 2), some (.num 36), some (.num 5)]],
      some [[0,0,0,0,0,0,0,0,0,0],[0,3,0,0,0,3,0,3,0,0],[0,3,0,0,0,3,0,3,0,0],[0,3,0,0,0,3,0,3,0,0],[0,0,0,0,0,0,0,0,0,0]],
      some [[0,0,0,0,0,0,0,0,0,0],[0,1,0,0,0,2,0,3,0,0],[0,1,0,0,0,2,0,3,0,0],[0,1,0,0,0,2,0,3,0,0],[0,0,0,0,0,0,0,0,0,0]])) := by
  decide +kernel

set_option synthInstance.maxSize 1000 in
/-- The command on the window: here they are 1 and 2. -/
example : ((Complete.processWithLevels (·.untopD 0) demoEastCC (Dem.python exactSub (· * (5/7))) Bluespots.python exactSub
      (exactSafe (1/1000) (7/5000)) ⟨6, 2, 0, 0, 0, -2⟩ (finiteDem Basin.demoEast) false (some fun _ => true) (1600 : Rat)
        (1/4)).run 400).run.map (fun r => r.toOption.map fun o => (o.2.levels.map fun f =>
          [Dict.get? f.properties "bspot_id", Dict.get? f.properties "v", Dict.get? f.properties "approx_z"],
          o.2.depths.map (·.toRows), o.2.extent.map (·.toRows))) =
    some (some ([[some (.int 0), some (.num 0), some (.num 3)], [some (.int 2), some (.num 36), some (.num 4)],
        [some (.int 1), some (.num 36), some (.num 5)]],
      some [[0,0,0,0,0,0,0],[0,0,3,0,3,0,0],[0,0,3,0,3,0,0],[0,0,3,0,3,0,0],[0,0,0,0,0,0,0]],
      some [[0,0,0,0,0,0,0],[0,0,1,0,2,0,0],[0,0,1,0,2,0,0],[0,0,1,0,2,0,0],[0,0,0,0,0,0,0]])) := by
  decide +kernel

end LevelRule
end Malstroem
