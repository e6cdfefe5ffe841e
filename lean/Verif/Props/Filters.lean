/-
Property C89: a stricter filter only removes bluespots. Also the part of C22 about the watersheds BluespotTool writes.
-/
import Verif.Props.Label
import Verif.Props.EvenRaster
import Mathlib.Data.List.Sublists

set_option linter.unusedSectionVars false

namespace Malstroem
open Spec

section
variable {K : Type} [Field K] [LinearOrder K] [IsStrictOrderedRing K] {β : Type} [LinearOrder β] [OrderTop β]
variable {cc : Raster Bool → Raster Int × Nat} {eng : Bluespots.Engine β K} {safe : Raster β → (β → β) × (β → β)}
  {gt : GeoTransform K} {depths : Raster K} {flowdir : Raster Nat} {rule : PourPointRule β}

theorem before_asymm {a b : Cell} (h : Before a b) (h' : Before b a) : False := by
  unfold Before at h h'; omega

theorem chooses_unique {cs : List Cell} {x y : Cell} (hx : rule.Chooses cs x) (hy : rule.Chooses cs y) : x = y := by
  cases rule with
  | maxAccum a =>
    obtain ⟨x1, x2, x3⟩ := hx
    obtain ⟨y1, y2, y3⟩ := hy
    have e : a.get x = a.get y := le_antisymm (y2 x x1) (x2 y y1)
    rcases x3 y y1 e.symm with h | h
    · exact h.symm
    · rcases y3 x x1 e with h' | h'
      · exact h'
      · exact (before_asymm h h').elim
  | minFilled d a =>
    obtain ⟨x1, x2, x3⟩ := hx
    obtain ⟨y1, y2, y3⟩ := hy
    have e : a.get x = a.get y := le_antisymm (x2 y y1) (y2 x x1)
    rcases x3 y y1 e.symm with h | h
    · exact h.symm
    · rcases y3 x x1 e with h' | h'
      · exact h'
      · exact (before_asymm h h').elim

/-- Cells of one connected set pass the filter together. -/
theorem passes_connected {rows cols : Nat} {depth : Cell → K} {area : K} {f : Bluespots.StatUnits K → Bool} {a b : Cell}
    (hab : ConnectedIn (fun y => InGrid rows cols y ∧ depth y ≠ 0) a b) (h : Passes rows cols depth area f a) :
    Passes rows cols depth area f b := by
  obtain ⟨cs, u, h1, h2, h3⟩ := h
  refine ⟨cs, u, ⟨h1.1, fun c => ?_⟩, h2, h3⟩
  rw [h1.2 c]
  exact and_congr_right fun _ => ⟨fun h => hab.symm.trans h, fun h => hab.trans h⟩

theorem lists_length_le {rows cols : Nat} {P Q : Cell → Prop} {cs ds : List Cell} (h1 : Lists rows cols P cs)
    (h2 : Lists rows cols Q ds) (h : ∀ c, InGrid rows cols c → P c → Q c) : cs.length ≤ ds.length := by
  have hn : cs.Nodup := h1.1.imp fun hab e => by subst e; exact before_asymm hab hab
  refine (hn.subperm fun c hc => ?_).length_le
  obtain ⟨hc, hp⟩ := (h1.2 c).1 hc
  exact (h2.2 c).2 ⟨hc, h c hc hp⟩

/-- C22, as BluespotTool writes it: the watershed of every bluespot is one connected set of cells. -/
theorem C22_bluespot_watersheds (h : BluespotInput cc eng safe gt depths flowdir rule) (f : Bluespots.StatUnits K → Bool) :
    ∃ out, (Bluespots.process cc eng safe gt depths (some f) flowdir rule.accumArg rule.demArg).Yields (.ok out) ∧
      ∀ a b, depths.Has a → depths.Has b → out.watersheds.get a = out.watersheds.get b → out.watersheds.get a ≠ 0 →
        ConnectedIn (fun x => depths.Has x ∧ out.watersheds.get x = out.watersheds.get a) a b := by
  obtain ⟨out, h1, h2⟩ := bluespot_result h f
  refine ⟨out, h1, fun a b ha hb hab h0 => ?_⟩
  refine C22_watershed_connected depths.rows depths.cols flowdir.get 0 out.labeled.get out.watersheds.get h2.watershed
    (out.watersheds.get a) h0 (fun x y hx hy hlx hly => ?_) a b ha hb rfl hab.symm
  have hx0 : out.labeled.get x ≠ 0 := by rw [hlx]; exact h0
  have hy0 : out.labeled.get y ≠ 0 := by rw [hly]; exact h0
  have hxy := (h2.same x y hx hy hx0 hy0).1 (hlx.trans hly.symm)
  obtain ⟨p, p1, p2, p3, p4⟩ := hxy
  refine ⟨p, p1, p2, p3, fun z hz => ?_⟩
  -- every cell of the path is connected to x, hence passes the filter and has its label
  obtain ⟨hzg, hzw⟩ := p4 z hz
  have hxz : ConnectedIn (fun x => InGrid depths.rows depths.cols x ∧ depths.get x ≠ 0) x z := by
    obtain ⟨s, t, rfl⟩ := List.append_of_mem hz
    refine ⟨s ++ [z], ?_, by simp, ?_, fun w hw => p4 w ?_⟩
    · cases s <;> simpa using p1
    · have : s ++ z :: t = (s ++ [z]) ++ t := by simp
      rw [this] at p3
      exact p3.left_of_append
    · simp only [List.mem_append, List.mem_cons, List.not_mem_nil, or_false] at hw ⊢
      rcases hw with hw | hw
      · exact .inl hw
      · exact .inr (.inl hw)
  have hwx := not_not.1 (fun hn => hx0 ((h2.labelling.background x hx).2 hn))
  have hz0 : out.labeled.get z ≠ 0 := fun h0 =>
    (h2.labelling.background z hzg).1 h0 ⟨hzw, passes_connected hxz hwx.2⟩
  exact ⟨hzg, by rw [← hlx]; exact ((h2.same x z hx hzg hx0 hz0).2 hxz).symm⟩

/-- The results of two runs of BluespotTool with filters of which the first accepts only what the second accepts. -/
theorem stricter_results (hsq : SquareCells gt) {strict loose : Bluespots.StatUnits K → Bool}
    (hsl : ∀ u, strict u = true → loose u = true) {s l : Bluespots.Out K}
    (rs : Bluespots.IsResult gt depths strict flowdir rule.Chooses s)
    (rl : Bluespots.IsResult gt depths loose flowdir rule.Chooses l) :
      s.nlabels ≤ l.nlabels ∧
      ∃ old : Nat → Nat,
        (∀ k, 1 ≤ k → k ≤ s.nlabels → 1 ≤ old k ∧ old k ≤ l.nlabels) ∧
        (∀ k k', 1 ≤ k → k ≤ s.nlabels → 1 ≤ k' → k' ≤ s.nlabels → old k = old k' → k = k') ∧
        (∀ c, depths.Has c → (∀ k, 1 ≤ k → k ≤ s.nlabels → l.labeled.get c ≠ (old k : Int)) → s.labeled.get c = 0) ∧
        ∀ k, 1 ≤ k → k ≤ s.nlabels →
          (∀ c, depths.Has c → (s.labeled.get c = (k : Int) ↔ l.labeled.get c = (old k : Int))) ∧
          (∀ c, depths.Has c → l.watersheds.get c = (old k : Int) → s.watersheds.get c = (k : Int)) ∧
          ∃ p q, s.pourpoints[k]? = some p ∧ l.pourpoints[old k]? = some q ∧
            (p.cell_row, p.cell_col) = (q.cell_row, q.cell_col) ∧ p.coordinates = q.coordinates ∧
            p.bspot_dmax = q.bspot_dmax ∧ p.bspot_area = q.bspot_area ∧ p.bspot_vol = q.bspot_vol ∧
            q.wshed_area ≤ p.wshed_area := by
  classical
  have hmono : ∀ c, depths.Has c → s.labeled.get c ≠ 0 → l.labeled.get c ≠ 0 := by
    intro c hc h0 h1
    obtain ⟨w, cs, u, e1, e2, e3⟩ := not_not.1 (fun hn => h0 ((rs.labelling.background c hc).2 hn))
    exact (rl.labelling.background c hc).1 h1 ⟨w, cs, u, e1, e2, hsl u e3⟩
  have hrep : ∀ k : Nat, ∃ c, 1 ≤ k → k ≤ s.nlabels → depths.Has c ∧ s.labeled.get c = (k : Int) := by
    intro k
    by_cases hk : 1 ≤ k ∧ k ≤ s.nlabels
    · obtain ⟨c, hc⟩ := rs.labelling.used k hk.1 hk.2
      exact ⟨c, fun _ _ => hc⟩
    · exact ⟨(0, 0), fun h1 h2 => absurd ⟨h1, h2⟩ hk⟩
  choose rep hrep using hrep
  have hold : ∀ k, 1 ≤ k → k ≤ s.nlabels → l.labeled.get (rep k) ≠ 0 ∧
      l.labeled.get (rep k) = ((l.labeled.get (rep k)).toNat : Int) ∧ l.labeled.get (rep k) ≤ l.nlabels := by
    intro k h1 h2
    obtain ⟨r1, r2⟩ := hrep k h1 h2
    obtain ⟨r3, r4⟩ := rl.labelling.range _ r1
    exact ⟨hmono _ r1 (by omega), by omega, r4⟩
  have hiff : ∀ k, 1 ≤ k → k ≤ s.nlabels → ∀ c, depths.Has c →
      (s.labeled.get c = (k : Int) ↔ l.labeled.get c = ((l.labeled.get (rep k)).toNat : Int)) := by
    intro k h1 h2 c hc
    obtain ⟨r1, r2⟩ := hrep k h1 h2
    obtain ⟨o1, o2, _⟩ := hold k h1 h2
    rw [← o2, ← r2]
    have hr0 : s.labeled.get (rep k) ≠ 0 := by omega
    constructor
    · intro e
      have hc0 : s.labeled.get c ≠ 0 := by omega
      exact (rl.same c _ hc r1 (hmono c hc hc0) o1).2 ((rs.same c _ hc r1 hc0 hr0).1 e)
    · intro e
      have hcon := (rl.same c _ hc r1 (by rw [e]; exact o1) o1).1 e
      have hw := not_not.1 (fun hn => hr0 ((rs.labelling.background _ r1).2 hn))
      have hc0 : s.labeled.get c ≠ 0 := fun h0 =>
        (rs.labelling.background c hc).1 h0 ⟨hcon.left.2, passes_connected hcon.symm hw.2⟩
      exact (rs.same c _ hc r1 hc0 hr0).2 hcon
  have hinj : ∀ k k', 1 ≤ k → k ≤ s.nlabels → 1 ≤ k' → k' ≤ s.nlabels →
      (l.labeled.get (rep k)).toNat = (l.labeled.get (rep k')).toNat → k = k' := by
    intro k k' h1 h2 h1' h2' e
    obtain ⟨r1, r2⟩ := hrep k h1 h2
    have := (hiff k' h1' h2' _ r1).2 (by rw [← e]; exact (hold k h1 h2).2.1)
    omega
  have hwat : ∀ k, 1 ≤ k → k ≤ s.nlabels → ∀ c, depths.Has c →
      l.watersheds.get c = ((l.labeled.get (rep k)).toNat : Int) → s.watersheds.get c = (k : Int) := by
    intro k h1 h2 c hc e
    have key : ∀ c v, depths.Has c → FirstLabel depths.rows depths.cols flowdir.get l.labeled.get 0 c v →
        v = ((l.labeled.get (rep k)).toNat : Int) →
        FirstLabel depths.rows depths.cols flowdir.get s.labeled.get 0 c (k : Int) := by
      intro c v hc hF
      induction hF with
      | @here c hn =>
        intro e
        have e' := (hiff k h1 h2 c hc).2 e
        have := FirstLabel.here (rows := depths.rows) (cols := depths.cols) (fd := flowdir.get) (lab := s.labeled.get)
          (unassigned := (0 : Int)) (c := c) (by omega)
        rwa [e'] at this
      | @next c d v h0 hst _ ih =>
        intro e
        refine .next ?_ hst (ih hst.2.1 e)
        by_contra hn
        exact hmono c hc hn h0
      | out => intro e; have := (hold k h1 h2); omega
    exact Flow.firstLabel_det (rs.watershed c hc).1 (key c _ hc (rl.watershed c hc).1 e)
  refine ⟨?_, fun k => (l.labeled.get (rep k)).toNat, ?_, hinj, ?_, ?_⟩
  · have := Finset.card_le_card_of_injOn (s := Finset.Icc 1 s.nlabels) (t := Finset.Icc 1 l.nlabels)
      (fun k => (l.labeled.get (rep k)).toNat) (fun k hk => by
        obtain ⟨k1, k2⟩ := Finset.mem_Icc.1 hk
        obtain ⟨o1, o2, o3⟩ := hold k k1 k2
        exact Finset.mem_coe.2 (Finset.mem_Icc.2 (show 1 ≤ (l.labeled.get (rep k)).toNat ∧
          (l.labeled.get (rep k)).toNat ≤ l.nlabels from ⟨by omega, by omega⟩))) (fun k hk k' hk' e => by
        obtain ⟨k1, k2⟩ := Finset.mem_Icc.1 (Finset.mem_coe.1 hk)
        obtain ⟨k1', k2'⟩ := Finset.mem_Icc.1 (Finset.mem_coe.1 hk')
        exact hinj k k' k1 k2 k1' k2' e)
    simpa using this
  · intro k k1 k2
    obtain ⟨o1, o2, o3⟩ := hold k k1 k2
    exact show 1 ≤ (l.labeled.get (rep k)).toNat ∧ (l.labeled.get (rep k)).toNat ≤ l.nlabels from ⟨by omega, by omega⟩
  · intro c hc hno
    by_contra hn
    obtain ⟨g1, g2⟩ := rs.labelling.range c hc
    have hk1 : 1 ≤ (s.labeled.get c).toNat := by omega
    have hk2 : (s.labeled.get c).toNat ≤ s.nlabels := by omega
    exact hno _ hk1 hk2 ((hiff _ hk1 hk2 c hc).1 (by omega))
  · intro k k1 k2
    refine ⟨hiff k k1 k2, hwat k k1 k2, ?_⟩
    obtain ⟨o1, o2, o3⟩ := hold k k1 k2
    set o := (l.labeled.get (rep k)).toNat with ho
    have hcs := lists_filter depths.rows depths.cols (fun c => s.labeled.get c = (k : Int))
    have hcs' : Lists depths.rows depths.cols (fun c => l.labeled.get c = (o : Int)) _ :=
      ⟨hcs.1, fun c => (hcs.2 c).trans (and_congr_right fun hc => hiff k k1 k2 c hc)⟩
    have hws := lists_filter depths.rows depths.cols (fun c => s.watersheds.get c = (k : Int))
    have hws' := lists_filter depths.rows depths.cols (fun c => l.watersheds.get c = (o : Int))
    obtain ⟨p, p1, p2, p3, _⟩ := rs.points k _ _ k2 hcs hws
    obtain ⟨q, q1, q2, q3, _⟩ := rl.points o _ _ (by omega) hcs' hws'
    have hne : (Raster.cellList depths.rows depths.cols).filter (fun c => s.labeled.get c = (k : Int)) ≠ [] :=
      List.ne_nil_of_mem ((hcs.2 (rep k)).2 (hrep k k1 k2))
    have hcell := chooses_unique (p3 hne) (q3 hne)
    refine ⟨p, q, p1, q1, hcell, ?_, (p2.dmax hne).unique (q2.dmax hne), p2.area.trans q2.area.symm,
      p2.vol.trans q2.vol.symm, ?_⟩
    · rw [p2.coordinates, q2.coordinates, hcell]
    · rw [p2.wshed_area, q2.wshed_area]
      exact mul_le_mul_of_nonneg_right (by exact_mod_cast lists_length_le hws' hws (hwat k k1 k2))
        (cellArea_pos hsq).le

/-- C89: take two filters, of which the first accepts only what the second accepts too. Both runs succeed, and every bluespot
of the strict run is a bluespot of the loose run, `old k` being the number it has there: it consists of the same
cells; its watershed contains the one it has in the loose run; its pour point is the same cell with the same
coordinates, maximal depth, area and volume, and its watershed area is not smaller. Different bluespots of the strict run are different in the loose run, so there
are at most as many. A cell of the loose run's bluespots that is in none of these is not labelled. -/
theorem C89_stricter_filter (h : BluespotInput cc eng safe gt depths flowdir rule)
    {strict loose : Bluespots.StatUnits K → Bool} (hsl : ∀ u, strict u = true → loose u = true) :
    ∃ s l, (Bluespots.process cc eng safe gt depths (some strict) flowdir rule.accumArg rule.demArg).Yields (.ok s) ∧
      (Bluespots.process cc eng safe gt depths (some loose) flowdir rule.accumArg rule.demArg).Yields (.ok l) ∧
      s.nlabels ≤ l.nlabels ∧
      ∃ old : Nat → Nat,
        (∀ k, 1 ≤ k → k ≤ s.nlabels → 1 ≤ old k ∧ old k ≤ l.nlabels) ∧
        (∀ k k', 1 ≤ k → k ≤ s.nlabels → 1 ≤ k' → k' ≤ s.nlabels → old k = old k' → k = k') ∧
        (∀ c, depths.Has c → (∀ k, 1 ≤ k → k ≤ s.nlabels → l.labeled.get c ≠ (old k : Int)) → s.labeled.get c = 0) ∧
        ∀ k, 1 ≤ k → k ≤ s.nlabels →
          (∀ c, depths.Has c → (s.labeled.get c = (k : Int) ↔ l.labeled.get c = (old k : Int))) ∧
          (∀ c, depths.Has c → l.watersheds.get c = (old k : Int) → s.watersheds.get c = (k : Int)) ∧
          ∃ p q, s.pourpoints[k]? = some p ∧ l.pourpoints[old k]? = some q ∧
            (p.cell_row, p.cell_col) = (q.cell_row, q.cell_col) ∧ p.coordinates = q.coordinates ∧
            p.bspot_dmax = q.bspot_dmax ∧ p.bspot_area = q.bspot_area ∧ p.bspot_vol = q.bspot_vol ∧
            q.wshed_area ≤ p.wshed_area := by
  obtain ⟨s, hs, rs⟩ := bluespot_result h strict
  obtain ⟨l, hl, rl⟩ := bluespot_result h loose
  exact ⟨s, l, hs, hl, stricter_results h.square hsl rs rl⟩

end

/-! Non-vacuity: a channel that flows east through two bluespots; the filter drops the upper one, whose watershed then
belongs to the lower one. -/

def channelDepths : Raster Rat := Raster.ofRows [[0, 1, 0, 2, 0]]
def channelFlow : Raster Nat := Raster.ofRows [[2, 2, 2, 2, 2]]
def channelCC (r : Raster Bool) : Raster Int × Nat :=
  if r.get (0, 1) then (Raster.ofRows [[0, 1, 0, 2, 0]], 2) else (Raster.ofRows [[0, 0, 0, 1, 0]], 1)
def channelRun (f : Bluespots.StatUnits Rat → Bool) :
    Option (Option (List (List Int) × List (List Int) × List (List Int) × List (List Rat))) :=
  ((Bluespots.process channelCC Bluespots.python (fun _ => (id, id)) ⟨10, 2, 0, 20, 0, -2⟩ channelDepths
      (some f) channelFlow (some (Raster.ofRows [[1, 2, 3, 4, 5]]))
      (none : Option (Raster (WithTop Int)))).run 20).run.map fun r => r.toOption.map fun o =>
    (o.labeled.toRows, o.watersheds.toRows,
      o.pourpoints.map (fun p => [(p.id : Int), p.cell_row, p.cell_col]),
      o.pourpoints.map fun p => [p.bspot_vol, p.wshed_area])

set_option synthInstance.maxSize 1000 in
example : channelRun (fun _ => true) = some (some ([[0, 1, 0, 2, 0]], [[1, 1, 2, 2, 0]],
    [[0, 0, 4], [1, 0, 1], [2, 0, 3]], [[0, 4], [4, 8], [8, 8]])) := by decide +kernel
set_option synthInstance.maxSize 1000 in
example : channelRun (fun u => decide ((1 : WithBot Rat) < u.max)) = some (some ([[0, 0, 0, 1, 0]], [[1, 1, 1, 1, 0]],
    [[0, 0, 4], [1, 0, 3]], [[4, 4], [8, 16]])) := by decide +kernel

theorem channel_drains : ∀ c, channelFlow.Has c → Drains channelFlow.rows channelFlow.cols channelFlow.get c := by
  intro c hc
  have h : ∀ c ∈ Raster.cellList channelFlow.rows channelFlow.cols, drainsIn channelFlow 6 c = true := by decide +kernel
  exact drainsIn_sound channelFlow 6 c (h c (Flow.mem_cellList.2 hc))

example : ∃ cc, BluespotInput (β := WithTop Int) cc Bluespots.python (fun _ => (id, id)) ⟨10, 2, 0, 20, 0, -2⟩
    channelDepths channelFlow (.maxAccum (Raster.ofRows [[1, 2, 3, 4, 5]])) := by
  obtain ⟨cc, h⟩ := exists_labelContract
  refine ⟨cc, h, .inl rfl, ?_, by decide, by decide, channel_drains, by decide, by decide⟩
  unfold SquareCells; norm_num

end Malstroem
