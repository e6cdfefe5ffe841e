/-
The sequence of subcommands compared with `complete`.
-/
import Verif.Model.Scripts
import Verif.Proofs.BluespotsRun

set_option linter.unusedSectionVars false

namespace Malstroem
open Spec

theorem Run.bind_ok {α γ : Type} {x : Run α} {f : α → Run γ} {n : Nat} {b : γ} :
    (x >>= f) n = some (.ok b) ↔ ∃ a, x n = some (.ok a) ∧ f a n = some (.ok b) := by
  show (ExceptT.bind (x n) (fun a => f a n) : ExceptT PyErr Option γ) = _ ↔ _
  unfold ExceptT.bind ExceptT.mk
  constructor
  · intro h
    cases hx : x n with
    | none => rw [hx] at h; cases h
    | some r =>
      rw [hx] at h
      cases r with
      | error e => cases h
      | ok a => exact ⟨a, rfl, h⟩
  · rintro ⟨a, ha, hb⟩
    rw [ha]
    exact hb

theorem Run.pure_ok {α : Type} {a b : α} {n : Nat} : (pure a : Run α) n = some (.ok b) ↔ a = b := by
  show some (Except.ok a) = some (Except.ok b) ↔ _
  simp

theorem Run.ofExcept_ok {α : Type} {x : Except PyErr α} {n : Nat} {b : α} :
    Run.ofExcept x n = some (.ok b) ↔ x = .ok b := by
  show some x = _ ↔ _
  simp

theorem Run.ofFuel_ok {α : Type} {x : Nat → Option (Except PyErr α)} {n : Nat} {b : α} :
    Run.ofFuel x n = some (.ok b) ↔ x n = some (.ok b) := Iff.rfl

theorem Run.map_ok {α γ : Type} {x : Run α} {f : α → γ} {n : Nat} {b : γ} :
    (f <$> x) n = some (.ok b) ↔ ∃ a, x n = some (.ok a) ∧ f a = b := by
  rw [← bind_pure_comp, Run.bind_ok]
  simp only [Run.pure_ok]

theorem Run.fail_ok {α : Type} {e : PyErr} {n : Nat} {b : α} : ¬ (Run.fail e : Run α) n = some (.ok b) := by
  show ¬ some (Except.error e) = _
  simp

namespace Scripts
variable {K : Type} [Field K] [LinearOrder K] [IsStrictOrderedRing K] {β : Type} [LinearOrder β] [OrderTop β]

/-- The labelling looks at the cells of the raster only. -/
def CellsOnly (cc : Raster Bool → Raster Int × Nat) : Prop := ∀ a b, a.Same b → cc a = cc b

theorem dem_iff {eng : Dem.Engine β K} {sub : β → β → K} {safe : Raster β → (β → β) × (β → β)} {want : Bool} {dem : Raster β}
    {n : Nat} {d : Dem.Out β K} : Dem.process eng sub safe true want dem n = some (.ok d) ↔
      ∃ filled nf, eng.fillTerrain dem n = some (.ok filled) ∧
        eng.fillTerrainNoFlats (safe dem).1 (safe dem).2 dem n = some (.ok nf) ∧
        ∃ acc, (if want then some <$> accum eng (Flow.terrainFlowdirection eng.drop eng.scale nf true) else pure none : Run _) n =
            some (.ok acc) ∧
          d = ⟨filled, Dem.depths sub filled dem, nf, Flow.terrainFlowdirection eng.drop eng.scale nf true, acc⟩ := by
  unfold Dem.process
  rw [if_neg (by simp)]
  rcases h1 : eng.fillTerrain dem n with _ | (e | filled)
  · simp
  · simp
  simp only [Option.some.injEq, Except.ok.injEq, exists_and_left, exists_eq_left']
  rcases h2 : eng.fillTerrainNoFlats (safe dem).1 (safe dem).2 dem n with _ | (e | nf)
  · simp
  · simp
  simp only [Option.some.injEq, Except.ok.injEq, exists_eq_left']
  cases want
  · simp only [Bool.false_eq_true, if_false, Run.pure_ok]
    simp [eq_comm]
  · simp only [if_true, Run.map_ok, accum, Run.ofFuel_ok]
    rcases h3 : eng.accumulatedFlow (Flow.terrainFlowdirection eng.drop eng.scale nf true) n with _ | (e | acc)
    · simp
    · simp
    · simp [eq_comm]

variable {eng : Bluespots.Engine β K} {fl : K → K}

theorem stats_resolve (heng : Bluespots.IsEngineFl fl eng) {data : Raster K} {lab : Raster Int} {st : List (Label.Stat K)}
    (h : eng.labelStats data lab none = .ok st) : 0 < lab.rows ∧ 0 < lab.cols := by
  have key : ∃ k, Label.resolve lab none = .ok k := by
    cases hr : Label.resolve lab none with
    | ok k => exact ⟨k, rfl⟩
    | error e =>
      rcases heng with rfl | ⟨junk, rfl⟩
      · simp [Bluespots.pythonFl, Label.labelStatsFl, hr, bind, Except.bind] at h
      · simp [Bluespots.compiledFl, LabelCython.labelStatsFl, hr, bind, Except.bind] at h
  obtain ⟨k, hk⟩ := key
  unfold Label.resolve Label.npMax at hk
  simp only at hk
  cases hc : lab.cells.map lab.get with
  | nil => rw [hc] at hk; cases hk
  | cons x xs =>
    have hne : lab.cells ≠ [] := by intro h0; rw [h0] at hc; cases hc
    obtain ⟨c, hc⟩ := List.exists_mem_of_ne_nil _ hne
    obtain ⟨h1, h2, h3, h4⟩ := Flow.mem_cellList.1 hc
    omega

theorem minIndex_eq (heng : Bluespots.IsEngineFl fl eng) {data : Raster β} {lab : Raster Int} {k : Option Int}
    (h : Label.resolve lab k = Label.resolve lab none) : eng.labelMinIndex data lab k = eng.labelMinIndex data lab none := by
  rcases heng with rfl | ⟨junk, rfl⟩
  · simp [Bluespots.pythonFl, Label.labelMinIndex, h]
  · simp [Bluespots.compiledFl, LabelCython.labelMinIndex, h]

theorem bspots_iff {cc : Raster Bool → Raster Int × Nat} (hcc : LabelContract cc) (hco : CellsOnly cc)
    (heng : Bluespots.IsEngine eng) {gt : GeoTransform K} {depths : Raster K} (hr : 0 < depths.rows) (hc : 0 < depths.cols)
    {filter : Option (Bluespots.StatUnits K → Bool)} {n : Nat} {L : Raster Int} :
    bspots cc eng gt depths filter n = some (.ok L) ↔
      ∃ raw keep, eng.labelStats depths (Bluespots.connectedComponents cc depths).1 none = .ok raw ∧
        Label.keepLabels (Bluespots.connectedComponents cc depths).1
          (Bluespots.filterbluespots (filter.getD fun _ => true) (|gt.t1| * |gt.t5|) raw) 0 = .ok keep ∧ (cc keep).1 = L := by
  cases filter with
  | some f =>
    simp only [bspots, Run.bind_ok, Run.ofExcept_ok, Run.pure_ok, Option.getD_some, exists_and_left]
  | none =>
    simp only [bspots, Run.pure_ok, Option.getD_none]
    obtain ⟨raw, keep, h1, h2, k1, k2, k3, _⟩ := Bluespots.filter_ok hcc heng (|gt.t1| * |gt.t5|) depths hr hc fun _ => true
    have hsame : cc keep = Bluespots.connectedComponents cc depths := by
      refine hco _ _ ⟨k1, k2, fun c hc => ?_⟩
      have hc' : depths.Has c := by
        show InGrid depths.rows depths.cols c
        rw [← k1, ← k2]; exact hc
      have : keep.get c = true ↔ depths.get c ≠ 0 := by
        rw [k3 c hc']
        refine ⟨fun h => h.1, fun h => ⟨h, ?_⟩⟩
        classical
        refine ⟨_, _, lists_filter _ _ _, Bluespots.stat_isStats id depths _ ?_, rfl⟩
        refine List.ne_nil_of_mem (a := c) (List.mem_filter.2 ⟨Flow.mem_cellList.2 hc', ?_⟩)
        simpa using ConnectedIn.refl ⟨hc', h⟩
      rw [Bool.eq_iff_iff, this]
      simp
    constructor
    · rintro rfl
      exact ⟨raw, keep, h1, h2, by rw [hsame]⟩
    · rintro ⟨raw', keep', e1, e2, rfl⟩
      rw [h1] at e1; cases e1
      rw [h2] at e2; cases e2
      rw [hsame]

theorem bluespots_iff {cc : Raster Bool → Raster Int × Nat} (hcc : LabelContract cc) (hco : CellsOnly cc)
    (heng : Bluespots.IsEngine eng) {safe : Raster β → (β → β) × (β → β)} {gt : GeoTransform K} (hsq : SquareCells gt)
    {depths : Raster K} {filter : Option (Bluespots.StatUnits K → Bool)} {flowdir : Raster Nat} {acc : Option (Raster Int)}
    {dem : Raster β} {file : ElevFile β} (hdem : acc.isSome ∨ file.read none = dem) {n : Nat} {L W : Raster Int}
    {P : List (Bluespots.PourPoint K)} :
    (∃ b, Bluespots.process cc eng safe gt depths (some (filter.getD fun _ => true)) flowdir acc (some dem) n =
        some (.ok b) ∧ b.labeled = L ∧ b.watersheds = W ∧ b.pourpoints = P) ↔
      bspots cc eng gt depths filter n = some (.ok L) ∧ wsheds eng L flowdir n = some (.ok W) ∧
        pourpts eng safe gt L depths W (some file) acc n = some (.ok P) := by
  have hshape : ∀ keep : Raster Bool, ∀ raw st f, Label.keepLabels (Bluespots.connectedComponents cc depths).1
      (Bluespots.filterbluespots f (|gt.t1| * |gt.t5|) raw) 0 = .ok keep → eng.labelStats depths (cc keep).1 none = .ok st →
      (0 < depths.rows ∧ 0 < depths.cols) ∧
        Label.resolve (cc keep).1 (some ((cc keep).2 : Int)) = Label.resolve (cc keep).1 none := by
    intro keep raw st f hk hs
    have hpos := stats_resolve heng hs
    obtain ⟨e1, e2, hL⟩ := hcc keep
    have hL' : IsLabelling (cc keep).1.rows (cc keep).1.cols (fun c => keep.get c = true) (cc keep).1.get (cc keep).2 := by
      rw [e1, e2]; exact hL
    refine ⟨?_, by rw [Label.resolve_ok (hL'.topLabel hpos.1 hpos.2), Label.resolve_ok (hL'.topLabel' hpos.1 hpos.2)]⟩
    obtain ⟨c1, c2, _⟩ := hcc { rows := depths.rows, cols := depths.cols, get := fun c => depths.get c ≠ 0 }
    change (Bluespots.connectedComponents cc depths).1.rows = depths.rows at c1
    change (Bluespots.connectedComponents cc depths).1.cols = depths.cols at c2
    have : keep.rows = depths.rows ∧ keep.cols = depths.cols := by
      unfold Label.keepLabels at hk
      split at hk
      · cases hk
      · simp only at hk
        split at hk
        · cases hk; exact ⟨c1, c2⟩
        · cases hk
    omega
  have hpos : bspots cc eng gt depths filter n = some (.ok L) → ∀ st, eng.labelStats depths L none = .ok st →
      0 < depths.rows ∧ 0 < depths.cols := by
    intro h st hs
    cases filter with
    | some f =>
      simp only [bspots, Run.bind_ok, Run.ofExcept_ok, Run.pure_ok] at h
      obtain ⟨raw, _, keep, hk, rfl⟩ := h
      exact (hshape keep raw st f hk hs).1
    | none =>
      simp only [bspots, Run.pure_ok] at h
      have := stats_resolve heng hs
      rw [← h] at this
      obtain ⟨c1, c2, _⟩ := hcc { rows := depths.rows, cols := depths.cols, get := fun c => depths.get c ≠ 0 }
      change (Bluespots.connectedComponents cc depths).1.rows = depths.rows at c1
      change (Bluespots.connectedComponents cc depths).1.cols = depths.cols at c2
      omega
  have hsq' := Bluespots.square_assert (fl := id) hsq
  unfold Bluespots.process Bluespots.processFl
  rw [if_neg (by simp)]
  simp only
  rw [if_neg hsq']
  cases acc with
  | some acc =>
    simp only [pourpts, wsheds, Run.bind_ok, Run.ofExcept_ok, Run.ofFuel_ok, Run.pure_ok, Option.isNone_some,
      Bool.false_eq_true, false_and, if_false]
    constructor
    · rintro ⟨b, ⟨raw, h1, keep, h2, st, h3, ws, h4, ct, h5, pix, h6, rfl⟩, rfl, rfl, rfl⟩
      obtain ⟨hp, hres⟩ := hshape keep raw st _ h2 h3
      refine ⟨(bspots_iff hcc hco heng hp.1 hp.2).2 ⟨raw, keep, h1, h2, rfl⟩, h4, st, h3, pix, ?_, ct, h5, rfl⟩
      rw [← h6]
      simp only [Label.labelMaxIndex, hres]
    · rintro ⟨h1, h4, st, h3, pix, h6, ct, h5, rfl⟩
      obtain ⟨hr, hc⟩ := hpos h1 st h3
      obtain ⟨raw, keep, hraw, h2, rfl⟩ := (bspots_iff hcc hco heng hr hc).1 h1
      obtain ⟨hp, hres⟩ := hshape keep raw st _ h2 h3
      refine ⟨_, ⟨raw, hraw, keep, h2, st, h3, W, h4, ct, h5, pix, ?_, rfl⟩, rfl, rfl, rfl⟩
      rw [← h6]
      simp only [Label.labelMaxIndex, hres]
  | none =>
    rcases hdem with h | hdem
    · cases h
    simp only [pourpts, wsheds, Run.bind_ok, Run.ofExcept_ok, Run.ofFuel_ok, Run.pure_ok, Option.isNone_some,
      Bool.false_eq_true, and_false, if_false, hdem]
    constructor
    · rintro ⟨b, ⟨raw, h1, keep, h2, st, h3, ws, h4, ct, h5, nf, h6, pix, h7, rfl⟩, rfl, rfl, rfl⟩
      obtain ⟨hp, hres⟩ := hshape keep raw st _ h2 h3
      refine ⟨(bspots_iff hcc hco heng hp.1 hp.2).2 ⟨raw, keep, h1, h2, rfl⟩, h4, st, h3, nf, h6, pix, ?_, ct, h5, rfl⟩
      rw [← h7, minIndex_eq heng hres]
    · rintro ⟨h1, h4, st, h3, nf, h6, pix, h7, ct, h5, rfl⟩
      obtain ⟨hr, hc⟩ := hpos h1 st h3
      obtain ⟨raw, keep, hraw, h2, rfl⟩ := (bspots_iff hcc hco heng hr hc).1 h1
      obtain ⟨hp, hres⟩ := hshape keep raw st _ h2 h3
      refine ⟨_, ⟨raw, hraw, keep, h2, st, h3, W, h4, ct, h5, nf, h6, pix, ?_, rfl⟩, rfl, rfl, rfl⟩
      rw [← h7, minIndex_eq heng hres]

theorem sequence_iff [FloorRing K] {elev : β → K} {cc : Raster Bool → Raster Int × Nat} (hcc : LabelContract cc)
    (hco : CellsOnly cc) {demEngine : Dem.Engine β K} (heng : Bluespots.IsEngine eng) {sub : β → β → K}
    {safe : Raster β → (β → β) × (β → β)} {subst : β} {near : β → Bool} {gt : GeoTransform K} (hsq : SquareCells gt)
    {dem : ElevFile β} {with_accum : Bool} (hdem : with_accum = true ∨ dem.read none = dem.read (some subst))
    {filter : Option (Bluespots.StatUnits K → Bool)} {mm zresolution : K} (hmm : mm ≠ 0)
    (hnear : ∀ n r, demEngine.fillTerrain (dem.read (some subst)) n = some (.ok r) →
      ∀ c, near (r.get c) = true → r.get c = subst) {n : Nat} {files : Files β K} :
    complete elev cc demEngine eng sub safe subst gt dem with_accum filter mm zresolution n = some (.ok files) ↔
      sequence elev cc demEngine eng sub safe subst near gt dem with_accum filter mm zresolution n = some (.ok files) := by
  have hsq' : Complete.squareCells gt = true := by unfold Complete.squareCells Complete.squareCellsFl; exact decide_eq_true hsq
  have hback : ∀ r, demEngine.fillTerrain (dem.read (some subst)) n = some (.ok r) →
      (⟨r, some near⟩ : ElevFile β).read (some subst) = r := by
    intro r hr
    show ({ r with get := fun c => if near (r.get c) then subst else r.get c } : Raster β) = r
    have : (fun c => if near (r.get c) then subst else r.get c) = r.get := by
      funext c
      split
      · rename_i h; exact (hnear n r hr c h).symm
      · rfl
    rw [this]
  have hvol : ∀ nodes : List (Feature K), initvolumes nodes (some mm) none .mm none "inputv" =
      Rain.simpleVolumes nodes "inputv" mm := by
    intro nodes
    simp [initvolumes, Option.filter, hmm]
  unfold complete sequence Complete.processWithLevels Complete.processAll Complete.processAllFl
  simp only [Run.bind_ok, Run.ofFuel_ok, Run.ofExcept_ok, Run.pure_ok, hsq', dem_iff, filled, flowdir, network, hyps,
    finalvolumes, finallevels, finalbluespots, hvol]
  constructor
  · rintro ⟨_, ⟨_, ⟨d, ⟨fl, nf, h1, h2, acc, h3, rfl⟩, b, h4, s, h5, vol, h6, fin, h7, rfl⟩, hy, h8, lv, h9, fd, h10, rfl⟩,
      rfl⟩
    have hacc : acc.isSome ∨ dem.read none = dem.read (some subst) := by
      rcases hdem with rfl | h
      · simp only [if_true, Run.map_ok] at h3
        obtain ⟨a, _, rfl⟩ := h3
        exact .inl rfl
      · exact .inr h
    obtain ⟨h11, h12, h13⟩ := (bluespots_iff hcc hco heng hsq hacc).1 ⟨b, h4, rfl, rfl, rfl⟩
    refine ⟨_, ⟨fl, h1, rfl⟩, _, ⟨nf, h2, rfl⟩, acc, h3, b.labeled, ?_, b.watersheds, h12, b.pourpoints, ?_, s, h5, hy, h8, vol, h6, fin,
      h7, lv, h9, fd, ?_, ?_⟩
    · simp only [depths, hback fl h1]; exact h11
    · simp only [depths, hback fl h1]; exact h13
    · rw [if_neg (by simp), Run.ofExcept_ok]; exact h10
    · simp only [depths, hback fl h1]
  · rintro ⟨_, ⟨fl, h1, rfl⟩, _, ⟨nf, h2, rfl⟩, acc, h3, L, h11, W, h12, P, h13, s, h5, hy, h8, vol, h6, fin,
      h7, lv, h9, fd, h10, rfl⟩
    have hacc : acc.isSome ∨ dem.read none = dem.read (some subst) := by
      rcases hdem with rfl | h
      · simp only [if_true, Run.map_ok] at h3
        obtain ⟨a, _, rfl⟩ := h3
        exact .inl rfl
      · exact .inr h
    simp only [depths, hback fl h1] at h11 h13 ⊢
    rw [if_neg (by simp), Run.ofExcept_ok] at h10
    obtain ⟨b, h4, rfl, rfl, rfl⟩ := (bluespots_iff hcc hco heng hsq hacc).2 ⟨h11, h12, h13⟩
    exact ⟨_, ⟨_, ⟨_, ⟨fl, nf, h1, h2, acc, h3, rfl⟩, b, h4, s, h5, vol, h6, fin, h7, rfl⟩, hy, h8, lv, h9, fd, h10, rfl⟩, rfl⟩

end Scripts
end Malstroem
