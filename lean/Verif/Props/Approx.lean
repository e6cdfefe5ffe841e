/-
Properties C45, C46 and C63: approximate water levels and flooded extents.
-/
import Verif.Proofs.Flood
import Mathlib.Data.Rat.Floor

set_option linter.unusedSectionVars false

namespace Malstroem
open Spec

variable {K : Type} [Field K] [LinearOrder K] [IsStrictOrderedRing K] [FloorRing K]

/-! ### C45 and C63 -/

section Levels

variable {lab : Raster Int} {dem : Raster K} {gt gt' : GeoTransform K} {pourpoints : List (Feature K)}
  {ids : List Int} {n : Nat} {cells : Nat → List Cell} {zmin zmax spill : Nat → K} {res : K}

/-- C45: run `bluespot_hypsometry_io` on consistent bluespots, with any resolution, then `approx_water_level_io` on any
final volumes. Both succeed, and the level written for a bluespot is a function of its volume that never decreases, lies
between the lowest cell and the spill level, is the lowest cell if there is no water, and the spill level if the bluespot
is full (more than 99.99 %). Only the attributes `approx_z` and `approx_dmax` (level minus lowest ground) are added. -/
theorem C45_levels (hres : 0 < res) (h : IsLevelScene lab dem gt gt' pourpoints ids n cells zmin zmax spill) :
    ∃ hyps, Hyps.hypsometryIo lab gt dem gt' pourpoints res = .ok hyps ∧ ∃ level : Nat → K → K,
      (∀ l, 1 ≤ l → l ≤ n → Monotone (level l) ∧ (∀ v, zmin l ≤ level l v ∧ level l v ≤ spill l) ∧
        (∀ v ≤ 0, level l v = zmin l) ∧
        (∀ v, 9999 / 10000 * waterVolume (cellArea gt) ((cells l).map dem.get) (spill l) < v → level l v = spill l) ∧
        level l (waterVolume (cellArea gt) ((cells l).map dem.get) (spill l)) = spill l) ∧
      ∀ finalvols, IsFinalVolumes n finalvols → ∃ out, Approx.waterLevelIo finalvols hyps = .ok out ∧
        List.Forall₂ (fun f g => ∀ (l : Nat) (v : K), 1 ≤ l → f.properties.get? "bspot_id" = some (.int l) →
            HasNumber f "v" v → IsLevelFeature (.num (level l v)) (.num (level l v - zmin l)) f g)
          (finalvols.filter fun f => f.properties.get? "nodetype" = some (.str "pourpoint")) out := by
  obtain ⟨hyps, h1, level, h2, h3⟩ := levels_run hres h
  refine ⟨hyps, h1, level, fun l hl1 hl2 => ?_, fun finalvols hf => (h3 finalvols hf).imp fun out ho =>
    ⟨ho.1, ho.2.imp fun f g h => h.2⟩⟩
  have g := h2 l hl1 hl2
  refine ⟨g.mono, g.bounds, g.empty, g.full, g.full _ ?_⟩
  have ha : 0 < cellArea gt := mul_pos (abs_pos.2 h.size.1) (abs_pos.2 h.size.2)
  have hlt : zmin l < spill l :=
    lt_of_le_of_lt ((h.min l hl1 hl2).2 _ (h.max l hl1 hl2).1) (h.below_spill l hl1 hl2)
  have hpos := waterVolume_lt ha hlt ⟨_, (h.min l hl1 hl2).1, hlt⟩
  rw [waterVolume_zero (h.min l hl1 hl2).2] at hpos
  linarith

/-- C63, what holds: as long as the water stands at least two bins below the highest ground of the bluespot, the level
written differs from the level at which a horizontal surface holds exactly that volume by at most two bins. Missing:
higher levels, for which this is false (`C63_false`): up to 99.99 % of the capacity the approximate level is never above
the highest ground (`C63_below_highest_ground`). -/
theorem C63_close_partial (hres : 0 < res) (h : IsLevelScene lab dem gt gt' pourpoints ids n cells zmin zmax spill) :
    ∃ hyps, Hyps.hypsometryIo lab gt dem gt' pourpoints res = .ok hyps ∧
      ∀ finalvols, IsFinalVolumes n finalvols → ∃ out, Approx.waterLevelIo finalvols hyps = .ok out ∧
        List.Forall₂ (fun f g => ∀ (l : Nat) (v exact : K), 1 ≤ l → l ≤ n →
            f.properties.get? "bspot_id" = some (.int l) → HasNumber f "v" v →
            waterVolume (cellArea gt) ((cells l).map dem.get) exact = v →
            v ≤ 9999 / 10000 * waterVolume (cellArea gt) ((cells l).map dem.get) (spill l) →
            zmin l ≤ exact → exact ≤ zmax l - 2 * res →
            ∃ z, g.properties.get? "approx_z" = some (.num z) ∧ |z - exact| ≤ 2 * res)
          (finalvols.filter fun f => f.properties.get? "nodetype" = some (.str "pourpoint")) out := by
  obtain ⟨hyps, h1, level, h2, h3⟩ := levels_run hres h
  refine ⟨hyps, h1, fun finalvols hf => ?_⟩
  obtain ⟨out, h4, h5⟩ := h3 finalvols hf
  refine ⟨out, h4, h5.imp fun f g hfg l v L hl1 hl2 hb hv e1 e2 e3 e4 => ?_⟩
  exact ⟨level l v, (hfg.2 l v hl1 hb hv).level, (h2 l hl1 hl2).close v L e1 e2 e3 e4⟩

/-- C63, what holds for every volume up to 99.99 % of the capacity: the level written differs from the exact level, or from
the highest ground of the bluespot if that is lower, by at most four bins. Missing: water above the highest ground is not
seen (`C63_false`). -/
theorem C63_near_partial (hres : 0 < res) (h : IsLevelScene lab dem gt gt' pourpoints ids n cells zmin zmax spill) :
    ∃ hyps, Hyps.hypsometryIo lab gt dem gt' pourpoints res = .ok hyps ∧
      ∀ finalvols, IsFinalVolumes n finalvols → ∃ out, Approx.waterLevelIo finalvols hyps = .ok out ∧
        List.Forall₂ (fun f g => ∀ (l : Nat) (v exact : K), 1 ≤ l → l ≤ n →
            f.properties.get? "bspot_id" = some (.int l) → HasNumber f "v" v →
            waterVolume (cellArea gt) ((cells l).map dem.get) exact = v →
            v ≤ 9999 / 10000 * waterVolume (cellArea gt) ((cells l).map dem.get) (spill l) → zmin l ≤ exact →
            ∃ z, g.properties.get? "approx_z" = some (.num z) ∧ |z - min exact (zmax l)| ≤ 4 * res)
          (finalvols.filter fun f => f.properties.get? "nodetype" = some (.str "pourpoint")) out := by
  obtain ⟨hyps, h1, level, h2, h3⟩ := levels_run hres h
  refine ⟨hyps, h1, fun finalvols hf => ?_⟩
  obtain ⟨out, h4, h5⟩ := h3 finalvols hf
  refine ⟨out, h4, h5.imp fun f g hfg l v L hl1 hl2 hb hv e1 e2 e3 => ?_⟩
  exact ⟨level l v, (hfg.2 l v hl1 hb hv).level, (h2 l hl1 hl2).near hres
    (mul_pos (abs_pos.2 h.size.1) (abs_pos.2 h.size.2)).le e1 e2 e3⟩

/-- The level written for a bluespot that is at most 99.99 % full is not above its highest ground, however far the spill
level is above that. -/
theorem C63_below_highest_ground (hres : 0 < res)
    (h : IsLevelScene lab dem gt gt' pourpoints ids n cells zmin zmax spill) :
    ∃ hyps, Hyps.hypsometryIo lab gt dem gt' pourpoints res = .ok hyps ∧
      ∀ finalvols, IsFinalVolumes n finalvols → ∃ out, Approx.waterLevelIo finalvols hyps = .ok out ∧
        List.Forall₂ (fun f g => ∀ (l : Nat) (v : K), 1 ≤ l → l ≤ n →
            f.properties.get? "bspot_id" = some (.int l) → HasNumber f "v" v →
            v ≤ 9999 / 10000 * waterVolume (cellArea gt) ((cells l).map dem.get) (spill l) →
            ∃ z, g.properties.get? "approx_z" = some (.num z) ∧ zmin l ≤ z ∧ z ≤ zmax l)
          (finalvols.filter fun f => f.properties.get? "nodetype" = some (.str "pourpoint")) out := by
  obtain ⟨hyps, h1, level, h2, h3⟩ := levels_run hres h
  refine ⟨hyps, h1, fun finalvols hf => ?_⟩
  obtain ⟨out, h4, h5⟩ := h3 finalvols hf
  refine ⟨out, h4, h5.imp fun f g hfg l v hl1 hl2 hb hv e => ?_⟩
  exact ⟨level l v, (hfg.2 l v hl1 hb hv).level, ((h2 l hl1 hl2).bounds v).1, (h2 l hl1 hl2).below v e⟩

end Levels

/-! A scene with two bluespots: cells of 4 square metres; bluespot 1 has elevations 1.5, 1.75, 3.1, 2 and spills at 3.5,
bluespot 2 is the single cell of elevation 0 and spills at 10. -/

def levelLab : Raster Int := Raster.ofRows [[0, 1, 1], [0, 1, 1], [2, 0, 0]]
def levelDem : Raster ℚ := Raster.ofRows [[9, 3/2, 7/4], [9, 31/10, 2], [0, 9, 9]]
def levelGt : GeoTransform ℚ := ⟨0, 2, 0, 100, 0, -2⟩
def levelCells : Nat → List Cell
  | 0 => [(0, 0), (1, 0), (2, 1), (2, 2)]
  | 1 => [(0, 1), (0, 2), (1, 1), (1, 2)]
  | _ => [(2, 0)]
def levelMin : Nat → ℚ | 1 => 3/2 | _ => 0
def levelMax : Nat → ℚ | 1 => 31/10 | _ => 0
def levelSpill : Nat → ℚ | 1 => 7/2 | _ => 10

def levelPourpoints : List (Feature ℚ) :=
  [⟨none, .none, [("bspot_id", .int 2), ("bspot_dmax", .num 10), ("bspot_vol", .num 40)]⟩,
   ⟨none, .none, [("bspot_id", .int 0), ("bspot_dmax", .int 0), ("bspot_vol", .int 0)]⟩,
   ⟨none, .none, [("bspot_id", .int 1), ("bspot_dmax", .num 2), ("bspot_vol", .num (113/5)), ("note", .str "x")]⟩]

def levelVolumes : List (Feature ℚ) :=
  [⟨none, .none, [("nodetype", .str "pourpoint"), ("bspot_id", .int 0), ("v", .num 3)]⟩,
   ⟨none, .none, [("nodetype", .str "junction"), ("v", .num 0)]⟩,
   ⟨none, .none, [("nodetype", .str "pourpoint"), ("bspot_id", .int 1), ("v", .num 6)]⟩,
   ⟨none, .none, [("nodetype", .str "pourpoint"), ("bspot_id", .int 2), ("v", .num 20)]⟩]

theorem levelScene : IsLevelScene levelLab levelDem levelGt levelGt levelPourpoints [2, 0, 1] 2 levelCells levelMin
    levelMax levelSpill := by
  have key : ∀ c ∈ Raster.cellList 3 3, 0 ≤ levelLab.get c ∧ levelLab.get c ≤ 2 := by decide +kernel
  have two : ∀ {l : Nat}, 1 ≤ l → l ≤ 2 → l = 1 ∨ l = 2 := by intro l _ _; omega
  refine { shape := ⟨rfl, rfl⟩, same_size := by decide +kernel, size := by decide +kernel, top := ?_, nonneg := ?_,
           cells_of := ?_, min := ?_, max := ?_, above_zero := ?_, below_spill := ?_, has_id := ?_,
           distinct := by decide, all := ?_, bluespot := ?_, background := ?_ }
  · refine .inr ⟨.inl rfl, ⟨(2, 0), by decide, by decide⟩, ?_⟩
    rintro l ⟨c, hc, rfl⟩
    exact (key c (Flow.mem_cellList.2 hc)).2
  · exact fun c hc => (key c (Flow.mem_cellList.2 hc)).1
  · intro l hl
    have : l = 0 ∨ l = 1 ∨ l = 2 := by omega
    rcases this with rfl | rfl | rfl <;> rw [cellsOf_iff] <;> decide +kernel
  · intro l h1 h2
    rcases two h1 h2 with rfl | rfl <;> unfold Spec.IsMin <;> decide +kernel
  · intro l h1 h2
    rcases two h1 h2 with rfl | rfl <;> unfold Spec.IsMax <;> decide +kernel
  · intro l h1 h2
    rcases two h1 h2 with rfl | rfl <;> decide +kernel
  · intro l h1 h2
    rcases two h1 h2 with rfl | rfl <;> decide +kernel
  · exact .cons rfl (.cons rfl (.cons rfl .nil))
  · intro i
    simp only [List.mem_cons, List.not_mem_nil, or_false]
    omega
  · intro f l hl hf
    simp only [levelPourpoints, List.zip_cons_cons, List.zip_nil_left, List.mem_cons, Prod.mk.injEq, List.not_mem_nil,
      or_false] at hf
    rcases hf with ⟨rfl, h⟩ | ⟨rfl, h⟩ | ⟨rfl, h⟩
    · have : l = 2 := by omega
      subst this
      exact ⟨⟨.num 10, rfl, by decide +kernel⟩, ⟨.num 40, rfl, by decide +kernel⟩⟩
    · omega
    · have : l = 1 := by omega
      subst this
      exact ⟨⟨.num 2, rfl, by decide +kernel⟩, ⟨.num (113/5), rfl, by decide +kernel⟩⟩
  · intro f hf
    simp only [levelPourpoints, List.zip_cons_cons, List.zip_nil_left, List.mem_cons, Prod.mk.injEq, List.not_mem_nil,
      or_false] at hf
    rcases hf with ⟨rfl, h⟩ | ⟨rfl, h⟩ | ⟨rfl, h⟩
    · omega
    · exact ⟨⟨.int 0, rfl, .inr ⟨0, by decide +kernel⟩⟩, 0, ⟨.int 0, rfl, by decide +kernel⟩, fun _ => rfl⟩
    · omega

theorem levelVolumes_ok : IsFinalVolumes 2 levelVolumes := by
  constructor
  · intro f hf
    simp only [levelVolumes, List.mem_cons, List.not_mem_nil, or_false] at hf
    rcases hf with rfl | rfl | rfl | rfl
    all_goals exact ⟨_, rfl⟩
  · intro f hf ht
    simp only [levelVolumes, List.mem_cons, List.not_mem_nil, or_false] at hf
    rcases hf with rfl | rfl | rfl | rfl
    · exact ⟨0, 3, by omega, rfl, .num 3, rfl, rfl⟩
    · exact absurd ht (by decide +kernel)
    · exact ⟨1, 6, by omega, rfl, .num 6, rfl, rfl⟩
    · exact ⟨2, 20, by omega, rfl, .num 20, rfl, rfl⟩

/-- Non-vacuity for C45 and C63: bluespot 1 holding 6 cubic metres: exact level 2.25 (at least
two bins of 0.25 below the highest ground), approximate level 2.375. -/
example : ((Hyps.hypsometryIo levelLab levelGt levelDem levelGt levelPourpoints (1/4)).bind fun hyps =>
    (Approx.waterLevelIo levelVolumes hyps).map fun out => out.map fun g =>
      (g.properties.get? "bspot_id", g.properties.get? "approx_z")).toOption =
    some [(some (.int 0), some (.num 9)), (some (.int 1), some (.num (19/8))), (some (.int 2), some (.num 0))] := by
  decide +kernel
example : (9/4 : ℚ) ≤ levelMax 1 - 2 * (1/4) := by decide +kernel
example : waterVolume (cellArea levelGt) ((levelCells 1).map levelDem.get) (9/4) = 6 := by decide +kernel

/-- C63 without the restriction is false: bluespot 2 is half full (20 of 40 cubic metres), a horizontal surface holding
this volume is at level 5, but the level written is 0. -/
theorem C63_false : ∃ hyps out g, Hyps.hypsometryIo levelLab levelGt levelDem levelGt levelPourpoints (1/2) = .ok hyps ∧
    Approx.waterLevelIo levelVolumes hyps = .ok out ∧ g ∈ out ∧ g.properties.get? "bspot_id" = some (.int 2) ∧
    g.properties.get? "v" = some (.num 20) ∧ g.properties.get? "approx_z" = some (.num 0) ∧
    waterVolume (cellArea levelGt) ((levelCells 2).map levelDem.get) 5 = 20 ∧ levelSpill 2 = 10 := by
  have h : ((Hyps.hypsometryIo levelLab levelGt levelDem levelGt levelPourpoints (1/2)).bind fun hyps =>
      (Approx.waterLevelIo levelVolumes hyps).map fun out => (out[2]?).map fun g =>
        (g.properties.get? "bspot_id", g.properties.get? "v", g.properties.get? "approx_z")).toOption =
      some (some (some (.int 2), some (.num 20), some (.num 0))) := by decide +kernel
  cases hr : Hyps.hypsometryIo levelLab levelGt levelDem levelGt levelPourpoints (1/2) with
  | error e => rw [hr] at h; simp [Except.toOption, Except.bind] at h
  | ok hyps =>
    rw [hr] at h
    simp only [Except.bind] at h
    cases ho : Approx.waterLevelIo levelVolumes hyps with
    | error e => rw [ho] at h; simp [Except.toOption, Except.map] at h
    | ok out =>
      rw [ho] at h
      simp only [Except.map, Except.toOption, Option.some.injEq, Option.map_eq_some_iff, Prod.mk.injEq] at h
      obtain ⟨g, h1, h2, h3, h4⟩ := h
      exact ⟨hyps, out, g, rfl, ho, List.mem_of_getElem? h1, h2, h3, h4, by decide +kernel, rfl⟩

/-! ### C46 -/

/-- C46: `approx_bluespots` returns the cells at or below the level of their bluespot and the depths of the water on
them; background cells stay background and have depth 0 if their elevation is not below -999. -/
theorem C46_flooded {lab : Raster Int} {dem : Raster K} {levels : Dict Int K} {background : Int} {m : Nat}
    (hc : Covers levels background m) (hr : LabelsIn lab.rows lab.cols lab.get m) :
    ∃ extent depths, Approx.approxBluespots lab levels dem background = .ok (extent, depths) ∧
      IsFlooded lab dem background (fun l => (levels.get? l).getD 0) extent depths := by
  obtain ⟨values, h1, h2, h3⟩ := labelvaluedict_ok hc (-999 : K)
  obtain ⟨wl, h4, h5⟩ := flood_ok (dem := dem) (background := background)
    (level := fun l => (levels.get? l).getD 0) hr h2 fun i hi => ⟨(h3 i hi).1, fun hb => by
      obtain ⟨z, hz⟩ := hc.has i hi hb
      rw [(h3 i hi).2 hb, hz]; rfl⟩
  refine ⟨_, _, ?_, h5⟩
  unfold Approx.approxBluespots
  rw [h1]
  simp only [bind, Except.bind]
  rw [h4]; rfl

/-- C46 for `approx_bluespots_io`: the same rasters are written, from features whose pour points hold the levels. The
level of the background must be a number, inf or nan, and is not used. -/
theorem C46_flooded_io {lab : Raster Int} {dem : Raster K} {features : List (Feature K)} {background : Int} {m : Nat}
    {kvs : Dict Int (Val K)} {level : Int → K} {want_depths want_labels : Bool}
    (hw : want_depths = true ∨ want_labels = true)
    (ht : ∀ f ∈ features, ∃ t, f.properties.get? "nodetype" = some t)
    (hk : List.Forall₂ (fun f (kv : Int × Val K) => f.properties.get? "bspot_id" = some (.int kv.1) ∧
        f.properties.get? "approx_z" = some kv.2)
      (features.filter fun f => f.properties.get? "nodetype" = some (.str "pourpoint")) kvs)
    (hnd : (kvs.map (·.1)).Nodup) (hnum : ∀ kv ∈ kvs, kv.2 ≠ .none ∧ ∀ s, kv.2 ≠ .str s)
    (hl : ∀ kv ∈ kvs, kv.1 ≠ background → kv.2.float = .ok (level kv.1))
    (hc : Covers kvs background m) (hr : LabelsIn lab.rows lab.cols lab.get m) :
    ∃ extent depths, Approx.approxBluespotsIo lab features dem want_depths want_labels background =
        .ok (if want_depths then some depths else none, if want_labels then some extent else none) ∧
      IsFlooded lab dem background level extent depths := by
  obtain ⟨values, h1, h2, h3⟩ := labelvaluedict_ok hc (.num (-999) : Val K)
  have hv : ∀ x ∈ values, ∃ y, x.float = .ok y := by
    intro x hx
    obtain ⟨i, hi⟩ := List.mem_iff_getElem?.1 hx
    have him : i ≤ m := by have := (List.getElem?_eq_some_iff.1 hi).1; omega
    by_cases hb : (i : Int) = background
    · rw [(h3 i him).1 hb] at hi; cases hi; exact ⟨-999, rfl⟩
    · rw [(h3 i him).2 hb] at hi
      exact ⟨_, hl _ (Dict.mem_of_get? hi) hb⟩
  obtain ⟨nums, n1, n2⟩ := mapM_exists hv
  obtain ⟨wl, h4, h5⟩ := flood_ok (dem := dem) (background := background) (level := level) (values := nums) hr
    (by rw [← n2.length_eq, h2]) fun i hi => by
      constructor
      · intro hb
        obtain ⟨y, e1, e2⟩ := forall₂_get n2 ((h3 i hi).1 hb)
        rw [e1]; exact congrArg some (Except.ok.inj e2).symm
      · intro hb
        obtain ⟨z, hz⟩ := hc.has i hi hb
        obtain ⟨y, e1, e2⟩ := forall₂_get n2 (((h3 i hi).2 hb).trans hz)
        rw [hl _ (Dict.mem_of_get? hz) hb] at e2
        rw [e1]; exact congrArg some (Except.ok.inj e2).symm
  refine ⟨_, _, ?_, h5⟩
  have hfold := fold_levels (f := fun (d : Dict Int (Val K)) (x : Feature K) => do
      let bsid ← Approx.bspotId x
      let z ← (← x.prop "approx_z").pyFloat
      pure (Dict.set d bsid z)) (d := []) (l := features.filter fun f =>
        f.properties.get? "nodetype" = some (.str "pourpoint")) (kvs := kvs) (by
    intro x kv hx d
    obtain ⟨e1, e2⟩ := (List.forall₂_iff_zip.1 hk).2 hx
    unfold Approx.bspotId Feature.prop
    have e3 : kv.2.pyFloat = .ok kv.2 := by
      obtain ⟨k1, k2⟩ := hnum kv (List.of_mem_zip hx).2
      revert k1 k2
      cases kv.2 <;> simp [Val.pyFloat]
    simp only [Dict.getItem_ok.2 e1, Dict.getItem_ok.2 e2, bind, Except.bind, Val.toInt, e3]
    rfl) hk.length_eq (by simpa using hnd)
  unfold Approx.approxBluespotsIo
  rw [if_neg (by rcases hw with h | h <;> simp [h]), pourpointsOf_ok ht]
  simp only [bind, Except.bind, pure, Except.pure] at hfold ⊢
  rw [hfold]
  simp only [List.nil_append, h1, n1, h4]

/-- C46: asking for neither output is an error. -/
theorem C46_nothing (lab : Raster Int) (dem : Raster K) (features : List (Feature K)) (background : Int) :
    ∃ e, Approx.approxBluespotsIo lab features dem false false background = .error e := ⟨.other, by
  unfold Approx.approxBluespotsIo; rfl⟩

/-- C46: the extent is part of the bluespots: a flooded cell has the label it had. -/
theorem C46_shrinks {lab : Raster Int} {dem : Raster K} {background : Int} {level : Int → K} {extent : Raster Int}
    {depths : Raster K} (h : IsFlooded lab dem background level extent depths) (c : Cell)
    (hc : InGrid lab.rows lab.cols c) : extent.get c = lab.get c ∨ extent.get c = background := by
  by_cases hb : lab.get c = background
  · exact .inr (h.outside c hc hb)
  · rw [h.wet c hc hb]
    split
    · exact .inl rfl
    · exact .inr rfl

/-- C46: higher levels flood at least the same cells, at least as deep. -/
theorem C46_monotone {lab : Raster Int} {dem : Raster K} {background : Int} {m : Nat} {levels levels' : Dict Int K}
    (hc : Covers levels background m) (hc' : Covers levels' background m) (hr : LabelsIn lab.rows lab.cols lab.get m)
    (hle : ∀ l z z', levels.get? l = some z → levels'.get? l = some z' → z ≤ z')
    {extent extent' : Raster Int} {depths depths' : Raster K}
    (h : Approx.approxBluespots lab levels dem background = .ok (extent, depths))
    (h' : Approx.approxBluespots lab levels' dem background = .ok (extent', depths')) (c : Cell)
    (hcell : InGrid lab.rows lab.cols c) (hb : lab.get c ≠ background) :
    (extent.get c = lab.get c → extent'.get c = lab.get c) ∧ depths.get c ≤ depths'.get c := by
  obtain ⟨_, _, e1, f⟩ := C46_flooded (dem := dem) hc hr
  rw [h] at e1; cases e1
  obtain ⟨_, _, e1, f'⟩ := C46_flooded (dem := dem) hc' hr
  rw [h'] at e1; cases e1
  obtain ⟨l0, l1⟩ := hr c hcell
  have e : (((lab.get c).toNat : Nat) : Int) = lab.get c := by omega
  obtain ⟨z, hz⟩ := hc.has (lab.get c).toNat (by omega) (by rw [e]; exact hb)
  obtain ⟨z', hz'⟩ := hc'.has (lab.get c).toNat (by omega) (by rw [e]; exact hb)
  rw [e] at hz hz'
  have hzz := hle _ _ _ hz hz'
  rw [f.wet c hcell hb, f'.wet c hcell hb, f.depth c hcell hb, f'.depth c hcell hb]
  simp only [hz, hz', Option.getD_some]
  constructor
  · split
    · rename_i hd
      intro _
      rw [if_pos (hd.trans hzz)]
    · intro he; exact absurd he.symm hb
  · exact max_le_max le_rfl (sub_le_sub_right hzz _)

/-- C46: an elevation below -999 outside the bluespots gives a positive depth there. -/
theorem C46_deep_background : ∃ (lab : Raster Int) (dem : Raster ℚ) (levels : Dict Int ℚ) (extent : Raster Int)
    (depths : Raster ℚ), Covers levels 0 1 ∧ LabelsIn lab.rows lab.cols lab.get 1 ∧
      Approx.approxBluespots lab levels dem 0 = .ok (extent, depths) ∧ lab.get (0, 0) = 0 ∧ dem.get (0, 0) = -1000 ∧
      0 < depths.get (0, 0) := by
  have hc : Covers ([(0, 0), (1, 5)] : Dict Int ℚ) 0 1 := by
    refine ⟨by decide, by decide, fun l hl hb => ?_⟩
    have : l = 1 := by omega
    subst this; exact ⟨5, rfl⟩
  have hr : LabelsIn (Raster.ofRows [[(0 : Int), 1]]).rows (Raster.ofRows [[(0 : Int), 1]]).cols
      (Raster.ofRows [[(0 : Int), 1]]).get ((1 : Nat) : Int) := by
    intro c hc
    have key : ∀ c ∈ Raster.cellList 1 2, 0 ≤ (Raster.ofRows [[(0 : Int), 1]]).get c ∧
      (Raster.ofRows [[(0 : Int), 1]]).get c ≤ 1 := by decide +kernel
    exact key c (Flow.mem_cellList.2 hc)
  have h : ((Approx.approxBluespots (Raster.ofRows [[0, 1]]) [(0, 0), (1, 5)] (Raster.ofRows [[-1000, 2]] : Raster ℚ) 0).map
      fun x => x.2.get (0, 0)).toOption = some 1 := by decide +kernel
  cases hr' : Approx.approxBluespots (Raster.ofRows [[0, 1]]) [(0, 0), (1, 5)] (Raster.ofRows [[-1000, 2]] : Raster ℚ) 0 with
  | error e => rw [hr'] at h; simp [Except.map, Except.toOption] at h
  | ok x =>
    rw [hr'] at h
    simp only [Except.map, Except.toOption, Option.some.injEq] at h
    exact ⟨_, _, _, x.1, x.2, hc, hr, hr', by decide, by decide +kernel, by rw [h]; norm_num⟩

/-- Non-vacuity for C46. -/
example : Covers ([(2, 0), (1, 29/12)] : Dict Int ℚ) 0 2 := by
  refine ⟨by decide, by decide, fun l hl hb => ?_⟩
  have : l = 1 ∨ l = 2 := by omega
  rcases this with rfl | rfl
  · exact ⟨29/12, by decide +kernel⟩
  · exact ⟨0, by decide +kernel⟩
example : ((Approx.approxBluespots levelLab [(2, 0), (1, 29/12)] levelDem 0).map fun x =>
    (x.1.toRows, x.2.toRows)).toOption = some ([[0, 1, 1], [0, 0, 1], [2, 0, 0]],
      [[0, 11/12, 2/3], [0, 0, 5/12], [0, 0, 0]]) := by decide +kernel

end Malstroem
