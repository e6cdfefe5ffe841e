import Verif.Proofs.LevelIo
import Verif.Spec.Approx

set_option linter.unusedSectionVars false

namespace Malstroem
open Spec

variable {K : Type} [Field K] [LinearOrder K] [IsStrictOrderedRing K] [FloorRing K]

theorem countIn_perm {zs zs' : List K} (h : zs.Perm zs') (a b : K) : countIn zs a b = countIn zs' a b :=
  (h.filter _).length_eq

/-- The record of a bluespot is determined by the elevations of its cells, in whatever order. -/
theorem Hyps.Describes.unique {res : K} (hres : 0 < res) {zs zs' : List K} (hp : zs.Perm zs') {a b a' b' : K} {s s' : Hyps.Stats K}
    (h : Hyps.Describes res zs a b s) (h' : Hyps.Describes res zs' a' b' s') : s = s' ∧ a = a' ∧ b = b' := by
  have ea : a = a' := le_antisymm (h.min.2 _ (hp.mem_iff.2 h'.min.1)) (h'.min.2 _ (hp.mem_iff.1 h.min.1))
  have eb : b = b' := le_antisymm (h'.max.2 _ (hp.mem_iff.1 h.max.1)) (h.max.2 _ (hp.mem_iff.2 h'.max.1))
  subst ea eb
  obtain ⟨k, hk⟩ := h.multiple
  obtain ⟨k', hk'⟩ := h'.multiple
  have near : ∀ {t : List K} {s : Hyps.Stats K}, Hyps.Describes res t a b s → s.zhistogram.bins.lower_bound ≤ a ∧
      a < s.zhistogram.bins.lower_bound + res := fun {t s} h => by
    obtain ⟨z, hz, hlt⟩ := h.hist.first
    exact ⟨h.hist.lower_le _ h.min.1, lt_of_le_of_lt (h.min.2 z hz) hlt⟩
  have near2 : ∀ {t : List K} {s : Hyps.Stats K}, Hyps.Describes res t a b s → s.zhistogram.bins.upper_bound - res ≤ b ∧
      b < s.zhistogram.bins.upper_bound := fun {t s} h => by
    obtain ⟨z, hz, hlt⟩ := h.hist.last
    exact ⟨le_trans hlt (h.max.2 z hz), h.hist.upper_lt _ h.max.1⟩
  have cmp : ∀ {i j : Int}, (i : K) * res < (j : K) * res + res → i ≤ j := fun {i j} hij => by
    have : (i : K) < (j + 1 : Int) := by
      push_cast
      refine lt_of_mul_lt_mul_right ?_ hres.le
      linarith
    have := Int.cast_lt.1 this
    omega
  have ek : k = k' := by
    have h1 := near h
    have h2 := near h'
    rw [hk] at h1
    rw [hk'] at h2
    exact le_antisymm (cmp (by linarith)) (cmp (by linarith))
  subst ek
  have elow : s.zhistogram.bins.lower_bound = s'.zhistogram.bins.lower_bound := hk.trans hk'.symm
  have elen : s.zhistogram.counts.length = s'.zhistogram.counts.length := by
    have h1 := near2 h
    have h2 := near2 h'
    rw [h.hist.upper_eq] at h1
    rw [h'.hist.upper_eq, ← elow] at h2
    have c1 := cmp (i := s.zhistogram.counts.length) (j := s'.zhistogram.counts.length) (by push_cast; linarith)
    have c2 := cmp (i := s'.zhistogram.counts.length) (j := s.zhistogram.counts.length) (by push_cast; linarith)
    omega
  have ecounts : s.zhistogram.counts = s'.zhistogram.counts := by
    apply List.ext_getElem?
    intro i
    by_cases hi : i < s.zhistogram.counts.length
    · rw [h.hist.count i hi, h'.hist.count i (by omega), countIn_perm hp, elow]
    · rw [List.getElem?_eq_none (by omega), List.getElem?_eq_none (by omega)]
  have eup : s.zhistogram.bins.upper_bound = s'.zhistogram.bins.upper_bound := by
    rw [h.hist.upper_eq, h'.hist.upper_eq, elow, elen]
  refine ⟨?_, rfl, rfl⟩
  have e1 := h.zmin_eq.trans h'.zmin_eq.symm
  have e2 := h.zmax_eq.trans h'.zmax_eq.symm
  have e3 := h.resolution.trans h'.resolution.symm
  have e4 : s.zhistogram.bins.num_bins = s'.zhistogram.bins.num_bins := by rw [h.num_bins, h'.num_bins, elen]
  obtain ⟨⟨c, ⟨n, lo, up, r⟩⟩, zmin, zmax⟩ := s
  obtain ⟨⟨c', ⟨n', lo', up', r'⟩⟩, zmin', zmax'⟩ := s'
  simp only at e1 e2 e3 e4 elow eup ecounts
  subst e1 e2 e3 e4 elow eup ecounts
  rfl

/-- `z` is the level the code gives to a bluespot with ground elevations `zs` that spills at `spill` and holds `v`. -/
def LevelGiven (area res : K) (zs : List K) (spill v z : K) : Prop :=
  ∃ zmin zmax s, Hyps.Describes res zs zmin zmax s ∧
    Approx.waterLevel s area ((spill - zmin : K) : WithBot K) (waterVolume area zs spill) v = .ok (.num z)

theorem LevelGiven.unique {area res : K} (hres : 0 < res) {zs zs' : List K} (hp : zs.Perm zs') {spill v z z' : K}
    (h : LevelGiven area res zs spill v z) (h' : LevelGiven area res zs' spill v z') : z = z' := by
  obtain ⟨a, b, s, h1, h2⟩ := h
  obtain ⟨a', b', s', h1', h2'⟩ := h'
  obtain ⟨rfl, rfl, rfl⟩ := h1.unique hres hp h1'
  have e : waterVolume area zs spill = waterVolume area zs' spill := (hp.map _).sum_eq
  rw [e, h2'] at h2
  cases h2
  rfl

/-- What the levels of one bluespot do as the volume grows. -/
structure GoodLevels (area res : K) (zs : List K) (zmin zmax spill : K) (level : K → K) : Prop where
  mono : Monotone level
  bounds : ∀ v, zmin ≤ level v ∧ level v ≤ spill
  empty : ∀ v ≤ 0, level v = zmin
  full : ∀ v, 9999 / 10000 * waterVolume area zs spill < v → level v = spill
  below : ∀ v, v ≤ 9999 / 10000 * waterVolume area zs spill → level v ≤ zmax
  close : ∀ v L, waterVolume area zs L = v → v ≤ 9999 / 10000 * waterVolume area zs spill → zmin ≤ L →
    L ≤ zmax - 2 * res → |level v - L| ≤ 2 * res
  given : ∀ v, LevelGiven area res zs spill v (level v)

theorem GoodLevels.near {area res : K} {zs : List K} {zmin zmax spill : K} {level : K → K}
    (g : GoodLevels area res zs zmin zmax spill level) (hres : 0 < res) (ha : 0 ≤ area) {v L : K}
    (hL : waterVolume area zs L = v) (hv : v ≤ 9999 / 10000 * waterVolume area zs spill) (hzL : zmin ≤ L) :
    |level v - min L zmax| ≤ 4 * res := by
  rcases le_total L (zmax - 2 * res) with h | h
  · rw [min_eq_left (by linarith)]
    exact le_trans (g.close v L hL hv hzL h) (by linarith)
  · have hhi := g.below v hv
    have hlow : zmax - 4 * res ≤ level v := by
      rcases le_total zmin (zmax - 2 * res) with h' | h'
      · have hle : waterVolume area zs (zmax - 2 * res) ≤ v := by rw [← hL]; exact waterVolume_mono ha h zs
        have h1 := (abs_le.1 (g.close _ _ rfl (le_trans hle hv) h' le_rfl)).1
        have h2 := g.mono hle
        linarith
      · have := (g.bounds v).1
        linarith
    have h1 : min L zmax ≤ zmax := min_le_right _ _
    have h2 : zmax - 2 * res ≤ min L zmax := le_min h (by linarith)
    rw [abs_le]
    constructor <;> linarith

theorem float_floatBot {x : Val K} {y : K} (h : x.float = .ok y) : x.floatBot = .ok ((y : K) : WithBot K) := by
  cases x <;> simp_all [Val.floatBot, Val.float, Except.map]

theorem levels_run {lab : Raster Int} {dem : Raster K} {gt gt' : GeoTransform K} {pourpoints : List (Feature K)}
    {ids : List Int} {n : Nat} {cells : Nat → List Cell} {zmin zmax spill : Nat → K} {res : K} (hres : 0 < res)
    (h : IsLevelScene lab dem gt gt' pourpoints ids n cells zmin zmax spill) :
    ∃ hyps, Hyps.hypsometryIo lab gt dem gt' pourpoints res = .ok hyps ∧ ∃ level : Nat → K → K,
      (∀ l, 1 ≤ l → l ≤ n →
        GoodLevels (cellArea gt) res ((cells l).map dem.get) (zmin l) (zmax l) (spill l) (level l)) ∧
      ∀ finalvols, IsFinalVolumes n finalvols → ∃ out, Approx.waterLevelIo finalvols hyps = .ok out ∧
        List.Forall₂ (fun f g => (∃ z dz, IsLevelFeature z dz f g) ∧ ∀ (l : Nat) (v : K), 1 ≤ l →
            f.properties.get? "bspot_id" = some (.int l) →
            HasNumber f "v" v → IsLevelFeature (.num (level l v)) (.num (level l v - zmin l)) f g)
          (finalvols.filter fun f => f.properties.get? "nodetype" = some (.str "pourpoint")) out := by
  have ha : 0 < cellArea gt := mul_pos (abs_pos.2 h.size.1) (abs_pos.2 h.size.2)
  have hle : LabelsIn lab.rows lab.cols lab.get n := by
    intro c hc
    refine ⟨h.nonneg c hc, ?_⟩
    rcases h.top with ⟨h0, _⟩ | ⟨_, h0⟩
    · simp at h0
    · exact h0.2 ⟨c, hc, rfl⟩
  have htop : TopLabel lab.rows lab.cols lab.get (some (n : Int)) n := by
    rcases h.top with ⟨h0, _⟩ | ⟨_, h0⟩
    · simp at h0
    · by_cases hn : (n : Int) = 0
      · exact .inr ⟨.inr (by rw [hn]), h0⟩
      · exact .inl ⟨rfl, hn⟩
  have hused : ∀ l : Nat, l ≤ n → (l : Int) ≠ 0 → ∃ c, InGrid lab.rows lab.cols c ∧ lab.get c = l := by
    intro l hl h0
    obtain ⟨c, hc, _⟩ := List.mem_map.1 (h.min l (by omega) hl).1
    exact ⟨c, ((h.cells_of l hl).2 c).1 hc⟩
  obtain ⟨items, hi1, hi2, hi3⟩ := hypsometryStats_ok hres ⟨h.shape.1.symm, h.shape.2.symm⟩ htop hle hused
  have hdesc : ∀ l, 1 ≤ l → l ≤ n → ∃ s, items[l]? = some ((l : Int), s) ∧
      Hyps.Describes res ((cells l).map dem.get) (zmin l) (zmax l) s := by
    intro l h1 h2
    obtain ⟨s, e1, _, e2⟩ := hi3 l _ h2 (h.cells_of l h2)
    exact ⟨s, e1, (e2 (by omega) _ _ (h.min l h1 h2) (h.max l h1 h2)).2 (h.above_zero l h1 h2)⟩
  have hback : ∃ s, items[0]? = some ((0 : Int), s) ∧ Hyps.IsBackground ((cells 0).map dem.get) s := by
    obtain ⟨s, e1, e2, _⟩ := hi3 0 _ (by omega) (h.cells_of 0 (by omega))
    exact ⟨s, e1, e2 rfl⟩
  have hlen : items.length = n + 1 := by simpa using congrArg List.length hi2
  have hvalid : ∀ x ∈ items, (x.2.zhistogram.counts.length : Int) = x.2.zhistogram.bins.num_bins := by
    intro x hx
    obtain ⟨l, hl⟩ := List.mem_iff_getElem?.1 hx
    have hln : l ≤ n := by have := (List.getElem?_eq_some_iff.1 hl).1; omega
    by_cases h0 : l = 0
    · subst h0
      obtain ⟨s, e1, e2⟩ := hback
      rw [hl] at e1; cases e1
      rw [e2.1]; rfl
    · obtain ⟨s, e1, e2⟩ := hdesc l (by omega) hln
      rw [hl] at e1; cases e1
      exact e2.num_bins.symm
  have hnodup : (items.map (·.1)).Nodup := by
    rw [hi2]
    exact List.Nodup.map (fun a b hab => by simpa using hab) List.nodup_range
  have hget : ∀ (l : Nat) s, items[l]? = some ((l : Int), s) → Dict.get? items (l : Int) = some s := by
    intro l s hs
    exact Dict.get?_of_mem hnodup (List.mem_of_getElem? hs)
  obtain ⟨hyps, hh1, hh2⟩ := hypsometryIo_ok hres h.shape h.same_size h.top h.has_id h.distinct h.all hi1 hi2 hvalid
  refine ⟨hyps, hh1, ?_⟩
  -- the levels
  have hlev : ∀ l, ∃ level : K → K, 1 ≤ l → l ≤ n →
      GoodLevels (cellArea gt) res ((cells l).map dem.get) (zmin l) (zmax l) (spill l) level ∧
      ∀ s, items[l]? = some ((l : Int), s) → ∀ v, Approx.waterLevel s (cellArea gt)
        ((spill l - zmin l : K) : WithBot K) (waterVolume (cellArea gt) ((cells l).map dem.get) (spill l)) v =
        .ok (.num (level v)) := by
    intro l
    by_cases hl : 1 ≤ l ∧ l ≤ n
    · obtain ⟨s, e1, e2⟩ := hdesc l hl.1 hl.2
      obtain ⟨level, a1, a2, a3, a4, a5, a6, a7⟩ := waterLevel_spec hres ha e2
        (fun z hz => lt_of_le_of_lt ((h.max l hl.1 hl.2).2 z hz) (h.below_spill l hl.1 hl.2))
      refine ⟨level, fun _ _ => ⟨⟨a2, a3, a4, a5, a6, a7, fun v => ⟨_, _, s, e2, a1 v⟩⟩, fun s' hs' v => ?_⟩⟩
      rw [e1] at hs'; cases hs'
      exact a1 v
    · exact ⟨fun v => v, fun h1 h2 => absurd ⟨h1, h2⟩ hl⟩
  choose level hlevel using hlev
  refine ⟨level, fun l h1 h2 => (hlevel l h1 h2).1, fun finalvols hf => ?_⟩
  -- the hypsometry features
  have hidlen : ids.length = pourpoints.length := h.has_id.length_eq.symm
  have hhlen : hyps.length = ids.length := by
    have := hh2.length_eq
    rw [List.length_zip] at this; omega
  have hhg : ∀ (k : Nat) (i : Int) (g : Feature K), ids[k]? = some i → hyps[k]? = some g →
      ∃ f s, (f, i) ∈ pourpoints.zip ids ∧ f.properties.get? "bspot_id" = some (.int i) ∧ Dict.get? items i = some s ∧
        IsHypsFeature (cellArea gt) s f g := by
    intro k i g hk1 hk2
    have hkl : k < pourpoints.length := by have := (List.getElem?_eq_some_iff.1 hk1).1; omega
    have hz : (pourpoints.zip ids)[k]? = some (pourpoints[k], i) := by
      rw [List.getElem?_zip_eq_some]
      exact ⟨List.getElem?_eq_getElem hkl, hk1⟩
    obtain ⟨g', e1, s, e2, e3⟩ := forall₂_get hh2 hz
    rw [hk2] at e1; cases e1
    obtain ⟨i', e4, e5⟩ := forall₂_get h.has_id (List.getElem?_eq_getElem hkl)
    rw [hk1] at e4; cases e4
    exact ⟨_, s, List.mem_of_getElem? hz, e5, e2, e3⟩
  have hids : List.Forall₂ (fun (g : Feature K) (i : Int) => g.properties.get? "bspot_id" = some (.int i)) hyps ids := by
    rw [List.forall₂_iff_get]
    refine ⟨hhlen, fun k h1 h2 => ?_⟩
    obtain ⟨f, s, _, e2, _, e4⟩ := hhg k ids[k] hyps[k] (List.getElem?_eq_getElem h2) (List.getElem?_eq_getElem h1)
    simp only [List.get_eq_getElem]
    rw [e4.others _ (by decide)]
    exact e2
  have hzip : ∀ (i : Int) (g : Feature K), (i, g) ∈ ids.zip hyps →
      ∃ f s, (f, i) ∈ pourpoints.zip ids ∧ Dict.get? items i = some s ∧ IsHypsFeature (cellArea gt) s f g := by
    intro i g hg
    obtain ⟨k, hk⟩ := List.mem_iff_getElem?.1 hg
    rw [List.getElem?_zip_eq_some] at hk
    obtain ⟨f, s, e1, _, e3, e4⟩ := hhg k i g hk.1 hk.2
    exact ⟨f, s, e1, e3, e4⟩
  have hnum : ∀ {f g : Feature K} {s : Hyps.Stats K} {name : String} {x : K}, IsHypsFeature (cellArea gt) s f g →
      name ∉ hypsKeys → HasNumber f name x → HasNumber g name x := by
    rintro f g s name x hg hn ⟨y, h1, h2⟩
    exact ⟨y, by rw [hg.others _ hn]; exact h1, h2⟩
  have hmain := waterLevelIo_ok (finalvols := finalvols) hids h.distinct hf.nodetype (by
    intro f hfm hft
    obtain ⟨l, v, e1, e2, e3⟩ := hf.pourpoint f hfm hft
    have hmem : (l : Int) ∈ ids := (h.all l).2 ⟨by omega, by omega⟩
    obtain ⟨k, hk, hkl⟩ := List.getElem_of_mem hmem
    have hkh : k < hyps.length := by omega
    have hg : ((l : Int), hyps[k]) ∈ ids.zip hyps := by
      refine List.mem_of_getElem? (i := k) ?_
      rw [List.getElem?_zip_eq_some]
      exact ⟨by rw [List.getElem?_eq_getElem hk, hkl], List.getElem?_eq_getElem hkh⟩
    refine ⟨l, v, e2, e3, hyps[k], hg, ?_⟩
    obtain ⟨f', s, f1, f2, f3⟩ := hzip _ _ hg
    by_cases h0 : l = 0
    · subst h0
      obtain ⟨⟨x, b1, b2⟩, vol, b3, b4⟩ := h.background f' f1
      obtain ⟨d, hd⟩ : ∃ d, x.floatBot = .ok d := by
        rcases b2 with rfl | ⟨y, hy⟩
        · exact ⟨⊥, rfl⟩
        · exact ⟨_, float_floatBot hy⟩
      obtain ⟨s', c1, c2⟩ := hback
      have := hget 0 _ c1
      rw [show ((0 : Nat) : Int) = 0 from rfl] at this f2
      rw [this] at f2; cases f2
      obtain ⟨z, hz⟩ := background_level c2 (cellArea gt) vol v d (fun hz => b4 (by simpa using hz))
      exact ⟨s, cellArea gt, x, d, vol, z, f3.stats, f3.area, by rw [f3.others _ (by decide)]; exact b1, hd,
        hnum f3 (by decide) b3, hz⟩
    · obtain ⟨b1, b2⟩ := h.bluespot f' l (by omega) f1
      obtain ⟨s', c1, _⟩ := hdesc l (by omega) e1
      have := hget l _ c1
      rw [this] at f2; cases f2
      obtain ⟨x, x1, x2⟩ := b1
      exact ⟨s, cellArea gt, x, _, _, _, f3.stats, f3.area, by rw [f3.others _ (by decide)]; exact x1,
        float_floatBot x2, hnum f3 (by decide) b2, (hlevel l (by omega) e1).2 s c1 v⟩)
  obtain ⟨out, ho1, ho2⟩ := hmain
  refine ⟨out, ho1, ?_⟩
  refine List.Forall₂.imp (fun f g hfg => ?_) ((List.forall₂_and_left _ _).2 ⟨fun f hfm => hfm, ho2⟩)
  obtain ⟨hfm, hfg⟩ := hfg
  rw [List.mem_filter] at hfm
  obtain ⟨l', v', e1, e2, _⟩ := hf.pourpoint f hfm.1 (by simpa using hfm.2)
  constructor
  · have hmem : (l' : Int) ∈ ids := (h.all l').2 ⟨by omega, by omega⟩
    obtain ⟨k, hk, hkl⟩ := List.getElem_of_mem hmem
    have hkh : k < hyps.length := by omega
    have hg : ((l' : Int), hyps[k]) ∈ ids.zip hyps := by
      refine List.mem_of_getElem? (i := k) ?_
      rw [List.getElem?_zip_eq_some]
      exact ⟨by rw [List.getElem?_eq_getElem hk, hkl], List.getElem?_eq_getElem hkh⟩
    obtain ⟨s, z, _, r2, _⟩ := hfg l' hyps[k] e2 hg
    exact ⟨_, _, r2⟩
  intro l v h1 hb hv
  rw [e2] at hb
  have hll : l' = l := by simpa using hb
  subst hll
  have hmem : (l' : Int) ∈ ids := (h.all l').2 ⟨by omega, by omega⟩
  obtain ⟨k, hk, hkl⟩ := List.getElem_of_mem hmem
  have hkh : k < hyps.length := by omega
  have hg : ((l' : Int), hyps[k]) ∈ ids.zip hyps := by
    refine List.mem_of_getElem? (i := k) ?_
    rw [List.getElem?_zip_eq_some]
    exact ⟨by rw [List.getElem?_eq_getElem hk, hkl], List.getElem?_eq_getElem hkh⟩
  obtain ⟨s, z, r1, r2, r3⟩ := hfg l' hyps[k] e2 hg
  obtain ⟨f', s', f1, f2, f3⟩ := hzip _ _ hg
  obtain ⟨s'', c1, c2⟩ := hdesc l' h1 e1
  have hgs := hget l' _ c1
  rw [hgs] at f2
  have e := Option.some.inj f2
  have e' : s = s' := by
    have := f3.stats; rw [r1] at this; exact Except.ok.inj this
  subst e e'
  obtain ⟨b1, b2⟩ := h.bluespot f' l' h1 f1
  obtain ⟨x, x1, x2⟩ := b1
  have hz := r3 (cellArea gt) x _ _ v f3.area (by rw [f3.others _ (by decide)]; exact x1) (float_floatBot x2)
    (hnum f3 (by decide) b2) hv
  rw [(hlevel l' h1 e1).2 s c1 v] at hz
  cases hz
  have hd : Approx.approxDmax (.num (level l' v)) s.zmin = .num (level l' v - zmin l') := by
    rw [c2.zmin_eq]; rfl
  rw [← hd]
  exact r2

end Malstroem
