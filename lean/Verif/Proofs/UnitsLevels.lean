import Verif.Proofs.Units
import Verif.Proofs.HypsIo

set_option linter.unusedSectionVars false

namespace Malstroem
open Spec

theorem pyGet_map {α α' : Type} (q : α → α') (l : List α) (i : Int) : pyGet (l.map q) i = q <$> pyGet l i := by
  unfold pyGet
  rw [List.length_map]
  rcases pyIdx l.length i with _ | k
  · rfl
  · simp only [List.getElem?_map]
    rcases l[k]? with _ | x <;> rfl

namespace Label

theorem dataLoop_map {α α' : Type} (q : α → α') (data : Raster α) (labelled : Raster Int) (background : Int) :
    ∀ (cs : List Cell) (l : List (List α)), dataLoop (data.map q) labelled background cs (l.map (List.map q)) =
      List.map (List.map q) <$> dataLoop data labelled background cs l
  | [], l => rfl
  | c :: cs, l => by
    simp only [dataLoop, List.length_map]
    split_ifs
    · exact dataLoop_map q data labelled background cs l
    · rcases pyIdx l.length (labelled.get c) with _ | i
      · rfl
      · simp only
        rw [← dataLoop_map q data labelled background cs]
        congr 1
        apply List.ext_getElem?
        intro j
        simp only [List.getElem?_map, List.getElem?_modify, Raster.map_get]
        rcases l[j]? with _ | x
        · simp
        · by_cases hij : i = j <;> simp [hij]

theorem labelData_map {α α' : Type} (q : α → α') (data : Raster α) (labelled : Raster Int) (nlabels : Option Int) (background : Int) :
    labelData (data.map q) labelled nlabels background = List.map (List.map q) <$> labelData data labelled nlabels background := by
  unfold labelData
  rw [map_bind]
  refine congrArg _ (funext fun n => ?_)
  rw [← dataLoop_map]
  congr 1
  simp [emptyLists]

end Label

namespace Hyps
variable {K : Type} [Field K] [LinearOrder K] [IsStrictOrderedRing K] [FloorRing K]

/-- Hypsometry in new units, `a` to an old one; `b` says that the resolution stays as it is. -/
def Stats.times (a : K) (b : Bool) (h : Stats K) : Stats K :=
  ⟨⟨h.zhistogram.counts, ⟨h.zhistogram.bins.num_bins, a * h.zhistogram.bins.lower_bound, a * h.zhistogram.bins.upper_bound,
    if b then h.zhistogram.bins.resolution else a * h.zhistogram.bins.resolution⟩⟩, h.zmin.map (a * ·), h.zmax.map (a * ·)⟩

/-- A histogram without bins. -/
def Stats.empty (h : Stats K) : Bool := h.zhistogram.bins.num_bins = 0

theorem histogramBins_times {a : K} (ha : 0 < a) (zmin zmax res : K) :
    histogramBins (a * zmin) (a * zmax) (a * res) =
      let b := histogramBins zmin zmax res
      ⟨b.num_bins, a * b.lower_bound, a * b.upper_bound, a * res⟩ := by
  have h : ∀ z : K, a * z * (1 / (a * res)) = z * (1 / res) := by
    intro z
    rw [mul_one_div, mul_one_div, mul_div_mul_left _ _ ha.ne']
  unfold histogramBins histogramBinsFl
  simp only [id, h, BinsInfo.mk.injEq, true_and, and_true]
  constructor <;> ring

theorem npHistogram_times {a : K} (ha : 0 < a) (data : List K) (bins : Int) {lo hi : K} (hlt : 1 ≤ bins → lo < hi) :
    npHistogram (data.map (a * ·)) bins (a * lo) (a * hi) = npHistogram data bins lo hi := by
  unfold npHistogram
  by_cases hb : bins < 1
  · rw [if_pos hb, if_pos hb]
  · have h := hlt (by omega)
    have h' : a * lo < a * hi := mul_lt_mul_of_pos_left h ha
    rw [if_neg hb, if_neg hb, if_neg h.le.not_gt, if_neg h'.le.not_gt, if_neg h.ne, if_neg h'.ne]
    simp only
    congr 1
    refine List.map_congr_left fun i _ => ?_
    rw [List.filter_map, List.length_map]
    congr 2
    refine List.filter_congr fun x _ => ?_
    have e : (a * x - a * lo) * (bins : K) / (a * hi - a * lo) = (x - lo) * (bins : K) / (hi - lo) := by
      rw [← mul_sub, ← mul_sub, mul_assoc, mul_div_mul_left _ _ ha.ne']
    simp only [Function.comp, e, mul_le_mul_iff_right₀ ha]

theorem histogram_empty_error {data : List K} {bins : Int} {lo hi : K} {c : List Int} (h : npHistogram data bins lo hi = .ok c) :
    bins ≠ 0 := by
  rintro rfl
  unfold npHistogram at h
  rw [if_pos (by omega)] at h
  cases h

theorem labelHypsometry_times {a : K} (ha : 0 < a) {res : K} (hres : 0 < res) (background label : Int) (st : Label.Stat K)
    (data : List K) :
    labelHypsometry (a * res) background label (st.times a) (data.map (a * ·)) =
      (fun h => h.times a h.empty) <$> labelHypsometry res background label st data := by
  unfold labelHypsometry labelHypsometryFl
  by_cases hb : label = background
  · rw [if_pos hb, if_pos hb]
    simp [Stats.times, Stats.empty, Label.Stat.times, Functor.map, Except.map]
  · rw [if_neg hb, if_neg hb]
    obtain ⟨zmin, zmax, sum, count⟩ := st
    simp only [Label.Stat.times]
    cases zmin using WithTop.recTopCoe with
    | top => rfl
    | coe zmin => cases zmax using WithBot.recBotCoe with
      | bot => rfl
      | coe zmax =>
        show (npHistogram (data.map (a * ·)) (histogramBinsFl id (a * zmin) (a * zmax) (a * res)).num_bins _ _ >>= fun counts => _) =
          _ <$> (npHistogram data _ _ _ >>= _)
        have hlt : 1 ≤ (histogramBins zmin zmax res).num_bins →
            (histogramBins zmin zmax res).lower_bound < (histogramBins zmin zmax res).upper_bound := by
          intro h
          have h1 : (1 : K) ≤ ((histogramBins zmin zmax res).num_bins : K) := by exact_mod_cast h
          have h2 : (histogramBins zmin zmax res).upper_bound =
              (histogramBins zmin zmax res).lower_bound + ((histogramBins zmin zmax res).num_bins : K) * res := rfl
          rw [h2]
          have : 0 < ((histogramBins zmin zmax res).num_bins : K) * res := mul_pos (by linarith) hres
          linarith
        rw [show (histogramBinsFl id (a * zmin) (a * zmax) (a * res)) = _ from histogramBins_times ha zmin zmax res]
        simp only [npHistogram_times ha data _ hlt]
        rcases hh : npHistogram data (histogramBins zmin zmax res).num_bins (histogramBins zmin zmax res).lower_bound
          (histogramBins zmin zmax res).upper_bound with e | c
        · rfl
        · have hne := histogram_empty_error hh
          show Except.ok _ = Except.ok _
          simp only [Stats.times, Stats.empty, hne, decide_false, Bool.false_eq_true, if_false]
          rfl

theorem hypsometryStats_times {a : K} (ha : 0 < a) {res : K} (hres : 0 < res) (lab : Raster Int) (dem : Raster K) (m : Int) (bg : Int) :
    hypsometryStats lab (dem.map (a * ·)) (a * res) (some m) bg =
      List.map (Prod.map id fun h => h.times a h.empty) <$> hypsometryStats lab dem res (some m) bg := by
  unfold hypsometryStats hypsometryStatsFl
  simp only [pure_bind, map_bind, Label.labelStats_times ha (fun x => rfl : ∀ x : K, id (a * x) = a * id x), Label.labelData_map,
    bind_map_left]
  refine congrArg _ (funext fun st => congrArg _ (funext fun data => ?_))
  rw [List.zipIdx_map]
  refine mapM_commutes (Prod.map (List.map (a * ·)) id) (Prod.map id fun h : Stats K => h.times a h.empty) _ fun x _ => ?_
  simp only [Prod.map, id, pyGet_map, bind_map_left, map_bind, map_pure]
  refine congrArg _ (funext fun s => ?_)
  have := labelHypsometry_times ha hres bg (x.2 : Int) s x.1
  unfold labelHypsometry at this
  rw [this, bind_map_left]

end Hyps

namespace Spec.UnitChange
variable {K : Type} [Field K] [LinearOrder K] [IsStrictOrderedRing K] (u : UnitChange K)

/-- The attributes, each changed according to its name. -/
def mapKV (φ : String → Val K → Val K) (p : Props K) : Props K := p.map fun kv => (kv.1, φ kv.1 kv.2)

theorem get?_mapKV (φ : String → Val K → Val K) (p : Props K) (k : String) : Dict.get? (mapKV φ p) k = (Dict.get? p k).map (φ k) := by
  induction p with
  | nil => rfl
  | cons kv p ih =>
    simp only [mapKV, List.map_cons, Dict.get?] at ih ⊢
    split_ifs with h
    · subst h; rfl
    · exact ih

theorem getItem_mapKV (φ : String → Val K → Val K) (p : Props K) (k : String) :
    Dict.getItem (mapKV φ p) k = φ k <$> Dict.getItem p k := by
  unfold Dict.getItem
  rw [get?_mapKV]
  rcases Dict.get? p k with _ | v <;> rfl

theorem set_mapKV (φ : String → Val K → Val K) (p : Props K) (k : String) (v : Val K) :
    Dict.set (mapKV φ p) k (φ k v) = mapKV φ (Dict.set p k v) := by
  induction p with
  | nil => rfl
  | cons kv p ih =>
    simp only [mapKV, List.map_cons, Dict.set] at ih ⊢
    split_ifs with h
    · subst h; rfl
    · simp only [List.map_cons, ih]

theorem set_mapKV_congr {φ ψ : String → Val K → Val K} {k : String} (h : ∀ k', k' ≠ k → φ k' = ψ k') {p : Props K}
    (hp : (p.map (·.1)).Nodup) (v : Val K) : Dict.set (mapKV φ p) k v = Dict.set (mapKV ψ p) k v := by
  induction p with
  | nil => rfl
  | cons kv p ih =>
    rw [List.map_cons, List.nodup_cons] at hp
    simp only [mapKV, List.map_cons, Dict.set] at ih ⊢
    split_ifs with h1
    · refine congrArg _ (List.map_congr_left fun x hx => ?_)
      rw [h x.1]
      rintro rfl
      exact hp.1 (List.mem_map.2 ⟨x, hx, h1.symm⟩)
    · rw [ih hp.2, h kv.1 h1]

/-- What becomes of an attribute; `b` says that the resolution stays as it is. -/
def rule (b : Bool) (k : String) (v : Val K) : Val K := if b = true ∧ k = "hist_resolution" then v else value (u.factor k) v

theorem rule_ne (b : Bool) {k : String} (h : k ≠ "hist_resolution") : u.rule b k = value (u.factor k) := by
  funext v
  simp [rule, h]

theorem rule_resolution (b : Bool) (x : K) :
    u.rule b "hist_resolution" (.num x) = .num (if b then x else u.height * x) := by
  cases b <;> simp [rule, u.factor_hist_resolution, value]

theorem rule_false : u.rule false = fun k => value (u.factor k) := by
  funext k v
  simp [rule]

theorem hypsFeature_eq (f : Feature K) : u.hypsFeature f =
    ⟨f.id, u.geometry f.geometry, mapKV (u.rule (decide (Dict.get? f.properties "hist_num_bins" = some (.int 0)))) f.properties⟩ := by
  unfold hypsFeature
  split_ifs with h
  · simp only [h, mapKV, rule, decide_true, true_and]
  · simp only [h, decide_false, rule_false]
    rfl

end Spec.UnitChange

theorem foldlM_commutes_inv {ε α α' β β' : Type} {f : β → α → Except ε β} {f' : β' → α' → Except ε β'} (p : α → α') (q : β → β')
    (P : β → Prop) (h : ∀ s x, P s → f' (q s) (p x) = q <$> f s x) (hP : ∀ s x s', P s → f s x = .ok s' → P s') :
    ∀ (l : List α) (s : β), P s → (l.map p).foldlM f' (q s) = q <$> l.foldlM f s
  | [], s, _ => by simp
  | x :: l, s, hs => by
    rw [List.map_cons, List.foldlM_cons, List.foldlM_cons, h s x hs]
    rcases hfx : f s x with e | s'
    · rfl
    · exact foldlM_commutes_inv p q P h hP l s' (hP s x s' hs hfx)

namespace Hyps
variable {K : Type} [Field K] [LinearOrder K] [IsStrictOrderedRing K] [FloorRing K] (u : UnitChange K)

/-- No attribute twice in any feature. -/
def Distinct (d : Dict Int (Feature K)) : Prop := ∀ kv ∈ d, (kv.2.properties.map (·.1)).Nodup

theorem keys_nodup_set {κ ν : Type} [DecidableEq κ] {d : Dict κ ν} (h : (d.map (·.1)).Nodup) (k : κ) (v : ν) :
    ((Dict.set d k v).map (·.1)).Nodup := by
  rw [Dict.keys_set]
  split_ifs with hk
  · exact h
  · exact List.nodup_append.2 ⟨h, by simp, by rintro a ha b hb rfl; rw [List.mem_singleton] at hb; exact hk (hb ▸ ha)⟩

/-- How `zmin` is written. -/
def topVal : WithTop K → Val K
  | ⊤ => .inf
  | (x : K) => .num x

/-- How `zmax` is written. -/
def botVal : WithBot K → Val K
  | ⊥ => .ninf
  | (x : K) => .num x

theorem toFlatdict_eq (h : Stats K) : toFlatdict h =
    [("hist_counts", .str (String.ofList (pyJoin '|' (h.zhistogram.counts.map pyStr)))),
     ("hist_num_bins", .int h.zhistogram.bins.num_bins), ("hist_lower_bound", .num h.zhistogram.bins.lower_bound),
     ("hist_upper_bound", .num h.zhistogram.bins.upper_bound), ("hist_resolution", .num h.zhistogram.bins.resolution),
     ("zmin", topVal h.zmin), ("zmax", botVal h.zmax)] := by
  obtain ⟨_, zmin, zmax⟩ := h
  cases zmin using WithTop.recTopCoe <;> cases zmax using WithBot.recBotCoe <;> rfl

theorem topVal_map (a : K) (z : WithTop K) : topVal (z.map (a * ·)) = UnitChange.value (some a) (topVal z) := by
  cases z using WithTop.recTopCoe <;> rfl

theorem botVal_map (a : K) (z : WithBot K) : botVal (z.map (a * ·)) = UnitChange.value (some a) (botVal z) := by
  cases z using WithBot.recBotCoe <;> rfl

theorem addProps_units (area : K) (h : Stats K) {p : Props K} (hp : (p.map (·.1)).Nodup) (b : Bool) :
    Dict.set ((toFlatdict (h.times u.height h.empty)).foldl (fun d (kv : String × Val K) => Dict.set d kv.1 kv.2)
        (UnitChange.mapKV (u.rule b) p)) "cell_area" (.num (u.area * area)) =
      UnitChange.mapKV (u.rule h.empty)
        (Dict.set ((toFlatdict h).foldl (fun d (kv : String × Val K) => Dict.set d kv.1 kv.2) p) "cell_area" (.num area)) := by
  obtain ⟨⟨counts, ⟨nb, lo, hi, res⟩⟩, zmin, zmax⟩ := h
  set e := Stats.empty (⟨⟨counts, ⟨nb, lo, hi, res⟩⟩, zmin, zmax⟩ : Stats K) with he
  have st : ∀ (b : Bool) (q : Props K) (k : String) (v : Val K), k ≠ "hist_resolution" →
      Dict.set (UnitChange.mapKV (u.rule b) q) k (UnitChange.value (u.factor k) v) = UnitChange.mapKV (u.rule b) (Dict.set q k v) := by
    intro b q k v hk
    rw [← UnitChange.set_mapKV, u.rule_ne b hk]
  have sr : ∀ (b b' : Bool) (q : Props K) (x : K), (q.map (·.1)).Nodup →
      Dict.set (UnitChange.mapKV (u.rule b) q) "hist_resolution" (.num (if b' then x else u.height * x)) =
        UnitChange.mapKV (u.rule b') (Dict.set q "hist_resolution" (.num x)) := by
    intro b b' q x hq
    rw [UnitChange.set_mapKV_congr (ψ := u.rule b') (fun k hk => by rw [u.rule_ne b hk, u.rule_ne b' hk]) hq, ← UnitChange.set_mapKV,
      u.rule_resolution]
  have num : ∀ (b : Bool) (q : Props K) {k : String} {c : K} (x : K), u.factor k = some c → k ≠ "hist_resolution" →
      Dict.set (UnitChange.mapKV (u.rule b) q) k (.num (c * x)) = UnitChange.mapKV (u.rule b) (Dict.set q k (.num x)) := by
    intro b q k c x hc hk
    have := st b q k (.num x) hk
    rwa [hc] at this
  have same : ∀ (b : Bool) (q : Props K) {k : String} (v : Val K), u.factor k = none → k ≠ "hist_resolution" →
      Dict.set (UnitChange.mapKV (u.rule b) q) k v = UnitChange.mapKV (u.rule b) (Dict.set q k v) := by
    intro b q k v hc hk
    have := st b q k v hk
    rwa [hc, UnitChange.value_none] at this
  have hgt : ∀ (b : Bool) (q : Props K) {k : String} (v : Val K), u.factor k = some u.height → k ≠ "hist_resolution" →
      Dict.set (UnitChange.mapKV (u.rule b) q) k (UnitChange.value (some u.height) v) = UnitChange.mapKV (u.rule b) (Dict.set q k v) := by
    intro b q k v hc hk
    have := st b q k v hk
    rwa [hc] at this
  simp only [toFlatdict_eq, Stats.times, List.foldl_cons, List.foldl_nil, topVal_map, botVal_map]
  rw [same b p _ u.factor_hist_counts (by decide), same b _ _ u.factor_hist_num_bins (by decide),
    num b _ _ u.factor_hist_lower_bound (by decide), num b _ _ u.factor_hist_upper_bound (by decide),
    sr b e _ _ (by repeat first | exact hp | apply keys_nodup_set), hgt e _ _ u.factor_zmin (by decide),
    hgt e _ _ u.factor_zmax (by decide), num e _ _ u.factor_cell_area (by decide)]

theorem get?_addProps (area : K) (h : Stats K) (p : Props K) :
    Dict.get? (Dict.set ((toFlatdict h).foldl (fun d (kv : String × Val K) => Dict.set d kv.1 kv.2) p) "cell_area" (.num area))
      "hist_num_bins" = some (.int h.zhistogram.bins.num_bins) := by
  simp only [toFlatdict, List.foldl_cons, List.foldl_nil, Dict.get?_set]
  simp

theorem addHypsometry_units (area : K) {d : Dict Int (Feature K)} (hd : Distinct d) (item : Int × Stats K) :
    addHypsometry (u.area * area) (Dict.mapVals u.hypsFeature d) (Prod.map id (fun h => h.times u.height h.empty) item) =
      Dict.mapVals u.hypsFeature <$> addHypsometry area d item := by
  unfold addHypsometry
  simp only [Prod.map, id, Dict.getItem_mapVals, bind_map_left, map_bind, map_pure]
  unfold Dict.getItem
  rcases hg : Dict.get? d item.1 with _ | pp
  · rfl
  · show Except.ok _ = Except.ok _
    rw [← Dict.set_mapVals]
    congr 2
    have hp := hd _ (Dict.mem_of_get? hg)
    rw [u.hypsFeature_eq pp, u.hypsFeature_eq]
    simp only [get?_addProps]
    rw [addProps_units u area item.2 hp]
    simp [Stats.empty]

theorem distinct_set {d : Dict Int (Feature K)} (hd : Distinct d) (k : Int) {v : Feature K} (hv : (v.properties.map (·.1)).Nodup) :
    Distinct (Dict.set d k v) := by
  induction d with
  | nil => intro kv hkv; rw [Dict.set, List.mem_singleton] at hkv; subst hkv; exact hv
  | cons x d ih =>
    intro kv hkv
    rw [Dict.set] at hkv
    split_ifs at hkv
    · rcases List.mem_cons.1 hkv with rfl | hkv
      · exact hv
      · exact hd kv (by simp [hkv])
    · rcases List.mem_cons.1 hkv with rfl | hkv
      · exact hd _ (by simp)
      · exact ih (fun y hy => hd y (by simp [hy])) kv hkv

theorem addHypsometry_distinct {area : K} {d d' : Dict Int (Feature K)} (hd : Distinct d) {item : Int × Stats K}
    (h : addHypsometry area d item = .ok d') : Distinct d' := by
  unfold addHypsometry Dict.getItem at h
  rcases hg : Dict.get? d item.1 with _ | pp
  · rw [hg] at h; cases h
  · rw [hg] at h
    injection h with h
    subst h
    have hp := hd _ (Dict.mem_of_get? hg)
    refine distinct_set hd _ ?_
    apply keys_nodup_set
    generalize toFlatdict item.2 = l
    generalize pp.properties = p at hp
    induction l generalizing p with
    | nil => exact hp
    | cons kv l ih => exact ih _ (keys_nodup_set hp _ _)


theorem intId_units (f : Feature K) : intId (u.feature f) = intId f := by
  unfold intId
  rw [u.prop_same f u.factor_bspot_id]

theorem intId_hyps (f : Feature K) : intId (u.hypsFeature f) = intId f := by
  unfold intId Feature.prop
  rw [u.hypsFeature_eq]
  simp only [UnitChange.getItem_mapKV, u.rule_ne _ (show "bspot_id" ≠ "hist_resolution" by decide), u.factor_bspot_id,
    UnitChange.value_none, id_map]

/-- A pour point as it is before the hypsometry is added. -/
structure Bare (f : Feature K) : Prop where
  distinct : (f.properties.map (·.1)).Nodup
  bare : Dict.get? f.properties "hist_num_bins" = none

theorem Bare.hyps {f : Feature K} (h : Bare f) : u.hypsFeature f = u.feature f := by
  unfold UnitChange.hypsFeature
  rw [h.bare, if_neg (by simp)]

theorem bare_feature (p : Bluespots.PourPoint K) : Bare p.feature := by
  constructor
  · show (["bspot_id", "cell_row", "cell_col", "bspot_dmax", "bspot_area", "bspot_vol", "wshed_area", "bspot_fumm"] : List String).Nodup
    decide
  · rw [Dict.get?_eq_none]
    show "hist_num_bins" ∉ (["bspot_id", "cell_row", "cell_col", "bspot_dmax", "bspot_area", "bspot_vol", "wshed_area", "bspot_fumm"] : List String)
    decide

theorem index_units (l : List (Feature K)) (hl : ∀ f ∈ l, Bare f) (d : Dict Int (Feature K)) (hd : Distinct d) :
    (l.map u.feature).foldlM (fun d gjn => do
      let bspot_id ← intId gjn
      pure (Dict.set d bspot_id gjn)) (Dict.mapVals u.hypsFeature d) = Dict.mapVals u.hypsFeature <$> l.foldlM (fun d gjn => do
      let bspot_id ← intId gjn
      pure (Dict.set d bspot_id gjn)) d ∧
    ∀ d', l.foldlM (fun d gjn => do
      let bspot_id ← intId gjn
      pure (Dict.set d bspot_id gjn)) d = .ok d' → Distinct d' := by
  induction l generalizing d with
  | nil => exact ⟨rfl, fun d' h => by injection h with h; exact h ▸ hd⟩
  | cons f l ih =>
    have hf := hl f (by simp)
    rw [List.map_cons, List.foldlM_cons, List.foldlM_cons, intId_units]
    rcases intId f with e | i
    · exact ⟨rfl, fun d' h => by cases h⟩
    · have := ih (fun g hg => hl g (by simp [hg])) (Dict.set d i f) (distinct_set hd i hf.distinct)
      refine ⟨?_, this.2⟩
      rw [← Dict.set_mapVals, hf.hyps] at this
      exact this.1

theorem almostEqual_self (x : K) : almostEqual x x = true := by
  unfold almostEqual
  rw [sub_self, abs_zero]
  exact decide_eq_true (by positivity)

theorem hypsometryIo_units (hl : 0 < u.len) (hh : 0 < u.height) (lab : Raster Int) (gt : GeoTransform K) (dem : Raster K)
    (pps : List (Feature K)) (hpps : ∀ f ∈ pps, Bare f) (res : K) :
    hypsometryIo lab (u.transform gt) (dem.map (u.height * ·)) (u.transform gt) (pps.map u.feature) (u.height * res) =
      List.map u.hypsFeature <$> hypsometryIo lab gt dem gt pps res := by
  obtain ⟨hix, hdist⟩ := index_units u pps hpps [] (fun kv h => by cases h)
  have harea : |(u.transform gt).t5| * |(u.transform gt).t1| = u.area * (|gt.t5| * |gt.t1|) := by
    show |u.len * gt.t5| * |u.len * gt.t1| = _
    rw [abs_mul, abs_mul, abs_of_pos hl]
    unfold UnitChange.area
    ring
  have hpos : 0 < u.height * res ↔ 0 < res := mul_pos_iff_of_pos_left hh
  unfold hypsometryIo
  simp only [hpos, harea, almostEqual_self, Raster.map_rows, Raster.map_cols]
  by_cases hr : 0 < res
  swap
  · simp only [hr]; rfl
  by_cases hs : lab.rows = dem.rows ∧ lab.cols = dem.cols
  swap
  · simp only [hr, hs]; rfl
  simp only [hr, hs, not_true_eq_false, if_false, and_self]
  show (List.foldlM _ _ (pps.map u.feature) >>= _) = List.map _ <$> (List.foldlM _ _ pps >>= _)
  rw [show ([] : Dict Int (Feature K)) = Dict.mapVals u.hypsFeature [] from rfl, hix]
  rcases hd : List.foldlM (fun d gjn => do
      let bspot_id ← intId gjn
      pure (Dict.set d bspot_id gjn)) ([] : Dict Int (Feature K)) pps with e | d
  · simp only [Dict.mapVals, List.map_nil, hd]; rfl
  · have hd' := hdist d hd
    simp only [show Dict.mapVals u.hypsFeature ([] : Dict Int (Feature K)) = [] from rfl, hd]
    rcases Label.npMax lab with e | m
    · rfl
    show (List.mapM intId (Dict.values (Dict.mapVals u.hypsFeature d)) >>= _) = List.map _ <$> (List.mapM intId (Dict.values d) >>= _)
    have hids : (Dict.values (Dict.mapVals u.hypsFeature d)).mapM intId = (Dict.values d).mapM intId := by
      rw [Dict.values_mapVals]
      have := mapM_commutes (m := Except PyErr) u.hypsFeature id (Dict.values d) (f := intId) (f' := intId)
        fun x _ => by rw [intId_hyps, id_map]
      rwa [List.map_id_fun, id_map] at this
    rw [hids]
    rcases (Dict.values d).mapM intId with e | ids
    · rfl
    show (pyMax ids >>= _) = List.map _ <$> (pyMax ids >>= _)
    rcases pyMax ids with e | m'
    · rfl
    show (if _ then _ else _) = List.map _ <$> (if _ then _ else _)
    by_cases hm : m = m'
    swap
    · rw [if_pos hm, if_pos hm]; rfl
    rw [if_neg (not_not.2 hm), if_neg (not_not.2 hm)]
    show (hypsometryStats lab (dem.map (u.height * ·)) (u.height * res) (some m) 0 >>= _) =
      List.map _ <$> (hypsometryStats lab dem res (some m) 0 >>= _)
    rw [hypsometryStats_times hh hr]
    rcases hypsometryStats lab dem res (some m) 0 with e | st
    · rfl
    show (List.foldlM (addHypsometry (u.area * (|gt.t5| * |gt.t1|))) (Dict.mapVals u.hypsFeature d) (st.map _) >>= _) =
      List.map _ <$> (List.foldlM (addHypsometry (|gt.t5| * |gt.t1|)) d st >>= _)
    rw [foldlM_commutes_inv (Prod.map id fun h : Stats K => h.times u.height h.empty) (Dict.mapVals u.hypsFeature) Distinct
      (fun s x hs => addHypsometry_units u (|gt.t5| * |gt.t1|) hs x) (fun s x s' hs h => addHypsometry_distinct hs h) st d hd',
      bind_map_left]
    simp only [map_bind, map_pure, Dict.values_mapVals]

end Hyps

namespace Approx
open Hyps
variable {K : Type} [Field K] [LinearOrder K] [IsStrictOrderedRing K] [FloorRing K] (u : UnitChange K)

theorem npCumsum_times (c : K) (l : List K) : npCumsum (l.map (c * ·)) = (npCumsum l).map (c * ·) := by
  have : ∀ (l : List K) (x : K), npCumsumFrom (c * x) (l.map (c * ·)) = (npCumsumFrom x l).map (c * ·) := by
    intro l
    induction l with
    | nil => intro x; rfl
    | cons y l ih => intro x; rw [List.map_cons, npCumsumFrom, npCumsumFrom, ← mul_add, ih, List.map_cons]
  have h := this l 0
  rwa [mul_zero] at h

theorem npInterp_times {a c : K} (hc : 0 < c) (x : K) (xp fp : List K) :
    npInterp (c * x) (xp.map (c * ·)) (fp.map (a * ·)) = (a * ·) <$> npInterp x xp fp := by
  have : ∀ l : List (K × K), npInterpPairs (c * x) (l.map (Prod.map (c * ·) (a * ·))) = (a * ·) <$> npInterpPairs x l := by
    intro l
    induction l with
    | nil => rfl
    | cons p l ih => cases l with
      | nil => rfl
      | cons q l =>
        obtain ⟨xa, f⟩ := p
        obtain ⟨xb, g⟩ := q
        simp only [List.map_cons, Prod.map, npInterpPairs] at ih ⊢
        have e1 : c * x < c * xa ↔ x < xa := (timesMono hc).lt_iff_lt
        have e2 : c * x < c * xb ↔ x < xb := (timesMono hc).lt_iff_lt
        simp only [e1, e2]
        split_ifs
        · rfl
        · show Except.ok _ = Except.ok _
          congr 1
          rw [← mul_sub, ← mul_sub, ← mul_sub]
          by_cases h0 : xb - xa = 0
          · simp [h0]
          · field_simp
        · exact ih
  unfold npInterp
  simp only [List.length_map]
  split_ifs
  · rfl
  · rw [List.zip_map, this]

theorem inner_map {α α' : Type} (q : α → α') (l : List α) : inner (l.map q) = (inner l).map q := by
  unfold inner
  rw [List.map_dropLast, List.map_drop]

theorem cumulativeVolume_times {a : K} (area : K) (b : Bool) (h : Stats K)
    (hb : b = true → h.zhistogram.bins.num_bins = 0 ∧ h.zhistogram.counts = []) (s : K) :
    cumulativeVolume (h.times a b).zhistogram (s * area) = (cumulativeVolume h.zhistogram area).map (s * a * ·) := by
  unfold cumulativeVolume
  simp only
  cases b with
  | true =>
    have hc : (h.times a true).zhistogram.counts = [] := (hb rfl).2
    rw [hc, (hb rfl).2]
    simp [npCumsum, npCumsumFrom]
  | false =>
    rw [← npCumsum_times, List.map_map]
    congr 1
    refine List.map_congr_left fun x _ => ?_
    show s * area * (a * h.zhistogram.bins.resolution) * x = s * a * (area * h.zhistogram.bins.resolution * x)
    ring

theorem binWaterlevelZ_times {a : K} (b : Bool) (h : Stats K)
    (hb : b = true → h.zhistogram.bins.num_bins = 0 ∧ h.zhistogram.counts = []) :
    binWaterlevelZ (h.times a b).zhistogram.bins = (binWaterlevelZ h.zhistogram.bins).map (a * ·) := by
  unfold binWaterlevelZ
  cases b with
  | true =>
    have hc : (h.times a true).zhistogram.bins.num_bins = 0 := (hb rfl).1
    rw [hc, (hb rfl).1]
    rfl
  | false =>
    rw [List.map_map]
    refine List.map_congr_left fun i _ => ?_
    show (i : K) * (a * h.zhistogram.bins.resolution) + a * h.zhistogram.bins.lower_bound + a * h.zhistogram.bins.resolution * (1 / 2) =
      a * ((i : K) * h.zhistogram.bins.resolution + h.zhistogram.bins.lower_bound + h.zhistogram.bins.resolution * (1 / 2))
    ring

theorem waterLevel_times {a s : K} (ha : 0 < a) (hs : 0 < s) (b : Bool) (h : Stats K)
    (hb : b = true → h.zhistogram.bins.num_bins = 0 ∧ h.zhistogram.counts = []) (area : K) (d : WithBot K) (vol v : K) :
    waterLevel (h.times a b) (s * area) (d.map (a * ·)) (s * a * vol) (s * a * v) =
      UnitChange.value (some a) <$> waterLevel h area d vol v := by
  have hc : 0 < s * a := mul_pos hs ha
  unfold waterLevel
  have hif : (s * a * vol = 0 ∨ s * a * v / (s * a * vol) > 9999 / 10000) ↔ (vol = 0 ∨ v / vol > 9999 / 10000) := by
    rw [mul_div_mul_left _ _ hc.ne', mul_eq_zero_iff_left hc.ne']
  rw [cumulativeVolume_times area b h hb, binWaterlevelZ_times b h hb]
  by_cases h0 : vol = 0 ∨ v / vol > 9999 / 10000
  · rw [if_pos h0, if_pos (hif.2 h0)]
    show (match h.zmin.map (a * ·), d.map (a * ·) with
      | (zmin : K), (d : K) => (.ok (.num (zmin + d)) : Except PyErr (Val K))
      | (_ : K), ⊥ => .ok .ninf
      | ⊤, (_ : K) => .ok .inf
      | ⊤, ⊥ => .ok .nan) = _
    cases h.zmin using WithTop.recTopCoe <;> cases d using WithBot.recBotCoe <;> try rfl
    show Except.ok _ = Except.ok _
    rw [← mul_add]
    rfl
  · rw [if_neg h0, if_neg (mt hif.1 h0)]
    simp only [inner_map]
    have key : ∀ (l m : List K) (zmin zmax : K),
        Except.map Val.num (npInterp (s * a * v) (0 :: (l.map (s * a * ·) ++ [s * a * vol])) (a * zmin :: (m.map (a * ·) ++ [a * zmax]))) =
        UnitChange.value (some a) <$> Except.map Val.num (npInterp v (0 :: (l ++ [vol])) (zmin :: (m ++ [zmax]))) := by
      intro l m zmin zmax
      have := npInterp_times (a := a) hc v (0 :: (l ++ [vol])) (zmin :: (m ++ [zmax]))
      simp only [List.map_cons, List.map_append, List.map_nil, mul_zero] at this
      rw [this]
      rcases npInterp v (0 :: (l ++ [vol])) (zmin :: (m ++ [zmax])) with e | x <;> rfl
    generalize inner (cumulativeVolume h.zhistogram area) = l
    generalize inner (binWaterlevelZ h.zhistogram.bins) = m
    show (match h.zmin.map (a * ·), h.zmax.map (a * ·) with
      | (zmin : K), (zmax : K) =>
        (npInterp (s * a * v) (0 :: (l.map (s * a * ·) ++ [s * a * vol])) (zmin :: (m.map (a * ·) ++ [zmax]))).map Val.num
      | _, _ => .error .other) = _
    cases h.zmin using WithTop.recTopCoe <;> cases h.zmax using WithBot.recBotCoe <;> first | rfl | exact key l m _ _

theorem floatTop_value (a : K) (v : Val K) : (UnitChange.value (some a) v).floatTop = WithTop.map (a * ·) <$> v.floatTop := by
  cases v <;> rfl

theorem floatBot_value (a : K) (v : Val K) : (UnitChange.value (some a) v).floatBot = WithBot.map (a * ·) <$> v.floatBot := by
  cases v <;> rfl

theorem approxDmax_value (a : K) (w : Val K) (z : WithTop K) (hw : ∀ i, w ≠ .int i) :
    approxDmax (UnitChange.value (some a) w) (z.map (a * ·)) = UnitChange.value (some a) (approxDmax w z) := by
  cases w with
  | int i => exact absurd rfl (hw i)
  | num x =>
    cases z using WithTop.recTopCoe with
    | top => rfl
    | coe z =>
      show Val.num (a * x - a * z) = Val.num (a * (x - z))
      rw [mul_sub]
  | _ => cases z using WithTop.recTopCoe <;> rfl

theorem waterLevel_not_int {h : Stats K} {area : K} {d : WithBot K} {vol v : K} {w : Val K} (hw : waterLevel h area d vol v = .ok w) :
    ∀ i, w ≠ .int i := by
  rintro i rfl
  unfold waterLevel at hw
  split at hw
  · split at hw <;> cases hw
  · split at hw
    · dsimp only at hw
      rename_i zmin zmax _ _
      generalize npInterp v (0 :: (inner (cumulativeVolume h.zhistogram area) ++ [vol]))
        (zmin :: (inner (binWaterlevelZ h.zhistogram.bins) ++ [zmax])) = r at hw
      rcases r with e | x <;> cases hw
    · cases hw

/-- What fromFlatdict makes of a feature of the layer `hypsometry` in new units. -/
theorem fromFlatdict_units (p : Props K) (b : Bool) (hb : b = true → Dict.get? p "hist_num_bins" = some (.int 0)) :
    fromFlatdict (UnitChange.mapKV (u.rule b) p) = Stats.times u.height b <$> fromFlatdict p ∧
    ∀ h, fromFlatdict p = .ok h → b = true → h.zhistogram.bins.num_bins = 0 ∧ h.zhistogram.counts = [] := by
  have gi : ∀ k, k ≠ "hist_resolution" → Dict.getItem (UnitChange.mapKV (u.rule b) p) k =
      UnitChange.value (u.factor k) <$> Dict.getItem p k := by
    intro k hk
    rw [UnitChange.getItem_mapKV, u.rule_ne b hk]
  have hres : (Dict.getItem (UnitChange.mapKV (u.rule b) p) "hist_resolution" >>= fun x => x.float) =
      (fun x : K => if b then x else u.height * x) <$> (Dict.getItem p "hist_resolution" >>= fun x => x.float) := by
    rw [UnitChange.getItem_mapKV, bind_map_left, map_bind]
    refine congrArg _ (funext fun x => ?_)
    cases b with
    | true => simp [UnitChange.rule]
    | false =>
      rw [u.rule_false]
      simp only [u.factor_hist_resolution, UnitChange.float_value, Bool.false_eq_true, if_false]
  constructor
  · unfold fromFlatdict
    simp only [gi "hist_num_bins" (by decide), gi "hist_lower_bound" (by decide), gi "hist_upper_bound" (by decide),
      gi "hist_counts" (by decide), gi "zmin" (by decide), gi "zmax" (by decide), u.factor_hist_num_bins, u.factor_hist_counts,
      u.factor_hist_lower_bound, u.factor_hist_upper_bound, u.factor_zmin, u.factor_zmax, UnitChange.value_none, id_map, bind_map_left,
      UnitChange.float_value, floatTop_value, floatBot_value, map_bind, map_pure]
    refine congrArg _ (funext fun _ => congrArg _ (funext fun nb => congrArg _ (funext fun _ => congrArg _ (funext fun lo =>
      congrArg _ (funext fun _ => congrArg _ (funext fun hi => ?_))))))
    rw [← bind_assoc, hres, bind_map_left, ← bind_assoc]
    refine congrArg _ (funext fun res => ?_)
    by_cases hnb : nb > 0
    · rw [if_pos hnb, if_pos hnb, map_bind]
      refine congrArg _ (funext fun v => ?_)
      rcases v with _ | _ | _ | s | _ | _ | _ <;> first | rfl | skip
      simp only [map_bind, map_pure]
      rfl
    · rw [if_neg hnb, if_neg hnb]
      simp only [map_bind, map_pure]
      rfl
  · intro h hh hbt
    have hn := hb hbt
    unfold fromFlatdict at hh
    rw [show Dict.getItem p "hist_num_bins" = .ok (.int 0) from Dict.getItem_ok.2 hn] at hh
    obtain ⟨v0, h0, hh⟩ := except_bind_ok hh
    injection h0 with h0
    subst h0
    obtain ⟨nb, h1, hh⟩ := except_bind_ok hh
    injection h1 with h1
    subst h1
    obtain ⟨_, _, hh⟩ := except_bind_ok hh
    obtain ⟨_, _, hh⟩ := except_bind_ok hh
    obtain ⟨_, _, hh⟩ := except_bind_ok hh
    obtain ⟨_, _, hh⟩ := except_bind_ok hh
    obtain ⟨_, _, hh⟩ := except_bind_ok hh
    obtain ⟨_, _, hh⟩ := except_bind_ok hh
    dsimp only at hh
    rw [if_neg (by decide)] at hh
    obtain ⟨_, hc, hh⟩ := except_bind_ok hh
    injection hc with hc
    subst hc
    obtain ⟨_, _, hh⟩ := except_bind_ok hh
    obtain ⟨_, _, hh⟩ := except_bind_ok hh
    obtain ⟨_, _, hh⟩ := except_bind_ok hh
    obtain ⟨_, _, hh⟩ := except_bind_ok hh
    injection hh with hh
    subst hh
    exact ⟨rfl, rfl⟩

theorem bspotId_units (f : Feature K) : bspotId (u.feature f) = bspotId f := by
  unfold bspotId
  rw [u.prop_same f u.factor_bspot_id]

theorem prop_hyps (f : Feature K) {k : String} (h : k ≠ "hist_resolution") :
    (u.hypsFeature f).prop k = UnitChange.value (u.factor k) <$> f.prop k := by
  unfold Feature.prop
  rw [u.hypsFeature_eq]
  simp only [UnitChange.getItem_mapKV, u.rule_ne _ h]

theorem bspotId_hyps (f : Feature K) : bspotId (u.hypsFeature f) = bspotId f := by
  unfold bspotId
  rw [prop_hyps u f (by decide), u.factor_bspot_id, UnitChange.value_none, id_map]

theorem levelFeature_units (hl : 0 < u.len) (hh : 0 < u.height) (d : Dict Int (Feature K)) (f : Feature K) :
    levelFeature (Dict.mapVals u.hypsFeature d) (u.feature f) = u.feature <$> levelFeature d f := by
  have ha : 0 < u.area := UnitChange.area_pos hl
  unfold levelFeature
  simp only [bspotId_units, u.prop_value, u.factor_v, bind_map_left, UnitChange.float_value, Dict.getItem_mapVals, map_bind, map_pure,
    bspotId_hyps, prop_hyps u _ (show "cell_area" ≠ "hist_resolution" by decide),
    prop_hyps u _ (show "bspot_dmax" ≠ "hist_resolution" by decide), prop_hyps u _ (show "bspot_vol" ≠ "hist_resolution" by decide),
    u.factor_cell_area, u.factor_bspot_dmax, u.factor_bspot_vol, floatBot_value]
  refine congrArg _ (funext fun bsid => congrArg _ (funext fun _ => congrArg _ (funext fun v => congrArg _ (funext fun g =>
    congrArg _ (funext fun _ => ?_)))))
  rw [u.hypsFeature_eq]
  obtain ⟨h1, h2⟩ := fromFlatdict_units u g.properties (decide (Dict.get? g.properties "hist_num_bins" = some (.int 0)))
    (fun h => of_decide_eq_true h)
  simp only [h1, bind_map_left]
  rcases hf : fromFlatdict g.properties with e | h
  · rfl
  specialize h2 h hf
  show (g.prop "cell_area" >>= _) = (g.prop "cell_area" >>= _)
  refine congrArg _ (funext fun _ => congrArg _ (funext fun area => congrArg _ (funext fun _ => congrArg _ (funext fun dm =>
    congrArg _ (funext fun _ => congrArg _ (funext fun vol => ?_))))))
  have hw := waterLevel_times hh ha _ h h2 area dm vol v
  rw [show u.area * u.height = u.volume from rfl] at hw
  rw [hw, bind_map_left]
  rcases hwl : waterLevel h area dm vol v with e | w
  · rfl
  show Except.ok _ = Except.ok _
  congr 1
  unfold UnitChange.feature
  congr 1
  rw [← u.set_props, ← u.set_props, u.factor_approx_z, u.factor_approx_dmax, ← approxDmax_value _ _ _ (waterLevel_not_int hwl)]
  rfl

theorem pourpointsOf_units (l : List (Feature K)) : pourpointsOf (l.map u.feature) = List.map u.feature <$> pourpointsOf l := by
  induction l with
  | nil => rfl
  | cons f l ih =>
    rw [List.map_cons, pourpointsOf, pourpointsOf, u.prop_same f u.factor_nodetype, ih]
    simp only [bind_map_left, map_bind, map_pure]
    refine congrArg _ (funext fun t => congrArg _ (funext fun r => ?_))
    split_ifs <;> rfl

theorem waterLevelIo_units (hl : 0 < u.len) (hh : 0 < u.height) (final hyps : List (Feature K)) :
    waterLevelIo (final.map u.feature) (hyps.map u.hypsFeature) = List.map u.feature <$> waterLevelIo final hyps := by
  unfold waterLevelIo
  have hix := foldlM_commutes (m := Except PyErr) u.hypsFeature (Dict.mapVals (κ := Int) u.hypsFeature)
    (f := fun d gjn => do
      let bsid ← bspotId gjn
      pure (Dict.set d bsid gjn))
    (f' := fun d gjn => do
      let bsid ← bspotId gjn
      pure (Dict.set d bsid gjn))
    (fun d x => by simp only [bspotId_hyps, map_bind, map_pure, Dict.set_mapVals]) hyps []
  rw [show ([] : Dict Int (Feature K)) = Dict.mapVals u.hypsFeature [] from rfl, hix, bind_map_left, map_bind]
  refine congrArg _ (funext fun d => ?_)
  rw [pourpointsOf_units, bind_map_left, map_bind]
  refine congrArg _ (funext fun l => ?_)
  exact mapM_commutes (m := Except PyErr) u.feature u.feature l fun x _ => levelFeature_units u hl hh d x

/-- A level in new units: the level of the background is -999 in every unit. -/
def LevelIn (a x x' : K) : Prop := x' = a * x ∨ x = -999 ∧ x' = -999

/-- Two results that are related in the case of success, and the same error otherwise. -/
inductive Related {ε α α' : Type} (R : α → α' → Prop) : Except ε α → Except ε α' → Prop
  | ok {x : α} {x' : α'} : R x x' → Related R (.ok x) (.ok x')
  | error (e : ε) : Related R (.error e) (.error e)

theorem Related.bind {ε α α' β β' : Type} {R : α → α' → Prop} {S : β → β' → Prop} {x : Except ε α} {x' : Except ε α'}
    {f : α → Except ε β} {f' : α' → Except ε β'} (h : Related R x x') (hf : ∀ a a', R a a' → Related S (f a) (f' a')) :
    Related S (x >>= f) (x' >>= f') := by
  cases h with
  | ok h => exact hf _ _ h
  | error e => exact .error e

theorem Related.bind_ok {ε α α' β β' : Type} {R : α → α' → Prop} {S : β → β' → Prop} {x : Except ε α} {x' : Except ε α'}
    {f : α → Except ε β} {f' : α' → Except ε β'} (h : Related R x x') (hf : ∀ a a', x = .ok a → R a a' → Related S (f a) (f' a')) :
    Related S (x >>= f) (x' >>= f') := by
  cases h with
  | ok h => exact hf _ _ rfl h
  | error e => exact .error e

theorem Related.of_map {ε α α' : Type} {q : α → α'} {x : Except ε α} {x' : Except ε α'} (h : x' = q <$> x) :
    Related (fun a a' => a' = q a) x x' := by
  subst h
  rcases x with e | a
  · exact .error e
  · exact .ok rfl

theorem Related.refl {ε α : Type} (x : Except ε α) : Related Eq x x := by
  rcases x with e | a
  · exact .error e
  · exact .ok rfl

theorem Related.mapM {ε α α' β β' : Type} {R : α → α' → Prop} {S : β → β' → Prop} {f : α → Except ε β} {f' : α' → Except ε β'}
    (hf : ∀ a a', R a a' → Related S (f a) (f' a')) {l : List α} {l' : List α'} (h : List.Forall₂ R l l') :
    Related (List.Forall₂ S) (l.mapM f) (l'.mapM f') := by
  induction h with
  | nil => exact .ok .nil
  | cons h _ ih =>
    rw [List.mapM_cons, List.mapM_cons]
    exact (hf _ _ h).bind fun a a' ha => ih.bind fun l l' hl => .ok (.cons ha hl)

/-- A level of a dictionary of levels, in new units. -/
def ValIn (a : K) (v v' : Val K) : Prop := v' = UnitChange.value (some a) v ∨ v = .num (-999) ∧ v' = .num (-999)

theorem labelvaluedict_units (a : K) (d : Dict Int (Val K)) (background : Int) :
    Related (List.Forall₂ (ValIn a)) (labelvaluedictToList d background (.num (-999)))
      (labelvaluedictToList (Dict.mapVals (UnitChange.value (some a)) d) background (.num (-999))) := by
  unfold labelvaluedictToList
  have hk : (Dict.mapVals (UnitChange.value (some a)) d).map (·.1) = d.map (·.1) := by
    unfold Dict.mapVals
    rw [List.map_map]
    rfl
  rw [hk]
  refine Related.bind (R := Eq) (Related.refl _) ?_
  rintro m _ rfl
  refine Related.mapM (R := Eq) ?_ (List.forall₂_refl _)
  rintro i _ rfl
  split_ifs
  · exact .ok (Or.inr ⟨rfl, rfl⟩)
  · rw [Dict.getItem_mapVals]
    rcases Dict.getItem d (i : Int) with e | v
    · exact .error e
    · exact .ok (Or.inl rfl)

theorem float_units (a : K) {v v' : Val K} (h : ValIn a v v') : Related (LevelIn a) v.float v'.float := by
  rcases h with rfl | ⟨rfl, rfl⟩
  · rw [UnitChange.float_value]
    rcases v.float with e | x
    · exact .error e
    · exact .ok (Or.inl rfl)
  · exact .ok (Or.inr ⟨rfl, rfl⟩)

theorem setLabel_units (a : K) (lab : Raster Int) {l l' : List K} (h : List.Forall₂ (LevelIn a) l l') :
    Related (fun w w' : Raster K => w.rows = lab.rows ∧ w.cols = lab.cols ∧ w'.rows = lab.rows ∧ w'.cols = lab.cols ∧
        ∀ c, LevelIn a (w.get c) (w'.get c))
      (@Label.setLabelToValue K ⟨0⟩ lab l) (@Label.setLabelToValue K ⟨0⟩ lab l') := by
  unfold Label.setLabelToValue
  rw [← h.length_eq]
  split_ifs
  · refine .ok ⟨rfl, rfl, rfl, rfl, fun c => ?_⟩
    show LevelIn a (((pyIdx l.length (lab.get c)).bind (l[·]?)).getD 0) (((pyIdx l.length (lab.get c)).bind (l'[·]?)).getD 0)
    rcases pyIdx l.length (lab.get c) with _ | k
    · exact Or.inl (mul_zero a).symm
    · simp only [Option.bind_some]
      clear * - h
      induction h generalizing k with
      | nil => exact Or.inl (mul_zero a).symm
      | cons h _ ih => cases k with
        | zero => exact h
        | succ k => exact ih k
  · exact .error _

/-- The rasters `finaldepths` and `finalbluespots` in new units. -/
def FloodIn (a : K) (x x' : Option (Raster K) × Option (Raster Int)) : Prop :=
  ∃ d d' e e', x = (some d, some e) ∧ x' = (some d', some e') ∧ d'.Same (d.map (a * ·)) ∧ e'.Same e

theorem pyFloat_units (a : K) (x : Val K) :
    (UnitChange.value (some a) x).pyFloat = UnitChange.value (some a) <$> x.pyFloat := by
  cases x <;> rfl

theorem approxBluespotsIo_units {a : K} (ha : 0 < a) (hu : u.height = a) (lab : Raster Int) (levels : List (Feature K)) (dem : Raster K)
    (hz : ∀ c, lab.Has c → -999 < dem.get c ∧ -999 < a * dem.get c) :
    Related (FloodIn a) (approxBluespotsIo lab levels dem true true 0)
      (approxBluespotsIo lab (levels.map u.feature) (dem.map (a * ·)) true true 0) := by
  subst hu
  unfold approxBluespotsIo
  simp only [Bool.not_eq_true, not_true_eq_false, Bool.true_eq_false, false_and, and_self, if_false]
  refine Related.bind (Related.of_map (pourpointsOf_units u levels)) ?_
  rintro l _ rfl
  refine Related.bind (Related.of_map (q := Dict.mapVals (UnitChange.value (some u.height))) ?_) ?_
  · refine foldlM_commutes (m := Except PyErr) u.feature (Dict.mapVals (κ := Int) (UnitChange.value (some u.height))) (fun d x => ?_) l []
    simp only [bspotId_units, u.prop_value, u.factor_approx_z, bind_map_left, map_bind, map_pure, Dict.set_mapVals, pyFloat_units]
  rintro d _ rfl
  refine Related.bind (labelvaluedict_units u.height d 0) fun vl vl' hvl => ?_
  refine Related.bind (Related.mapM (fun v v' h => float_units u.height h) hvl) fun l l' hl => ?_
  refine Related.bind (setLabel_units u.height lab hl) ?_
  rintro w w' ⟨r1, r2, r3, r4, hw⟩
  have key : ∀ c, lab.Has c → (w'.get c - u.height * dem.get c < 0 ↔ w.get c - dem.get c < 0) ∧
      (¬ w.get c - dem.get c < 0 → w'.get c - u.height * dem.get c = u.height * (w.get c - dem.get c)) := by
    intro c hc
    rcases hw c with h | ⟨h1, h2⟩
    · rw [h, ← mul_sub]
      exact ⟨by rw [mul_neg_iff]; constructor <;> [rintro (⟨_, h⟩ | ⟨h, _⟩) <;> [exact h; exact absurd h (not_lt.2 ha.le)];
        exact fun h => Or.inl ⟨ha, h⟩], fun _ => rfl⟩
    · obtain ⟨z1, z2⟩ := hz c hc
      rw [h1, h2]
      exact ⟨⟨fun _ => by linarith, fun _ => by linarith⟩, fun h => absurd (by linarith) h⟩
  refine .ok ⟨_, _, _, _, rfl, rfl, ⟨?_, ?_, fun c hc => ?_⟩, ⟨rfl, rfl, fun c hc => ?_⟩⟩
  · exact r3.trans r1.symm
  · exact r4.trans r2.symm
  · have hc : lab.Has c := by
      have hc : InGrid w'.rows w'.cols c := hc
      rwa [r3, r4] at hc
    obtain ⟨k1, k2⟩ := key c hc
    show (if decide (w'.get c - u.height * dem.get c < 0) = true then 0 else w'.get c - u.height * dem.get c) =
      u.height * (if decide (w.get c - dem.get c < 0) = true then 0 else w.get c - dem.get c)
    simp only [k1, decide_eq_true_eq]
    split_ifs with h
    · rw [mul_zero]
    · exact k2 h
  · obtain ⟨k1, _⟩ := key c hc
    show (if decide (w'.get c - u.height * dem.get c < 0) = true then 0 else lab.get c) =
      (if decide (w.get c - dem.get c < 0) = true then 0 else lab.get c)
    simp only [k1]

end Approx

namespace Complete
variable {K : Type} [Field K] [LinearOrder K] [IsStrictOrderedRing K] [FloorRing K] {u : UnitChange K} {β β' : Type} [LinearOrder β]
  [OrderTop β] [LinearOrder β'] [OrderTop β']

/-- What follows the final state. -/
def levelsOf (z : Raster K) (gt : GeoTransform K) (res : K) (out : Out β K) : Except PyErr (LevelsOut K) := do
  let hyps ← Hyps.hypsometryIo out.bluespots.labeled gt z gt (out.bluespots.pourpoints.map (·.feature)) res
  let levels ← Approx.waterLevelIo out.final hyps
  let flooded ← Approx.approxBluespotsIo out.bluespots.labeled levels z true true 0
  pure { hyps := hyps, levels := levels, depths := flooded.1, extent := flooded.2 }

theorem ofExcept_bind {α γ : Type} (x : Except PyErr α) (f : α → Except PyErr γ) :
    Run.ofExcept (x >>= f) = Run.ofExcept x >>= fun a => Run.ofExcept (f a) := by
  rcases x with e | a <;> rfl

theorem processWithLevels_eq (elev : β → K) (cc : Raster Bool → Raster Int × Nat) (de : Dem.Engine β K) (be : Bluespots.Engine β K)
    (sub : β → β → K) (safe : Raster β → (β → β) × (β → β)) (gt : GeoTransform K) (dem : Raster β) (accum : Bool)
    (f : Option (Bluespots.StatUnits K → Bool)) (mm res : K) :
    processWithLevels elev cc de be sub safe gt dem accum f mm res =
      processAll cc de be sub safe gt dem accum f mm >>= fun out =>
        Run.ofExcept ((fun l => (out, l)) <$> levelsOf (dem.map elev) gt res out) := by
  unfold processWithLevels levelsOf
  simp only [map_bind, map_pure, ofExcept_bind]
  rfl

/-- The layers and rasters after the final state in new units. -/
def LevelsIn (u : UnitChange K) (l l' : LevelsOut K) : Prop :=
  l'.hyps = l.hyps.map u.hypsFeature ∧ l'.levels = l.levels.map u.feature ∧
  Approx.FloodIn u.height (l.depths, l.extent) (l'.depths, l'.extent)

theorem hyps_shape {lab : Raster Int} {gt gt' : GeoTransform K} {z : Raster K} {pps : List (Feature K)} {res : K} {l : List (Feature K)}
    (h : Hyps.hypsometryIo lab gt z gt' pps res = .ok l) : lab.rows = z.rows ∧ lab.cols = z.cols := by
  by_contra hs
  unfold Hyps.hypsometryIo at h
  by_cases hr : 0 < res
  · simp only [hr, hs, not_true_eq_false, not_false_eq_true, if_true, if_false] at h
    cases h
  · simp only [hr, not_false_eq_true, if_true] at h
    cases h

theorem levelsOf_units (hl : 0 < u.len) (hh : 0 < u.height) (g : β → β') (z : Raster K)
    (hz : ∀ c, z.Has c → -999 < z.get c ∧ -999 < u.height * z.get c) (gt : GeoTransform K) (res : K) (out : Out β K) :
    Approx.Related (LevelsIn u) (levelsOf z gt res out)
      (levelsOf (z.map (u.height * ·)) (u.transform gt) (u.height * res) (Out.inUnits u g out)) := by
  unfold levelsOf
  have h1 := Hyps.hypsometryIo_units u hl hh out.bluespots.labeled gt z (out.bluespots.pourpoints.map (·.feature))
    (fun f hf => by obtain ⟨p, _, rfl⟩ := List.mem_map.1 hf; exact Hyps.bare_feature p) res
  rw [← u.pourPoint_features] at h1
  show Approx.Related _ _ (Hyps.hypsometryIo out.bluespots.labeled (u.transform gt) (z.map (u.height * ·)) (u.transform gt)
    ((out.bluespots.pourpoints.map u.pourPoint).map (·.feature)) (u.height * res) >>= _)
  refine Approx.Related.bind_ok (Approx.Related.of_map h1) ?_
  rintro hyps _ hhy rfl
  obtain ⟨s1, s2⟩ := hyps_shape hhy
  refine Approx.Related.bind (Approx.Related.of_map (Approx.waterLevelIo_units u hl hh out.final hyps)) ?_
  rintro levels _ rfl
  refine Approx.Related.bind (Approx.approxBluespotsIo_units u hh rfl out.bluespots.labeled levels z fun c hc => hz c ?_) ?_
  · unfold Raster.Has at *
    rwa [s1, s2] at hc
  · rintro ⟨d, e⟩ ⟨d', e'⟩ h
    exact .ok ⟨rfl, rfl, h⟩

end Complete
end Malstroem
