import Verif.Spec.Units
import Verif.Proofs.Datum
import Mathlib.Algebra.Order.Field.Basic
import Mathlib.Tactic.Ring
import Mathlib.Tactic.FieldSimp
import Mathlib.Tactic.Linarith

set_option linter.unusedSectionVars false

namespace Malstroem
open Spec

section Monads
variable {m : Type → Type} [Monad m] [LawfulMonad m] {α α' β β' : Type}

theorem mapM_commutes {f : α → m β} {f' : α' → m β'} (p : α → α') (q : β → β') :
    ∀ l : List α, (∀ x ∈ l, f' (p x) = q <$> f x) → (l.map p).mapM f' = List.map q <$> l.mapM f
  | [], _ => by simp
  | x :: l, h => by
    simp only [List.map_cons, List.mapM_cons, h x (by simp), mapM_commutes p q l fun y hy => h y (by simp [hy]), bind_map_left,
      map_bind, map_pure]

theorem foldlM_commutes {f : β → α → m β} {f' : β' → α' → m β'} (p : α → α') (q : β → β')
    (h : ∀ s x, f' (q s) (p x) = q <$> f s x) : ∀ (l : List α) (s : β), (l.map p).foldlM f' (q s) = q <$> l.foldlM f s
  | [], s => by simp
  | x :: l, s => by
    simp only [List.map_cons, List.foldlM_cons, h, bind_map_left, map_bind, foldlM_commutes p q h l]

end Monads

namespace Dict
variable {κ ν ν' : Type} [DecidableEq κ]

/-- The dict with its values changed. -/
def mapVals (g : ν → ν') (d : Dict κ ν) : Dict κ ν' := d.map fun kv => (kv.1, g kv.2)

theorem get?_mapVals (g : ν → ν') (d : Dict κ ν) (k : κ) : get? (mapVals g d) k = (get? d k).map g := by
  induction d with
  | nil => rfl
  | cons kv d ih =>
    simp only [mapVals, List.map_cons, get?] at ih ⊢
    split_ifs
    · rfl
    · exact ih

theorem set_mapVals (g : ν → ν') (d : Dict κ ν) (k : κ) (v : ν) : set (mapVals g d) k (g v) = mapVals g (set d k v) := by
  induction d with
  | nil => rfl
  | cons kv d ih =>
    simp only [mapVals, List.map_cons, set] at ih ⊢
    split_ifs
    · rfl
    · simp only [List.map_cons, ih]

theorem getItem_mapVals (g : ν → ν') (d : Dict κ ν) (k : κ) : getItem (mapVals g d) k = g <$> getItem d k := by
  unfold getItem
  rw [get?_mapVals]
  rcases get? d k with _ | v <;> rfl

theorem values_mapVals (g : ν → ν') (d : Dict κ ν) : values (mapVals g d) = (values d).map g := by
  simp [values, mapVals, Function.comp_def]

end Dict

namespace Spec.UnitChange
variable {K : Type} [Field K] [LinearOrder K] [IsStrictOrderedRing K] (u : UnitChange K)

theorem get?_props (p : Props K) (k : String) : Dict.get? (u.props p) k = (Dict.get? p k).map (value (u.factor k)) := by
  induction p with
  | nil => rfl
  | cons kv p ih =>
    simp only [props, List.map_cons, Dict.get?] at ih ⊢
    split_ifs with h
    · subst h; rfl
    · exact ih

theorem set_props (p : Props K) (k : String) (v : Val K) :
    Dict.set (u.props p) k (value (u.factor k) v) = u.props (Dict.set p k v) := by
  induction p with
  | nil => rfl
  | cons kv p ih =>
    simp only [props, List.map_cons, Dict.set] at ih ⊢
    split_ifs with h
    · subst h; rfl
    · simp only [List.map_cons, ih]

theorem getItem_props (p : Props K) (k : String) : Dict.getItem (u.props p) k = value (u.factor k) <$> Dict.getItem p k := by
  unfold Dict.getItem
  rw [get?_props]
  rcases Dict.get? p k with _ | v <;> rfl

theorem value_none : (value none : Val K → Val K) = id := by
  funext v; cases v <;> rfl

theorem getItem_same (p : Props K) {k : String} (h : u.factor k = none) : Dict.getItem (u.props p) k = Dict.getItem p k := by
  rw [getItem_props, h, value_none, id_map]

theorem set_same (p : Props K) {k : String} (h : u.factor k = none) (v : Val K) :
    Dict.set (u.props p) k v = u.props (Dict.set p k v) := by
  have := u.set_props p k v
  rwa [h, value_none] at this

theorem set_num (p : Props K) {k : String} {c : K} (h : u.factor k = some c) (x : K) :
    Dict.set (u.props p) k (.num (c * x)) = u.props (Dict.set p k (.num x)) := by
  have := u.set_props p k (.num x)
  rwa [h] at this

theorem float_value (c : K) (v : Val K) : (value (some c) v).float = (c * ·) <$> v.float := by
  cases v <;> rfl

theorem number_props (p : Props K) {k : String} {c : K} (h : u.factor k = some c) :
    Network.number (u.props p) k = (c * ·) <$> Network.number p k := by
  unfold Network.number
  rw [getItem_props, h, bind_map_left, map_bind]
  simp only [float_value]

theorem prop_same (f : Feature K) {k : String} (h : u.factor k = none) : (u.feature f).prop k = f.prop k :=
  u.getItem_same f.properties h

theorem prop_value (f : Feature K) (k : String) : (u.feature f).prop k = value (u.factor k) <$> f.prop k :=
  u.getItem_props f.properties k

/-! ### The georeference -/

theorem toWorld (gt : GeoTransform K) (c : Cell) : transformCellToWorld c (u.transform gt) = u.point (transformCellToWorld c gt) := by
  unfold transformCellToWorld applyGeoTransform point transform
  simp only [Prod.mk.injEq]
  constructor <;> ring

/-- `fl` commutes with the change of units. -/
structure Homogeneous (fl : K → K) : Prop where
  len : ∀ x, fl (u.len * x) = u.len * fl x
  height : ∀ x, fl (u.height * x) = u.height * fl x

variable {u} {fl : K → K}

theorem Homogeneous.area (h : u.Homogeneous fl) (x : K) : fl (u.area * x) = u.area * fl x := by
  unfold UnitChange.area
  rw [mul_assoc, h.len, h.len, mul_assoc]

theorem Homogeneous.volume (h : u.Homogeneous fl) (x : K) : fl (u.volume * x) = u.volume * fl x := by
  unfold UnitChange.volume
  rw [mul_assoc, h.area, h.height, mul_assoc]

theorem area_pos (hl : 0 < u.len) : 0 < u.area := mul_pos hl hl

theorem volume_pos (hl : 0 < u.len) (hh : 0 < u.height) : 0 < u.volume := mul_pos (area_pos hl) hh

theorem squareCells_same (hl : 0 < u.len) (h : u.Homogeneous fl) (gt : GeoTransform K) :
    (|fl (|u.len * gt.t1| - |u.len * gt.t5|)| < fl (fl (1 / 100) * |(|u.len * gt.t1|)|)) ↔
      |fl (|gt.t1| - |gt.t5|)| < fl (fl (1 / 100) * |(|gt.t1|)|) := by
  rw [abs_mul, abs_mul, abs_of_pos hl, ← mul_sub, h.len, abs_mul, abs_of_pos hl, abs_mul, abs_of_pos hl, mul_left_comm, h.len]
  exact mul_lt_mul_iff_right₀ hl

theorem cellArea_same (hl : 0 < u.len) (h : u.Homogeneous fl) (gt : GeoTransform K) :
    fl (|u.len * gt.t1| * |u.len * gt.t5|) = u.area * fl (|gt.t1| * |gt.t5|) := by
  rw [← h.area, abs_mul, abs_mul, abs_of_pos hl]
  congr 1
  unfold UnitChange.area
  ring

end Spec.UnitChange

/-! ### Statistics of labels -/

section Stats
variable {K : Type} [Field K] [LinearOrder K] [IsStrictOrderedRing K]

/-- The record with heights multiplied by `a`. -/
def Label.Stat.times (a : K) (s : Label.Stat K) : Label.Stat K := ⟨s.min.map (a * ·), s.max.map (a * ·), a * s.sum, s.count⟩

theorem timesMono {a : K} (ha : 0 < a) : StrictMono (a * ·) := fun _ _ h => mul_lt_mul_of_pos_left h ha

theorem coe_lt_map {a : K} (ha : 0 < a) (x : K) (t : WithTop K) :
    ((a * x : K) : WithTop K) < t.map (a * ·) ↔ (x : WithTop K) < t := by
  cases t using WithTop.recTopCoe with
  | top => exact ⟨fun _ => WithTop.coe_lt_top _, fun _ => WithTop.coe_lt_top _⟩
  | coe t => rw [WithTop.map_coe, WithTop.coe_lt_coe, WithTop.coe_lt_coe]; exact (timesMono ha).lt_iff_lt

theorem map_lt_coe {a : K} (ha : 0 < a) (x : K) (t : WithBot K) :
    t.map (a * ·) < ((a * x : K) : WithBot K) ↔ t < (x : WithBot K) := by
  cases t using WithBot.recBotCoe with
  | bot => exact ⟨fun _ => WithBot.bot_lt_coe _, fun _ => WithBot.bot_lt_coe _⟩
  | coe t => rw [WithBot.map_coe, WithBot.coe_lt_coe, WithBot.coe_lt_coe]; exact (timesMono ha).lt_iff_lt

theorem Label.statUpd_times {a : K} (ha : 0 < a) {fl : K → K} (hfl : ∀ x, fl (a * x) = a * fl x) (data : Raster K) (rc : Cell)
    (r : Label.Stat K) :
    Label.statUpdFl fl (data.map (a * ·)) rc (r.times a) = (Label.statUpdFl fl data rc r).times a := by
  unfold Label.statUpdFl Label.Stat.times
  simp only [Raster.map_get, coe_lt_map ha, ← mul_add, hfl]
  by_cases h : ((data.get rc : K) : WithTop K) < r.min <;> simp only [h, if_true, if_false, map_lt_coe ha] <;>
    by_cases h' : r.max < ((data.get rc : K) : WithBot K) <;> simp only [h', if_true, if_false] <;> rfl

theorem Label.init_times (a : K) : (Label.Stat.init : Label.Stat K).times a = Label.Stat.init := by
  unfold Label.Stat.times Label.Stat.init
  simp

theorem Label.labelStats_times {a : K} (ha : 0 < a) {fl : K → K} (hfl : ∀ x, fl (a * x) = a * fl x) (data : Raster K)
    (labelled : Raster Int) (nlabels : Option Int) :
    Label.labelStatsFl fl (data.map (a * ·)) labelled nlabels =
      List.map (Label.Stat.times a) <$> Label.labelStatsFl fl data labelled nlabels := by
  unfold Label.labelStatsFl
  rcases Label.resolve labelled nlabels with e | n
  · rfl
  · show (Label.table n _ >>= _) = List.map _ <$> (Label.table n _ >>= _)
    unfold Label.table
    split_ifs
    · rfl
    · show Label.scan _ _ _ _ = Except.map _ (Label.scan _ _ _ _)
      rw [← Label.scan_map (Label.Stat.times a) (fun c r => Label.statUpd_times ha hfl data c r)]
      simp [Label.init_times, Raster.cells]

theorem LabelCython.statUpd_times {a : K} (ha : 0 < a) {fl : K → K} (hfl : ∀ x, fl (a * x) = a * fl x) (data : Raster K)
    (rc : Cell) (r : Label.Stat K) :
    LabelCython.statUpdFl fl (data.map (a * ·)) rc (r.times a) = (LabelCython.statUpdFl fl data rc r).times a :=
  Label.statUpd_times ha hfl data rc r

theorem LabelCython.labelStats_times {a : K} (ha : 0 < a) {fl : K → K} (hfl : ∀ x, fl (a * x) = a * fl x) (data : Raster K)
    (labelled : Raster Int) (nlabels : Option Int) :
    LabelCython.labelStatsFl fl (data.map (a * ·)) labelled nlabels =
      List.map (Label.Stat.times a) <$> LabelCython.labelStatsFl fl data labelled nlabels := by
  unfold LabelCython.labelStatsFl
  rcases Label.resolve labelled nlabels with e | n
  · rfl
  · show (Label.table n _ >>= _) = List.map _ <$> (Label.table n _ >>= _)
    unfold Label.table
    split_ifs
    · rfl
    · show LabelCython.scan _ _ _ _ = Except.map _ (LabelCython.scan _ _ _ _)
      rw [← LabelCython.scan_map (Label.Stat.times a) (fun c r => LabelCython.statUpd_times ha hfl data c r)]
      simp [Label.init_times, Raster.cells]

end Stats

/-! ### Bluespots -/

namespace Bluespots
variable {K : Type} [Field K] [LinearOrder K] [IsStrictOrderedRing K] {β β' : Type} [LinearOrder β] [OrderTop β]
  [LinearOrder β'] [OrderTop β'] {u : UnitChange K} {fl : K → K}

/-- The results in new units. -/
def Out.inUnits (u : UnitChange K) (o : Out K) : Out K :=
  ⟨o.labeled, o.nlabels, o.watersheds, o.pourpoints.map u.pourPoint⟩

theorem filter_units (hfl : u.Homogeneous fl) {f f' : StatUnits K → Bool} (hf : ∀ s, f' (u.stats s) = f s) (area : K)
    (l : List (Label.Stat K)) :
    filterbluespotsFl fl f' (u.area * area) (l.map (Label.Stat.times u.height)) = filterbluespotsFl fl f area l := by
  unfold filterbluespotsFl
  rw [List.map_map]
  refine List.map_congr_left fun s _ => ?_
  rw [← hf]
  simp only [Function.comp, Label.Stat.times, UnitChange.stats]
  congr 2
  · rw [← hfl.volume]; congr 1; unfold UnitChange.volume; ring
  · rw [← hfl.area]; congr 1; ring

theorem pourPoint_units {ι : Type} (hl : 0 < u.len) (hfl : u.Homogeneous fl) (gt : GeoTransform K) (area : K) (ix : Int)
    (pp : Label.Index ι) (bs : Label.Stat K) (ws : Int) :
    pourPointFl fl (u.transform gt) (u.area * area) ix pp (bs.times u.height) ws =
      u.pourPoint (pourPointFl fl gt area ix pp bs ws) := by
  have h1 : fl (u.height * bs.sum * (u.area * area)) = u.volume * fl (bs.sum * area) := by
    rw [← hfl.volume]; congr 1; unfold UnitChange.volume; ring
  have h2 : ∀ n : Int, fl (fl (n : K) * (u.area * area)) = u.area * fl (fl (n : K) * area) := by
    intro n
    rw [← hfl.area]; congr 1; ring
  have ha := (UnitChange.area_pos hl).ne'
  unfold pourPointFl UnitChange.pourPoint
  simp only [Label.Stat.times, h1, h2, UnitChange.toWorld, mul_eq_zero, ha, false_or, PourPoint.mk.injEq, true_and, and_true]
  split_ifs with h0
  · rfl
  · simp only [Option.map_some, Option.some.injEq]
    rw [← hfl.height, show (1000 : K) * (u.volume * fl (bs.sum * area)) = u.volume * (1000 * fl (bs.sum * area)) by ring, hfl.volume]
    congr 1
    unfold UnitChange.volume
    field_simp

theorem assemble_units (hl : 0 < u.len) (hfl : u.Homogeneous fl) (gt : GeoTransform K) (g : β → β') (pp : List (Label.Index β))
    (bs : List (Label.Stat K)) (ws : List Int) :
    assemblePourpointsFl fl (u.transform gt) (pp.map (Label.Index.map g)) (bs.map (Label.Stat.times u.height)) ws =
      (assemblePourpointsFl fl gt pp bs ws).map u.pourPoint := by
  rw [assemble_map]
  unfold assemblePourpointsFl
  simp only [UnitChange.transform, UnitChange.cellArea_same hl hfl]
  simp only [List.zip_map_left, List.zip_map_right, List.zipIdx_map, List.map_map]
  refine List.map_congr_left fun s _ => ?_
  exact pourPoint_units hl hfl gt _ _ _ _ _

/-- The functions `eng'` do to elevations changed by `g` and depths multiplied by `a` what `eng` does to the original
ones. -/
structure Engine.CommutesUnits (g : β → β') (a : K) (eng : Engine β K) (eng' : Engine β' K) : Prop where
  noFlats : ∀ {short diag : β → β} {short' diag' : β' → β'}, (∀ x, short' (g x) = g (short x)) →
    (∀ x, diag' (g x) = g (diag x)) → ∀ dem n, eng'.fillTerrainNoFlats short' diag' (dem.map g) n =
      (eng.fillTerrainNoFlats short diag dem n).map (Except.map (Raster.map g))
  watersheds : eng'.watershedsFromLabels = eng.watershedsFromLabels
  stats : ∀ data labelled nlabels, eng'.labelStats (data.map (a * ·)) labelled nlabels =
    List.map (Label.Stat.times a) <$> eng.labelStats data labelled nlabels
  minIndex : ∀ data labelled nlabels, eng'.labelMinIndex (data.map g) labelled nlabels =
    Except.map (List.map (Label.Index.map g)) (eng.labelMinIndex data labelled nlabels)

theorem python_units {g : β → β'} (hg : StrictMono g) (ht : g ⊤ = ⊤) {a : K} (ha : 0 < a) (hfl : ∀ x, fl (a * x) = a * fl x) :
    (pythonFl fl : Engine β K).CommutesUnits g a (pythonFl fl) where
  noFlats := fun hs hd dem n => Fill.fillTerrainNoFlats_map hg ht hs hd dem n
  watersheds := rfl
  stats := Label.labelStats_times ha hfl
  minIndex := Label.labelMinIndex_map hg ht

theorem compiled_units {g : β → β'} (hg : StrictMono g) (ht : g ⊤ = ⊤) {a : K} (ha : 0 < a) (hfl : ∀ x, fl (a * x) = a * fl x)
    (junk : Int × Int) : (compiledFl fl junk : Engine β K).CommutesUnits g a (compiledFl fl junk) where
  noFlats := fun hs hd dem n => FillCython.fillTerrainNoFlats_map hg ht hs hd dem n
  watersheds := rfl
  stats := LabelCython.labelStats_times ha hfl
  minIndex := LabelCython.labelMinIndex_map hg ht

theorem process_units (hl : 0 < u.len) (hh : 0 < u.height) (hfl : u.Homogeneous fl) {g : β → β'} {eng : Engine β K}
    {eng' : Engine β' K} (he : eng.CommutesUnits g u.height eng') (cc : Raster Bool → Raster Int × Nat)
    {safe : Raster β → (β → β) × (β → β)} {safe' : Raster β' → (β' → β') × (β' → β')} (dem : Raster β)
    (hs : ∀ x, (safe' (dem.map g)).1 (g x) = g ((safe dem).1 x)) (hd : ∀ x, (safe' (dem.map g)).2 (g x) = g ((safe dem).2 x))
    (gt : GeoTransform K) (depths : Raster K) {f f' : StatUnits K → Bool} (hf : ∀ s, f' (u.stats s) = f s) (flowdir : Raster Nat)
    (accum : Option (Raster Int)) :
    processFl fl cc eng' safe' (u.transform gt) (depths.map (u.height * ·)) (some f') flowdir accum (some (dem.map g)) =
      Out.inUnits u <$> processFl fl cc eng safe gt depths (some f) flowdir accum (some dem) := by
  unfold processFl
  have h1 : Run.ofFuel (eng'.fillTerrainNoFlats (safe' (dem.map g)).1 (safe' (dem.map g)).2 (dem.map g)) =
      Raster.map g <$> Run.ofFuel (eng.fillTerrainNoFlats (safe dem).1 (safe dem).2 dem) :=
    Run.ofFuel_map (he.noFlats hs hd dem)
  have h2 : ∀ (f : Raster β) lab n, Run.ofExcept (eng'.labelMinIndex (f.map g) lab n) =
      List.map (Label.Index.map g) <$> Run.ofExcept (eng.labelMinIndex f lab n) := fun f lab n =>
    Run.ofExcept_map (he.minIndex f lab n)
  have h3 : ∀ lab n, Run.ofExcept (eng'.labelStats (depths.map (u.height * ·)) lab n) =
      List.map (Label.Stat.times u.height) <$> Run.ofExcept (eng.labelStats depths lab n) := fun lab n =>
    Run.ofExcept_map (he.stats depths lab n)
  have h4 : connectedComponents cc (depths.map (u.height * ·)) = connectedComponents cc depths := by
    unfold connectedComponents
    simp only [Raster.map, ne_eq, mul_eq_zero, hh.ne', false_or]
  have h5 : ∀ (pp : List (Label.Index (WithBot Int))) bs ws,
      assemblePourpointsFl fl (u.transform gt) pp (bs.map (Label.Stat.times u.height)) ws =
      (assemblePourpointsFl fl gt pp bs ws).map u.pourPoint := by
    intro pp bs ws
    unfold assemblePourpointsFl
    simp only [UnitChange.transform, UnitChange.cellArea_same hl hfl]
    simp only [List.zip_map_left, List.zip_map_right, List.zipIdx_map, List.map_map]
    exact List.map_congr_left fun s _ => pourPoint_units hl hfl gt _ _ _ _ _
  have hsq := UnitChange.squareCells_same hl hfl gt
  have hca := UnitChange.cellArea_same hl hfl gt
  have hfe := filter_units (u := u) (fl := fl) hfl hf
  simp only [show (u.transform gt).t1 = u.len * gt.t1 from rfl, show (u.transform gt).t5 = u.len * gt.t5 from rfl, hsq, hca, h4]
  by_cases hc : |fl (|gt.t1| - |gt.t5|)| < fl (fl (1 / 100) * |(|gt.t1|)|)
  · cases accum with
    | none =>
      simp only [hc, not_true_eq_false, if_false, h1, h2, h3, he.watersheds, bind_map_left, hfe, assemble_units hl hfl, map_bind,
        map_pure, Option.isNone_some, Option.isNone_none, and_false, Bool.false_eq_true]
      rfl
    | some a =>
      simp only [hc, not_true_eq_false, if_false, h3, he.watersheds, bind_map_left, hfe, h5, map_bind,
        map_pure, Option.isNone_some, and_false, Bool.false_eq_true]
      rfl
  · cases accum <;> simp only [hc, not_false_eq_true, if_true, Option.isNone_some, and_false, Bool.false_eq_true, if_false] <;> rfl

end Bluespots

/-! ### Attributes -/

namespace Spec.UnitChange
variable {K : Type} [Field K] [LinearOrder K] [IsStrictOrderedRing K] (u : UnitChange K)

theorem factor_nodeid : u.factor "nodeid" = none := by simp [factor]
theorem factor_dstrnodeid : u.factor "dstrnodeid" = none := by simp [factor]
theorem factor_nodetype : u.factor "nodetype" = none := by simp [factor]
theorem factor_cell_row : u.factor "cell_row" = none := by simp [factor]
theorem factor_cell_col : u.factor "cell_col" = none := by simp [factor]
theorem factor_bspot_id : u.factor "bspot_id" = none := by simp [factor]
theorem factor_pctv : u.factor "pctv" = none := by simp [factor]
theorem factor_hist_counts : u.factor "hist_counts" = none := by simp [factor]
theorem factor_hist_num_bins : u.factor "hist_num_bins" = none := by simp [factor]
theorem factor_bspot_area : u.factor "bspot_area" = some u.area := by simp [factor]
theorem factor_wshed_area : u.factor "wshed_area" = some u.area := by simp [factor]
theorem factor_cell_area : u.factor "cell_area" = some u.area := by simp [factor]
theorem factor_bspot_vol : u.factor "bspot_vol" = some u.volume := by simp [factor]
theorem factor_inputv : u.factor "inputv" = some u.volume := by simp [factor]
theorem factor_spillv : u.factor "spillv" = some u.volume := by simp [factor]
theorem factor_v : u.factor "v" = some u.volume := by simp [factor]
theorem factor_bspot_dmax : u.factor "bspot_dmax" = some u.height := by simp [factor]
theorem factor_bspot_fumm : u.factor "bspot_fumm" = some u.height := by simp [factor]
theorem factor_hist_lower_bound : u.factor "hist_lower_bound" = some u.height := by simp [factor]
theorem factor_hist_upper_bound : u.factor "hist_upper_bound" = some u.height := by simp [factor]
theorem factor_hist_resolution : u.factor "hist_resolution" = some u.height := by simp [factor]
theorem factor_zmin : u.factor "zmin" = some u.height := by simp [factor]
theorem factor_zmax : u.factor "zmax" = some u.height := by simp [factor]
theorem factor_approx_z : u.factor "approx_z" = some u.height := by simp [factor]
theorem factor_approx_dmax : u.factor "approx_dmax" = some u.height := by simp [factor]

theorem props_cons (k : String) (v : Val K) (p : Props K) : u.props ((k, v) :: p) = (k, value (u.factor k) v) :: u.props p := rfl

theorem props_nil : u.props ([] : Props K) = [] := rfl

theorem pourPoint_feature (p : Bluespots.PourPoint K) : (u.pourPoint p).feature = u.feature p.feature := by
  unfold Bluespots.PourPoint.feature feature
  simp only [props_cons, props_nil, factor_bspot_id, factor_cell_row, factor_cell_col, factor_bspot_dmax, factor_bspot_area,
    factor_bspot_vol, factor_wshed_area, factor_bspot_fumm, pourPoint, geometry]
  obtain ⟨_, _, _, _, dmax, _, _, _, fumm, _⟩ := p
  cases dmax using WithBot.recBotCoe <;> rcases fumm with _ | x <;> rfl

theorem pourPoint_features (l : List (Bluespots.PourPoint K)) :
    (l.map u.pourPoint).map (·.feature) = (l.map (·.feature)).map u.feature := by
  simp only [List.map_map]
  exact List.map_congr_left fun p _ => u.pourPoint_feature p

end Spec.UnitChange

/-! ### Streams -/

namespace Streams
variable {K : Type} [Field K] [LinearOrder K] [IsStrictOrderedRing K] (u : UnitChange K)

theorem index_units (f : Feature K) {name : String} (h : u.factor name = none) : index (u.feature f) name = index f name := by
  unfold index
  rw [u.prop_same f h]

theorem indexPourpoints_units (l : List (Feature K)) :
    indexPourpoints (l.map u.feature) = Dict.mapVals u.feature <$> indexPourpoints l := by
  unfold indexPourpoints
  refine foldlM_commutes u.feature (Dict.mapVals u.feature) (fun s x => ?_) l []
  simp only [u.prop_same x u.factor_bspot_id, map_bind, map_pure, Dict.set_mapVals]

theorem nodeFeature_units (gt : GeoTransform K) (pp_index : Dict (Val K) (Feature K)) (n : Net.Node) :
    nodeFeature (u.transform gt) (Dict.mapVals u.feature pp_index) n = u.feature <$> nodeFeature gt pp_index n := by
  have hp : ([("nodeid", .int n.id), ("dstrnodeid", optVal n.downstream_id), ("nodetype", .str (typeName n.nodetype)),
     ("cell_row", .int n.pix.1), ("cell_col", .int n.pix.2), ("bspot_id", .none), ("bspot_area", .num 0),
     ("bspot_vol", .num 0), ("wshed_area", .num 0)] : Props K) =
     u.props [("nodeid", .int n.id), ("dstrnodeid", optVal n.downstream_id), ("nodetype", .str (typeName n.nodetype)),
     ("cell_row", .int n.pix.1), ("cell_col", .int n.pix.2), ("bspot_id", .none), ("bspot_area", .num 0),
     ("bspot_vol", .num 0), ("wshed_area", .num 0)] := by
    simp only [u.props_cons, u.props_nil, u.factor_nodeid, u.factor_dstrnodeid, u.factor_nodetype, u.factor_cell_row,
      u.factor_cell_col, u.factor_bspot_id, u.factor_bspot_area, u.factor_bspot_vol, u.factor_wshed_area,
      UnitChange.value_none, id, UnitChange.value, mul_zero]
  unfold nodeFeature
  conv_lhs => rw [hp]
  rw [Dict.get?_mapVals]
  generalize ([("nodeid", .int n.id), ("dstrnodeid", optVal n.downstream_id), ("nodetype", .str (typeName n.nodetype)),
     ("cell_row", .int n.pix.1), ("cell_col", .int n.pix.2), ("bspot_id", .none), ("bspot_area", .num 0),
     ("bspot_vol", .num 0), ("wshed_area", .num 0)] : Props K) = P
  rcases Dict.get? pp_index (.int n.id) with _ | pp
  · simp only [Option.map_none, u.toWorld]
    rfl
  · simp only [Option.map_some, u.prop_value pp, bind_map_left, u.set_props, map_bind, map_pure, bind_assoc, pure_bind, u.toWorld]
    rfl

theorem streamFeature_units (gt : GeoTransform K) (n : Net.Node) :
    streamFeature (u.transform gt) n = (streamFeature gt n).map u.feature := by
  unfold streamFeature
  split_ifs
  · rfl
  · simp only [Option.map_some, UnitChange.feature, UnitChange.geometry, u.props_cons, u.props_nil, u.factor_nodeid, u.factor_dstrnodeid,
      UnitChange.value_none, id, u.toWorld, List.map_map, Function.comp_def]

theorem process_units (gt : GeoTransform K) (flowdir : Raster Nat) (labeled : Raster Int) (pps : List (Feature K)) (want : Bool)
    (n : Nat) :
    process (u.transform gt) flowdir labeled (pps.map u.feature) want n =
      Prod.map (List.map u.feature) (List.map u.feature) <$> process gt flowdir labeled pps want n := by
  have h1 : (pps.map u.feature).mapM (fun pp => do
      let row ← index pp "cell_row"
      let col ← index pp "cell_col"
      pure (Net.PourPointArg.pix (row, col))) = pps.mapM (fun pp => do
      let row ← index pp "cell_row"
      let col ← index pp "cell_col"
      pure (Net.PourPointArg.pix (row, col))) := by
    rw [mapM_commutes u.feature id pps (f := fun pp => do
      let row ← index pp "cell_row"
      let col ← index pp "cell_col"
      pure (Net.PourPointArg.pix (row, col))), List.map_id_fun, id_map]
    intro x _
    simp only [index_units u x u.factor_cell_row, index_units u x u.factor_cell_col, id_map]
  have h2 : (ExceptT.mk (some (indexPourpoints (pps.map u.feature))) : Net.Comp _) =
      Dict.mapVals u.feature <$> (ExceptT.mk (some (indexPourpoints pps)) : Net.Comp _) := by
    rw [indexPourpoints_units]
    rcases indexPourpoints pps with _ | d <;> rfl
  have h3 : ∀ (d : Dict (Val K) (Feature K)) (nodes : List Net.Node),
      (ExceptT.mk (some (nodes.mapM (nodeFeature (u.transform gt) (Dict.mapVals u.feature d)))) : Net.Comp _) =
      List.map u.feature <$> (ExceptT.mk (some (nodes.mapM (nodeFeature gt d))) : Net.Comp _) := by
    intro d nodes
    have := mapM_commutes id u.feature nodes (f := nodeFeature gt d) (f' := nodeFeature (u.transform gt) (Dict.mapVals u.feature d))
      fun x _ => nodeFeature_units u gt d x
    rw [List.map_id_fun, id] at this
    rw [this]
    rcases nodes.mapM (nodeFeature gt d) with _ | d <;> rfl
  have h4 : ∀ nodes : List Net.Node, nodes.filterMap (streamFeature (u.transform gt)) =
      (nodes.filterMap (streamFeature gt)).map u.feature := by
    intro nodes
    rw [List.map_filterMap]
    exact congrArg (fun f => nodes.filterMap f) (funext fun x => streamFeature_units u gt x)
  unfold process
  simp only [h1, h2, h3, h4, bind_map_left, map_bind, map_pure, Prod.map]
  cases want <;> simp

end Streams

/-! ### Rain -/

namespace Rain
variable {K : Type} [Field K] [LinearOrder K] [IsStrictOrderedRing K] {u : UnitChange K} {fl : K → K}

theorem simpleVolume_units (hfl : u.Homogeneous fl) (mm : K) (f : Feature K) :
    simpleVolumeFl fl "inputv" (u.height * mm) (u.feature f) = u.feature <$> simpleVolumeFl fl "inputv" mm f := by
  unfold simpleVolumeFl
  rw [show (u.feature f).properties = u.props f.properties from rfl, u.number_props f.properties u.factor_wshed_area]
  simp only [bind_map_left, map_bind, map_pure]
  refine congrArg _ (funext fun x => ?_)
  have : fl (fl (u.area * x * (u.height * mm)) * fl (1 / 1000)) = u.volume * fl (fl (x * mm) * fl (1 / 1000)) := by
    rw [show u.area * x * (u.height * mm) = u.volume * (x * mm) by unfold UnitChange.volume; ring, hfl.volume, mul_assoc, hfl.volume]
  rw [this, u.set_num f.properties u.factor_inputv]
  rfl

theorem simpleVolumes_units (hfl : u.Homogeneous fl) (mm : K) (l : List (Feature K)) :
    simpleVolumesFl fl (l.map u.feature) "inputv" (u.height * mm) = List.map u.feature <$> simpleVolumesFl fl l "inputv" mm :=
  mapM_commutes u.feature u.feature l fun x _ => simpleVolume_units hfl mm x

end Rain

/-! ### The final state -/

namespace Network
variable {K : Type} [Field K] [LinearOrder K] [IsStrictOrderedRing K] {u : UnitChange K} {fl : K → K}

/-- The network in new units. -/
def State.inUnits (u : UnitChange K) (s : State K) : State K :=
  ⟨s.nodes.map u.props, Dict.mapVals u.props s.nodes_index, s.root_nodes, s.upstream_tree⟩

theorem addNode_units (s : State K) (p : Props K) : addNode (s.inUnits u) (u.props p) = State.inUnits u <$> addNode s p := by
  unfold addNode
  simp only [u.getItem_same p u.factor_nodeid, u.getItem_same p u.factor_dstrnodeid, map_bind, map_pure]
  refine congrArg _ (funext fun x => congrArg _ (funext fun y => ?_))
  simp only [State.inUnits, List.map_append, List.map_cons, List.map_nil, Dict.set_mapVals]
  rfl

theorem addNodes_units (s : State K) (l : List (Props K)) :
    addNodes (s.inUnits u) (l.map u.props) = State.inUnits u <$> addNodes s l :=
  foldlM_commutes u.props (State.inUnits u) addNode_units l s

theorem pySum_units {c : K} (hfl : ∀ x, fl (c * x) = c * fl x) (l : List K) : pySumFl fl (l.map (c * ·)) = c * pySumFl fl l := by
  unfold pySumFl
  have : ∀ (l : List K) (x : K), (l.map (c * ·)).foldl (fun a b => fl (a + b)) (c * x) = c * l.foldl (fun a b => fl (a + b)) x := by
    intro l
    induction l with
    | nil => intro x; rfl
    | cons y l ih => intro x; rw [List.map_cons, List.foldl_cons, List.foldl_cons, ← mul_add, hfl, ih]
  have h := this l 0
  rwa [mul_zero] at h

theorem calcNode_units (hl : 0 < u.len) (hh : 0 < u.height) (hfl : u.Homogeneous fl) (s : State K)
    (values : Dict (Val K) (Props K)) (id : Val K) :
    calcNodeFl fl (s.inUnits u) "inputv" (Dict.mapVals u.props values) id =
      Dict.mapVals u.props <$> calcNodeFl fl s "inputv" values id := by
  have hv := UnitChange.volume_pos hl hh
  have hup : (s.inUnits u).upstream id = s.upstream id := rfl
  have h1 : (s.upstream id).mapM (fun nid => u.props <$> Dict.getItem values nid) =
      List.map u.props <$> (s.upstream id).mapM fun nid => Dict.getItem values nid := by
    have := mapM_commutes (m := Except PyErr) _root_.id u.props (s.upstream id) (f := fun nid => Dict.getItem values nid)
      (f' := fun nid => u.props <$> Dict.getItem values nid) fun x _ => rfl
    rwa [List.map_id_fun, _root_.id] at this
  have h2 : ∀ l : List (Props K), (l.map u.props).mapM (fun un => number un "spillv") =
      List.map (u.volume * ·) <$> l.mapM fun un => number un "spillv" := fun l =>
    mapM_commutes (m := Except PyErr) u.props (u.volume * ·) l fun x _ => u.number_props x u.factor_spillv
  unfold calcNodeFl
  rw [hup]
  simp only [show (s.inUnits u).nodes_index = Dict.mapVals u.props s.nodes_index from rfl, Dict.getItem_mapVals, bind_map_left, map_bind,
    map_pure, u.number_props _ u.factor_wshed_area, u.number_props _ u.factor_inputv, u.number_props _ u.factor_bspot_vol, h1, h2,
    u.getItem_same _ u.factor_nodeid]
  refine congrArg _ (funext fun node => congrArg _ (funext fun area => congrArg _ (funext fun water => congrArg _ (funext fun cap =>
    congrArg _ (funext fun ups => congrArg _ (funext fun spills => congrArg _ (funext fun nid => ?_)))))))
  have hsum : (if s.upstream id = [] then (0 : K) else pySumFl fl (spills.map (u.volume * ·))) =
      u.volume * (if s.upstream id = [] then (0 : K) else pySumFl fl spills) := by
    split_ifs
    · rw [mul_zero]
    · exact pySum_units hfl.volume spills
  rw [hsum]
  generalize (if s.upstream id = [] then (0 : K) else pySumFl fl spills) = up
  have ht : fl (u.volume * water + u.volume * up) = u.volume * fl (water + up) := by rw [← mul_add, hfl.volume]
  rw [ht]
  generalize fl (water + up) = total
  have hmin : min (u.volume * total) (u.volume * cap) = u.volume * min total cap :=
    ((timesMono hv).monotone.map_min (a := total) (b := cap)).symm
  have hmax : max 0 (fl (u.volume * total - u.volume * cap)) = u.volume * max 0 (fl (total - cap)) := by
    rw [← mul_sub, hfl.volume]
    have := (timesMono hv).monotone.map_max (a := 0) (b := fl (total - cap))
    simp only [mul_zero] at this
    exact this.symm
  have hpct : (if u.volume * cap = 0 then (.none : Val K) else .num (fl (fl (100 * (u.volume * min total cap)) / (u.volume * cap)))) =
      if cap = 0 then .none else .num (fl (fl (100 * min total cap) / cap)) := by
    simp only [mul_eq_zero, hv.ne', false_or]
    split_ifs with h0
    · rfl
    · rw [show (100 : K) * (u.volume * min total cap) = u.volume * (100 * min total cap) by ring, hfl.volume,
        mul_div_mul_left _ _ hv.ne']
  rw [hmin, hmax, hpct]
  congr 1
  rw [← Dict.set_mapVals]
  congr 1

theorem calcStreamTree_units (hl : 0 < u.len) (hh : 0 < u.height) (hfl : u.Homogeneous fl) (s : State K) (fuel : Nat)
    (values : Dict (Val K) (Props K)) (root : Val K) :
    calcStreamTreeFl fl (s.inUnits u) "inputv" fuel (Dict.mapVals u.props values) root =
      Dict.mapVals u.props <$> calcStreamTreeFl fl s "inputv" fuel values root := by
  unfold calcStreamTreeFl
  rw [show (s.inUnits u).upstream = s.upstream from rfl, map_bind]
  refine congrArg _ (funext fun tree => ?_)
  have := foldlM_commutes (m := Except PyErr) _root_.id (Dict.mapVals u.props)
    (fun v x => calcNode_units hl hh hfl s v x) tree values
  rw [List.map_id_fun, _root_.id] at this
  rw [this]
  rcases tree.foldlM (calcNodeFl fl s "inputv") values with _ | d <;> rfl

theorem rainEvent_units (hl : 0 < u.len) (hh : 0 < u.height) (hfl : u.Homogeneous fl) (s : State K) (fuel : Nat) :
    rainEventFl fl (s.inUnits u) "inputv" fuel = List.map u.props <$> rainEventFl fl s "inputv" fuel := by
  unfold rainEventFl
  have := foldlM_commutes (m := Net.Comp) _root_.id (Dict.mapVals u.props)
    (fun v x => calcStreamTree_units hl hh hfl s fuel v x) s.root_nodes []
  rw [List.map_id_fun, _root_.id] at this
  rw [show (s.inUnits u).root_nodes = s.root_nodes from rfl, show ([] : Dict (Val K) (Props K)) = Dict.mapVals u.props [] from rfl, this]
  simp only [bind_map_left, map_bind, map_pure, Dict.values_mapVals]
  rfl

theorem indexFeatures_units (l : List (Feature K)) :
    indexFeatures (l.map u.feature) = Dict.mapVals u.feature <$> indexFeatures l := by
  unfold indexFeatures
  refine foldlM_commutes u.feature (Dict.mapVals u.feature) (fun s x => ?_) l []
  simp only [u.prop_same x u.factor_nodeid, map_bind, map_pure, Dict.set_mapVals]

theorem copyProps_units (f : Feature K) (e : Props K) : copyProps (u.feature f) (u.props e) = u.feature <$> copyProps f e := by
  unfold copyProps
  simp only [List.foldlM_cons, List.foldlM_nil, u.getItem_props e, bind_map_left, map_bind, map_pure, bind_assoc, pure_bind,
    show (u.feature f).properties = u.props f.properties from rfl, u.set_props]
  rfl

theorem copyEvents_units (d : Dict (Val K) (Feature K)) (events : List (Props K)) :
    copyEvents (Dict.mapVals u.feature d) (events.map u.props) = Dict.mapVals u.feature <$> copyEvents d events := by
  unfold copyEvents
  refine foldlM_commutes u.props (Dict.mapVals u.feature) (fun s x => ?_) events d
  simp only [u.getItem_same x u.factor_nodeid, Dict.getItem_mapVals, bind_map_left, map_bind, map_pure, copyProps_units, Dict.set_mapVals]

theorem finalState_units (hl : 0 < u.len) (hh : 0 < u.height) (hfl : u.Homogeneous fl) (l : List (Feature K)) (n : Nat) :
    finalStateFl fl (l.map u.feature) "inputv" n = List.map u.feature <$> finalStateFl fl l "inputv" n := by
  have lift : ∀ {α α' : Type} (q : α → α') (x : Except PyErr α), (ExceptT.mk (some (q <$> x)) : Net.Comp α') =
      q <$> (ExceptT.mk (some x) : Net.Comp α) := by
    intro α α' q x
    rcases x with _ | a <;> rfl
  have h1 : ∀ d : Dict (Val K) (Feature K), (d.values.map u.feature).map (fun f => f.properties) =
      (d.values.map fun f => f.properties).map u.props := by
    intro d
    simp only [List.map_map]
    rfl
  unfold finalStateFl
  simp only [indexFeatures_units, lift, bind_map_left, Dict.values_mapVals, h1, map_bind, map_pure]
  refine congrArg _ (funext fun d => ?_)
  rw [show (State.init : State K) = State.inUnits u State.init from rfl, addNodes_units, lift, bind_map_left]
  refine congrArg _ (funext fun s => ?_)
  rw [rainEvent_units hl hh hfl, bind_map_left]
  refine congrArg _ (funext fun e => ?_)
  rw [copyEvents_units, lift, bind_map_left]
  simp only [Dict.values_mapVals]

end Network

/-! ### The whole command up to the final state -/

namespace Complete
variable {K : Type} [Field K] [LinearOrder K] [IsStrictOrderedRing K] {u : UnitChange K} {fl : K → K} {β β' : Type} [LinearOrder β]
  [OrderTop β] [LinearOrder β'] [OrderTop β']

/-- The results of the command in new units, with elevations changed by `g`. -/
def Out.inUnits (u : UnitChange K) (g : β → β') (o : Out β K) : Out β' K :=
  { dem := o.dem.map g (u.height * ·), bluespots := o.bluespots.inUnits u, nodes := o.nodes.map u.feature,
    streams := o.streams.map u.feature, volumes := o.volumes.map u.feature, final := o.final.map u.feature }

theorem comp_map {α α' : Type} (q : α → α') (x : Net.Comp α) : (q <$> x : Net.Comp α') = Option.map (Except.map q) x := by
  rcases x with _ | _ | a <;> rfl

theorem processAll_units (hl : 0 < u.len) (hh : 0 < u.height) (hfl : u.Homogeneous fl) {g : β → β'}
    {de : Dem.Engine β K} {de' : Dem.Engine β' K} (hde : de.Commutes g (u.height * ·) de')
    {be : Bluespots.Engine β K} {be' : Bluespots.Engine β' K} (hbe : be.CommutesUnits g u.height be')
    (cc : Raster Bool → Raster Int × Nat) {sub : β → β → K} {sub' : β' → β' → K}
    (hsub : ∀ a b, sub' (g a) (g b) = u.height * sub a b)
    {safe : Raster β → (β → β) × (β → β)} {safe' : Raster β' → (β' → β') × (β' → β')} (dem : Raster β)
    (hs : ∀ x, (safe' (dem.map g)).1 (g x) = g ((safe dem).1 x)) (hd : ∀ x, (safe' (dem.map g)).2 (g x) = g ((safe dem).2 x))
    (gt : GeoTransform K) (accum : Bool) {f f' : Bluespots.StatUnits K → Bool} (hf : ∀ s, f' (u.stats s) = f s) (mm : K) :
    processAllFl fl cc de' be' sub' safe' (u.transform gt) (dem.map g) accum (some f') (u.height * mm) =
      Out.inUnits u g <$> processAllFl fl cc de be sub safe gt dem accum (some f) mm := by
  have hsq : squareCellsFl fl (u.transform gt) = squareCellsFl fl gt := by
    have := UnitChange.squareCells_same hl hfl gt
    rw [abs_abs, abs_abs] at this
    unfold squareCellsFl
    exact decide_eq_decide.2 this
  have h1 : Run.ofFuel (Dem.process de' sub' safe' (squareCellsFl fl gt) accum (dem.map g)) =
      Dem.Out.map g (u.height * ·) <$> Run.ofFuel (Dem.process de sub safe (squareCellsFl fl gt) accum dem) :=
    Run.ofFuel_map (Dem.process_map (timesMono hh) (mul_zero _) hde hsub dem hs hd (squareCellsFl fl gt) accum)
  have h2 : ∀ fd lab (pps : List (Feature K)), Run.ofFuel (Streams.process (u.transform gt) fd lab (pps.map u.feature) true) =
      Prod.map (List.map u.feature) (List.map u.feature) <$> Run.ofFuel (Streams.process gt fd lab pps true) := fun fd lab pps =>
    Run.ofFuel_map fun n => (Streams.process_units u gt fd lab pps true n).trans (comp_map _ _)
  have h3 : ∀ l : List (Feature K), Run.ofExcept (Rain.simpleVolumesFl fl (l.map u.feature) "inputv" (u.height * mm)) =
      List.map u.feature <$> Run.ofExcept (Rain.simpleVolumesFl fl l "inputv" mm) := fun l =>
    Run.ofExcept_map (Rain.simpleVolumes_units hfl mm l)
  have h4 : ∀ l : List (Feature K), Run.ofFuel (Network.finalStateFl fl (l.map u.feature) "inputv") =
      List.map u.feature <$> Run.ofFuel (Network.finalStateFl fl l "inputv") := fun l =>
    Run.ofFuel_map fun n => (Network.finalState_units hl hh hfl l n).trans (comp_map _ _)
  unfold processAllFl
  simp only [hsq, h1, bind_map_left, map_bind, map_pure]
  refine congrArg _ (funext fun d => ?_)
  show (Bluespots.processFl fl cc be' safe' (u.transform gt) (d.depths.map (u.height * ·)) (some f') d.flowdir d.accum
    (some (dem.map g)) >>= _) = _
  rw [Bluespots.process_units hl hh hfl hbe cc dem hs hd gt d.depths hf, bind_map_left]
  refine congrArg _ (funext fun b => ?_)
  show (Run.ofFuel (Streams.process (u.transform gt) d.flowdir b.labeled ((b.pourpoints.map u.pourPoint).map (·.feature)) true) >>= _) = _
  rw [u.pourPoint_features, h2, bind_map_left]
  refine congrArg _ (funext fun s => ?_)
  show (Run.ofExcept (Rain.simpleVolumesFl fl (s.1.map u.feature) "inputv" (u.height * mm)) >>= _) = _
  rw [h3, bind_map_left]
  refine congrArg _ (funext fun v => ?_)
  rw [h4, bind_map_left]
  rfl

end Complete
end Malstroem
