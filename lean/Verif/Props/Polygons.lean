/-
Property C73 (vectorized bluespots, watersheds and flooded extents).
-/
import Verif.Spec.Polygons
import Verif.Props.Label
import Verif.Props.Approx
import Verif.Proofs.LabelContract

set_option linter.unusedSectionVars false

namespace Malstroem
open Spec

/-- The function assumed of GDAL exists. -/
theorem exists_polygonizeContract : ∃ polygonize, PolygonizeContract polygonize := by
  classical
  let region (values : Raster Int) (mask : Raster Bool) (c : Cell) : List Cell :=
    (Raster.cellList values.rows values.cols).filter fun x => ConnectedIn
      (fun y => InGrid values.rows values.cols y ∧ mask.get y = true ∧ values.get y = values.get c) c x
  have hreg : ∀ values mask c, Lists values.rows values.cols (fun x => ConnectedIn
      (fun y => InGrid values.rows values.cols y ∧ mask.get y = true ∧ values.get y = values.get c) c x) (region values mask c) :=
    fun values mask c => lists_filter _ _ _
  refine ⟨fun values mask => (((Raster.cellList values.rows values.cols).filter fun c => mask.get c = true).map
    fun c => (values.get c, region values mask c)).dedup, fun values mask => ⟨?_, ?_, ?_⟩⟩
  · intro p hp
    obtain ⟨c, hc, rfl⟩ := List.mem_map.1 (List.mem_dedup.1 hp)
    obtain ⟨hc, hm⟩ := List.mem_filter.1 hc
    exact ⟨c, Flow.mem_cellList.1 hc, by simpa using hm, rfl, hreg values mask c⟩
  · intro c hc hm
    refine ⟨(values.get c, region values mask c), List.mem_dedup.2 (List.mem_map.2 ⟨c, List.mem_filter.2
      ⟨Flow.mem_cellList.2 hc, by simpa using hm⟩, rfl⟩), ?_⟩
    exact ((hreg values mask c).2 c).2 ⟨hc, .refl ⟨hc, hm, rfl⟩⟩
  · refine (List.nodup_dedup _).imp_of_mem fun {p q} hp hq hne c hcp hcq => hne ?_
    obtain ⟨a, _, rfl⟩ := List.mem_map.1 (List.mem_dedup.1 hp)
    obtain ⟨b, _, rfl⟩ := List.mem_map.1 (List.mem_dedup.1 hq)
    have ha := (((hreg values mask a).2 c).1 hcp).2
    have hb := (((hreg values mask b).2 c).1 hcq).2
    have hv : values.get a = values.get b := ha.right.2.2.symm.trans hb.right.2.2
    refine Prod.ext hv (lists_unique (hreg values mask a) ?_)
    refine ⟨(hreg values mask b).1, fun x => ?_⟩
    rw [(hreg values mask b).2 x, hv]
    rw [hv] at ha
    exact and_congr_right fun _ => ⟨fun h => (ha.trans hb.symm).trans h, fun h => (hb.trans ha.symm).trans h⟩

section
variable {K : Type} {polygonize : Raster Int → Raster Bool → List (Int × List Cell)}

/-- Labels with connected cells get one polygon each. -/
theorem onePerLabel (hp : PolygonizeContract polygonize) {r : Raster Int} {n : Nat}
    (hr : LabelsIn r.rows r.cols r.get n) (hused : ∀ l : Nat, 1 ≤ l → l ≤ n → ∃ c, r.Has c ∧ r.get c = l)
    (hconn : ∀ v : Int, v ≠ 0 → ∀ a b, r.Has a → r.Has b → r.get a = v → r.get b = v →
      ConnectedIn (fun x => InGrid r.rows r.cols x ∧ r.get x = v) a b) (idName : String) :
    OnePerLabel (K := K) r.rows r.cols r.get n idName (Polygons.vectorizeLabelsFile polygonize (some 0) r idName) := by
  have h := hp r (Polygons.maskBand (some 0) r)
  have hmask : ∀ c, (Polygons.maskBand (some 0) r).get c = true ↔ r.get c ≠ 0 := by
    intro c
    show decide (some 0 ≠ some _) = true ↔ _
    rw [decide_eq_true_iff, ne_eq, Option.some_inj, eq_comm]
  -- a polygon covers the cells of a label
  have hcells : ∀ p ∈ polygonize r (Polygons.maskBand (some 0) r), ∃ l : Nat, 1 ≤ l ∧ l ≤ n ∧ p.1 = l ∧
      CellsOf r.rows r.cols r.get l p.2 := by
    intro p hpm
    obtain ⟨c, hc, hm, hv, hl⟩ := h.region p hpm
    have h0 := (hmask c).1 hm
    obtain ⟨h1, h2⟩ := hr c hc
    refine ⟨(r.get c).toNat, by omega, by omega, by omega, hl.1, fun x => ?_⟩
    rw [hl.2 x]
    refine and_congr_right fun hx => ⟨fun hcon => ?_, fun he => ?_⟩
    · have := hcon.right.2.2
      omega
    · have he : r.get x = r.get c := by omega
      exact (hconn _ h0 c x hc hx rfl he).mono fun y hy => ⟨hy.1, (hmask y).2 (by rw [hy.2]; exact h0), hy.2⟩
  refine ⟨?_, ?_, ?_⟩
  · intro p hpm
    obtain ⟨q, hq, rfl⟩ := List.mem_map.1 hpm
    obtain ⟨l, h1, h2, h3, h4⟩ := hcells q hq
    exact ⟨l, h1, h2, by rw [h3], h4⟩
  · intro l h1 h2
    obtain ⟨c, hc, hl⟩ := hused l h1 h2
    obtain ⟨q, hq, hcq⟩ := h.covered c hc ((hmask c).2 (by omega))
    refine ⟨_, List.mem_map.2 ⟨q, hq, rfl⟩, ?_⟩
    obtain ⟨l', _, _, h3, h4⟩ := hcells q hq
    have : r.get c = l' := ((h4.2 c).1 hcq).2
    show [(idName, Val.int q.1)] = _
    rw [h3, ← this, hl]
  · unfold Polygons.vectorizeLabelsFile
    rw [List.pairwise_map]
    refine h.once.imp_of_mem fun {p q} hpm hqm hdis he => ?_
    have he : p.1 = q.1 := by simpa using he
    obtain ⟨l, h1, h2, h3, h4⟩ := hcells p hpm
    obtain ⟨l', _, _, h3', h4'⟩ := hcells q hqm
    have hll : l = l' := by omega
    subst hll
    obtain ⟨c, hc, hl⟩ := hused l h1 h2
    exact hdis c ((h4.2 c).2 ⟨hc, hl⟩) ((h4'.2 c).2 ⟨hc, hl⟩)

end

section
variable {K : Type} [Field K] [LinearOrder K] [IsStrictOrderedRing K] {β : Type} [LinearOrder β] [OrderTop β]
  {cc : Raster Bool → Raster Int × Nat} {eng : Bluespots.Engine β K} {safe : Raster β → (β → β) × (β → β)}
  {gt : GeoTransform K} {depths : Raster K} {flowdir : Raster Nat} {rule : PourPointRule β}
  {polygonize : Raster Int → Raster Bool → List (Int × List Cell)}

/-- C73. The vectorized bluespots are one polygon per bluespot, with its id and covering exactly its cells, and the vectorized
watersheds are one polygon per bluespot, with its id and covering exactly the cells of its watershed. -/
theorem C73_polygons (hp : PolygonizeContract polygonize) (h : BluespotInput cc eng safe gt depths flowdir rule)
    (f : Bluespots.StatUnits K → Bool) :
    ∃ out, (Bluespots.process cc eng safe gt depths (some f) flowdir rule.accumArg rule.demArg).Yields (.ok out) ∧
      OnePerLabel depths.rows depths.cols out.labeled.get out.nlabels "bspot_id" (Polygons.bluespots polygonize out) ∧
      OnePerLabel depths.rows depths.cols out.watersheds.get out.nlabels "bspot_id" (Polygons.watersheds polygonize out) := by
  obtain ⟨out, h1, h2⟩ := bluespot_result h f
  have hconn : ∀ v : Int, v ≠ 0 → ∀ a b, InGrid depths.rows depths.cols a → InGrid depths.rows depths.cols b →
      out.labeled.get a = v → out.labeled.get b = v →
      ConnectedIn (fun x => InGrid depths.rows depths.cols x ∧ out.labeled.get x = v) a b := by
    intro v hv a b ha hb hla hlb
    have hwa := (h2.labelling.background a ha).not.1 (by rw [hla]; exact hv)
    have hwb := (h2.labelling.background b hb).not.1 (by rw [hlb]; exact hv)
    have hcon := (h2.labelling.same a b ha hb (not_not.1 hwa) (not_not.1 hwb)).1 (hla.trans hlb.symm)
    rw [connectedIn_iff] at hcon ⊢
    refine ⟨⟨ha, hla⟩, ?_⟩
    have key : ∀ x, Relation.ReflTransGen (AdjIn fun x => InGrid depths.rows depths.cols x ∧
        (depths.get x ≠ 0 ∧ Passes depths.rows depths.cols depths.get (cellArea gt) f x)) a x →
        Relation.ReflTransGen (AdjIn fun x => InGrid depths.rows depths.cols x ∧ out.labeled.get x = v) a x := by
      intro x hx
      induction hx with
      | refl => exact .refl
      | tail hax hs ih =>
        have e : ∀ y, Relation.ReflTransGen (AdjIn fun x => InGrid depths.rows depths.cols x ∧
            (depths.get x ≠ 0 ∧ Passes depths.rows depths.cols depths.get (cellArea gt) f x)) a y →
            InGrid depths.rows depths.cols y → (depths.get y ≠ 0 ∧ Passes depths.rows depths.cols depths.get (cellArea gt) f y) →
            out.labeled.get y = v := by
          intro y hy hiy hwy
          rw [← hla]
          exact ((h2.labelling.same a y ha hiy (not_not.1 hwa) hwy).2 (connectedIn_iff.2 ⟨⟨ha, not_not.1 hwa⟩, hy⟩)).symm
        exact ih.tail ⟨hs.1, ⟨hs.2.1.1, e _ hax hs.2.1.1 hs.2.1.2⟩, ⟨hs.2.2.1, e _ (hax.tail hs) hs.2.2.1 hs.2.2.2⟩⟩
    exact key b hcon.2
  refine ⟨out, h1, ?_, ?_⟩
  · have := onePerLabel (K := K) hp (r := out.labeled) (n := out.nlabels)
      (by unfold LabelsIn; rw [h2.shape.1, h2.shape.2.1]; exact h2.labelling.range)
      (by unfold Raster.Has; rw [h2.shape.1, h2.shape.2.1]; exact h2.labelling.used)
      (by unfold Raster.Has; rw [h2.shape.1, h2.shape.2.1]; exact hconn) "bspot_id"
    rw [h2.shape.1, h2.shape.2.1] at this
    exact this
  · have := onePerLabel (K := K) hp (r := out.watersheds) (n := out.nlabels)
      (by rw [h2.shape.2.2.1, h2.shape.2.2.2]; exact h2.wlabels.2)
      (by
        unfold Raster.Has; rw [h2.shape.2.2.1, h2.shape.2.2.2]
        intro l hl1 hl2
        obtain ⟨c, hc, hl⟩ := h2.labelling.used l hl1 hl2
        exact ⟨c, hc, by rw [(h2.watershed c hc).2.1 (by omega), hl]⟩)
      (by
        unfold Raster.Has; rw [h2.shape.2.2.1, h2.shape.2.2.2]
        intro v hv
        exact C22_watershed_connected _ _ flowdir.get 0 out.labeled.get out.watersheds.get h2.watershed v hv (hconn v hv))
      "bspot_id"
    rw [h2.shape.2.2.1, h2.shape.2.2.2] at this
    exact this

/-- C73 for flooded extents: the polygons of `finalbluespots` cover exactly the cells where the water stands on the ground, each cell
once; a polygon has the id of the one bluespot all its cells lie in, and its cells are connected. -/
theorem C73_flooded (hp : PolygonizeContract polygonize) {lab : Raster Int} {dem : Raster K} {level : Int → K}
    {extent : Raster Int} {dep : Raster K} (h : IsFlooded lab dem 0 level extent dep) :
    let ps : List (PolygonFeature K) := Polygons.vectorizeLabelsFile polygonize (some 0) extent "bspot_id"
    (∀ p ∈ ps, ∃ l : Int, l ≠ 0 ∧ p.properties = [("bspot_id", .int l)] ∧ p.cells ≠ [] ∧
      (∀ c ∈ p.cells, lab.Has c ∧ lab.get c = l ∧ dem.get c ≤ level l) ∧
      ∀ a ∈ p.cells, ∀ b ∈ p.cells, ConnectedIn (fun c => InGrid lab.rows lab.cols c ∧ lab.get c = l ∧ dem.get c ≤ level l) a b) ∧
    (∀ c, lab.Has c → lab.get c ≠ 0 → dem.get c ≤ level (lab.get c) → ∃ p ∈ ps, c ∈ p.cells) ∧
    ps.Pairwise fun p q => ∀ c ∈ p.cells, c ∉ q.cells := by
  have hP := hp extent (Polygons.maskBand (some 0) extent)
  have hmask : ∀ c, (Polygons.maskBand (some 0) extent).get c = true ↔ extent.get c ≠ 0 := by
    intro c
    show decide (some 0 ≠ some _) = true ↔ _
    rw [decide_eq_true_iff, ne_eq, Option.some_inj, eq_comm]
  have hext : ∀ c, InGrid lab.rows lab.cols c → extent.get c ≠ 0 →
      lab.get c = extent.get c ∧ dem.get c ≤ level (extent.get c) := by
    intro c hc h0
    by_cases hb : lab.get c = 0
    · exact absurd (h.outside c hc hb) h0
    · have hw := h.wet c hc hb
      split at hw
      · rename_i hle; rw [hw]; exact ⟨rfl, hle⟩
      · exact absurd hw h0
  have hsh : ∀ c, InGrid extent.rows extent.cols c ↔ InGrid lab.rows lab.cols c := by
    intro c; rw [h.shape.1, h.shape.2.1]
  refine ⟨?_, ?_, ?_⟩
  · intro p hpm
    obtain ⟨q, hq, rfl⟩ := List.mem_map.1 hpm
    obtain ⟨c, hc, hm, hv, hl⟩ := hP.region q hq
    have h0 := (hmask c).1 hm
    have hS : ∀ y, (InGrid extent.rows extent.cols y ∧ (Polygons.maskBand (some 0) extent).get y = true ∧
        extent.get y = extent.get c) → InGrid lab.rows lab.cols y ∧ lab.get y = q.1 ∧ dem.get y ≤ level q.1 := by
      rintro y ⟨hy1, hy2, hy3⟩
      obtain ⟨e1, e2⟩ := hext y ((hsh y).1 hy1) ((hmask y).1 hy2)
      rw [hy3, ← hv] at e1 e2
      exact ⟨(hsh y).1 hy1, e1, e2⟩
    refine ⟨q.1, by rw [hv]; exact h0, rfl, ?_, ?_, ?_⟩
    · exact List.ne_nil_of_mem ((hl.2 c).2 ⟨hc, .refl ⟨hc, hm, rfl⟩⟩)
    · intro x hx
      exact hS x ((hl.2 x).1 hx).2.right
    · intro a ha b hb
      exact (((hl.2 a).1 ha).2.symm.trans ((hl.2 b).1 hb).2).mono hS
  · intro c hc hb hle
    have he : extent.get c ≠ 0 := by
      rw [h.wet c hc hb, if_pos hle]; exact hb
    obtain ⟨q, hq, hcq⟩ := hP.covered c ((hsh c).2 hc) ((hmask c).2 he)
    exact ⟨_, List.mem_map.2 ⟨q, hq, rfl⟩, hcq⟩
  · unfold Polygons.vectorizeLabelsFile
    rw [List.pairwise_map]
    exact hP.once

end

/-- The assumptions of C73_polygons are met. -/
example : (∃ polygonize, PolygonizeContract polygonize) ∧ ∃ cc, BluespotInput (β := WithTop Int) cc Bluespots.python
    (fun _ => (id, id)) ⟨10, 2, 0, 20, 0, -2⟩ demoDepths demoFlow (.maxAccum demoAccum) := by
  obtain ⟨cc, h⟩ := exists_labelContract
  refine ⟨exists_polygonizeContract, cc, h, .inl rfl, ?_, by decide, by decide, demoFlow_drains, by decide, by decide⟩
  unfold SquareCells; norm_num

/-- The nodata value matters: a label raster written without one also gives polygons with id 0 for the cells outside all
bluespots. -/
theorem C73_without_nodata {K : Type} {polygonize : Raster Int → Raster Bool → List (Int × List Cell)}
    (hp : PolygonizeContract polygonize) {r : Raster Int} {c : Cell} (hc : r.Has c) (h0 : r.get c = 0) (idName : String) :
    ∃ p ∈ Polygons.vectorizeLabelsFile (K := K) polygonize none r idName, p.properties = [(idName, .int 0)] ∧ c ∈ p.cells := by
  obtain ⟨q, hq, hcq⟩ := (hp r (Polygons.maskBand none r)).covered c hc rfl
  refine ⟨_, List.mem_map.2 ⟨q, hq, rfl⟩, ?_, hcq⟩
  obtain ⟨d, hd, _, hv, hl⟩ := (hp r (Polygons.maskBand none r)).region q hq
  have := ((hl.2 c).1 hcq).2.right.2.2
  show [(idName, Val.int q.1)] = _
  rw [hv, ← this, h0]

/-- One bluespot with a ridge between two pits. -/
def demoRidge : Raster Rat := Raster.ofRows [[0, 5, 0]]

/-- A partly filled bluespot can have several polygons with its id, as the help text of `polys` says: here a ridge rises above the
water in the middle. -/
theorem C73_flooded_several {polygonize : Raster Int → Raster Bool → List (Int × List Cell)} (hp : PolygonizeContract polygonize) :
    ∃ extent dep, Approx.approxBluespots (Raster.ofRows [[1, 1, 1]]) [(1, (2 : Rat))] demoRidge 0 = .ok (extent, dep) ∧
      2 ≤ (Polygons.vectorizeLabelsFile (K := Rat) polygonize (some 0) extent "bspot_id").length := by
  obtain ⟨extent, dep, he, hf⟩ := C46_flooded (lab := Raster.ofRows [[1, 1, 1]]) (dem := demoRidge) (levels := [(1, (2 : Rat))])
    (background := 0) (m := 1) ⟨by decide, by decide, fun l hl h0 => ⟨2, by
      have : l = 1 := by omega
      subst this; rfl⟩⟩ (fun c hc => by
      have hcell := Flow.mem_cellList.2 hc
      have key : ∀ c ∈ Raster.cellList 1 3, 0 ≤ (Raster.ofRows [[1, 1, 1]] : Raster Int).get c ∧
        (Raster.ofRows [[1, 1, 1]] : Raster Int).get c ≤ 1 := by decide +kernel
      exact key c hcell)
  refine ⟨extent, dep, he, ?_⟩
  obtain ⟨h1, h2, h3⟩ := C73_flooded hp hf
  obtain ⟨p, hp1, hp2⟩ := h2 (0, 0) (by decide) (by decide) (by decide +kernel)
  obtain ⟨q, hq1, hq2⟩ := h2 (0, 2) (by decide) (by decide) (by decide +kernel)
  have hne : p ≠ q := by
    rintro rfl
    obtain ⟨l, _, _, _, hc, hcon⟩ := h1 p hp1
    have hl : l = 1 := (hc _ hp2).2.1.symm.trans (by decide)
    subst hl
    have hcon := (connectedIn_iff.1 (hcon _ hp2 _ hq2)).2
    have key : ∀ x : Cell, Relation.ReflTransGen (AdjIn fun c => InGrid 1 3 c ∧
        (Raster.ofRows [[1, 1, 1]] : Raster Int).get c = 1 ∧ demoRidge.get c ≤ 2) (0, 0) x → x = (0, 0) := by
      intro x hx
      induction hx with
      | refl => rfl
      | @tail b c _ hs ih =>
        subst ih
        obtain ⟨hadj, _, hin, _, hz⟩ := hs
        have hcell := Flow.mem_cellList.2 hin
        have hcell : c = (0, 0) ∨ c = (0, 1) ∨ c = (0, 2) := by
          have key : ∀ c ∈ Raster.cellList 1 3, c = (0, 0) ∨ c = (0, 1) ∨ c = (0, 2) := by decide +kernel
          exact key c hcell
        rcases hcell with rfl | rfl | rfl
        · rfl
        · exact absurd hz (by decide +kernel)
        · exact absurd hadj (by decide)
    exact absurd (key _ hcon) (by decide)
  generalize Polygons.vectorizeLabelsFile (K := Rat) polygonize (some 0) extent "bspot_id" = ps at *
  match ps, hp1, hq1 with
  | [], hp1, _ => cases hp1
  | [a], hp1, hq1 =>
    rw [List.mem_singleton.1 hp1, List.mem_singleton.1 hq1] at hne
    exact absurd rfl hne
  | a :: b :: ps, _, _ => simp

end Malstroem
