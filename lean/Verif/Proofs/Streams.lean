/-
StreamTool: the features written for a network.
-/
import Verif.Spec.Streams
import Verif.Proofs.Network

set_option linter.unusedSectionVars false

namespace Malstroem
open Spec

namespace Streams
variable {K : Type} [Field K] [LinearOrder K]

theorem _root_.Malstroem.Spec.ArePourPoints.get {fps : List (Feature K)} {pps : List Cell} (h : ArePourPoints fps pps) {i : Nat} {f : Feature K}
    (hf : fps[i]? = some f) : ∃ p, pps[i]? = some p ∧ IsPourPointFeature f i p := by
  obtain ⟨hi, rfl⟩ := List.getElem?_eq_some_iff.1 hf
  have hlen : fps.length = pps.length := by have := h.length_eq; simpa using this
  have := (List.forall₂_iff_get.1 h).2 i hi (by simp; omega)
  simp only [List.get_eq_getElem, List.getElem_zipIdx, Nat.zero_add] at this
  exact ⟨pps[i], by simp [← hlen, hi], this⟩

theorem _root_.Malstroem.Spec.ArePourPoints.length {fps : List (Feature K)} {pps : List Cell} (h : ArePourPoints fps pps) : fps.length = pps.length := by
  have := h.length_eq; simpa using this

theorem pix_ok {fps : List (Feature K)} {pps : List Cell} (h : ArePourPoints fps pps) :
    (fps.mapM fun pp => do
      let row ← index pp "cell_row"
      let col ← index pp "cell_col"
      pure (Net.PourPointArg.pix (row, col)) : Except PyErr (List Net.PourPointArg)) = .ok (pps.map .pix) := by
  unfold ArePourPoints at h
  have key : ∀ (fps : List (Feature K)) (l : List (Cell × Nat)),
      List.Forall₂ (fun f (x : Cell × Nat) => IsPourPointFeature f x.2 x.1) fps l →
      (fps.mapM fun pp => do
        let row ← index pp "cell_row"
        let col ← index pp "cell_col"
        pure (Net.PourPointArg.pix (row, col)) : Except PyErr (List Net.PourPointArg)) = .ok (l.map fun x => .pix x.1) := by
    intro fps l hl
    induction hl with
    | nil => rfl
    | cons hab _ ih =>
      rename_i f x fps l _
      have hr : index f "cell_row" = .ok x.1.1 := by
        unfold index Feature.prop; rw [Dict.getItem_ok.2 hab.row]; rfl
      have hc : index f "cell_col" = .ok x.1.2 := by
        unfold index Feature.prop; rw [Dict.getItem_ok.2 hab.col]; rfl
      rw [List.mapM_cons, hr, hc, ih]
      rfl
  rw [key fps _ h]
  have : pps.zipIdx.map (fun x => Net.PourPointArg.pix x.1) = (pps.zipIdx.map Prod.fst).map .pix := by
    rw [List.map_map]; rfl
  rw [this, List.zipIdx_map_fst]

theorem index_ok (fps : List (Feature K)) (hid : ∀ (i : Nat) f, fps[i]? = some f → f.properties.get? "bspot_id" = some (.int i)) :
    ∃ d, indexPourpoints fps = .ok d ∧ (∀ i : Nat, d.get? (.int i) = fps[i]?) ∧
      ∀ k : Int, (fps.length : Int) ≤ k → d.get? (.int k) = none := by
  induction fps using List.reverseRecOn with
  | nil => exact ⟨[], rfl, fun i => by simp [Dict.get?], fun k _ => rfl⟩
  | append_singleton fps f ih =>
    obtain ⟨d, h1, h2, h3⟩ := ih fun i g hg => hid i g (by
      rw [List.getElem?_append_left (List.getElem?_eq_some_iff.1 hg).1]; exact hg)
    have hf := hid fps.length f (by simp)
    refine ⟨d.set (.int fps.length) f, ?_, fun i => ?_, fun k hk => ?_⟩
    · unfold indexPourpoints at h1 ⊢
      rw [List.foldlM_append, h1]
      simp only [List.foldlM_cons, List.foldlM_nil]
      unfold Feature.prop
      rw [Dict.getItem_ok.2 hf]
      rfl
    · rw [Dict.get?_set, h2]
      rcases lt_trichotomy i fps.length with h | h | h
      · rw [if_neg (by simp; omega), List.getElem?_append_left h]
      · subst h; simp
      · rw [if_neg (by simp; omega)]
        rw [List.getElem?_eq_none (by omega), List.getElem?_eq_none (by simp; omega)]
    · rw [List.length_append, List.length_singleton] at hk
      push_cast at hk
      rw [Dict.get?_set, if_neg (by simp; omega), h3 k (by omega)]

theorem optVal_eq (d : Option Int) : optVal (K := K) d = downVal d := by cases d <;> rfl

theorem nodeFeature_ok {gt : GeoTransform K} {fps : List (Feature K)} {pps : List Cell} (h : ArePourPoints fps pps)
    {d : Dict (Val K) (Feature K)} (hd : ∀ i : Nat, d.get? (.int i) = fps[i]?)
    (hnone : ∀ k : Int, (fps.length : Int) ≤ k → d.get? (.int k) = none) {n : Net.Node}
    (hpp : n.nodetype = .pourpoint → ∃ i : Nat, i < pps.length ∧ n.id = i)
    (hj : n.nodetype = .junction → (pps.length : Int) ≤ n.id) :
    ∃ f, nodeFeature gt d n = .ok f ∧ IsNodeFeature gt fps n f := by
  cases ht : n.nodetype with
  | junction =>
    have : d.get? (.int n.id) = none := hnone _ (by rw [h.length]; exact hj ht)
    refine ⟨_, by unfold nodeFeature; rw [this]; rfl, ⟨rfl, rfl, rfl, ?_, rfl, rfl, ?_, ?_⟩⟩
    · rw [← optVal_eq]; rfl
    · rw [ht]; rintro ⟨⟩
    · intro _
      refine ⟨?_, rfl, rfl, rfl, rfl⟩
      rw [ht]; rfl
  | pourpoint =>
    obtain ⟨i, hi, hid⟩ := hpp ht
    have hi' : i < fps.length := by rw [h.length]; exact hi
    have hget : fps[i]? = some fps[i] := by simp [hi']
    have : d.get? (.int n.id) = some fps[i] := by rw [hid, hd]; exact hget
    obtain ⟨p, _, hf⟩ := h.get hget
    obtain ⟨a, ha⟩ := hf.has "bspot_id" (by simp [copied])
    obtain ⟨b, hb⟩ := hf.has "bspot_area" (by simp [copied])
    obtain ⟨c, hc⟩ := hf.has "bspot_vol" (by simp [copied])
    obtain ⟨w, hw⟩ := hf.has "wshed_area" (by simp [copied])
    refine ⟨_, by
      unfold nodeFeature Feature.prop
      rw [this]
      dsimp only
      rw [Dict.getItem_ok.2 ha, Dict.getItem_ok.2 hb, Dict.getItem_ok.2 hc, Dict.getItem_ok.2 hw]
      rfl, ⟨rfl, rfl, rfl, ?_, rfl, rfl, ?_, ?_⟩⟩
    · rw [← optVal_eq]; rfl
    · intro _
      refine ⟨?_, i, fps[i], hid, hget, fun key hkey => ?_⟩
      · rw [ht]; rfl
      · simp only [copied, List.mem_cons, List.not_mem_nil, or_false] at hkey
        rcases hkey with rfl | rfl | rfl | rfl
        · rw [ha]; rfl
        · rw [hb]; rfl
        · rw [hc]; rfl
        · rw [hw]; rfl
    · rw [ht]; rintro ⟨⟩

theorem nodeFeatures_ok {gt : GeoTransform K} {fps : List (Feature K)} {pps : List Cell} (h : ArePourPoints fps pps)
    {d : Dict (Val K) (Feature K)} (hd : ∀ i : Nat, d.get? (.int i) = fps[i]?)
    (hnone : ∀ k : Int, (fps.length : Int) ≤ k → d.get? (.int k) = none) {ns : List Net.Node}
    (hpp : ∀ n ∈ ns, n.nodetype = .pourpoint → ∃ i : Nat, i < pps.length ∧ n.id = i)
    (hj : ∀ n ∈ ns, n.nodetype = .junction → (pps.length : Int) ≤ n.id) :
    ∃ fs, ns.mapM (nodeFeature gt d) = .ok fs ∧ List.Forall₂ (IsNodeFeature gt fps) ns fs := by
  induction ns with
  | nil => exact ⟨[], rfl, .nil⟩
  | cons n ns ih =>
    obtain ⟨f, h1, h2⟩ := nodeFeature_ok (gt := gt) h hd hnone (hpp n (by simp)) (hj n (by simp))
    obtain ⟨fs, h3, h4⟩ := ih (fun m hm => hpp m (by simp [hm])) (fun m hm => hj m (by simp [hm]))
    refine ⟨f :: fs, ?_, .cons h2 h4⟩
    rw [List.mapM_cons, h1, h3]; rfl

theorem streamFeatures_ok (gt : GeoTransform K) (ns : List Net.Node) :
    List.Forall₂ (IsStreamFeature gt) (ns.filter fun n => n.geometry ≠ []) (ns.filterMap (streamFeature gt)) := by
  induction ns with
  | nil => exact .nil
  | cons n ns ih =>
    by_cases h : n.geometry = []
    · simpa [streamFeature, h] using ih
    · simp only [ne_eq, h, not_false_eq_true, decide_true, List.filter_cons_of_pos, List.filterMap_cons,
        streamFeature, if_false]
      refine .cons ⟨rfl, rfl, ?_⟩ ih
      rw [← optVal_eq]

/-- The run of StreamTool on a network that is computed without error. -/
theorem process_within {gt : GeoTransform K} {flowdir : Raster Nat} {labeled : Raster Int} {fps : List (Feature K)}
    {pps : List Cell} (h : ArePourPoints fps pps) (streams : Bool) {ns : List Net.Node} {N : Nat}
    (hN : ∀ fuel, N ≤ fuel → (if streams then Net.geometricPourpointNetwork flowdir labeled (pps.map .pix) (some 0) fuel
      else Net.pourpointNetwork flowdir labeled (pps.map .pix) (some 0) fuel) = some (.ok ns))
    (hpp : ∀ n ∈ ns, n.nodetype = .pourpoint → ∃ i : Nat, i < pps.length ∧ n.id = i)
    (hj : ∀ n ∈ ns, n.nodetype = .junction → (pps.length : Int) ≤ n.id) :
    ∃ fs, (∀ fuel, N ≤ fuel → process gt flowdir labeled fps streams fuel =
        some (.ok (fs, if streams then ns.filterMap (streamFeature gt) else []))) ∧
      List.Forall₂ (IsNodeFeature gt fps) ns fs := by
  obtain ⟨d, h1, h2, h3⟩ := index_ok fps fun i f hf => (h.get hf).choose_spec.2.id
  obtain ⟨fs, h4, h5⟩ := nodeFeatures_ok (gt := gt) h h2 h3 hpp hj
  refine ⟨fs, fun fuel hf => ?_, h5⟩
  have hn := hN fuel hf
  unfold process
  refine (Net.comp_bind (congrArg some (pix_ok h)) _).trans ?_
  cases streams
  all_goals
    refine (Net.comp_bind hn _).trans ?_
    refine (Net.comp_bind (congrArg some h1) _).trans ?_
    exact (Net.comp_bind (congrArg some h4) _).trans rfl

/-- The run of StreamTool, however long the network takes. -/
theorem process_ok {gt : GeoTransform K} {flowdir : Raster Nat} {labeled : Raster Int} {fps : List (Feature K)}
    {pps : List Cell} (h : ArePourPoints fps pps) (streams : Bool) {ns : List Net.Node}
    (hns : Returns (fun fuel => if streams then Net.geometricPourpointNetwork flowdir labeled (pps.map .pix) (some 0) fuel
      else Net.pourpointNetwork flowdir labeled (pps.map .pix) (some 0) fuel) (.ok ns))
    (hpp : ∀ n ∈ ns, n.nodetype = .pourpoint → ∃ i : Nat, i < pps.length ∧ n.id = i)
    (hj : ∀ n ∈ ns, n.nodetype = .junction → (pps.length : Int) ≤ n.id) :
    ∃ fs, Returns (process gt flowdir labeled fps streams) (.ok (fs, if streams then ns.filterMap (streamFeature gt) else [])) ∧
      List.Forall₂ (IsNodeFeature gt fps) ns fs :=
  let ⟨_, hN⟩ := hns
  let ⟨fs, h, r⟩ := process_within (gt := gt) h streams hN hpp hj
  ⟨fs, ⟨_, h⟩, r⟩

end Streams
end Malstroem
