import Verif.Proofs.HypsRun
import Verif.Spec.Network

set_option linter.unusedSectionVars false

namespace Malstroem
open Spec

namespace Dict
variable {κ ν : Type} [DecidableEq κ]

theorem set_mem {d : Dict κ ν} (hd : (d.map (·.1)).Nodup) {k : κ} (hk : k ∈ d.map (·.1)) (v : ν) :
    d.set k v = d.map fun kv => if kv.1 = k then (kv.1, v) else kv := by
  induction d with
  | nil => simp at hk
  | cons x d ih =>
    obtain ⟨a, b⟩ := x
    rw [List.map_cons, List.nodup_cons] at hd
    by_cases h : a = k
    · subst h
      simp only [set, if_true, List.map_cons]
      congr 1
      symm
      conv_rhs => rw [← List.map_id d]
      apply List.map_congr_left
      intro kv hkv
      rw [if_neg]; · rfl
      intro he
      exact hd.1 (List.mem_map.2 ⟨kv, hkv, he⟩)
    · have hk' : k ∈ d.map (·.1) := by
        rcases List.mem_cons.1 hk with rfl | hk
        · exact absurd rfl h
        · exact hk
      simp only [set, if_neg h, List.map_cons, ih hd.2 hk']

theorem get?_map_val {μ : Type} (d : Dict κ ν) (g : κ → ν → μ) (k : κ) :
    get? (d.map fun kv => (kv.1, g kv.1 kv.2)) k = (get? d k).map (g k) := by
  induction d with
  | nil => rfl
  | cons x d ih =>
    obtain ⟨a, b⟩ := x
    simp only [List.map_cons, get?]
    split
    · next h => subst h; rfl
    · exact ih

theorem get?_foldl_set : ∀ (kvs d : Dict κ ν) (k : κ), (kvs.map (·.1)).Nodup →
    get? (kvs.foldl (fun d (kv : κ × ν) => set d kv.1 kv.2) d) k = (get? kvs k).or (get? d k) := by
  intro kvs
  induction kvs with
  | nil => intro d k _; rfl
  | cons x kvs ih =>
    intro d k hnd
    obtain ⟨a, b⟩ := x
    rw [List.map_cons, List.nodup_cons] at hnd
    rw [List.foldl_cons, ih _ _ hnd.2, get?_set]
    simp only [get?]
    by_cases h : a = k
    · subst h
      have : get? kvs a = none := get?_eq_none.2 hnd.1
      simp [this]
    · simp [h]

/-- A loop `d[key(f)] = f` over features with distinct keys. -/
theorem foldlM_index {key : ν → Except PyErr κ} : ∀ {l : List ν} {ks : List κ} (d : Dict κ ν),
    List.Forall₂ (fun f k => key f = .ok k) l ks → (d.map (·.1) ++ ks).Nodup →
    l.foldlM (fun d f => do let k ← key f; pure (set d k f)) d = .ok (d ++ ks.zip l) := by
  intro l ks d h
  induction h generalizing d with
  | nil => intro _; simp; rfl
  | cons hab _ ih =>
    rename_i f k l ks _
    intro hnd
    have hk : k ∉ d.map (·.1) := fun hm =>
      (List.nodup_append.1 hnd).2.2 _ hm _ (by simp) rfl
    rw [List.foldlM_cons, hab]
    show (List.foldlM _ (set d k f) l) = _
    rw [set_new hk, ih _ (by simpa using hnd)]
    simp

end Dict

variable {K : Type} [Field K] [LinearOrder K] [IsStrictOrderedRing K] [FloorRing K]

/-! ### Writing hypsometry -/

/-- The feature with the attributes of one bluespot added. -/
def addProps (area : K) (s : Hyps.Stats K) (f : Feature K) : Feature K :=
  { f with properties := Dict.set ((Hyps.toFlatdict s).foldl (fun d (kv : String × Val K) => Dict.set d kv.1 kv.2)
      f.properties) "cell_area" (.num area) }

theorem toFlatdict_keys (s : Hyps.Stats K) : (Hyps.toFlatdict s).map (·.1) =
    ["hist_counts", "hist_num_bins", "hist_lower_bound", "hist_upper_bound", "hist_resolution", "zmin", "zmax"] := rfl

theorem addProps_spec (area : K) (s : Hyps.Stats K) (f : Feature K)
    (hlen : (s.zhistogram.counts.length : Int) = s.zhistogram.bins.num_bins) :
    (addProps area s f).id = f.id ∧ (addProps area s f).geometry = f.geometry ∧
    (∀ k ∉ hypsKeys, (addProps area s f).properties.get? k = f.properties.get? k) ∧
    Hyps.fromFlatdict (addProps area s f).properties = .ok s ∧
    (addProps area s f).properties.get? "cell_area" = some (.num area) := by
  have hnd : ((Hyps.toFlatdict s).map (·.1)).Nodup := by rw [toFlatdict_keys]; decide
  refine ⟨rfl, rfl, fun k hk => ?_, fromFlatdict_of_get hlen fun kv hkv => ?_, ?_⟩
  · unfold addProps
    simp only [hypsKeys, List.mem_cons, List.not_mem_nil, or_false, not_or] at hk
    simp only
    rw [Dict.get?_set, if_neg (Ne.symm hk.2.2.2.2.2.2.2), Dict.get?_foldl_set _ _ _ hnd]
    rw [Dict.get?_eq_none.2, Option.none_or]
    rw [toFlatdict_keys]
    simp only [List.mem_cons, List.not_mem_nil, or_false, not_or]
    tauto
  · unfold addProps
    have hmem : kv.1 ∈ (Hyps.toFlatdict s).map (·.1) := List.mem_map_of_mem hkv
    simp only
    rw [Dict.get?_set, if_neg, Dict.get?_foldl_set _ _ _ hnd, Dict.get?_of_mem hnd (show (kv.1, kv.2) ∈ _ from hkv)]
    · rfl
    · rintro h
      rw [toFlatdict_keys, ← h] at hmem
      exact absurd hmem (by decide)
  · unfold addProps
    simp only
    rw [Dict.get?_set, if_pos rfl]

theorem fold_addHypsometry (area : K) : ∀ (items : List (Int × Hyps.Stats K)) (d : Dict Int (Feature K)),
    (d.map (·.1)).Nodup → (items.map (·.1)).Nodup → (∀ i ∈ items.map (·.1), i ∈ d.map (·.1)) →
    items.foldlM (Hyps.addHypsometry area) d = .ok (d.map fun kv => (kv.1,
      match Dict.get? items kv.1 with
      | some s => addProps area s kv.2
      | none => kv.2)) := by
  intro items
  induction items with
  | nil =>
    intro d _ _ _
    simp only [List.foldlM_nil, Dict.get?]
    show Except.ok d = _
    congr 1
    conv_lhs => rw [← List.map_id d]
    rfl
  | cons x items ih =>
    intro d hd hi hsub
    obtain ⟨i, s⟩ := x
    rw [List.map_cons, List.nodup_cons] at hi
    have himem : i ∈ d.map (·.1) := hsub i (by simp)
    obtain ⟨f, hf⟩ : ∃ f, d.get? i = some f := by
      cases h : d.get? i with
      | none => exact absurd himem (Dict.get?_eq_none.1 h)
      | some f => exact ⟨f, rfl⟩
    have hstep : Hyps.addHypsometry area d (i, s) = .ok (Dict.set d i (addProps area s f)) := by
      unfold Hyps.addHypsometry
      simp only [Dict.getItem_ok.2 hf, bind, Except.bind]
      rfl
    rw [List.foldlM_cons, hstep]
    show List.foldlM _ (Dict.set d i (addProps area s f)) items = _
    have hkeys : (Dict.set d i (addProps area s f)).map (·.1) = d.map (·.1) := by
      rw [Dict.keys_set, if_pos himem]
    rw [ih _ (by rw [hkeys]; exact hd) hi.2 (fun j hj => by rw [hkeys]; exact hsub j (by simp [hj])),
      Dict.set_mem hd himem, List.map_map]
    congr 1
    apply List.map_congr_left
    rintro ⟨k, g⟩ hkg
    simp only [Function.comp, Dict.get?]
    by_cases hk : k = i
    · subst hk
      have hg : g = f := by
        have := Dict.get?_of_mem hd hkg
        rw [hf] at this; exact (Option.some.inj this).symm
      subst hg
      simp only [if_true]
      rw [Dict.get?_eq_none.2 hi.1]
    · simp only [if_neg hk, if_neg (Ne.symm hk)]

theorem pyMax_ok {ids : List Int} {n : Int} (h1 : n ∈ ids) (h2 : ∀ i ∈ ids, i ≤ n) : Hyps.pyMax ids = .ok n := by
  have key : ∀ (xs : List Int) (x : Int), xs.foldl max x ∈ x :: xs ∧ ∀ y ∈ x :: xs, y ≤ xs.foldl max x := by
    intro xs
    induction xs with
    | nil => intro x; simp
    | cons a xs ih =>
      intro x
      obtain ⟨g1, g2⟩ := ih (max x a)
      rw [List.foldl_cons]
      refine ⟨?_, ?_⟩
      · rcases List.mem_cons.1 g1 with h | h
        · rcases max_choice x a with h' | h' <;> rw [h] <;> simp [h']
        · simp [h]
      · intro y hy
        have hm := g2 (max x a) (by simp)
        rcases List.mem_cons.1 hy with rfl | hy
        · exact le_trans (le_max_left _ _) hm
        · rcases List.mem_cons.1 hy with rfl | hy
          · exact le_trans (le_max_right _ _) hm
          · exact g2 y (by simp [hy])
  cases ids with
  | nil => simp at h1
  | cons x xs =>
    obtain ⟨g1, g2⟩ := key xs x
    show Except.ok _ = Except.ok _
    congr 1
    exact le_antisymm (h2 _ g1) (g2 _ h1)

theorem mapM_of_forall₂ {α β : Type} {f : α → Except PyErr β} {l : List α} {m : List β}
    (h : List.Forall₂ (fun x y => f x = .ok y) l m) : l.mapM f = .ok m := by
  induction h with
  | nil => rfl
  | cons hab _ ih => rw [List.mapM_cons, hab, ih]; rfl

theorem hypsometryIo_ok {lab : Raster Int} {dem : Raster K} {gt gt' : GeoTransform K} {res : K}
    {pourpoints : List (Feature K)} {ids : List Int} {n : Nat} (hres : 0 < res)
    (hshape : lab.rows = dem.rows ∧ lab.cols = dem.cols)
    (hgt : |(|gt'.t5| - |gt.t5|)| < 15 / 100000000 ∧ |(|gt'.t1| - |gt.t1|)| < 15 / 100000000)
    (hn : TopLabel lab.rows lab.cols lab.get none n)
    (hids : List.Forall₂ (fun f i => f.properties.get? "bspot_id" = some (.int i)) pourpoints ids)
    (hnd : ids.Nodup) (hall : ∀ i, i ∈ ids ↔ 0 ≤ i ∧ i ≤ n)
    {items : List (Int × Hyps.Stats K)} (hitems : Hyps.hypsometryStats lab dem res (some n) 0 = .ok items)
    (hkeys : items.map (·.1) = (List.range (n + 1)).map fun (l : Nat) => (l : Int))
    (hvalid : ∀ x ∈ items, (x.2.zhistogram.counts.length : Int) = x.2.zhistogram.bins.num_bins) :
    ∃ out, Hyps.hypsometryIo lab gt dem gt' pourpoints res = .ok out ∧
      List.Forall₂ (fun fi g => ∃ s, Dict.get? items fi.2 = some s ∧ IsHypsFeature (cellArea gt) s fi.1 g)
        (pourpoints.zip ids) out := by
  have hmax : Label.npMax lab = .ok (n : Int) := by
    rcases hn with ⟨h, _⟩ | ⟨_, hg⟩
    · cases h
    · exact Label.npMax_spec hg
  have hkey : List.Forall₂ (fun f i => Hyps.intId f = .ok i) pourpoints ids := hids.imp fun f i h => by
    unfold Hyps.intId Feature.prop
    simp only [Dict.getItem_ok.2 h, bind, Except.bind]; rfl
  have hfold := Dict.foldlM_index (key := Hyps.intId) [] hkey (by simpa using hnd)
  rw [List.nil_append] at hfold
  have hzk : (ids.zip pourpoints).map (·.1) = ids := by
    rw [List.map_fst_zip]; rw [hids.length_eq]
  have hzv : (ids.zip pourpoints).map (·.2) = pourpoints := by
    rw [List.map_snd_zip]; rw [hids.length_eq]
  have hmem : ∀ i : Int, i ∈ items.map (·.1) ↔ 0 ≤ i ∧ i ≤ n := by
    intro i
    rw [hkeys, List.mem_map]
    constructor
    · rintro ⟨l, hl, rfl⟩
      rw [List.mem_range] at hl; omega
    · rintro ⟨h1, h2⟩
      exact ⟨i.toNat, List.mem_range.2 (by omega), by omega⟩
  have hitnd : (items.map (·.1)).Nodup := by
    rw [hkeys]
    exact List.nodup_range.map fun a b h => by simpa using h
  have hadd := fold_addHypsometry (|gt.t5| * |gt.t1|) items (ids.zip pourpoints) (by rw [hzk]; exact hnd) hitnd
    (fun i hi => by rw [hzk, hall, ← hmem]; exact hi)
  refine ⟨Dict.values ((ids.zip pourpoints).map fun kv => (kv.1,
      match Dict.get? items kv.1 with
      | some s => addProps (|gt.t5| * |gt.t1|) s kv.2
      | none => kv.2)), ?_, ?_⟩
  · unfold Hyps.hypsometryIo
    rw [if_neg (by simpa using hres), if_neg (by simpa using hshape), if_neg (by simpa [Hyps.almostEqual] using hgt.1),
      if_neg (by simpa [Hyps.almostEqual] using hgt.2)]
    simp only
    erw [hfold]
    simp only [bind, Except.bind, hmax, Dict.values, hzv, mapM_of_forall₂ hkey,
      pyMax_ok ((hall n).2 ⟨by omega, le_refl _⟩) fun i hi => ((hall i).1 hi).2, hitems, hadd, not_true, if_false]
    rfl
  · rw [Dict.values, List.map_map]
    have hzip : pourpoints.zip ids = (ids.zip pourpoints).map Prod.swap := (List.zip_swap _ _).symm
    rw [hzip, List.forall₂_map_left_iff, List.forall₂_map_right_iff, List.forall₂_same]
    rintro ⟨i, f⟩ hx
    have hi : i ∈ items.map (·.1) := by
      rw [hmem, ← hall, ← hzk]
      exact List.mem_map_of_mem (f := fun (x : Int × Feature K) => x.1) hx
    cases hs : Dict.get? items i with
    | none => exact absurd hi (Dict.get?_eq_none.1 hs)
    | some s =>
      refine ⟨s, hs, ?_⟩
      simp only [Function.comp, hs, Prod.swap]
      obtain ⟨h1, h2, h3, h4, h5⟩ := addProps_spec (|gt.t5| * |gt.t1|) s f (hvalid _ (Dict.mem_of_get? hs))
      exact ⟨h1, h2, h3, h4, h5.trans (by unfold cellArea; rw [mul_comm])⟩

end Malstroem
