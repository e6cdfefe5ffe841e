/-
Features that are written to a layer and read back.
-/
import Verif.Model.Vector
import Verif.Spec.Vector
import Verif.Proofs.Dict

set_option linter.unusedSectionVars false

namespace Malstroem
namespace Vector
open Spec
variable {K : Type} [Field K]

theorem mem_distinct_aux (names : List String) : ∀ (l : List String) (n : String),
    n ∈ names.foldl (fun l n => if n ∈ l then l else l ++ [n]) l ↔ n ∈ l ∨ n ∈ names := by
  induction names with
  | nil => simp
  | cons a names ih =>
    intro l n
    rw [List.foldl_cons, ih]
    split
    · rename_i h
      constructor
      · rintro (h' | h')
        · exact .inl h'
        · exact .inr (List.mem_cons_of_mem _ h')
      · rintro (h' | h')
        · exact .inl h'
        · rcases List.mem_cons.1 h' with rfl | h'
          · exact .inl h
          · exact .inr h'
    · simp [or_assoc]

theorem mem_distinct {names : List String} {n : String} : n ∈ distinct names ↔ n ∈ names := by
  unfold distinct
  rw [mem_distinct_aux]
  simp

theorem get?_fieldValues (text : Val K → Val K) (names : List String) (t : String → FieldType) (get : String → Option (Val K)) (key : String) :
    Dict.get? (fieldValues text (names.map fun n => ⟨n, t n⟩) get) key =
      if key ∈ names then some (convert text (t key) ((get key).getD .none)) else none := by
  unfold fieldValues
  induction names with
  | nil => simp [Dict.get?]
  | cons a names ih =>
    simp only [List.map_cons, Dict.get?]
    by_cases h : a = key
    · subst h; simp
    · have h' : ¬ key = a := fun e => h e.symm
      simp only [h, if_false, List.mem_cons, h', false_or]
      exact ih

/-- Writing to a layer whose fields are there. -/
theorem fold_write (text : Val K → Val K) (defn : List FieldDefn) (w : Writer) (hw : w.fieldsinitialized = true) :
    ∀ (l : List (OgrFeature K)) (lyr : Layer K),
      l.foldl (fun s f => writeOgrFeature text s defn f) (w, lyr) =
        (w, { lyr with features := lyr.features ++ l.map fun f =>
          ⟨f.geometry, fieldValues text lyr.fields fun name => f.values.get? name⟩ }) := by
  intro l
  induction l with
  | nil => intro lyr; simp
  | cons f l ih =>
    intro lyr
    rw [List.foldl_cons]
    have : writeOgrFeature text (w, lyr) defn f =
        (w, { lyr with features := lyr.features ++ [⟨f.geometry, fieldValues text lyr.fields fun name => f.values.get? name⟩] }) := by
      simp [writeOgrFeature, hw]
    rw [this, ih]
    simp

/-- Writing to a new layer. -/
theorem write_new (text : Val K → Val K) (defn : List FieldDefn) (name : String) (l : List (OgrFeature K)) :
    (l.foldl (fun s f => writeOgrFeature text s defn f) (Writer.init name [], ⟨[], []⟩)).2.features =
        l.map (fun f => ⟨f.geometry, fieldValues text defn fun n => f.values.get? n⟩) ∧
      (l.foldl (fun s f => writeOgrFeature text s defn f) (Writer.init name [], (⟨[], []⟩ : Layer K))).1.layername = name := by
  cases l with
  | nil => exact ⟨rfl, rfl⟩
  | cons f l =>
    rw [List.foldl_cons]
    have : writeOgrFeature text (Writer.init name [], ⟨[], []⟩) defn f =
        (⟨name, defn, true⟩, ⟨defn, [⟨f.geometry, fieldValues text defn fun n => f.values.get? n⟩]⟩) := by
      simp [writeOgrFeature, initFields, Writer.init]
    rw [this, fold_write text defn _ rfl]
    simp

theorem columnType_real {vs : List (Val K)} (ht : ∀ v ∈ vs, typeOf v ≠ some .text) :
    (∃ v ∈ vs, IsReal v) → columnType vs = .real := by
  rintro ⟨v, hv, hr⟩
  unfold columnType
  rw [if_neg, if_pos]
  · refine List.any_eq_true.2 ⟨v, hv, ?_⟩
    rcases hr with ⟨y, rfl⟩ | rfl | rfl | rfl <;> rfl
  · intro h
    obtain ⟨x, hx, h⟩ := List.any_eq_true.1 h
    exact ht x hx (by simpa using h)

theorem isReal_iff {v : Val K} : typeOf v = some .real ↔ IsReal v := by
  cases v <;> simp [typeOf, IsReal]

theorem columnType_ne_real {vs : List (Val K)} (h : ¬ ∃ v ∈ vs, IsReal v) : columnType vs ≠ .real := by
  unfold columnType
  split
  · simp
  split
  · rename_i hr
    obtain ⟨v, hv, hr⟩ := List.any_eq_true.1 hr
    exact absurd ⟨v, hv, isReal_iff.1 (by simpa using hr)⟩ h
  split <;> simp

/-- What becomes of a value in its field. -/
theorem convert_column (text : Val K → Val K) {vs : List (Val K)} {x : Val K} (hx : x ∈ vs)
    (hom : ∀ s, Val.str s ∈ vs → ∀ y ∈ vs, y = .none ∨ ∃ s', y = .str s') :
    ((∃ v ∈ vs, IsReal v) → convert text (columnType vs) (convert text (columnType vs) x) = asReal x) ∧
    ((¬ ∃ v ∈ vs, IsReal v) → convert text (columnType vs) (convert text (columnType vs) x) = x) := by
  constructor
  · intro hr
    have ht : ∀ v ∈ vs, typeOf v ≠ some .text := by
      intro v hv h
      cases v with
      | str s =>
        obtain ⟨y, hy, hyr⟩ := hr
        rcases hom s hv y hy with rfl | ⟨s', rfl⟩
        · simp [IsReal] at hyr
        · simp [IsReal] at hyr
      | _ => simp [typeOf] at h
    rw [columnType_real ht hr]
    cases x <;> rfl
  · intro hr
    have hne := columnType_ne_real hr
    cases hc : columnType vs with
    | real => exact absurd hc hne
    | integer => cases x <;> rfl
    | text =>
      cases x with
      | none => rfl
      | str s => rfl
      | int i =>
        exfalso
        unfold columnType at hc
        split at hc
        · rename_i h
          obtain ⟨v, hv, h⟩ := List.any_eq_true.1 h
          cases v with
          | str s =>
            rcases hom s hv _ hx with h | ⟨s', h⟩ <;> cases h
          | _ => simp [typeOf] at h
        split at hc
        · cases hc
        split at hc
        · cases hc
        · rename_i h
          exact h (List.any_eq_true.2 ⟨_, hx, rfl⟩)
      | num y => exact absurd ⟨_, hx, .inl ⟨y, rfl⟩⟩ hr
      | inf => exact absurd ⟨_, hx, .inr (.inl rfl)⟩ hr
      | ninf => exact absurd ⟨_, hx, .inr (.inr (.inl rfl))⟩ hr
      | nan => exact absurd ⟨_, hx, .inr (.inr (.inr rfl))⟩ hr

/-- The features read from a new layer. -/
theorem read_write (text : Val K → Val K) (fid : Nat → Option Int) (shape : Geometry K → Geometry K) {ds : Datasource K}
    {name : String} (hnew : ds.get? name = none) (fs : List (Feature K)) :
    readGeojsonFeatures fid shape (writeGeojsonFeatures text (Writer.init name []) ds fs).2 name =
      .ok (fs.zipIdx.map fun (f, i) => ⟨fid i, shape f.geometry, fieldValues text (geojsonFields fs) fun n =>
        (fieldValues text (geojsonFields fs) fun n => f.properties.get? n).get? n⟩) := by
  have hl : initLayer ds name = ⟨[], []⟩ := by unfold initLayer; rw [hnew]; rfl
  obtain ⟨h1, h2⟩ := write_new text (geojsonFields fs) name (geojsonLayer text fs).features
  have hw : writeGeojsonFeatures text (Writer.init name []) ds fs =
      (((geojsonLayer text fs).features.foldl (fun s f => writeOgrFeature text s (geojsonFields fs) f)
          (Writer.init name [], (⟨[], []⟩ : Layer K))).1,
        ds.set name ((geojsonLayer text fs).features.foldl (fun s f => writeOgrFeature text s (geojsonFields fs) f)
          (Writer.init name [], (⟨[], []⟩ : Layer K))).2) := by
    have hl' : initLayer ds (Writer.init name []).layername = ⟨[], []⟩ := hl
    have h3 := h2
    unfold writeGeojsonFeatures
    rw [hl']
    show (_, ds.set (List.foldl (fun s f => writeOgrFeature text s (geojsonFields fs) f) (Writer.init name [], ⟨[], []⟩) _).1.layername _) = _
    rw [h3]
    rfl
  unfold readGeojsonFeatures
  rw [hw]
  simp only [Dict.get?_set, if_true, h1]
  congr 1
  simp only [geojsonLayer, List.map_map, List.zipIdx_map]
  rfl

theorem write_others (text : Val K → Val K) {ds : Datasource K} {name : String} (fs : List (Feature K)) {other : String}
    (h : other ≠ name) (hnew : ds.get? name = none) :
    Dict.get? (writeGeojsonFeatures text (Writer.init name []) ds fs).2 other = ds.get? other := by
  have hl : initLayer ds name = ⟨[], []⟩ := by unfold initLayer; rw [hnew]; rfl
  obtain ⟨h1, h2⟩ := write_new text (geojsonFields fs) name (geojsonLayer text fs).features
  unfold writeGeojsonFeatures
  show Dict.get? (ds.set (List.foldl _ (Writer.init name [], initLayer ds name) _).1.layername _) other = _
  rw [hl]
  show Dict.get? (ds.set (List.foldl (fun s f => writeOgrFeature text s (geojsonFields fs) f) (Writer.init name [], ⟨[], []⟩) _).1.layername _) other = _
  rw [h2, Dict.get?_set, if_neg (Ne.symm h)]

theorem mem_names {fs : List (Feature K)} {key : String} :
    key ∈ distinct (fs.flatMap fun f => f.properties.map (·.1)) ↔ ∃ h ∈ fs, ∃ y, h.properties.get? key = some y := by
  rw [mem_distinct, List.mem_flatMap]
  constructor
  · rintro ⟨h, hh, hm⟩
    refine ⟨h, hh, ?_⟩
    cases hg : h.properties.get? key with
    | none => exact absurd hm (Dict.get?_eq_none.1 hg)
    | some y => exact ⟨y, rfl⟩
  · rintro ⟨h, hh, y, hy⟩
    refine ⟨h, hh, ?_⟩
    by_contra hm
    rw [Dict.get?_eq_none.2 hm] at hy
    cases hy

theorem readBack (text : Val K → Val K) (shape : Geometry K → Geometry K) {fs : List (Feature K)} (hom : Homogeneous fs)
    {f : Feature K} (hf : f ∈ fs) (i : Option Int) :
    ReadBack shape fs f ⟨i, shape f.geometry, fieldValues text (geojsonFields fs) fun n =>
        (fieldValues text (geojsonFields fs) fun n => f.properties.get? n).get? n⟩ := by
  have key : ∀ k, Dict.get? (fieldValues text (geojsonFields fs) fun n =>
        (fieldValues text (geojsonFields fs) fun n => f.properties.get? n).get? n) k =
      if k ∈ distinct (fs.flatMap fun f => f.properties.map (·.1)) then
        some (convert text (columnType (fs.filterMap fun f => f.properties.get? k))
          (convert text (columnType (fs.filterMap fun f => f.properties.get? k)) ((f.properties.get? k).getD .none))) else none := by
    intro k
    unfold geojsonFields
    rw [get?_fieldValues]
    by_cases hk : k ∈ distinct (fs.flatMap fun f => f.properties.map (·.1))
    · rw [if_pos hk, if_pos hk, get?_fieldValues, if_pos hk]
      rfl
    · rw [if_neg hk, if_neg hk]
  have hcol : ∀ k x, f.properties.get? k = some x → x ∈ fs.filterMap fun f => f.properties.get? k :=
    fun k x hx => List.mem_filterMap.2 ⟨f, hf, hx⟩
  have hhom : ∀ k s, Val.str s ∈ (fs.filterMap fun f => f.properties.get? k) → ∀ y ∈ (fs.filterMap fun f => f.properties.get? k),
      y = .none ∨ ∃ s', y = .str s' := by
    intro k s hs y hy
    obtain ⟨g, hg, hs⟩ := List.mem_filterMap.1 hs
    obtain ⟨g', hg', hy⟩ := List.mem_filterMap.1 hy
    exact hom g hg g' hg' k s y hs hy
  have hreal : ∀ k, (∃ h ∈ fs, ∃ y, h.properties.get? k = some y ∧ IsReal y) ↔
      ∃ v ∈ fs.filterMap (fun f => f.properties.get? k), IsReal v := by
    intro k
    constructor
    · rintro ⟨h, hh, y, hy, hr⟩
      exact ⟨y, List.mem_filterMap.2 ⟨h, hh, hy⟩, hr⟩
    · rintro ⟨v, hv, hr⟩
      obtain ⟨h, hh, hv⟩ := List.mem_filterMap.1 hv
      exact ⟨h, hh, v, hv, hr⟩
  refine ⟨rfl, ?_, ?_, ?_, ?_⟩
  · intro k x hx hr
    show Dict.get? _ k = _
    rw [key, if_pos (mem_names.2 ⟨f, hf, x, hx⟩), hx]
    exact congrArg some ((convert_column text (hcol k x hx) (hhom k)).1 ((hreal k).1 hr))
  · intro k x hx hr
    show Dict.get? _ k = _
    rw [key, if_pos (mem_names.2 ⟨f, hf, x, hx⟩), hx]
    exact congrArg some ((convert_column text (hcol k x hx) (hhom k)).2 fun h => hr ((hreal k).2 h))
  · intro k hk hy
    show Dict.get? _ k = _
    rw [key, if_pos (mem_names.2 hy), hk]
    show some (convert text _ (convert text _ .none)) = _
    cases columnType (fs.filterMap fun f => f.properties.get? k) <;> rfl
  · intro k hk
    show Dict.get? _ k = _
    rw [key, if_neg]
    intro h
    obtain ⟨g, hg, y, hy⟩ := mem_names.1 h
    rw [hk g hg] at hy
    cases hy

end Vector
end Malstroem
