/-
Property C72 (running a tool a second time with the same output layer).
-/
import Verif.Props.Vector
import Verif.Props.Network

set_option linter.unusedSectionVars false

namespace Malstroem
open Spec

namespace Vector
variable {K : Type} [Field K]

theorem fieldValues_append (text : Val K → Val K) (a b : List FieldDefn) (get : String → Option (Val K)) (key : String) :
    Dict.get? (fieldValues text (a ++ b) get) key =
      (Dict.get? (fieldValues text a get) key).or (Dict.get? (fieldValues text b get) key) := by
  unfold fieldValues
  induction a with
  | nil => simp [Dict.get?]
  | cons d a ih =>
    simp only [List.cons_append, List.map_cons, Dict.get?]
    by_cases h : d.name = key
    · simp [h]
    · simp only [h, if_false]; exact ih

theorem fieldValues_twice (text : Val K → Val K) (a : List FieldDefn) (get : String → Option (Val K)) (key : String) :
    Dict.get? (fieldValues text (a ++ a) get) key = Dict.get? (fieldValues text a get) key := by
  rw [fieldValues_append]
  cases Dict.get? (fieldValues text a get) key <;> rfl

/-- Writing to a layer with a new writer. -/
theorem write_layer (text : Val K → Val K) (defn : List FieldDefn) (name : String) (lyr : Layer K) (l : List (OgrFeature K)) :
    (l.foldl (fun s f => writeOgrFeature text s defn f) (Writer.init name [], lyr)).2 =
        ⟨lyr.fields ++ (if l = [] then [] else defn),
          lyr.features ++ l.map (fun f => ⟨f.geometry, fieldValues text (lyr.fields ++ defn) fun n => f.values.get? n⟩)⟩ ∧
      (l.foldl (fun s f => writeOgrFeature text s defn f) (Writer.init name [], lyr)).1.layername = name := by
  cases l with
  | nil => exact ⟨by simp, rfl⟩
  | cons f l =>
    rw [List.foldl_cons]
    have : writeOgrFeature text (Writer.init name [], lyr) defn f =
        (⟨name, defn, true⟩, ⟨lyr.fields ++ defn,
          lyr.features ++ [⟨f.geometry, fieldValues text (lyr.fields ++ defn) fun n => f.values.get? n⟩]⟩) := by
      simp [writeOgrFeature, initFields, Writer.init]
    rw [this, fold_write text defn _ rfl]
    simp

theorem write_ds (text : Val K → Val K) (name : String) (ds : Datasource K) (fs : List (Feature K)) :
    (writeGeojsonFeatures text (Writer.init name []) ds fs).2 =
      ds.set name ⟨(initLayer ds name).fields ++ (if fs = [] then [] else geojsonFields fs),
        (initLayer ds name).features ++ fs.map fun f => ⟨f.geometry, fieldValues text ((initLayer ds name).fields ++ geojsonFields fs)
          fun n => (fieldValues text (geojsonFields fs) fun n => f.properties.get? n).get? n⟩⟩ := by
  obtain ⟨h1, h2⟩ := write_layer text (geojsonFields fs) name (initLayer ds name) (geojsonLayer text fs).features
  have : writeGeojsonFeatures text (Writer.init name []) ds fs =
      (((geojsonLayer text fs).features.foldl (fun s f => writeOgrFeature text s (geojsonFields fs) f)
          (Writer.init name [], initLayer ds name)).1,
        ds.set ((geojsonLayer text fs).features.foldl (fun s f => writeOgrFeature text s (geojsonFields fs) f)
          (Writer.init name [], initLayer ds name)).1.layername
          ((geojsonLayer text fs).features.foldl (fun s f => writeOgrFeature text s (geojsonFields fs) f)
          (Writer.init name [], initLayer ds name)).2) := rfl
  rw [this, h1, h2]
  have e : (geojsonLayer text fs).features = [] ↔ fs = [] := by simp [geojsonLayer]
  simp only [e]
  simp [geojsonLayer, Function.comp_def]

theorem readBack_congr {shape : Geometry K → Geometry K} {fs : List (Feature K)} {f g h : Feature K} (hb : ReadBack shape fs f g)
    (hg : h.geometry = g.geometry) (hp : ∀ key, h.properties.get? key = g.properties.get? key) : ReadBack shape fs f h where
  geometry := hg.trans hb.geometry
  real key x h1 h2 := (hp key).trans (hb.real key x h1 h2)
  same key x h1 h2 := (hp key).trans (hb.same key x h1 h2)
  null key h1 h2 := (hp key).trans (hb.null key h1 h2)
  none key h1 := (hp key).trans (hb.none key h1)

theorem readBack_list (fid : Nat → Option Int) (shape : Geometry K → Geometry K) {fs : List (Feature K)} (G : Feature K → OgrFeature K)
    (hG : ∀ f ∈ fs, ∀ i, ReadBack shape fs f ⟨i, shape (G f).geometry, (G f).values⟩) (n : Nat) :
    List.Forall₂ (ReadBack shape fs) fs (((fs.map G).zipIdx n).map fun (f, i) => ⟨fid i, shape f.geometry, f.values⟩) := by
  have key : ∀ (l : List (Feature K)) (n : Nat), (∀ f ∈ l, f ∈ fs) →
      List.Forall₂ (ReadBack shape fs) l (((l.map G).zipIdx n).map fun (f, i) => ⟨fid i, shape f.geometry, f.values⟩) := by
    intro l
    induction l with
    | nil => intro n _; exact .nil
    | cons f l ih =>
      intro n h
      exact .cons (hG f (h f (by simp)) _) (ih _ fun g hg => h g (by simp [hg]))
  exact key fs n fun _ h => h

end Vector

section
variable {K : Type} [Field K]

/-- C72, what holds: a tool that is run again with the same output layer keeps what is there and appends. After two runs that
write the same features to a layer that did not exist, the layer has the features of the first run followed by those of the
second, all of them complete. -/
theorem C72_rerun_partial (text : Val K → Val K) (fid : Nat → Option Int) (shape : Geometry K → Geometry K)
    {ds : Vector.Datasource K} {name : String} (hnew : ds.get? name = none) {fs : List (Feature K)} (hom : Homogeneous fs) :
    ∃ first second, Vector.readGeojsonFeatures fid shape
        (Vector.writeGeojsonFeatures text (Vector.Writer.init name [])
          (Vector.writeGeojsonFeatures text (Vector.Writer.init name []) ds fs).2 fs).2 name = .ok (first ++ second) ∧
      Vector.readGeojsonFeatures fid shape (Vector.writeGeojsonFeatures text (Vector.Writer.init name []) ds fs).2 name =
        .ok first ∧
      List.Forall₂ (ReadBack shape fs) fs first ∧ List.Forall₂ (ReadBack shape fs) fs second := by
  have hl : Vector.initLayer ds name = ⟨[], []⟩ := by unfold Vector.initLayer; rw [hnew]; rfl
  have h1 := Vector.write_ds text name ds fs
  rw [hl] at h1
  have hset : ∀ l : Vector.Layer K, Vector.initLayer (Dict.set ds name l) name = l := by
    intro l; unfold Vector.initLayer; rw [Dict.get?_set, if_pos rfl]; rfl
  have h2 := Vector.write_ds text name (Vector.writeGeojsonFeatures text (Vector.Writer.init name []) ds fs).2 fs
  rw [h1, hset, ← h1] at h2
  let G : List Vector.FieldDefn → Feature K → Vector.OgrFeature K := fun a f => ⟨f.geometry, Vector.fieldValues text (a ++ Vector.geojsonFields fs)
    fun n => (Vector.fieldValues text (Vector.geojsonFields fs) fun n => f.properties.get? n).get? n⟩
  let read : Vector.OgrFeature K × Nat → Feature K := fun (f, i) => ⟨fid i, shape f.geometry, f.values⟩
  refine ⟨((fs.map (G [])).zipIdx 0).map read,
    ((fs.map (G ([] ++ if fs = [] then [] else Vector.geojsonFields fs))).zipIdx (fs.map (G [])).length).map read, ?_, ?_, ?_, ?_⟩
  · rw [h2]
    unfold Vector.readGeojsonFeatures
    rw [Dict.get?_set, if_pos rfl]
    dsimp only
    rw [List.zipIdx_append, List.map_append, List.nil_append, Nat.zero_add]
  · rw [h1]
    unfold Vector.readGeojsonFeatures
    rw [Dict.get?_set, if_pos rfl]
    rfl
  · exact Vector.readBack_list fid shape _ (fun f hf i => Vector.readBack text shape hom hf i) 0
  · refine Vector.readBack_list fid shape _ (fun f hf i => ?_) _
    refine Vector.readBack_congr (Vector.readBack text shape hom hf i) rfl fun key => ?_
    dsimp only [G]
    rw [if_neg (List.ne_nil_of_mem hf)]
    exact Vector.fieldValues_twice text _ _ _

/-- C72 is false as expected by a user who runs a tool again: whenever a tool writes any features, the layer has every feature
twice after a second run, so it is not what the tool has just written. -/
theorem C72_rerun_false (text : Val K → Val K) (fid : Nat → Option Int) (shape : Geometry K → Geometry K)
    {ds : Vector.Datasource K} {name : String} (hnew : ds.get? name = none) {fs : List (Feature K)} (hom : Homogeneous fs)
    (hne : fs ≠ []) :
    ¬ ∃ gs, Vector.readGeojsonFeatures fid shape
        (Vector.writeGeojsonFeatures text (Vector.Writer.init name [])
          (Vector.writeGeojsonFeatures text (Vector.Writer.init name []) ds fs).2 fs).2 name = .ok gs ∧
      List.Forall₂ (ReadBack shape fs) fs gs := by
  rintro ⟨gs, h, hgs⟩
  obtain ⟨a, b, h', _, ha, hb⟩ := C72_rerun_partial text fid shape hnew hom
  rw [h] at h'
  cases h'
  have l1 := hgs.length_eq
  have l2 := ha.length_eq
  have l3 := hb.length_eq
  rw [List.length_append] at l1
  have := List.length_pos_iff.2 hne
  omega

end

section
variable {K : Type} [Field K] [LinearOrder K]

theorem set_same {κ ν : Type} [DecidableEq κ] : ∀ {d : Dict κ ν} {k : κ} {v : ν}, d.get? k = some v → d.set k v = d := by
  intro d
  induction d with
  | nil => intro k v h; simp [Dict.get?] at h
  | cons a d ih =>
    obtain ⟨k', v'⟩ := a
    intro k v h
    by_cases hk : k' = k
    · simp [Dict.get?, hk] at h; simp [Dict.set, hk, h]
    · simp [Dict.get?, hk] at h; simp [Dict.set, hk, ih h]

theorem index_ok : ∀ (fs : List (Feature K)) (d : Dict (Val K) (Feature K)) (e : Dict (Val K) (Feature K)),
    fs.foldlM (fun d f => do
      let nodeid ← f.prop "nodeid"
      pure (Dict.set d nodeid f)) d = (.ok e : Except PyErr _) →
    fs.Pairwise (fun f g => f.properties.get? "nodeid" ≠ g.properties.get? "nodeid") →
    (∀ f ∈ fs, ∃ k, f.properties.get? "nodeid" = some k ∧ e.get? k = some f) ∧
    ∀ k, (∀ f ∈ fs, f.properties.get? "nodeid" ≠ some k) → e.get? k = d.get? k := by
  intro fs
  induction fs with
  | nil =>
    intro d e h _
    have h := Except.ok.inj h
    subst h
    simp
  | cons f fs ih =>
    intro d e h hp
    obtain ⟨hp1, hp2⟩ := List.pairwise_cons.1 hp
    rw [List.foldlM_cons] at h
    cases hk : f.properties.get? "nodeid" with
    | none =>
      simp only [Feature.prop, Dict.getItem, hk] at h
      cases h
    | some k =>
      simp only [Feature.prop, Dict.getItem, hk] at h
      change fs.foldlM _ (Dict.set d k f) = _ at h
      obtain ⟨h1, h2⟩ := ih _ _ h hp2
      refine ⟨?_, ?_⟩
      · intro g hg
        rcases List.mem_cons.1 hg with rfl | hg
        · refine ⟨k, hk, ?_⟩
          rw [h2 k fun f hf h => hp1 f hf (hk.trans h.symm), Dict.get?_set, if_pos rfl]
        · exact h1 g hg
      · intro k' hk'
        rw [h2 k' fun f hf => hk' f (by simp [hf]), Dict.get?_set, if_neg]
        rintro rfl
        exact hk' f (by simp) hk

/-- C72 for the final state: nodes that were appended a second time do not count twice, the final state is computed and written
once per node as for a single run. -/
theorem C72_final_state {fs : List (Feature K)}
    (hids : fs.Pairwise fun f g => f.properties.get? "nodeid" ≠ g.properties.get? "nodeid") (attr : String) (n : Nat) :
    Network.finalState (fs ++ fs) attr n = Network.finalState fs attr n := by
  have : Network.indexFeatures (fs ++ fs) = Network.indexFeatures fs := by
    unfold Network.indexFeatures
    rw [List.foldlM_append]
    cases h : fs.foldlM (fun d f => do
        let nodeid ← f.prop "nodeid"
        pure (Dict.set d nodeid f)) [] with
    | error e => rfl
    | ok e =>
      have h1 := (index_ok fs [] e h hids).1
      show fs.foldlM _ e = (Except.ok e : Except PyErr _)
      clear h
      induction fs with
      | nil => rfl
      | cons f l ih =>
        obtain ⟨k, hk, he⟩ := h1 f (by simp)
        rw [List.foldlM_cons]
        have hp : f.prop "nodeid" = .ok k := by simp only [Feature.prop, Dict.getItem, hk]
        rw [hp]
        show l.foldlM _ (Dict.set e k f) = _
        rw [set_same he]
        exact ih (List.pairwise_cons.1 hids).2 fun g hg => h1 g (by simp [hg])
  unfold Network.finalState Network.finalStateFl
  rw [this]

end

/-- The demo features written twice, and a network whose nodes were written twice. -/
example : demoFeatures ≠ [] ∧ Vector.readGeojsonFeatures (fun i => some (i + 1)) id
      (Vector.writeGeojsonFeatures id (Vector.Writer.init "nodes" [])
        (Vector.writeGeojsonFeatures id (Vector.Writer.init "nodes" []) [] (demoFeatures.take 1)).2 (demoFeatures.take 1)).2 "nodes" = .ok
      [⟨some 1, .point (1, 2), [("nodeid", .int 0), ("v", .int 3)]⟩,
       ⟨some 2, .point (1, 2), [("nodeid", .int 0), ("v", .int 3), ("nodeid", .int 0), ("v", .int 3)]⟩] ∧
    (demoList.map fun p => (⟨none, .none, p⟩ : Feature Rat)).Pairwise
      (fun f g => f.properties.get? "nodeid" ≠ g.properties.get? "nodeid") := by
  decide +kernel

end Malstroem
