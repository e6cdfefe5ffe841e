/-
The tools run on features that were stored: the results are the same.
-/
import Verif.Model.Stored
import Verif.Spec.Vector
import Verif.Proofs.Dict
import Verif.Proofs.Scripts
import Verif.Proofs.Hyps

set_option linter.unusedSectionVars false

namespace Malstroem
open Spec

/-- If the first succeeds, the second does with a related result. -/
def Follows {α γ : Type} (S : α → γ → Prop) (x : Except PyErr α) (y : Except PyErr γ) : Prop :=
  ∀ a, x = .ok a → ∃ b, y = .ok b ∧ S a b

namespace Follows
variable {α α' γ γ' : Type}

theorem ofError {S : α → γ → Prop} {e : PyErr} {y : Except PyErr γ} : Follows S (.error e) y := fun _ h => by cases h

theorem ofPure {S : α → γ → Prop} {a : α} {b : γ} (h : S a b) : Follows S (pure a) (pure b) :=
  fun _ h' => ⟨b, rfl, by cases h'; exact h⟩

theorem ofOk {S : α → γ → Prop} {a : α} {b : γ} (h : S a b) : Follows S (.ok a) (.ok b) := ofPure h

theorem refl {S : α → α → Prop} (h : ∀ a, S a a) (x : Except PyErr α) : Follows S x x := fun a ha => ⟨a, ha, h a⟩

theorem mono {S T : α → γ → Prop} {x : Except PyErr α} {y : Except PyErr γ} (h : Follows S x y) (hST : ∀ a b, S a b → T a b) :
    Follows T x y := fun a ha => let ⟨b, hb, hS⟩ := h a ha; ⟨b, hb, hST a b hS⟩

theorem ofBind {S : α → γ → Prop} {T : α' → γ' → Prop} {x : Except PyErr α} {y : Except PyErr γ} {f : α → Except PyErr α'}
    {g : γ → Except PyErr γ'} (h : Follows S x y) (hf : ∀ a b, S a b → Follows T (f a) (g b)) :
    Follows T (x >>= f) (y >>= g) := by
  intro c hc
  cases x with
  | error e => cases hc
  | ok a =>
    obtain ⟨b, hb, hS⟩ := h a rfl
    obtain ⟨d, hd, hT⟩ := hf a b hS c hc
    exact ⟨d, by rw [hb]; exact hd, hT⟩

theorem ofMapM {R : α → γ → Prop} {T : α' → γ' → Prop} {f : α → Except PyErr α'} {g : γ → Except PyErr γ'}
    {l : List α} {m : List γ} (hl : List.Forall₂ R l m) (h : ∀ a b, R a b → Follows T (f a) (g b)) :
    Follows (List.Forall₂ T) (l.mapM f) (m.mapM g) := by
  induction hl with
  | nil => exact ofPure .nil
  | cons hab _ ih =>
    rw [List.mapM_cons, List.mapM_cons]
    exact ofBind (h _ _ hab) fun x y hxy => ofBind ih fun xs ys hs => ofPure (.cons hxy hs)

theorem ofFoldlM {R : α → γ → Prop} {T : α' → γ' → Prop} {f : α' → α → Except PyErr α'} {g : γ' → γ → Except PyErr γ'}
    {l : List α} {m : List γ} (hl : List.Forall₂ R l m)
    (h : ∀ s t a b, T s t → R a b → Follows T (f s a) (g t b)) :
    ∀ s t, T s t → Follows T (l.foldlM f s) (m.foldlM g t) := by
  induction hl with
  | nil => intro s t hst; exact ofPure hst
  | cons hab _ ih =>
    intro s t hst
    rw [List.foldlM_cons, List.foldlM_cons]
    exact ofBind (h _ _ _ _ hst hab) fun s' t' h' => ih s' t' h'

theorem eq {x y : Except PyErr α} (h : Follows (· = ·) x y) {a : α} (ha : x = .ok a) : y = .ok a := by
  obtain ⟨b, hb, rfl⟩ := h a ha
  exact hb

end Follows

/-- The same for computations with loops. -/
def FollowsC {α γ : Type} (S : α → γ → Prop) (x : Net.Comp α) (y : Net.Comp γ) : Prop :=
  ∀ a, x = (some (.ok a) : Option (Except PyErr α)) → ∃ b, y = (some (.ok b) : Option (Except PyErr γ)) ∧ S a b

namespace FollowsC
variable {α α' γ γ' : Type}

theorem ofPure {S : α → γ → Prop} {a : α} {b : γ} (h : S a b) : FollowsC S (pure a) (pure b) :=
  fun _ h' => ⟨b, rfl, by cases h'; exact h⟩

theorem ofBind {S : α → γ → Prop} {T : α' → γ' → Prop} {x : Net.Comp α} {y : Net.Comp γ} {f : α → Net.Comp α'}
    {g : γ → Net.Comp γ'} (h : FollowsC S x y) (hf : ∀ a b, S a b → FollowsC T (f a) (g b)) :
    FollowsC T (x >>= f) (y >>= g) := by
  intro c hc
  match x, hc with
  | none, hc => cases hc
  | some (.error e), hc => cases hc
  | some (.ok a), hc =>
    obtain ⟨b, hb, hS⟩ := h a rfl
    obtain ⟨d, hd, hT⟩ := hf a b hS c hc
    exact ⟨d, by rw [hb]; exact hd, hT⟩

theorem ofExcept {S : α → γ → Prop} {x : Except PyErr α} {y : Except PyErr γ} (h : Follows S x y) :
    FollowsC S (ExceptT.mk (some x)) (ExceptT.mk (some y)) := by
  intro a ha
  obtain ⟨b, hb, hS⟩ := h a (Option.some.inj ha)
  exact ⟨b, by rw [hb]; rfl, hS⟩

theorem refl {S : α → α → Prop} (h : ∀ a, S a a) (x : Net.Comp α) : FollowsC S x x := fun a ha => ⟨a, ha, h a⟩

theorem ofFoldlM {T : α' → γ' → Prop} {f : α' → α → Net.Comp α'} {g : γ' → α → Net.Comp γ'}
    (h : ∀ s t a, T s t → FollowsC T (f s a) (g t a)) : ∀ (l : List α) s t, T s t → FollowsC T (l.foldlM f s) (l.foldlM g t) := by
  intro l
  induction l with
  | nil => intro s t hst; exact ofPure hst
  | cons a l ih =>
    intro s t hst
    rw [List.foldlM_cons, List.foldlM_cons]
    exact ofBind (h _ _ _ hst) fun s' t' h' => ih s' t' h'

end FollowsC

namespace Stored

/-- The attributes that are texts. -/
def texts : List String := ["nodetype", "hist_counts"]

section
variable {K : Type} [Field K] {p q : Props K}

/-- The value is a text or null. -/
def TextOrNull (x : Val K) : Prop := x = .none ∨ ∃ s, x = .str s

/-- The value fits the attribute: an id is not a real number; a text is where texts are expected, and nothing else. -/
structure Fits (key : String) (x : Val K) : Prop where
  id : key ∈ ids → ¬ IsReal x
  text : key ∈ texts → TextOrNull x
  other : key ∉ texts → ∀ s, x ≠ .str s

/-- All values fit. -/
def Clean (p : Props K) : Prop := ∀ key x, p.get? key = some x → Fits key x

/-- The same attributes, and all values fit. -/
structure SP (p q : Props K) : Prop where
  same : SameProps ids p q
  clean : Clean p

/-- The same for features. -/
def SA (f g : Feature K) : Prop := SP f.properties g.properties

theorem getItem (h : SP p q) (key : String) :
    Follows (fun x y => SameNumber x y ∧ (key ∈ ids → y = x) ∧ Fits key x) (Dict.getItem p key) (Dict.getItem q key) := by
  intro x hx
  have hx := Dict.getItem_ok.1 hx
  have hk := h.same key
  rw [hx] at hk
  obtain ⟨y, hy, h1, h2⟩ := hk
  exact ⟨y, Dict.getItem_ok.2 hy, h1, h2, h.clean key x hx⟩

theorem getItem_id (h : SP p q) {key : String} (hk : key ∈ ids) :
    Follows (· = ·) (Dict.getItem p key) (Dict.getItem q key) :=
  (getItem h key).mono fun _ _ hxy => (hxy.2.1 hk).symm

theorem float {x y : Val K} (h : SameNumber x y) : Follows (· = ·) x.float y.float := by
  rcases h with rfl | ⟨i, rfl, rfl⟩
  · exact Follows.refl (fun _ => rfl) _
  · exact Follows.ofOk rfl

theorem number (h : SP p q) (key : String) : Follows (· = ·) (Network.number p key) (Network.number q key) :=
  Follows.ofBind (getItem h key) fun _ _ hxy => float hxy.1

theorem Clean.set (h : Clean p) {key : String} {x : Val K} (hx : Fits key x) : Clean (Dict.set p key x) := by
  intro k y hy
  rw [Dict.get?_set] at hy
  by_cases hkk : key = k
  · subst hkk
    rw [if_pos rfl] at hy
    cases hy
    exact hx
  · rw [if_neg hkk] at hy
    exact h k y hy

theorem set (h : SP p q) (key : String) {x y : Val K} (hxy : SameNumber x y ∧ (key ∈ ids → y = x) ∧ Fits key x) :
    SP (Dict.set p key x) (Dict.set q key y) := by
  refine ⟨fun k => ?_, h.clean.set hxy.2.2⟩
  rw [Dict.get?_set, Dict.get?_set]
  by_cases hk : key = k
  · subst hk
    rw [if_pos rfl, if_pos rfl]
    exact ⟨y, rfl, hxy.1, hxy.2.1⟩
  · rw [if_neg hk, if_neg hk]
    exact h.same k

theorem set_same (h : SP p q) {key : String} {x : Val K} (hx : Fits key x) : SP (Dict.set p key x) (Dict.set q key x) :=
  set h key ⟨.inl rfl, fun _ => rfl, hx⟩

/-- A value that is no text fits any attribute that is no id and no text. -/
theorem fits {key : String} (h1 : key ∉ ids) (h2 : key ∉ texts) {x : Val K} (hx : ∀ s, x ≠ .str s) : Fits key x :=
  ⟨fun h => absurd h h1, fun h => absurd h h2, fun _ => hx⟩

theorem sameProps_refl (p : Props K) : SameProps ids p p := by
  intro k
  cases p.get? k with
  | none => exact .inl rfl
  | some x => exact ⟨x, rfl, .inl rfl, fun _ => rfl⟩

theorem props_refl (h : Clean p) : SP p p := ⟨sameProps_refl p, h⟩

theorem SameNumber.trans {x y z : Val K} (h : SameNumber x y) (h' : SameNumber y z) : SameNumber x z := by
  rcases h with rfl | ⟨i, rfl, rfl⟩
  · exact h'
  · rcases h' with rfl | ⟨j, h, _⟩
    · exact .inr ⟨i, rfl, rfl⟩
    · cases h

theorem sameProps_trans {r : Props K} (h : SameProps ids p q) (h' : SameProps ids q r) : SameProps ids p r := by
  intro k
  have h1 := h k
  have h2 := h' k
  cases hp : p.get? k with
  | none =>
    rw [hp] at h1
    rcases h1 with h1 | h1
    · rw [h1] at h2; exact h2
    · rw [h1] at h2
      obtain ⟨y, hy, hs, _⟩ := h2
      rcases hs with rfl | ⟨i, hi, _⟩
      · exact .inr hy
      · cases hi
  | some x =>
    rw [hp] at h1
    obtain ⟨y, hy, hs, hi⟩ := h1
    rw [hy] at h2
    obtain ⟨z, hz, hs', hi'⟩ := h2
    exact ⟨z, hz, SameNumber.trans hs hs', fun hk => (hi' hk).trans (hi hk)⟩

theorem clean_of_forall (h : ∀ kv ∈ p, Fits kv.1 kv.2) : Clean p := fun _ _ hx => h _ (Dict.mem_of_get? hx)

/-- The second values fit, too. -/
theorem SP.clean' (h : SP p q) : Clean q := by
  intro k y hy
  have hs := h.same k
  have hnone : Fits (K := K) k .none := ⟨fun _ => by simp [IsReal], fun _ => .inl rfl, fun _ _ => by simp⟩
  cases hp : p.get? k with
  | none =>
    rw [hp] at hs
    rcases hs with hs | hs
    · rw [hs] at hy; cases hy
    · rw [hs] at hy; cases hy
      exact hnone
  | some x =>
    rw [hp] at hs
    obtain ⟨y', hy', hn, hi⟩ := hs
    rw [hy'] at hy
    cases hy
    have hf := h.clean k x hp
    rcases hn with rfl | ⟨i, rfl, rfl⟩
    · exact hf
    · refine ⟨fun hk => ?_, fun hk => ?_, fun _ _ => by simp⟩
      · cases hi hk
      · rcases hf.text hk with h | ⟨s, h⟩ <;> cases h

/-- Lists of features. -/
abbrev Sames (fs gs : List (Feature K)) : Prop := List.Forall₂ SA fs gs

/-- Storing does not change the attributes. -/
theorem sames_back {back : List (Feature K) → List (Feature K)}
    (hback : ∀ fs, NoReals ids fs → Homogeneous fs → List.Forall₂ (SameAttributes ids) fs (back fs)) {fs gs : List (Feature K)} (h : Sames fs gs) :
    Sames fs (back gs) := by
  have hc : ∀ g ∈ gs, Clean g.properties := by
    clear hback
    induction h with
    | nil => intro f hf; cases hf
    | cons hab _ ih =>
      intro f hf
      rcases List.mem_cons.1 hf with rfl | hf
      · exact SP.clean' hab
      · exact ih f hf
  have hb := hback gs (fun g hg key hk x hx => (hc g hg key x hx).id hk) fun f hf g hg key s y hs hy => by
    by_cases hk : key ∈ texts
    · exact (hc g hg key y hy).text hk
    · exact absurd rfl ((hc f hf key _ hs).other hk s)
  generalize back gs = m at hb
  clear hback hc
  induction h generalizing m with
  | nil => cases hb; exact .nil
  | cons hab _ ih =>
    cases hb with
    | cons hbc hb => exact .cons ⟨sameProps_trans hab.same hbc, hab.clean⟩ (ih _ hb)

theorem sames_same {fs gs : List (Feature K)} (h : Sames fs gs) : List.Forall₂ (SameAttributes ids) fs gs :=
  h.imp fun _ _ h => h.same

/-- Dicts with the same keys and related values. -/
def DictRel {κ ν ν' : Type} (S : ν → ν' → Prop) (d : Dict κ ν) (e : Dict κ ν') : Prop :=
  List.Forall₂ (fun a b => a.1 = b.1 ∧ S a.2 b.2) d e

section
variable {κ ν ν' : Type} [DecidableEq κ] {S : ν → ν' → Prop} {d : Dict κ ν} {e : Dict κ ν'}

theorem DictRel.set (h : DictRel S d e) (k : κ) {x : ν} {y : ν'} (hxy : S x y) : DictRel S (Dict.set d k x) (Dict.set e k y) := by
  induction h with
  | nil => exact .cons ⟨rfl, hxy⟩ .nil
  | @cons a b d e hab hde ih =>
    obtain ⟨a1, a2⟩ := a
    obtain ⟨b1, b2⟩ := b
    obtain ⟨h1, h2⟩ := hab
    simp only at h1 h2
    subst h1
    show DictRel S (if a1 = k then (a1, x) :: d else (a1, a2) :: Dict.set d k x) (if a1 = k then (a1, y) :: e else (a1, b2) :: Dict.set e k y)
    split
    · exact .cons ⟨rfl, hxy⟩ hde
    · exact .cons ⟨rfl, h2⟩ ih

theorem DictRel.get? (h : DictRel S d e) (k : κ) :
    (d.get? k = none ∧ e.get? k = none) ∨ ∃ x y, d.get? k = some x ∧ e.get? k = some y ∧ S x y := by
  induction h with
  | nil => exact .inl ⟨rfl, rfl⟩
  | @cons a b d e hab hde ih =>
    obtain ⟨a1, a2⟩ := a
    obtain ⟨b1, b2⟩ := b
    obtain ⟨h1, h2⟩ := hab
    simp only at h1 h2
    subst h1
    by_cases hk : a1 = k
    · subst hk
      exact .inr ⟨a2, b2, by simp [Dict.get?], by simp [Dict.get?], h2⟩
    · simpa [Dict.get?, hk] using ih

theorem DictRel.getItem (h : DictRel S d e) (k : κ) : Follows S (Dict.getItem d k) (Dict.getItem e k) := by
  intro x hx
  have hx := Dict.getItem_ok.1 hx
  rcases h.get? k with ⟨h1, _⟩ | ⟨x', y, h1, h2, hS⟩
  · rw [h1] at hx; cases hx
  · rw [h1] at hx
    cases hx
    exact ⟨y, Dict.getItem_ok.2 h2, hS⟩

theorem DictRel.values (h : DictRel S d e) : List.Forall₂ S (Dict.values d) (Dict.values e) := by
  induction h with
  | nil => exact .nil
  | cons hab _ ih => exact .cons hab.2 ih

theorem DictRel.keys (h : DictRel S d e) : d.map (·.1) = e.map (·.1) := by
  induction h with
  | nil => rfl
  | cons hab _ ih => rw [List.map_cons, List.map_cons, hab.1, ih]

end
end

section
variable {K : Type} [Field K] [LinearOrder K]

/-! ### StreamTool -/

theorem index {f g : Feature K} (h : SA f g) {name : String} (hn : name ∈ ids) :
    Follows (· = ·) (Streams.index f name) (Streams.index g name) :=
  Follows.ofBind (getItem_id h hn) fun x y hxy => by subst hxy; exact Follows.refl (fun _ => rfl) _

theorem props_ite {c : Prop} [Decidable c] {α γ : Type} {S : α → γ → Prop} {a b : Net.Comp α} {a' b' : Net.Comp γ} (h : FollowsC S a a')
    (h' : FollowsC S b b') : FollowsC S (if c then a else b) (if c then a' else b') := by
  split
  · exact h
  · exact h'

theorem nodeFeature {gt : GeoTransform K} {d e : Dict (Val K) (Feature K)} (h : DictRel (SA) d e) (n : Net.Node) :
    Follows (SA) (Streams.nodeFeature gt d n) (Streams.nodeFeature gt e n) := by
  unfold Streams.nodeFeature
  have hbase : Clean (K := K) [("nodeid", .int n.id), ("dstrnodeid", Streams.optVal n.downstream_id),
      ("nodetype", .str (Streams.typeName n.nodetype)), ("cell_row", .int n.pix.1), ("cell_col", .int n.pix.2),
      ("bspot_id", .none), ("bspot_area", .num 0), ("bspot_vol", .num 0), ("wshed_area", .num 0)] := by
    have hd : ∀ s, (Streams.optVal n.downstream_id : Val K) ≠ .str s := by
      intro s; cases n.downstream_id <;> simp [Streams.optVal]
    have hd' : ¬ IsReal (Streams.optVal n.downstream_id : Val K) := by
      cases n.downstream_id <;> simp [Streams.optVal, IsReal]
    refine clean_of_forall fun kv hkv => ?_
    simp only [List.mem_cons, List.not_mem_nil, or_false] at hkv
    rcases hkv with rfl | rfl | rfl | rfl | rfl | rfl | rfl | rfl | rfl
    all_goals dsimp only
    · exact ⟨fun _ => by simp [IsReal], fun h => absurd h (by decide), fun _ _ => by simp⟩
    · exact ⟨fun _ => hd', fun h => absurd h (by decide), fun _ => hd⟩
    · exact ⟨fun h => absurd h (by decide), fun _ => .inr ⟨_, rfl⟩, fun h => absurd (by decide) h⟩
    · exact ⟨fun _ => by simp [IsReal], fun h => absurd h (by decide), fun _ _ => by simp⟩
    · exact ⟨fun _ => by simp [IsReal], fun h => absurd h (by decide), fun _ _ => by simp⟩
    · exact ⟨fun _ => by simp [IsReal], fun h => absurd h (by decide), fun _ _ => by simp⟩
    all_goals exact fits (by decide) (by decide) (by simp)
  rcases h.get? (.int n.id) with ⟨h1, h2⟩ | ⟨x, y, h1, h2, hS⟩
  · rw [h1, h2]
    exact Follows.ofPure (props_refl hbase)
  · rw [h1, h2]
    dsimp only
    refine Follows.ofBind (getItem hS _) fun a b h1 => ?_
    refine Follows.ofBind (getItem hS _) fun a' b' h2 => ?_
    refine Follows.ofBind (getItem hS _) fun a'' b'' h3 => ?_
    refine Follows.ofBind (getItem hS _) fun a''' b''' h4 => ?_
    exact Follows.ofPure (set (set (set (set (props_refl hbase) _ h1) _ h2) _ h3) _ h4)

theorem process {gt : GeoTransform K} {flowdir : Raster Nat} {labeled : Raster Int} {fs gs : List (Feature K)} (h : Sames fs gs)
    (out : Bool) (n : Nat) :
    FollowsC (fun a b => Sames a.1 b.1 ∧ a.2 = b.2) (Streams.process gt flowdir labeled fs out n)
      (Streams.process gt flowdir labeled gs out n) := by
  unfold Streams.process
  refine FollowsC.ofBind (FollowsC.ofExcept (Follows.ofMapM (T := (· = ·)) h fun f g hfg => ?_)) fun a b hab => ?_
  · exact Follows.ofBind (index hfg (by decide)) fun r r' hr => Follows.ofBind (index hfg (by decide)) fun c c' hc =>
      Follows.ofPure (by rw [hr, hc])
  have hab : a = b := by
    induction hab with
    | nil => rfl
    | cons h _ ih => rw [h, ih]
  subst hab
  have rest : ∀ nodes : List Net.Node, FollowsC (fun (a b : List (Feature K) × List (Feature K)) => Sames a.1 b.1 ∧ a.2 = b.2)
      (do
        let pp_index ← ExceptT.mk (some (Streams.indexPourpoints fs))
        let geojson_nodes ← ExceptT.mk (some (nodes.mapM (Streams.nodeFeature gt pp_index)))
        let geojson_streams := if out then nodes.filterMap (Streams.streamFeature gt) else []
        pure (geojson_nodes, geojson_streams))
      (do
        let pp_index ← ExceptT.mk (some (Streams.indexPourpoints gs))
        let geojson_nodes ← ExceptT.mk (some (nodes.mapM (Streams.nodeFeature gt pp_index)))
        let geojson_streams := if out then nodes.filterMap (Streams.streamFeature gt) else []
        pure (geojson_nodes, geojson_streams)) := by
    intro nodes
    refine FollowsC.ofBind (FollowsC.ofExcept (Follows.ofFoldlM (T := DictRel (SA)) h ?_ _ _ .nil)) fun d e hde => ?_
    · intro s t f g hst hfg
      exact Follows.ofBind (getItem_id hfg (by decide)) fun x y hxy => by subst hxy; exact Follows.ofPure (hst.set _ hfg)
    refine FollowsC.ofBind (FollowsC.ofExcept (Follows.ofMapM (T := SA) (R := (· = ·)) (List.forall₂_same.2 fun _ _ => rfl) ?_)) fun xs ys hs => ?_
    · rintro n _ rfl
      exact nodeFeature hde n
    exact FollowsC.ofPure ⟨hs, rfl⟩
  dsimp only
  refine props_ite ?_ ?_
  all_goals
    refine FollowsC.ofBind (FollowsC.refl (S := (· = ·)) (fun _ => rfl) _) fun nodes nodes' hn => ?_
    subst hn
    exact rest nodes

/-! ### SimpleVolumeTool -/

theorem simpleVolumes {attr : String} (hattr : attr ∉ ids) (hattr' : attr ∉ texts) {mm : K} {fs gs : List (Feature K)} (h : Sames fs gs) :
    Follows Sames (Rain.simpleVolumes fs attr mm) (Rain.simpleVolumes gs attr mm) :=
  Follows.ofMapM h fun _ _ hfg => Follows.ofBind (number hfg _) fun a b hab => by
    subst hab
    exact Follows.ofPure (set_same hfg (fits hattr hattr' (by simp)))

/-! ### FinalStateCalculator -/

/-- Networks of the same nodes. -/
structure NetRel (s t : Network.State K) : Prop where
  index : DictRel (SP) s.nodes_index t.nodes_index
  roots : s.root_nodes = t.root_nodes
  tree : s.upstream_tree = t.upstream_tree

theorem addNode {s t : Network.State K} (hst : NetRel s t) {p q : Props K} (h : SP p q) :
    Follows NetRel (Network.addNode s p) (Network.addNode t q) := by
  unfold Network.addNode
  refine Follows.ofBind (getItem_id h (by decide)) fun a b hab => ?_
  subst hab
  refine Follows.ofBind (getItem_id h (by decide)) fun c d hcd => ?_
  subst hcd
  refine Follows.ofPure ⟨hst.index.set _ h, ?_, ?_⟩
  · simp only [hst.roots]
  · simp only [hst.tree, Network.State.upstream]

/-- The values of an event that are copied are no texts. -/
def NoText (e : Props K) : Prop := ∀ k ∈ ["spillv", "v", "pctv"], ∀ x, e.get? k = some x → ∀ s, x ≠ .str s

/-- Equal events without texts. -/
def SameEvents (v v' : Dict (Val K) (Props K)) : Prop := v = v' ∧ ∀ kv ∈ v, NoText kv.2

theorem SameEvents.set {v v' : Dict (Val K) (Props K)} (h : SameEvents v v') (k : Val K) {e : Props K} (he : NoText e) :
    SameEvents (Dict.set v k e) (Dict.set v' k e) := by
  obtain ⟨rfl, h⟩ := h
  refine ⟨rfl, ?_⟩
  induction v with
  | nil => simp [Dict.set, he]
  | cons a v ih =>
    show ∀ kv ∈ (if a.1 = k then (a.1, e) :: v else a :: Dict.set v k e), NoText kv.2
    split
    · intro kv hkv
      rcases List.mem_cons.1 hkv with rfl | hkv
      · exact he
      · exact h kv (List.mem_cons_of_mem _ hkv)
    · intro kv hkv
      rcases List.mem_cons.1 hkv with rfl | hkv
      · exact h _ (by simp)
      · exact ih (fun kv h' => h kv (List.mem_cons_of_mem _ h')) kv hkv

theorem calcNode {s t : Network.State K} (hst : NetRel s t) (attr : String) {values values' : Dict (Val K) (Props K)}
    (hv : SameEvents values values') (id : Val K) :
    Follows SameEvents (Network.calcNode s attr values id) (Network.calcNode t attr values' id) := by
  obtain ⟨rfl, hv⟩ := hv
  have hu : s.upstream = t.upstream := by
    unfold Network.State.upstream
    rw [hst.tree]
  unfold Network.calcNode Network.calcNodeFl
  rw [hu]
  refine Follows.ofBind (hst.index.getItem id) fun p q h => ?_
  refine Follows.ofBind (number h _) fun _ _ _ => ?_
  refine Follows.ofBind (number h _) fun w w' hw => ?_
  refine Follows.ofBind (number h _) fun c c' hc => ?_
  subst hw hc
  refine Follows.ofBind (Follows.refl (S := (· = ·)) (fun _ => rfl) _) fun _ _ he => ?_
  subst he
  refine Follows.ofBind (Follows.refl (S := (· = ·)) (fun _ => rfl) _) fun _ _ he => ?_
  subst he
  refine Follows.ofBind (getItem_id h (by decide)) fun _ _ he => ?_
  subst he
  refine Follows.ofPure (SameEvents.set ⟨rfl, hv⟩ _ fun k hk x hx => ?_)
  simp only [List.mem_cons, List.not_mem_nil, or_false] at hk
  rcases hk with rfl | rfl | rfl
  · simp [Dict.get?_set] at hx
    subst hx; simp
  · simp [Dict.get?_set] at hx
    subst hx; simp
  · simp only [Dict.get?_set, if_true, Option.some.injEq] at hx
    subst hx
    intro s
    split <;> simp

theorem rainEvent {s t : Network.State K} (hst : NetRel s t) (attr : String) (n : Nat) :
    FollowsC (fun a b => a = b ∧ ∀ e ∈ a, NoText e) (Network.rainEvent s attr n) (Network.rainEvent t attr n) := by
  have hu : s.upstream = t.upstream := by
    unfold Network.State.upstream
    rw [hst.tree]
  unfold Network.rainEvent Network.rainEventFl
  rw [hst.roots]
  refine FollowsC.ofBind (FollowsC.ofFoldlM (T := SameEvents) (fun v v' r hv => ?_) _ _ _ ⟨rfl, by simp⟩) fun v v' he => by
    obtain ⟨rfl, he⟩ := he
    refine FollowsC.ofPure ⟨rfl, fun e hm => ?_⟩
    obtain ⟨kv, hkv, rfl⟩ := List.mem_map.1 hm
    exact he kv hkv
  unfold Network.calcStreamTreeFl
  rw [hu]
  refine FollowsC.ofBind (FollowsC.refl (S := (· = ·)) (fun _ => rfl) _) fun tree _ he => ?_
  subst he
  refine FollowsC.ofExcept ?_
  refine Follows.ofFoldlM (R := (· = ·)) (List.forall₂_same.2 fun _ _ => rfl) (fun v v' a b hv hab => ?_) _ _ hv
  subst hab
  exact calcNode hst attr hv a

theorem copyProps {f g : Feature K} (h : SA f g) {e : Props K} (he : NoText e) :
    Follows (SA) (Network.copyProps f e) (Network.copyProps g e) := by
  unfold Network.copyProps
  refine Follows.ofBind (S := SP) ?_ fun p q hpq => Follows.ofPure hpq
  refine Follows.ofFoldlM (R := fun a b => a = b ∧ a ∈ ["spillv", "v", "pctv"]) (List.forall₂_same.2 fun a ha => ⟨rfl, ha⟩)
    (fun p q a b hpq hab => ?_) _ _ h
  obtain ⟨rfl, hid⟩ := hab
  intro r hr
  cases hx : Dict.getItem e a with
  | error _ => rw [hx] at hr; cases hr
  | ok x =>
    rw [hx] at hr
    have h1 : ∀ a ∈ ["spillv", "v", "pctv"], a ∉ ids ∧ a ∉ texts := by decide
    exact Follows.ofPure (set_same hpq (fits (h1 a hid).1 (h1 a hid).2 (he a hid x (Dict.getItem_ok.1 hx)))) r hr

theorem map_props {fs gs : List (Feature K)} (h : Sames fs gs) :
    List.Forall₂ (SP) (fs.map (·.properties)) (gs.map (·.properties)) := by
  induction h with
  | nil => exact .nil
  | cons hab _ ih => exact .cons hab ih

theorem finalState {fs gs : List (Feature K)} (h : Sames fs gs) (attr : String) (n : Nat) :
    FollowsC Sames (Network.finalState fs attr n) (Network.finalState gs attr n) := by
  unfold Network.finalState Network.finalStateFl
  refine FollowsC.ofBind (S := DictRel (SA)) (FollowsC.ofExcept ?_) fun d e hde => ?_
  · refine Follows.ofFoldlM h (fun s t f g hst hfg => ?_) _ _ .nil
    exact Follows.ofBind (getItem_id hfg (by decide)) fun x y hxy => by subst hxy; exact Follows.ofPure (hst.set _ hfg)
  refine FollowsC.ofBind (S := NetRel) (FollowsC.ofExcept ?_) fun s t hst => ?_
  · exact Follows.ofFoldlM (map_props hde.values) (fun s t p q hst hpq => addNode hst hpq) _ _ ⟨.nil, rfl, rfl⟩
  refine FollowsC.ofBind (rainEvent hst attr n) fun ev _ he => ?_
  obtain ⟨rfl, he⟩ := he
  refine FollowsC.ofBind (S := DictRel (SA)) (FollowsC.ofExcept ?_) fun d' e' h' => FollowsC.ofPure h'.values
  unfold Network.copyEvents
  refine Follows.ofFoldlM (R := fun a b => a = b ∧ NoText a) (List.forall₂_same.2 fun a ha => ⟨rfl, he a ha⟩)
    (fun d e a b hde hab => ?_) _ _ hde
  obtain ⟨rfl, hnt⟩ := hab
  refine Follows.ofBind (Follows.refl (S := (· = ·)) (fun _ => rfl) _) fun x _ hx => ?_
  subst hx
  refine Follows.ofBind (hde.getItem _) fun f g hfg => ?_
  refine Follows.ofBind (copyProps hfg hnt) fun f' g' hfg' => ?_
  exact Follows.ofPure (hde.set _ hfg')

end

section
variable {K : Type} [Field K] [LinearOrder K] [IsStrictOrderedRing K] [FloorRing K]

/-! ### Hypsometry -/

theorem intId {f g : Feature K} (h : SA f g) : Follows (· = ·) (Hyps.intId f) (Hyps.intId g) :=
  Follows.ofBind (getItem_id h (by decide)) fun x y hxy => by subst hxy; exact Follows.refl (fun _ => rfl) _

theorem forall₂_eq {α : Type} {a b : List α} (h : List.Forall₂ (· = ·) a b) : a = b := by
  induction h with
  | nil => rfl
  | cons h _ ih => rw [h, ih]

theorem foldl_set (l : Props K) (hl : ∀ kv ∈ l, Fits kv.1 kv.2) : ∀ {p q : Props K}, SP p q →
    SP (l.foldl (fun d kv => Dict.set d kv.1 kv.2) p) (l.foldl (fun d kv => Dict.set d kv.1 kv.2) q) := by
  induction l with
  | nil => intro p q h; exact h
  | cons a l ih => intro p q h; exact ih (fun kv hkv => hl kv (List.mem_cons_of_mem _ hkv)) (set_same h (hl a (by simp)))

theorem flat_keys (st : Hyps.Stats K) : ∀ kv ∈ Hyps.toFlatdict st, Fits kv.1 kv.2 := by
  intro kv hkv
  simp only [Hyps.toFlatdict, List.mem_cons, List.not_mem_nil, or_false] at hkv
  rcases hkv with rfl | rfl | rfl | rfl | rfl | rfl | rfl
  all_goals dsimp only
  · exact ⟨fun h => absurd h (by decide), fun _ => .inr ⟨_, rfl⟩, fun h => absurd (by decide) h⟩
  · exact fits (by decide) (by decide) (by simp)
  · exact fits (by decide) (by decide) (by simp)
  · exact fits (by decide) (by decide) (by simp)
  · exact fits (by decide) (by decide) (by simp)
  · refine fits (by decide) (by decide) fun s => ?_
    cases st.zmin <;> simp
  · refine fits (by decide) (by decide) fun s => ?_
    cases st.zmax <;> simp

theorem addHypsometry {area : K} {d e : Dict Int (Feature K)} (h : DictRel (SA) d e) (item : Int × Hyps.Stats K) :
    Follows (DictRel (SA)) (Hyps.addHypsometry area d item) (Hyps.addHypsometry area e item) :=
  Follows.ofBind (h.getItem _) fun _ _ hfg => Follows.ofPure (h.set _ (set_same (foldl_set _ (flat_keys _) hfg) (fits (by decide) (by decide) (by simp))))

theorem hypsometryIo {bluespots : Raster Int} {gt gt' : GeoTransform K} {dem : Raster K} {fs gs : List (Feature K)} {res : K}
    (h : Sames fs gs) : Follows Sames (Hyps.hypsometryIo bluespots gt dem gt' fs res) (Hyps.hypsometryIo bluespots gt dem gt' gs res) := by
  unfold Hyps.hypsometryIo
  have hthen : ∀ (c : Prop) [Decidable c] (x y : Except PyErr (List (Feature K))), Follows Sames x y →
      Follows Sames (if c then throw PyErr.assertionError >>= (fun _ : PUnit => x) else pure PUnit.unit >>= fun _ => x)
        (if c then throw PyErr.assertionError >>= (fun _ : PUnit => y) else pure PUnit.unit >>= fun _ => y) := by
    intro c _ x y hxy
    by_cases hc : c
    · simp only [hc, if_true]; exact Follows.ofError
    · simp only [hc, if_false]; exact hxy
  refine hthen _ _ _ ?_
  refine hthen _ _ _ ?_
  refine hthen _ _ _ ?_
  refine hthen _ _ _ ?_
  refine Follows.ofBind (S := DictRel (SA)) ?_ fun d e hde => ?_
  · refine Follows.ofFoldlM h (fun s t f g hst hfg => ?_) _ _ .nil
    exact Follows.ofBind (intId hfg) fun x y hxy => by subst hxy; exact Follows.ofPure (hst.set _ hfg)
  refine Follows.ofBind (Follows.refl (S := (· = ·)) (fun _ => rfl) _) fun m _ hm => ?_
  subst hm
  refine Follows.ofBind (Follows.ofMapM (T := (· = ·)) hde.values fun f g hfg => intId hfg) fun a b hab => ?_
  have hab := forall₂_eq hab
  subst hab
  refine Follows.ofBind (Follows.refl (S := (· = ·)) (fun _ => rfl) _) fun m' _ hm => ?_
  subst hm
  refine hthen _ _ _ ?_
  refine Follows.ofBind (Follows.refl (S := (· = ·)) (fun _ => rfl) _) fun st _ he => ?_
  subst he
  refine Follows.ofBind (S := DictRel (SA)) ?_ fun d' e' h' => Follows.ofPure h'.values
  refine Follows.ofFoldlM (R := (· = ·)) (List.forall₂_same.2 fun _ _ => rfl) (fun d e a b hde hab => ?_) _ _ hde
  subst hab
  exact addHypsometry hde a

/-! ### Water levels -/

theorem pyTrunc_intCast (i : Int) : pyTrunc (i : K) = i := by
  unfold pyTrunc
  split <;> simp

theorem toInt {x y : Val K} (h : SameNumber x y) : Follows (· = ·) x.toInt y.toInt := by
  rcases h with rfl | ⟨i, rfl, rfl⟩
  · exact Follows.refl (fun _ => rfl) _
  · exact Follows.ofOk (pyTrunc_intCast i).symm

theorem floatTop {x y : Val K} (h : SameNumber x y) : Follows (· = ·) x.floatTop y.floatTop := by
  rcases h with rfl | ⟨i, rfl, rfl⟩
  · exact Follows.refl (fun _ => rfl) _
  · exact Follows.ofOk rfl

theorem pyFloat {x y : Val K} (h : SameNumber x y) : Follows SameNumber x.pyFloat y.pyFloat := by
  rcases h with rfl | ⟨i, rfl, rfl⟩
  · exact Follows.refl (fun _ => .inl rfl) _
  · exact Follows.ofOk (.inr ⟨i, rfl, rfl⟩)

theorem floatBot {x y : Val K} (h : SameNumber x y) : Follows (· = ·) x.floatBot y.floatBot := by
  rcases h with rfl | ⟨i, rfl, rfl⟩
  · exact Follows.refl (fun _ => rfl) _
  · exact Follows.ofOk rfl

theorem fromFlatdict {p q : Props K} (h : SP p q) : Follows (· = ·) (Hyps.fromFlatdict p) (Hyps.fromFlatdict q) := by
  unfold Hyps.fromFlatdict
  refine Follows.ofBind (getItem h _) fun _ _ h1 => Follows.ofBind (toInt h1.1) fun nb _ hnb => ?_
  subst hnb
  refine Follows.ofBind (getItem h _) fun _ _ h1 => Follows.ofBind (float h1.1) fun lo _ he => ?_
  subst he
  refine Follows.ofBind (getItem h _) fun _ _ h1 => Follows.ofBind (float h1.1) fun hi _ he => ?_
  subst he
  refine Follows.ofBind (getItem h _) fun _ _ h1 => Follows.ofBind (float h1.1) fun res _ he => ?_
  subst he
  have hend : ∀ counts, Follows (· = ·)
      (do let zmin ← (← Dict.getItem p "zmin").floatTop
          let zmax ← (← Dict.getItem p "zmax").floatBot
          pure (⟨⟨counts, ⟨nb, lo, hi, res⟩⟩, zmin, zmax⟩ : Hyps.Stats K))
      (do let zmin ← (← Dict.getItem q "zmin").floatTop
          let zmax ← (← Dict.getItem q "zmax").floatBot
          pure (⟨⟨counts, ⟨nb, lo, hi, res⟩⟩, zmin, zmax⟩ : Hyps.Stats K)) := by
    intro counts
    refine Follows.ofBind (getItem h _) fun _ _ h1 => Follows.ofBind (floatTop h1.1) fun zmin _ he => ?_
    subst he
    refine Follows.ofBind (getItem h _) fun _ _ h1 => Follows.ofBind (floatBot h1.1) fun zmax _ he => ?_
    subst he
    exact Follows.ofPure rfl
  dsimp only
  split
  · refine Follows.ofBind (getItem h _) fun x y h1 => ?_
    rcases h1.1 with rfl | ⟨i, rfl, rfl⟩
    · cases y with
      | str s =>
        refine Follows.ofBind (Follows.refl (S := (· = ·)) (fun _ => rfl) _) fun counts _ he => ?_
        subst he
        exact hend counts
      | _ => exact Follows.ofError
    · exact Follows.ofError
  · exact hend []

theorem bspotId {f g : Feature K} (h : SA f g) : Follows (· = ·) (Approx.bspotId f) (Approx.bspotId g) :=
  Follows.ofBind (getItem h _) fun _ _ hxy => toInt hxy.1

theorem waterLevel_noText {st : Hyps.Stats K} {area v w : K} {d : WithBot K} {z : Val K}
    (h : Approx.waterLevel st area d v w = .ok z) : ∀ s, z ≠ .str s := by
  unfold Approx.waterLevel at h
  rintro s rfl
  split at h
  · split at h <;> cases h
  · split at h
    · dsimp only at h
      cases hi : Approx.npInterp w (0 :: (Approx.inner (Approx.cumulativeVolume st.zhistogram area) ++ [v])) _ with
      | error _ => rw [hi] at h; cases h
      | ok _ => rw [hi] at h; cases h
    · cases h

theorem dmax_noText (z : Val K) (zmin : WithTop K) : ∀ s, Approx.approxDmax z zmin ≠ .str s := by
  intro s h
  unfold Approx.approxDmax at h
  split at h <;> cases h

theorem levelFeature {d e : Dict Int (Feature K)} (h : DictRel (SA) d e) {f g : Feature K}
    (hfg : SA f g) : Follows (SA) (Approx.levelFeature d f) (Approx.levelFeature e g) := by
  unfold Approx.levelFeature
  refine Follows.ofBind (bspotId hfg) fun id _ he => ?_
  subst he
  refine Follows.ofBind (getItem hfg _) fun _ _ h1 => Follows.ofBind (float h1.1) fun v _ he => ?_
  subst he
  refine Follows.ofBind (h.getItem _) fun a b hab => ?_
  refine Follows.ofBind (bspotId hab) fun _ _ _ => ?_
  refine Follows.ofBind (fromFlatdict hab) fun st _ he => ?_
  subst he
  refine Follows.ofBind (getItem hab _) fun _ _ h1 => Follows.ofBind (float h1.1) fun v _ he => ?_
  subst he
  refine Follows.ofBind (getItem hab _) fun _ _ h1 => Follows.ofBind (floatBot h1.1) fun v _ he => ?_
  subst he
  refine Follows.ofBind (getItem hab _) fun _ _ h1 => Follows.ofBind (float h1.1) fun v _ he => ?_
  subst he
  intro r hr
  cases hz : Approx.waterLevel st _ _ _ _ with
  | error _ => rw [hz] at hr; cases hr
  | ok z =>
    rw [hz] at hr
    have hS : SP (Dict.set (Dict.set f.properties "approx_z" z) "approx_dmax" (Approx.approxDmax z st.zmin))
        (Dict.set (Dict.set g.properties "approx_z" z) "approx_dmax" (Approx.approxDmax z st.zmin)) :=
      set_same (set_same hfg (fits (by decide) (by decide) (waterLevel_noText hz)))
        (fits (by decide) (by decide) (dmax_noText z st.zmin))
    cases hr
    exact ⟨{ g with properties := (Dict.set (Dict.set g.properties "approx_z" z) "approx_dmax" (Approx.approxDmax z st.zmin)) }, rfl, hS⟩

theorem pourpointsOf {fs gs : List (Feature K)} (h : Sames fs gs) :
    Follows Sames (Approx.pourpointsOf fs) (Approx.pourpointsOf gs) := by
  induction h with
  | nil => exact Follows.ofOk .nil
  | @cons a b fs gs hab _ ih =>
    refine Follows.ofBind (getItem hab _) fun t t' ht => Follows.ofBind ih fun xs ys hs => Follows.ofPure ?_
    have hiff : t = .str "pourpoint" ↔ t' = .str "pourpoint" := by
      rcases ht.1 with rfl | ⟨i, rfl, rfl⟩
      · exact Iff.rfl
      · simp
    by_cases hp : t = .str "pourpoint"
    · rw [if_pos hp, if_pos (hiff.1 hp)]
      exact .cons hab hs
    · rw [if_neg hp, if_neg fun h' => hp (hiff.2 h')]
      exact hs

theorem waterLevelIo {fs gs hs ks : List (Feature K)} (h : Sames fs gs) (h' : Sames hs ks) :
    Follows Sames (Approx.waterLevelIo fs hs) (Approx.waterLevelIo gs ks) := by
  unfold Approx.waterLevelIo
  refine Follows.ofBind (S := DictRel (SA)) ?_ fun d e hde => ?_
  · refine Follows.ofFoldlM h' (fun s t f g hst hfg => ?_) _ _ .nil
    exact Follows.ofBind (bspotId hfg) fun x y hxy => by subst hxy; exact Follows.ofPure (hst.set _ hfg)
  refine Follows.ofBind (pourpointsOf h) fun xs ys hxy => ?_
  exact Follows.ofMapM hxy fun f g hfg => levelFeature hde hfg

/-! ### Flooded extents -/

theorem approxBluespotsIo {labels : Raster Int} {fs gs : List (Feature K)} {dem : Raster K} {a b : Bool} {bg : Int} (h : Sames fs gs) :
    Follows (· = ·) (Approx.approxBluespotsIo labels fs dem a b bg) (Approx.approxBluespotsIo labels gs dem a b bg) := by
  unfold Approx.approxBluespotsIo
  by_cases hc : ¬ a = true ∧ ¬ b = true
  · rw [if_pos hc]; exact Follows.ofError
  rw [if_neg hc, if_neg hc]
  dsimp only
  refine Follows.ofBind (pourpointsOf h) fun xs ys hxy => ?_
  refine Follows.ofBind (S := DictRel SameNumber) ?_ fun d e hde => ?_
  · refine Follows.ofFoldlM hxy (fun s t f g hst hfg => ?_) _ _ .nil
    refine Follows.ofBind (bspotId hfg) fun x y hxy => ?_
    subst hxy
    exact Follows.ofBind (getItem hfg _) fun z z' hz => Follows.ofBind (pyFloat hz.1) fun _ _ hv => Follows.ofPure (hst.set _ hv)
  refine Follows.ofBind (S := List.Forall₂ SameNumber) ?_ fun v v' hv => ?_
  · unfold Approx.labelvaluedictToList
    rw [hde.keys]
    refine Follows.ofBind (Follows.refl (S := (· = ·)) (fun _ => rfl) _) fun m _ hm => ?_
    subst hm
    refine Follows.ofMapM (R := (· = ·)) (List.forall₂_same.2 fun _ _ => rfl) fun i j hij => ?_
    subst hij
    split
    · exact Follows.ofOk (.inl rfl)
    · exact hde.getItem _
  refine Follows.ofBind (Follows.ofMapM (T := (· = ·)) hv fun x y hxy => float hxy) fun w w' hw => ?_
  have hw := forall₂_eq hw
  subst hw
  exact Follows.refl (fun _ => rfl) _

end
end Stored
end Malstroem
