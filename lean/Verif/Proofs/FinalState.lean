/-
FinalStateCalculator: which features are kept and what is written to them.
-/
import Verif.Proofs.Balance

set_option linter.unusedSectionVars false

namespace Malstroem
open Spec

theorem Dict.set_map {κ ν : Type} [DecidableEq κ] {d : Dict κ ν} (hd : (d.map (·.1)).Nodup) {k : κ} (hk : k ∈ d.map (·.1))
    (x : ν) : Dict.set d k x = d.map fun a => (a.1, if a.1 = k then x else a.2) := by
  induction d with
  | nil => cases hk
  | cons a d ih =>
    obtain ⟨a, b⟩ := a
    rw [List.map_cons, List.nodup_cons] at hd
    by_cases h : a = k
    · subst h
      simp only [Dict.set, if_pos, List.map_cons]
      congr 1
      symm
      rw [List.map_congr_left (g := id)]
      · simp
      · intro y hy
        rw [if_neg]
        · rfl
        · intro he
          exact hd.1 (List.mem_map.2 ⟨y, hy, he⟩)
    · simp only [Dict.set, if_neg h, List.map_cons]
      rw [ih hd.2 (by
        rw [List.map_cons, List.mem_cons] at hk
        exact hk.resolve_left (Ne.symm h))]

namespace Network
variable {K : Type} [Field K] [LinearOrder K] {attr : String}

/-- The dict of features after reading `fs`. -/
structure Indexed (fs : List (Feature K)) (d : Dict (Val K) (Feature K)) : Prop where
  nodup : (d.map (·.1)).Nodup
  key : ∀ a ∈ d, nodeId a.2 = some a.1
  last : ∀ a ∈ d, ∃ pre post, fs = pre ++ a.2 :: post ∧ ∀ g ∈ post, nodeId g ≠ nodeId a.2
  all : ∀ f ∈ fs, ∃ a ∈ d, nodeId a.2 = nodeId f

theorem Indexed.kept {fs : List (Feature K)} {d : Dict (Val K) (Feature K)} (h : Indexed fs d) : LastPerId fs d.values where
  distinct := by
    unfold Dict.values
    rw [List.map_map]
    have : d.map (nodeId ∘ fun x => x.2) = (d.map (·.1)).map some := by
      rw [List.map_map]
      exact List.map_congr_left fun a ha => h.key a ha
    rw [this]
    exact h.nodup.map (Option.some_injective _)
  last f hf := by
    obtain ⟨a, ha, rfl⟩ := List.mem_map.1 hf
    exact h.last a ha
  all f hf := by
    obtain ⟨a, ha, h1⟩ := h.all f hf
    exact ⟨a.2, List.mem_map.2 ⟨a, ha, rfl⟩, h1⟩

theorem Indexed.add {fs : List (Feature K)} {d : Dict (Val K) (Feature K)} (h : Indexed fs d) {f : Feature K} {k : Val K}
    (hk : nodeId f = some k) : Indexed (fs ++ [f]) (Dict.set d k f) := by
  have hmem : ∀ a, a ∈ Dict.set d k f → a = (k, f) ∨ (a ∈ d ∧ a.1 ≠ k) := by
    have hnd : ((Dict.set d k f).map (·.1)).Nodup := by
      rw [Dict.keys_set]
      split
      · exact h.nodup
      · rename_i hn
        exact List.nodup_append.2 ⟨h.nodup, by simp, by
          rintro x hx _ hy rfl; exact hn ((List.mem_singleton.1 hy) ▸ hx)⟩
    rintro ⟨a, b⟩ ha
    have := Dict.get?_of_mem hnd ha
    rw [Dict.get?_set] at this
    split at this
    · rename_i he
      injection this with this
      left; rw [he, this]
    · rename_i he
      exact .inr ⟨Dict.mem_of_get? this, fun h => he h.symm⟩
  have hkf : (k, f) ∈ Dict.set d k f := Dict.mem_of_get? (by rw [Dict.get?_set, if_pos rfl])
  refine ⟨?_, ?_, ?_, ?_⟩
  · rw [Dict.keys_set]
    split
    · exact h.nodup
    · rename_i hn
      exact List.nodup_append.2 ⟨h.nodup, by simp, by
        rintro x hx _ hy rfl; exact hn ((List.mem_singleton.1 hy) ▸ hx)⟩
  · intro a ha
    rcases hmem a ha with rfl | ⟨ha, _⟩
    · exact hk
    · exact h.key a ha
  · intro a ha
    rcases hmem a ha with rfl | ⟨ha, hne⟩
    · exact ⟨fs, [], rfl, by simp⟩
    · obtain ⟨pre, post, he, hp⟩ := h.last a ha
      refine ⟨pre, post ++ [f], by rw [he]; simp, fun g hg => ?_⟩
      rcases List.mem_append.1 hg with hg | hg
      · exact hp g hg
      · rw [List.mem_singleton.1 hg, hk, h.key a ha]
        exact fun hx => hne (Option.some.inj hx).symm
  · intro g hg
    rcases List.mem_append.1 hg with hg | hg
    · obtain ⟨a, ha, h1⟩ := h.all g hg
      by_cases hak : a.1 = k
      · exact ⟨(k, f), hkf, by rw [← h1, h.key a ha, hak]; exact hk⟩
      · refine ⟨a, ?_, h1⟩
        obtain ⟨a1, a2⟩ := a
        apply Dict.mem_of_get?
        rw [Dict.get?_set, if_neg (fun he => hak he.symm)]
        exact Dict.get?_of_mem h.nodup ha
    · rw [List.mem_singleton.1 hg]
      exact ⟨(k, f), hkf, rfl⟩

theorem prop_ok {f : Feature K} {k : Val K} (hk : nodeId f = some k) : f.prop "nodeid" = .ok k := Dict.getItem_ok.2 hk

theorem index_aux : ∀ (fs ds : List (Feature K)) (d : Dict (Val K) (Feature K)), Indexed ds d →
    (∀ f ∈ fs, ∃ k, nodeId f = some k) →
    ∃ d', (fs.foldlM (fun d f => do
      let nodeid ← f.prop "nodeid"
      pure (Dict.set d nodeid f)) d : Except PyErr _) = .ok d' ∧ Indexed (ds ++ fs) d' := by
  intro fs
  induction fs with
  | nil => intro ds d h _; exact ⟨d, rfl, by simpa using h⟩
  | cons f fs ih =>
    intro ds d h hk
    obtain ⟨k, hf⟩ := hk f (by simp)
    obtain ⟨d', h1, h2⟩ := ih (ds ++ [f]) (Dict.set d k f) (h.add hf) fun g hg => hk g (List.mem_cons_of_mem _ hg)
    refine ⟨d', ?_, by simpa using h2⟩
    rw [List.foldlM_cons, prop_ok hf]
    exact h1

theorem indexFeatures_ok {fs : List (Feature K)} (hk : ∀ f ∈ fs, ∃ k, nodeId f = some k) :
    ∃ d, indexFeatures fs = .ok d ∧ Indexed fs d := by
  have h0 : Indexed ([] : List (Feature K)) [] := ⟨by simp, by simp, by simp, by simp⟩
  exact index_aux fs [] [] h0 hk

theorem kept_distinct {fs : List (Feature K)} : ∀ {kept : List (Feature K)}, LastPerId fs kept → (fs.map nodeId).Nodup →
    kept.Perm fs := by
  intro kept h hnd
  rw [List.perm_ext_iff_of_nodup (List.Nodup.of_map _ h.distinct) (List.Nodup.of_map _ hnd)]
  have hsub : ∀ f ∈ kept, f ∈ fs := fun f hf => by
    obtain ⟨pre, post, he, _⟩ := h.last f hf
    rw [he]; simp
  intro f
  refine ⟨hsub f, fun hf => ?_⟩
  obtain ⟨g, hg, he⟩ := h.all f hf
  rw [← List.inj_on_of_nodup_map hnd (hsub g hg) hf he]
  exact hg

theorem index_distinct {fs : List (Feature K)} (key : Feature K → Val K) :
    (∀ f ∈ fs, nodeId f = some (key f)) → (fs.map key).Nodup →
    indexFeatures fs = .ok (fs.map fun f => (key f, f)) := by
  intro hk hnd
  unfold indexFeatures
  have aux : ∀ (fs ds : List (Feature K)), (∀ f ∈ fs, nodeId f = some (key f)) → ((ds ++ fs).map key).Nodup →
      (fs.foldlM (fun d f => do
        let nodeid ← f.prop "nodeid"
        pure (Dict.set d nodeid f)) (ds.map fun f => (key f, f)) : Except PyErr _) =
        .ok ((ds ++ fs).map fun f => (key f, f)) := by
    intro fs
    induction fs with
    | nil => intro ds _ _; simp [pure, Except.pure]
    | cons f fs ih =>
      intro ds hk hnd
      rw [List.foldlM_cons, prop_ok (hk f (by simp))]
      have hset : Dict.set (ds.map fun f => (key f, f)) (key f) f = (ds ++ [f]).map fun f => (key f, f) := by
        rw [Dict.set_new]
        · simp
        · rw [List.map_map]
          rw [List.map_append, List.nodup_append] at hnd
          intro hin
          exact hnd.2.2 _ hin _ (by simp) rfl
      have := ih (ds ++ [f]) (fun g hg => hk g (List.mem_cons_of_mem _ hg)) (by simpa using hnd)
      rw [← hset, List.append_assoc, List.singleton_append] at this
      exact this
  exact aux fs [] hk (by simpa using hnd)

/-! ### Copying the events -/

variable {fl : K → K}

/-- Feature `f` with the three values of the event added. -/
def withState (fl : K → K) (f : Feature K) (n : RainNode K) (v s : K) : Feature K :=
  { f with properties := Dict.set (Dict.set (Dict.set f.properties "spillv" (.num s)) "v" (.num v)) "pctv" (percentFl fl v n.cap) }

theorem copyProps_ok (fl : K → K) (f : Feature K) (n : RainNode K) (v s : K) :
    copyProps f (mkEvent fl attr n v s) = .ok (withState fl f n v s) := by
  unfold copyProps
  simp only [List.foldlM_cons, List.foldlM_nil, Dict.getItem_ok.2 (mkEvent_spill n v s), Dict.getItem_ok.2 (mkEvent_v n v s),
    Dict.getItem_ok.2 (mkEvent_pct n v s)]
  rfl

theorem finished_withState {f : Feature K} {n : RainNode K} (hf : nodeId f = some (.int n.id)) (v spill : Int → K) :
    Finished f (withState id f n (v n.id) (spill n.id)) n v spill where
  id := rfl
  geometry := rfl
  others key h1 h2 h3 := by
    unfold withState
    simp only [Dict.get?_set, if_neg (Ne.symm h1), if_neg (Ne.symm h2), if_neg (Ne.symm h3)]
  state := by
    unfold nodeId at hf
    refine ⟨?_, ?_, ?_, ?_⟩ <;> simp [withState, Dict.get?_set, hf, percent_id]

/-- A row of the dict after the events of `order` have been copied. -/
noncomputable def finishRow (fl : K → K) (order : List (RainNode K)) (v spill : Int → K) (a : Val K × Feature K) : Val K × Feature K :=
  open Classical in
  (a.1, if h : ∃ n ∈ order, a.1 = .int n.id then withState fl a.2 h.choose (v h.choose.id) (spill h.choose.id) else a.2)

theorem finishRow_pos {order : List (RainNode K)} (hnd : (order.map (·.id)).Nodup) {v spill : Int → K}
    {a : Val K × Feature K} {n : RainNode K} (hn : n ∈ order) (ha : a.1 = .int n.id) :
    finishRow fl order v spill a = (a.1, withState fl a.2 n (v n.id) (spill n.id)) := by
  have h : ∃ n ∈ order, a.1 = .int n.id := ⟨n, hn, ha⟩
  have hc : h.choose = n := by
    have h1 := h.choose_spec
    exact eq_of_id hnd h1.1 hn (Val.int.inj (ha.symm.trans h1.2)).symm
  unfold finishRow
  rw [dif_pos h, hc]

theorem finishRow_neg {order : List (RainNode K)} {v spill : Int → K} {a : Val K × Feature K}
    (h : ∀ n ∈ order, a.1 ≠ .int n.id) : finishRow fl order v spill a = a := by
  unfold finishRow
  rw [dif_neg]
  rintro ⟨n, hn, he⟩
  exact h n hn he

theorem copy_aux (hattr : attr ≠ "nodeid") {v spill : Int → K} {d : Dict (Val K) (Feature K)} (hd : (d.map (·.1)).Nodup) :
    ∀ (todo done : List (RainNode K)), ((done ++ todo).map (·.id)).Nodup →
    (∀ n ∈ todo, (.int n.id : Val K) ∈ d.map (·.1)) →
    copyEvents (d.map (finishRow fl done v spill)) (todo.map fun n => mkEvent fl attr n (v n.id) (spill n.id)) =
      .ok (d.map (finishRow fl (done ++ todo) v spill)) := by
  intro todo
  induction todo with
  | nil => intro done _ _; simp [copyEvents, pure, Except.pure]
  | cons n todo ih =>
    intro done hnd hin
    have hkeys : ∀ l, (d.map (finishRow fl l v spill)).map (·.1) = d.map (·.1) := fun l => by
      rw [List.map_map]; rfl
    have hnd1 : ((done ++ [n]).map (·.id)).Nodup := by
      have : ((done ++ [n]).map (·.id)).Sublist ((done ++ n :: todo).map (·.id)) := by
        apply List.Sublist.map
        exact List.Sublist.append (List.Sublist.refl _) (by simp)
      exact this.nodup hnd
    have hndd : (done.map (·.id)).Nodup := by
      have : (done.map (·.id)).Sublist ((done ++ [n]).map (·.id)) := List.Sublist.map _ (by simp)
      exact this.nodup hnd1
    have hnot : ∀ m ∈ done, m.id ≠ n.id := by
      rw [List.map_append, List.nodup_append] at hnd1
      intro m hm he
      exact hnd1.2.2 _ (List.mem_map_of_mem hm) _ (by simp) he
    obtain ⟨⟨k, f⟩, hf, hk⟩ := List.mem_map.1 (hin n (by simp))
    dsimp only at hk
    subst hk
    have hrow : finishRow fl done v spill (.int n.id, f) = (.int n.id, f) :=
      finishRow_neg fun m hm he => hnot m hm (Val.int.inj he).symm
    have hget : Dict.get? (d.map (finishRow fl done v spill)) (.int n.id) = some f := by
      apply Dict.get?_of_mem
      · rw [hkeys]; exact hd
      · rw [← hrow]; exact List.mem_map_of_mem hf
    have hset : Dict.set (d.map (finishRow fl done v spill)) (.int n.id) (withState fl f n (v n.id) (spill n.id)) =
        d.map (finishRow fl (done ++ [n]) v spill) := by
      rw [Dict.set_map (by rw [hkeys]; exact hd) (by rw [hkeys]; exact hin n (by simp)), List.map_map]
      apply List.map_congr_left
      rintro ⟨k', f'⟩ ha
      by_cases hk : k' = .int n.id
      · subst hk
        rw [finishRow_pos hnd1 (n := n) (by simp) rfl]
        have hff : f' = f := by
          have h1 := Dict.get?_of_mem hd ha
          have h2 := Dict.get?_of_mem hd hf
          rw [h1] at h2
          exact Option.some.inj h2
        subst hff
        simp only [Function.comp]
        rw [hrow]
        simp
      · by_cases hin2 : ∃ m ∈ done, k' = .int m.id
        · obtain ⟨m, hm, he⟩ := hin2
          simp only [Function.comp]
          rw [finishRow_pos hndd hm he, finishRow_pos hnd1 (List.mem_append_left _ hm) he]
          simp [hk]
        · push Not at hin2
          simp only [Function.comp]
          rw [finishRow_neg (a := (k', f')) (fun m hm => hin2 m hm), finishRow_neg (a := (k', f')) (fun m hm => by
            rcases List.mem_append.1 hm with hm | hm
            · exact hin2 m hm
            · rw [List.mem_singleton.1 hm]; exact hk)]
          simp [hk]
    have hrest := ih (done ++ [n]) (by simpa using hnd) fun m hm => hin m (List.mem_cons_of_mem _ hm)
    rw [List.append_assoc, List.singleton_append] at hrest
    rw [← hrest, ← hset]
    unfold copyEvents
    rw [List.map_cons, List.foldlM_cons, Dict.getItem_ok.2 (mkEvent_id hattr n _ _)]
    have hb : ∀ {α : Type} (x : Val K) (g : Val K → Except PyErr α), ((Except.ok x : Except PyErr (Val K)) >>= g) = g x :=
      fun _ _ => rfl
    rw [hb, Dict.getItem_ok.2 hget]
    have hb2 : ∀ {α : Type} (x : Feature K) (g : Feature K → Except PyErr α), ((Except.ok x : Except PyErr (Feature K)) >>= g) = g x :=
      fun _ _ => rfl
    rw [hb2, copyProps_ok, hb2]
    rfl

/-- What FinalStateCalculator writes: one row per kept feature, with its node and the feature written. -/
theorem finalStateFl_within (fl : K → K) {fs : List (Feature K)} {d : Dict (Val K) (Feature K)} (hattr : attr ≠ "nodeid")
    (hd : indexFeatures fs = .ok d) (hi : Indexed fs d) {ns : List (RainNode K)}
    (hc : List.Forall₂ (fun f n => Carries attr f.properties n) d.values ns) :
    ∃ (out : List (Feature K)) (v spill : Int → K), (∀ fuel, ns.length ≤ fuel → finalStateFl fl fs attr fuel = some (.ok out)) ∧
      (ns.map (·.id)).Nodup ∧ (∀ n ∈ ns, LeadsToRoot ns n → BalancedFl fl ns v spill n) ∧
      ∃ rows : List (Feature K × RainNode K × Feature K), rows.map (·.1) = d.values ∧ rows.map (·.2.1) = ns ∧
        rows.map (·.2.2) = out ∧ ∀ r ∈ rows, (LeadsToRoot ns r.2.1 → r.2.2 = withState fl r.1 r.2.1 (v r.2.1.id) (spill r.2.1.id)) ∧
          (¬ LeadsToRoot ns r.2.1 → r.2.2 = r.1) := by
  have hkeys : d.map (·.1) = ns.map fun n => .int n.id := by
    have h1 := hi.key
    unfold Dict.values at hc
    rw [List.forall₂_map_left_iff] at hc
    clear hd hi
    induction hc with
    | nil => rfl
    | cons hab _ ih =>
      rename_i a b l l' _
      rw [List.map_cons, List.map_cons, ih fun a ha => h1 a (List.mem_cons_of_mem _ ha)]
      have := h1 a (by simp)
      unfold nodeId at this
      rw [hab.id] at this
      rw [Option.some.inj this]
  have hnd : (ns.map (·.id)).Nodup := by
    have := hi.nodup
    rw [hkeys] at this
    have h2 : (ns.map fun n => (.int n.id : Val K)) = (ns.map (·.id)).map Val.int := by rw [List.map_map]; rfl
    rw [h2] at this
    exact List.Nodup.of_map _ this
  have hps : List.Forall₂ (Carries attr) (d.values.map (·.properties)) ns := by
    rw [List.forall₂_map_left_iff]; exact hc
  obtain ⟨s, hs1, hs2⟩ := addNodes_ok hps hnd
  obtain ⟨order, v, spill, hret, hond, hmem, -, hbal⟩ := rain_within fl hnd hs2
  have hcopy := copy_aux (attr := attr) (fl := fl) hattr (v := v) (spill := spill) hi.nodup order [] (by simpa using hond) (by
    intro n hn
    rw [hkeys]
    exact List.mem_map.2 ⟨n, ((hmem n).1 hn).1, rfl⟩)
  have h0 : d.map (finishRow fl [] v spill) = d := by
    conv_rhs => rw [← List.map_id d]
    apply List.map_congr_left
    intro a _
    exact finishRow_neg (by simp)
  rw [h0, List.nil_append] at hcopy
  refine ⟨(d.map (finishRow fl order v spill)).map (·.2), v, spill, ?_, hnd, fun n hn hl => hbal n ((hmem n).2 ⟨hn, hl⟩), ?_⟩
  · intro fuel hf
    unfold finalStateFl
    refine (Net.comp_bind (a := d) (by rw [hd]; rfl) _).trans ?_
    refine (Net.comp_bind (a := s) (by rw [hs1]; rfl) _).trans ?_
    refine (Net.comp_bind (hret fuel hf) _).trans ?_
    refine (Net.comp_bind (a := d.map (finishRow fl order v spill)) (by rw [hcopy]; rfl) _).trans ?_
    rfl
  · unfold Dict.values at hc
    rw [List.forall₂_map_left_iff] at hc
    have key : ∀ (d' : Dict (Val K) (Feature K)) (ns' : List (RainNode K)),
        List.Forall₂ (fun (a : Val K × Feature K) n => Carries attr a.2.properties n) d' ns' →
        (∀ a ∈ d', nodeId a.2 = some a.1) → (∀ n ∈ ns', n ∈ ns) →
        ∃ rows : List (Feature K × RainNode K × Feature K), rows.map (·.1) = d'.map (·.2) ∧ rows.map (·.2.1) = ns' ∧
        rows.map (·.2.2) = (d'.map (finishRow fl order v spill)).map (·.2) ∧
        ∀ r ∈ rows, (LeadsToRoot ns r.2.1 → r.2.2 = withState fl r.1 r.2.1 (v r.2.1.id) (spill r.2.1.id)) ∧
          (¬ LeadsToRoot ns r.2.1 → r.2.2 = r.1) := by
      intro d' ns' hf
      induction hf with
      | nil => intro _ _; exact ⟨[], rfl, rfl, rfl, by simp⟩
      | cons hab _ ih =>
        rename_i a n l l' _
        intro hk hsub
        obtain ⟨rows, h1, h2, h3, h4⟩ := ih (fun a ha => hk a (List.mem_cons_of_mem _ ha))
          fun m hm => hsub m (List.mem_cons_of_mem _ hm)
        refine ⟨(a.2, n, (finishRow fl order v spill a).2) :: rows, by simp [h1], by simp [h2], by simp [h3], fun r hr => ?_⟩
        rcases List.mem_cons.1 hr with rfl | hr
        · have hid := hab.id
          have hka := hk a (by simp)
          have hka' : a.1 = .int n.id := by
            unfold nodeId at hka
            rw [hid] at hka
            exact (Option.some.inj hka).symm
          constructor
          · intro hl
            dsimp only at hl ⊢
            rw [finishRow_pos hond ((hmem n).2 ⟨hsub n (by simp), hl⟩) hka']
          · intro hl
            dsimp only at hl ⊢
            rw [finishRow_neg]
            intro m hm he
            rw [hka'] at he
            have := eq_of_id hnd (hsub n (by simp)) ((hmem m).1 hm).1 (Val.int.inj he)
            subst this
            exact hl ((hmem n).1 hm).2
        · exact h4 r hr
    exact key d ns hc hi.key fun n hn => hn

/-- What FinalStateCalculator writes, however long it takes. -/
theorem finalStateFl_ok (fl : K → K) {fs : List (Feature K)} {d : Dict (Val K) (Feature K)} (hattr : attr ≠ "nodeid")
    (hd : indexFeatures fs = .ok d) (hi : Indexed fs d) {ns : List (RainNode K)}
    (hc : List.Forall₂ (fun f n => Carries attr f.properties n) d.values ns) :
    ∃ (out : List (Feature K)) (v spill : Int → K), Returns (finalStateFl fl fs attr) (.ok out) ∧
      (ns.map (·.id)).Nodup ∧ (∀ n ∈ ns, LeadsToRoot ns n → BalancedFl fl ns v spill n) ∧
      ∃ rows : List (Feature K × RainNode K × Feature K), rows.map (·.1) = d.values ∧ rows.map (·.2.1) = ns ∧
        rows.map (·.2.2) = out ∧ ∀ r ∈ rows, (LeadsToRoot ns r.2.1 → r.2.2 = withState fl r.1 r.2.1 (v r.2.1.id) (spill r.2.1.id)) ∧
          (¬ LeadsToRoot ns r.2.1 → r.2.2 = r.1) :=
  let ⟨out, v, spill, h, r⟩ := finalStateFl_within fl hattr hd hi hc
  ⟨out, v, spill, ⟨_, h⟩, r⟩

/-- What FinalStateCalculator writes with exact arithmetic. -/
theorem finalState_ok {fs : List (Feature K)} {d : Dict (Val K) (Feature K)} (hattr : attr ≠ "nodeid")
    (hd : indexFeatures fs = .ok d) (hi : Indexed fs d) {ns : List (RainNode K)}
    (hc : List.Forall₂ (fun f n => Carries attr f.properties n) d.values ns) :
    ∃ (out : List (Feature K)) (v spill : Int → K), Returns (finalState fs attr) (.ok out) ∧
      (ns.map (·.id)).Nodup ∧ (∀ n ∈ ns, LeadsToRoot ns n → Balanced ns v spill n) ∧
      ∃ rows : List (Feature K × RainNode K × Feature K), rows.map (·.1) = d.values ∧ rows.map (·.2.1) = ns ∧
        rows.map (·.2.2) = out ∧ ∀ r ∈ rows, (LeadsToRoot ns r.2.1 → Finished r.1 r.2.2 r.2.1 v spill) ∧
          (¬ LeadsToRoot ns r.2.1 → r.2.2 = r.1) := by
  obtain ⟨out, v, spill, h1, h2, h3, rows, h4, h5, h6, h7⟩ := finalStateFl_ok id hattr hd hi hc
  refine ⟨out, v, spill, h1, h2, fun n hn hl => balanced_id.1 (h3 n hn hl), rows, h4, h5, h6, fun r hr => ⟨fun hl => ?_, (h7 r hr).2⟩⟩
  rw [(h7 r hr).1 hl]
  refine finished_withState ?_ v spill
  have hp : ∀ (rs : List (Feature K × RainNode K × Feature K)) (l : List (Feature K)) (l' : List (RainNode K)),
      rs.map (·.1) = l → rs.map (·.2.1) = l' → List.Forall₂ (fun f n => Carries attr f.properties n) l l' →
      ∀ r ∈ rs, Carries attr r.1.properties r.2.1 := by
    rintro rs _ _ rfl rfl hf r hr
    rw [List.forall₂_map_left_iff, List.forall₂_map_right_iff] at hf
    exact List.forall₂_same.1 hf r hr
  exact (hp rows _ _ h4 h5 hc r hr).id

end Network
end Malstroem
