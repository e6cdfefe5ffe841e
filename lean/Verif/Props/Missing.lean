/-
Property C104: attributes that hold no number.
-/
import Verif.Spec.Missing
import Verif.Props.Network
import Verif.Props.Rain
import Verif.Props.Approx
import Verif.Proofs.UnitsLevels

set_option linter.unusedSectionVars false

namespace Malstroem
open Spec Network

section
variable {K : Type} [Field K] [LinearOrder K]

theorem float_known {x : Val K} {a : K} (h : x.float = .ok a) : ¬ NoNumber x := by
  cases x with
  | none => cases h
  | int i => exact id
  | num y => exact id
  | str s => cases h
  | inf => exact id
  | ninf => exact id
  | nan => exact id

theorem number_known {f : Feature K} {name : String} {a : K} (h : number f.properties name = .ok a) : Known f name := by
  obtain ⟨x, h1, h2⟩ := except_bind_ok h
  exact ⟨x, Dict.getItem_ok.1 h1, float_known h2⟩

theorem mapM_mem {α β : Type} {f : α → Except PyErr β} : ∀ {l : List α} {ys : List β}, l.mapM f = .ok ys →
    ∀ x ∈ l, ∃ y, f x = .ok y
  | [], _, _, x, hx => by cases hx
  | a :: l, ys, h, x, hx => by
    rw [List.mapM_cons] at h
    obtain ⟨y, h1, h⟩ := except_bind_ok h
    obtain ⟨ys', h2, _⟩ := except_bind_ok h
    rcases List.mem_cons.1 hx with rfl | hx
    · exact ⟨y, h1⟩
    · exact mapM_mem h2 x hx

theorem foldlM_mem {α β : Type} {f : β → α → Except PyErr β} : ∀ {l : List α} {b b' : β}, l.foldlM f b = .ok b' →
    ∀ x ∈ l, ∃ c c', f c x = .ok c'
  | [], _, _, _, x, hx => by cases hx
  | a :: l, b, b', h, x, hx => by
    rw [List.foldlM_cons] at h
    obtain ⟨c, h1, h⟩ := except_bind_ok h
    rcases List.mem_cons.1 hx with rfl | hx
    · exact ⟨b, c, h1⟩
    · exact foldlM_mem h x hx

theorem comp_bind_ok {α β : Type} {x : Net.Comp α} {f : α → Net.Comp β} {b : β}
    (h : (x >>= f : Net.Comp β) = (some (.ok b) : Option (Except PyErr β))) :
    ∃ a, x = (some (.ok a) : Option (Except PyErr α)) ∧ f a = (some (.ok b) : Option (Except PyErr β)) := by
  rcases x with _ | e | a
  · cases h
  · cases h
  · exact ⟨a, rfl, h⟩

theorem comp_foldlM_mem {α β : Type} {f : β → α → Net.Comp β} : ∀ {l : List α} {b b' : β},
    (l.foldlM f b : Net.Comp β) = (some (.ok b') : Option (Except PyErr β)) →
    ∀ x ∈ l, ∃ c c', f c x = (some (.ok c') : Option (Except PyErr β))
  | [], _, _, _, x, hx => by cases hx
  | a :: l, b, b', h, x, hx => by
    rw [List.foldlM_cons] at h
    obtain ⟨c, h1, h⟩ := comp_bind_ok h
    rcases List.mem_cons.1 hx with rfl | hx
    · exact ⟨b, c, h1⟩
    · exact comp_foldlM_mem h x hx

/-- C104: the volume tool for even rain fails if the watershed area of any node is missing, null or no number. -/
theorem C104_volumes {fl : K → K} {nodes vols : List (Feature K)} {attr : String} {mm : K}
    (h : Rain.simpleVolumesFl fl nodes attr mm = .ok vols) : ∀ f ∈ nodes, Known f "wshed_area" := by
  intro f hf
  obtain ⟨y, hy⟩ := mapM_mem h f hf
  unfold Rain.simpleVolumeFl at hy
  obtain ⟨a, h1, -⟩ := except_bind_ok hy
  exact number_known h1

/-! ### The network -/

/-- What is in the network after `ps` have been added. -/
structure Holds (s : State K) (ps : List (Props K)) : Prop where
  ids : ∀ p ∈ ps, ∃ i d, p.get? "nodeid" = some i ∧ p.get? "dstrnodeid" = some d
  index : ∀ p ∈ ps, ∀ i, p.get? "nodeid" = some i → s.nodes_index.get? i = some p
  up : ∀ p ∈ ps, ∀ i d, p.get? "nodeid" = some i → p.get? "dstrnodeid" = some d → i ∈ s.upstream d
  roots : ∀ p ∈ ps, ∀ i, p.get? "nodeid" = some i → p.get? "dstrnodeid" = some .none → i ∈ s.root_nodes

theorem Holds.add {s s' : State K} {ps : List (Props K)} {p : Props K} (h : Holds s ps) (hs : addNode s p = .ok s')
    (hnew : ∀ q ∈ ps, q.get? "nodeid" ≠ p.get? "nodeid") : Holds s' (ps ++ [p]) := by
  unfold addNode at hs
  obtain ⟨i, h1, hs⟩ := except_bind_ok hs
  obtain ⟨d, h2, hs⟩ := except_bind_ok hs
  rw [Dict.getItem_ok] at h1 h2
  injection hs with hs
  subst hs
  have hup : ∀ (t : State K) k, t.upstream_tree = s.upstream_tree.set d (s.upstream d ++ [i]) →
      t.upstream k = if d = k then s.upstream d ++ [i] else s.upstream k := by
    intro t k ht
    unfold State.upstream
    rw [ht, Dict.get?_set]
    split <;> rfl
  refine ⟨fun q hq => ?_, fun q hq j hj => ?_, fun q hq j e hj he => ?_, fun q hq j hj he => ?_⟩
  · rcases List.mem_append.1 hq with hq | hq
    · exact h.ids q hq
    · rw [List.mem_singleton] at hq; subst hq; exact ⟨i, d, h1, h2⟩
  · show (s.nodes_index.set i p).get? j = some q
    rw [Dict.get?_set]
    rcases List.mem_append.1 hq with hq | hq
    · rw [if_neg, h.index q hq j hj]
      rintro rfl
      exact hnew q hq (hj.trans h1.symm)
    · rw [List.mem_singleton] at hq; subst hq
      rw [h1] at hj; cases hj
      rw [if_pos rfl]
  · rw [hup _ _ rfl]
    rcases List.mem_append.1 hq with hq | hq
    · have := h.up q hq j e hj he
      split
      · rename_i hde; subst hde; exact List.mem_append_left _ this
      · exact this
    · rw [List.mem_singleton] at hq; subst hq
      rw [h1] at hj; cases hj
      rw [h2] at he; cases he
      rw [if_pos rfl]; simp
  · show j ∈ (if d = .none then s.root_nodes ++ [i] else s.root_nodes)
    rcases List.mem_append.1 hq with hq | hq
    · have := h.roots q hq j hj he
      split
      · exact List.mem_append_left _ this
      · exact this
    · rw [List.mem_singleton] at hq; subst hq
      rw [h1] at hj; cases hj
      rw [h2] at he; cases he
      rw [if_pos rfl]; simp

theorem holds_addNodes : ∀ {ps ds : List (Props K)} {s s' : State K}, Holds s ds → addNodes s ps = .ok s' →
    ((ds ++ ps).map fun p => Dict.get? p "nodeid").Nodup → Holds s' (ds ++ ps)
  | [], ds, s, s', h, hs, _ => by
    injection hs with hs
    subst hs
    simpa using h
  | p :: ps, ds, s, s', h, hs, hnd => by
    unfold addNodes at hs
    rw [List.foldlM_cons] at hs
    obtain ⟨t, h1, hs⟩ := except_bind_ok hs
    have hnew : ∀ q ∈ ds, q.get? "nodeid" ≠ p.get? "nodeid" := by
      intro q hq he
      rw [List.map_append, List.map_cons, List.nodup_append] at hnd
      exact hnd.2.2 _ (List.mem_map_of_mem hq) _ (by simp) he
    have := holds_addNodes (ps := ps) (ds := ds ++ [p]) (h.add h1 hnew) hs (by simpa using hnd)
    simpa using this

theorem treeLoop_closed {up : Val K → List (Val K)} : ∀ {fuel : Nat} {S T tree : List (Val K)}, treeLoop up fuel S T = some tree →
    (∀ x ∈ T, ∀ y ∈ up x, y ∈ T ∨ y ∈ S) →
    (∀ x ∈ T, x ∈ tree) ∧ (∀ x ∈ S, x ∈ tree) ∧ ∀ x ∈ tree, ∀ y ∈ up x, y ∈ tree := by
  intro fuel
  induction fuel with
  | zero =>
    intro S T tree h hc
    cases S with
    | nil =>
      unfold treeLoop at h; cases h
      exact ⟨fun _ h => h, by simp, fun x hx y hy => (hc x hx y hy).resolve_right (by simp)⟩
    | cons a S => unfold treeLoop at h; cases h
  | succ fuel ih =>
    intro S T tree h hc
    cases S with
    | nil =>
      unfold treeLoop at h; cases h
      exact ⟨fun _ h => h, by simp, fun x hx y hy => (hc x hx y hy).resolve_right (by simp)⟩
    | cons a S =>
      unfold treeLoop at h
      obtain ⟨k1, k2, k3⟩ := ih h (by
        intro x hx y hy
        rcases List.mem_cons.1 hx with rfl | hx
        · right; simp [hy]
        · rcases hc x hx y hy with h | h
          · left; simp [h]
          · rcases List.mem_cons.1 h with rfl | h
            · left; simp
            · right; simp [h])
      refine ⟨fun x hx => k1 x (by simp [hx]), fun x hx => ?_, k3⟩
      rcases List.mem_cons.1 hx with rfl | hx
      · exact k1 _ (by simp)
      · exact k2 x (by simp [hx])

/-- C104: the final state is only written if each node that leads to a root (ids are distinct) has a volume, a capacity and a
watershed area: none of them is missing, null or no number. -/
theorem C104_final_state {fl : K → K} {fs out : List (Feature K)} {attr : String}
    (hnd : (fs.map nodeId).Nodup) (h : Returns (finalStateFl fl fs attr) (.ok out)) :
    ∀ f ∈ fs, FlowsToRoot fs f → Known f attr ∧ Known f "bspot_vol" ∧ Known f "wshed_area" := by
  obtain ⟨fuel, h⟩ := h
  replace h := h fuel (le_refl _)
  unfold finalStateFl at h
  obtain ⟨d, hd, h⟩ := comp_bind_ok h
  obtain ⟨s, hs, h⟩ := comp_bind_ok h
  obtain ⟨events, he, -⟩ := comp_bind_ok h
  have hd : indexFeatures fs = .ok d := Option.some.inj hd
  have hs : addNodes State.init (d.values.map (·.properties)) = .ok s := Option.some.inj hs
  have hids : ∀ f ∈ fs, ∃ k, nodeId f = some k := by
    intro f hf
    obtain ⟨c, c', hc⟩ := foldlM_mem hd f hf
    obtain ⟨k, hk, _⟩ := except_bind_ok hc
    exact ⟨k, Dict.getItem_ok.1 hk⟩
  obtain ⟨d', hd', hi⟩ := indexFeatures_ok hids
  rw [hd] at hd'
  injection hd' with hd'
  subst hd'
  have hperm := kept_distinct hi.kept hnd
  have hholds : Holds s (d.values.map (·.properties)) := by
    have := holds_addNodes (ds := []) (s := State.init) ⟨by simp, by simp, by simp, by simp⟩ hs (by
      rw [List.nil_append, List.map_map]
      exact hi.kept.distinct)
    simpa using this
  have hmem : ∀ f ∈ fs, f.properties ∈ d.values.map (·.properties) := fun f hf =>
    List.mem_map_of_mem (hperm.mem_iff.2 hf)
  unfold rainEventFl at he
  obtain ⟨values, hv, -⟩ := comp_bind_ok he
  -- every node leading to a root is calculated
  have key : ∀ f, FlowsToRoot fs f → f ∈ fs → ∀ i, f.properties.get? "nodeid" = some i →
      ∃ r ∈ s.root_nodes, ∃ tree, treeLoop s.upstream fuel [r] [] = some tree ∧ i ∈ tree ∧
        ∀ x ∈ tree, ∃ c c', calcNodeFl fl s attr c x = .ok c' := by
    intro f hl
    induction hl with
    | @root f hd =>
      intro hf i hi
      have hr := hholds.roots _ (hmem f hf) i hi hd
      obtain ⟨c, c', hc⟩ := comp_foldlM_mem hv i hr
      unfold calcStreamTreeFl at hc
      obtain ⟨tree, ht, hc⟩ := comp_bind_ok hc
      have hc : tree.foldlM (calcNodeFl fl s attr) c = .ok c' := Option.some.inj hc
      have ht : treeLoop s.upstream fuel [i] [] = some tree := by
        cases hx : treeLoop s.upstream fuel [i] [] with
        | none => rw [hx] at ht; cases ht
        | some t => rw [hx] at ht; cases ht; rfl
      exact ⟨i, hr, tree, ht, (treeLoop_closed ht (by simp)).2.1 i (by simp), fun x hx => foldlM_mem hc x hx⟩
    | @step f g e hg hd hgi _ ih =>
      intro hf i hi
      obtain ⟨r, hr, tree, ht, hmemt, hall⟩ := ih hg e hgi
      exact ⟨r, hr, tree, ht, (treeLoop_closed ht (by simp)).2.2 e hmemt i (hholds.up _ (hmem f hf) i e hi hd), hall⟩
  intro f hf hl
  obtain ⟨i, hi⟩ := hids f hf
  obtain ⟨r, hr, tree, ht, hit, hall⟩ := key f hl hf i hi
  obtain ⟨c, c', hc⟩ := hall i hit
  unfold calcNodeFl at hc
  obtain ⟨node, h1, hc⟩ := except_bind_ok hc
  rw [Dict.getItem_ok, hholds.index _ (hmem f hf) i hi] at h1
  cases h1
  obtain ⟨a, ha, hc⟩ := except_bind_ok hc
  obtain ⟨v, hv, hc⟩ := except_bind_ok hc
  obtain ⟨c, hcap, hc⟩ := except_bind_ok hc
  exact ⟨number_known hv, number_known hcap, number_known ha⟩

end

/-! ### The water levels -/

section
variable {K : Type} [Field K] [LinearOrder K] [FloorRing K]

theorem mem_pourpointsOf : ∀ {l ps : List (Feature K)}, Approx.pourpointsOf l = .ok ps → ∀ f ∈ l,
    f.properties.get? "nodetype" = some (.str "pourpoint") → f ∈ ps
  | [], _, _, f, hf, _ => by cases hf
  | x :: xs, ps, h, f, hf, ht => by
    unfold Approx.pourpointsOf at h
    obtain ⟨t, h1, h⟩ := except_bind_ok h
    obtain ⟨rest, h2, h⟩ := except_bind_ok h
    injection h with h
    rcases List.mem_cons.1 hf with rfl | hf
    · have : t = .str "pourpoint" := by
        have := Dict.getItem_ok.1 h1
        rw [ht] at this
        exact (Option.some.inj this).symm
      rw [if_pos this] at h
      rw [← h]; simp
    · have := mem_pourpointsOf h2 f hf ht
      rw [← h]
      split
      · simp [this]
      · exact this

/-- C104: water levels are only written if each pour point of the final state has a volume that is not missing, null or no
number. -/
theorem C104_levels {final hyps levels : List (Feature K)} (h : Approx.waterLevelIo final hyps = .ok levels) :
    ∀ f ∈ final, f.properties.get? "nodetype" = some (.str "pourpoint") → Known f "v" := by
  intro f hf ht
  unfold Approx.waterLevelIo at h
  obtain ⟨index, h1, h⟩ := except_bind_ok h
  obtain ⟨ps, h2, h⟩ := except_bind_ok h
  obtain ⟨y, hy⟩ := mapM_mem h f (mem_pourpointsOf h2 f hf ht)
  unfold Approx.levelFeature at hy
  obtain ⟨_, _, hy⟩ := except_bind_ok hy
  obtain ⟨x, hx, hy⟩ := except_bind_ok hy
  obtain ⟨a, ha, _⟩ := except_bind_ok hy
  exact ⟨x, Dict.getItem_ok.1 hx, float_known ha⟩

end

/-! ### Examples -/

/-- Node 1 spills into node 2, whose capacity is `cap`; node 3 leads nowhere. -/
def missingDemo (cap : Val Rat) : List (Feature Rat) :=
  [⟨none, .none, [("nodeid", .int 1), ("dstrnodeid", .int 2), ("wshed_area", .num 10), ("bspot_vol", .num 3), ("inputv", .num 5)]⟩,
   ⟨none, .none, [("nodeid", .int 2), ("dstrnodeid", .none), ("wshed_area", .num 10), ("bspot_vol", cap), ("inputv", .num 5)]⟩,
   ⟨none, .none, [("nodeid", .int 3), ("dstrnodeid", .int 9), ("wshed_area", .none), ("bspot_vol", .none)]⟩]

example : ((missingDemo (.num 3)).map nodeId).Nodup ∧ FlowsToRoot (missingDemo (.num 3)) (missingDemo (.num 3))[0] := by
  refine ⟨by decide +kernel, .step (g := (missingDemo (.num 3))[1]) (d := .int 2) (by simp [missingDemo]) rfl rfl (.root rfl)⟩

/-- With the capacity known the final state is calculated, with null or text in its place it is not. The missing numbers of
node 3 do not matter. -/
example : (((finalState (missingDemo (.num 3)) "inputv" 10).run.map fun r => r.map fun fs => fs.map fun f =>
      [f.properties.get? "nodeid", f.properties.get? "v", f.properties.get? "spillv"]) =
    some (.ok [[some (.int 1), some (.num 3), some (.num 2)], [some (.int 2), some (.num 3), some (.num 4)],
      [some (.int 3), none, none]])) ∧
    (finalState (missingDemo .none) "inputv" 10).run = some (.error .typeError) ∧
    (finalState (missingDemo (.str "unknown")) "inputv" 10).run = some (.error .valueError) := by
  refine ⟨?_, ?_, ?_⟩ <;> decide +kernel

example : NoNumber (.str "" : Val Rat) ∧ NoNumber (.none : Val Rat) ∧ NoNumber (.str "?" : Val Rat) ∧
    ¬ NoNumber (.str "12" : Val Rat) ∧ ¬ NoNumber (.num 3 : Val Rat) := by
  refine ⟨?_, trivial, ?_, ?_, id⟩ <;> simp [NoNumber]

example : (Rain.simpleVolumes (missingDemo (.num 3)) "w" 100).toOption = none ∧
    (Rain.simpleVolumes ((missingDemo (.num 3)).take 2) "w" 100).toOption.isSome := by decide +kernel

/-- The water levels of the demo of C45 are written; without one volume they are not. -/
example : ((Hyps.hypsometryIo levelLab levelGt levelDem levelGt levelPourpoints (1/4)).bind fun hyps =>
      Approx.waterLevelIo levelVolumes hyps).toOption.isSome ∧
    ((Hyps.hypsometryIo levelLab levelGt levelDem levelGt levelPourpoints (1/4)).bind fun hyps =>
      Approx.waterLevelIo (levelVolumes.map fun f => { f with properties := Dict.set f.properties "v" .none }) hyps).toOption =
        none := by
  refine ⟨?_, ?_⟩ <;> decide +kernel

end Malstroem
