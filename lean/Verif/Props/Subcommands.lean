/-
Property C106: what the subcommands do to files, and in which orders they can be given.
-/
import Verif.Proofs.Subcommands
import Verif.Props.Command
import Verif.Proofs.UnitsLevels

set_option linter.unusedSectionVars false

namespace Malstroem
open Spec Scripts

namespace Command
variable {K : Type} [Field K] [LinearOrder K] [FloorRing K] {β : Type} [LinearOrder β] [OrderTop β]

/-- C106, nothing else is touched: whatever the options and files, and however the subcommand ends, no file but those given
with `-out`, `-out_depths`, `-out_bluespots` has changed, appeared or gone, and no directory. -/
theorem C106_only_outputs (ogr : Ogr K) (s : Setting β K) (c : Sub K) {before after : FileSystem β K} {n : Nat}
    {r : Except PyErr Unit} (h : runSub ogr s c before n = some (r, after)) :
    after.directories = before.directories ∧ ∀ p, p ∉ c.outputs → after.files.get? p = before.files.get? p :=
  (uses_runSub ogr s c).frame _ _ _ _ h

/-- C106, the other layers of a vector file are kept, however the subcommand ends. -/
theorem C106_other_layers (ogr : Ogr K) (s : Setting β K) (c : Sub K) {before after : FileSystem β K} {n : Nat}
    {r : Except PyErr Unit} (h : runSub ogr s c before n = some (r, after)) {path : Path} (hp : path ∈ vectorOutputs c)
    {name : String} (hn : name ∉ layerOutputs c) :
    layerAt after path name = layerAt before path name ∧ polygonsAt after path name = polygonsAt before path name :=
  KeepsLayer.runSub ogr s hp hn _ _ _ _ h

/-- C106, a subcommand that fails has changed nothing. The exception is `finalbluespots` with both outputs, if the directory of
one of them does not exist. -/
theorem C106_failed (ogr : Ogr K) (s : Setting β K) (c : Sub K) {before after : FileSystem β K} {n : Nat} {e : PyErr}
    (h : runSub ogr s c before n = some (.error e, after))
    (hdir : (∀ p ∈ c.outputs, p.1 ∈ before.directories) ∨ c.outputs.length ≤ 1) : SameDisk after before :=
  Safe.runSub ogr s c _ _ _ _ hdir h

theorem Sets.run {P : Path → Prop} {p : Path} {α γ : Type} {x : Run α} {f : α → Cmd β K γ}
    (h : ∀ n a, x n = some (.ok a) → Sets P p (f a)) : Sets P p (Cmd.run x >>= f) := by
  intro fs₁ fs₂ n a₁ a₂ fs₁' fs₂' hA h1 h2
  obtain ⟨b₁, g₁, h1, k1⟩ := bind_some h1
  obtain ⟨b₂, g₂, h2, k2⟩ := bind_some h2
  have e1 : Option.map (fun r => (r, fs₁)) (x n) = some (.ok b₁, g₁) := h1
  have e2 : Option.map (fun r => (r, fs₂)) (x n) = some (.ok b₂, g₂) := h2
  rcases hx : x n with _ | r
  · rw [hx] at e1; cases e1
  · rw [hx] at e1 e2
    simp only [Option.map_some, Option.some.injEq, Prod.mk.injEq] at e1 e2
    obtain ⟨rfl, rfl⟩ := e1
    obtain ⟨e, rfl⟩ := e2
    cases e
    exact h n _ hx _ _ _ _ _ _ _ hA k1 k2

theorem approxBluespotsIo_some {labels : Raster Int} {levels : List (Feature K)} {dem : Raster K} {want_depths want_labels : Bool}
    {background : Int} {out : Option (Raster K) × Option (Raster Int)}
    (h : Approx.approxBluespotsIo labels levels dem want_depths want_labels background = .ok out) :
    out.1.isSome = want_depths ∧ out.2.isSome = want_labels := by
  unfold Approx.approxBluespotsIo at h
  have hok : ¬ (¬ want_depths = true ∧ ¬ want_labels = true) := by
    intro h0
    rw [if_pos h0] at h
    cases h
  rw [if_neg hok] at h
  obtain ⟨_, _, h⟩ := except_bind_ok h
  obtain ⟨_, _, h⟩ := except_bind_ok h
  obtain ⟨_, _, h⟩ := except_bind_ok h
  obtain ⟨_, _, h⟩ := except_bind_ok h
  obtain ⟨_, _, h⟩ := except_bind_ok h
  cases h
  cases want_depths <;> cases want_labels <;> exact ⟨rfl, rfl⟩

theorem sets_runSub (ogr : Ogr K) (s : Setting β K) (c : Sub K) {p : Path} (hp : p ∈ rasterOutputs c) :
    Sets (· ∈ c.inputs) p (runSub ogr s c) := by
  cases c with
  | pourpts | polys | network | hyps | initvolumes | finalvolumes | finallevels => simp [rasterOutputs] at hp
  | filled dem out =>
    simp only [rasterOutputs, List.mem_singleton] at hp
    subst hp
    exact Sets.after (W := fun _ => False) (Uses.mustExist (by simp [Sub.inputs, givenFiles])) fun _ =>
      Sets.after (W := fun _ => False) (Uses.openElevations (by simp [Sub.inputs, givenFiles])) fun _ =>
      Sets.after (W := fun _ => False) (Uses.run _) fun _ => Sets.put _ _
  | depths dem filled out =>
    simp only [rasterOutputs, List.mem_singleton] at hp
    subst hp
    exact Sets.after (W := fun _ => False) (Uses.mustExist (by simp [Sub.inputs, givenFiles])) fun _ =>
      Sets.after (W := fun _ => False) (Uses.openElevations (by simp [Sub.inputs, givenFiles])) fun _ =>
      Sets.after (W := fun _ => False) (Uses.openElevations (by simp [Sub.inputs, givenFiles])) fun _ => Sets.put _ _
  | flowdir dem out =>
    simp only [rasterOutputs, List.mem_singleton] at hp
    subst hp
    exact Sets.after (W := fun _ => False) (Uses.mustExist (by simp [Sub.inputs, givenFiles])) fun _ =>
      Sets.after (W := fun _ => False) (Uses.openElevations (by simp [Sub.inputs, givenFiles])) fun _ =>
      Sets.after (W := fun _ => False) (Uses.run _) fun _ => Sets.put _ _
  | accum flowdir out =>
    simp only [rasterOutputs, List.mem_singleton] at hp
    subst hp
    exact Sets.after (W := fun _ => False) (Uses.mustExist (by simp [Sub.inputs, givenFiles])) fun _ =>
      Sets.after (W := fun _ => False) (Uses.readDirections (by simp [Sub.inputs, givenFiles])) fun _ =>
      Sets.after (W := fun _ => False) (Uses.run _) fun _ => Sets.put _ _
  | bspots depths out filter =>
    simp only [rasterOutputs, List.mem_singleton] at hp
    subst hp
    exact Sets.after (W := fun _ => False) (Uses.mustExist (by simp [Sub.inputs, givenFiles])) fun _ =>
      Sets.after (W := fun _ => False) (Uses.readNumbers (by simp [Sub.inputs, givenFiles])) fun _ =>
      Sets.after (W := fun _ => False) (Uses.run _) fun _ => Sets.after (W := fun _ => False) (Uses.run _) fun _ => Sets.put _ _
  | wsheds bluespots flowdir out =>
    simp only [rasterOutputs, List.mem_singleton] at hp
    subst hp
    exact Sets.after (W := fun _ => False) (Uses.mustExist (by simp [Sub.inputs, givenFiles])) fun _ =>
      Sets.after (W := fun _ => False) (Uses.readLabels (by simp [Sub.inputs, givenFiles])) fun _ =>
      Sets.after (W := fun _ => False) (Uses.readDirections (by simp [Sub.inputs, givenFiles])) fun _ =>
      Sets.after (W := fun _ => False) (Uses.run _) fun _ => Sets.put _ _
  | finalbluespots bluespots dem finallevels finallevels_layer out_depths out_bluespots =>
    refine Sets.after (W := fun _ => False) (Uses.mustExist (by simp [Sub.inputs, givenFiles])) fun _ => ?_
    split_ifs with h0
    · intro fs₁ fs₂ n a₁ a₂ fs₁' fs₂' _ h1 _
      have h1 : some (Except.error PyErr.usageError, fs₁) = some (Except.ok a₁, fs₁') := h1
      simp at h1
    · refine Sets.after (W := fun _ => False) (Uses.readLabels (by simp [Sub.inputs, givenFiles])) fun l =>
        Sets.after (W := fun _ => False) (Uses.openElevations (by simp [Sub.inputs, givenFiles])) fun d =>
        Sets.after (W := fun _ => False) (Uses.readLayer ogr (by simp [Sub.inputs, givenFiles]) _) fun lv =>
        Sets.run fun n out hout => ?_
      have hsome : out.1.isSome = out_depths.isSome ∧ out.2.isSome = out_bluespots.isSome := by
        unfold Scripts.finalbluespots at hout
        split_ifs at hout
        · cases hout
        · exact approxBluespotsIo_some (Option.some.inj hout)
      obtain ⟨o1, o2⟩ := out
      simp only [rasterOutputs, List.mem_append, Option.mem_toList] at hp
      cases out_depths with
      | none =>
        cases out_bluespots with
        | none => simp at hp
        | some q =>
          cases o2 with
          | none => simp at hsome
          | some data =>
            simp only [reduceCtorEq, Option.some.injEq, false_or] at hp
            subst hp
            exact Sets.put _ _
      | some q1 =>
        cases o1 with
        | none => simp at hsome
        | some data1 =>
          cases out_bluespots with
          | none =>
            simp only [reduceCtorEq, Option.some.injEq, or_false] at hp
            subst hp
            exact Sets.before (W := fun _ => True) (Uses.put trivial _) (Sets.put _ _) fun _ => Uses.pure _
          | some q2 =>
            cases o2 with
            | none => simp at hsome
            | some data =>
              by_cases e : p = q2
              · subst e
                exact Sets.after (W := fun _ => True) (Uses.put trivial _) fun _ => Sets.put _ _
              · simp only [Option.some.injEq] at hp
                have hp : q1 = p := by rcases hp with h | h; exact h; exact absurd h.symm e
                subst hp
                exact Sets.before (W := fun _ => True) (Uses.put trivial _) (Sets.put _ _) fun _ => Uses.put trivial _

/-- C106, the inputs decide: started with two states of the disk that have the same directories and the same contents in the
files whose contents matter, a subcommand ends in the same way, or in neither case. If it ends well its output files have the
same contents. -/
theorem C106_inputs_decide (ogr : Ogr K) (s : Setting β K) (c : Sub K) {before before' : FileSystem β K}
    (hd : before.directories = before'.directories) (hin : ∀ p ∈ c.inputs, before.files.get? p = before'.files.get? p) (n : Nat) :
    (runSub ogr s c before n = none ∧ runSub ogr s c before' n = none) ∨
      ∃ r after after', runSub ogr s c before n = some (r, after) ∧ runSub ogr s c before' n = some (r, after') ∧
        (r = .ok () → ∀ p ∈ c.outputs, after.files.get? p = after'.files.get? p) := by
  rcases (uses_runSub ogr s c).same before before' n ⟨hd, hin⟩ with h | ⟨r, a, a', h1, h2, h3, _⟩
  · exact .inl h
  · refine .inr ⟨r, a, a', h1, h2, fun hr p hp => ?_⟩
    subst hr
    rcases List.mem_append.1 hp with hp | hp
    · exact sets_runSub ogr s c hp _ _ _ _ _ _ _ ⟨hd, hin⟩ h1 h2
    · exact h3.2 p (List.mem_append_right _ hp)

/-! ### The order of subcommands -/

theorem same_runSub (ogr : Ogr K) (s : Setting β K) (c : Sub K) {fs fs' after : FileSystem β K} (h : SameDisk fs fs') {n : Nat}
    {r : Except PyErr Unit} (hx : runSub ogr s c fs n = some (r, after)) :
    ∃ after', runSub ogr s c fs' n = some (r, after') ∧ SameDisk after after' := by
  rcases (uses_runSub ogr s c).same fs fs' n ⟨h.1, fun p _ => h.2 p⟩ with ⟨e, _⟩ | ⟨r', a, a', h1, h2, h3, h4⟩
  · rw [hx] at e; cases e
  · rw [hx] at h1
    simp only [Option.some.injEq, Prod.mk.injEq] at h1
    obtain ⟨rfl, rfl⟩ := h1
    refine ⟨a', h2, h3.1, fun p => ?_⟩
    rcases h4 p with e | ⟨e, e'⟩
    · exact e
    · rw [e, e', h.2 p]

theorem same_script (ogr : Ogr K) (s : Setting β K) : ∀ (l : List (Sub K)) {fs fs' after : FileSystem β K}, SameDisk fs fs' →
    ∀ {n : Nat} {r : Except PyErr Unit}, script ogr s l fs n = some (r, after) →
    ∃ after', script ogr s l fs' n = some (r, after') ∧ SameDisk after after' := by
  intro l
  induction l with
  | nil =>
    intro fs fs' after h n r hx
    have hx : some (Except.ok (), fs) = some (r, after) := hx
    simp only [Option.some.injEq, Prod.mk.injEq] at hx
    obtain ⟨rfl, rfl⟩ := hx
    exact ⟨fs', rfl, h⟩
  | cons c l ih =>
    intro fs fs' after h n r hx
    unfold script at hx ⊢
    rw [bind_apply] at hx
    rcases hc : runSub ogr s c fs n with _ | ⟨_ | u, fs1⟩
    · rw [hc] at hx; cases hx
    · rw [hc] at hx
      simp only [Option.bind_some, Option.some.injEq, Prod.mk.injEq] at hx
      obtain ⟨rfl, rfl⟩ := hx
      obtain ⟨a', h1, h2⟩ := same_runSub ogr s c h hc
      exact ⟨a', by rw [bind_apply, h1]; rfl, h2⟩
    · rw [hc] at hx
      obtain ⟨a', h1, h2⟩ := same_runSub ogr s c h hc
      obtain ⟨b', h3, h4⟩ := ih h2 hx
      exact ⟨b', by rw [bind_apply, h1]; exact h3, h4⟩

theorem script_append (ogr : Ogr K) (s : Setting β K) : ∀ (l l' : List (Sub K)),
    script ogr s (l ++ l') = (script ogr s l >>= fun _ => script ogr s l') := by
  intro l l'
  induction l with
  | nil => rfl
  | cons c l ih =>
    show (runSub ogr s c >>= fun _ => script ogr s (l ++ l')) = ((runSub ogr s c >>= fun _ => script ogr s l) >>= _)
    rw [ih]
    funext fs n
    simp only [bind_apply, Option.bind_assoc]
    congr 1
    funext r
    obtain ⟨_ | _, r2⟩ := r <;> rfl

/-- Two independent subcommands that end well, in the other order. -/
theorem swap_runSub (ogr : Ogr K) (s : Setting β K) {a b : Sub K} (h : Independent a b) {fs fs1 fs2 : FileSystem β K} {n : Nat}
    (h1 : runSub ogr s a fs n = some (.ok (), fs1)) (h2 : runSub ogr s b fs1 n = some (.ok (), fs2)) :
    ∃ g1 g2, runSub ogr s b fs n = some (.ok (), g1) ∧ runSub ogr s a g1 n = some (.ok (), g2) ∧ SameDisk fs2 g2 := by
  obtain ⟨d1, f1⟩ := (uses_runSub ogr s a).frame _ _ _ _ h1
  obtain ⟨d2, f2⟩ := (uses_runSub ogr s b).frame _ _ _ _ h2
  have hA : Agree (· ∈ b.inputs) fs1 fs := ⟨d1, fun p hp => f1 p fun hq => (h.1 p hq).1 hp⟩
  rcases (uses_runSub ogr s b).same fs1 fs n hA with ⟨e, _⟩ | ⟨r, u, g1, e1, e2, e3, e4⟩
  · rw [h2] at e; cases e
  rw [h2] at e1
  simp only [Option.some.injEq, Prod.mk.injEq] at e1
  obtain ⟨rfl, rfl⟩ := e1
  obtain ⟨d3, f3⟩ := (uses_runSub ogr s b).frame _ _ _ _ e2
  have hB : Agree (· ∈ a.inputs) fs g1 := ⟨d3.symm, fun p hp => (f3 p fun hq => (h.2 p hq).1 hp).symm⟩
  rcases (uses_runSub ogr s a).same fs g1 n hB with ⟨e, _⟩ | ⟨r, u, g2, k1, k2, k3, k4⟩
  · rw [h1] at e; cases e
  rw [h1] at k1
  simp only [Option.some.injEq, Prod.mk.injEq] at k1
  obtain ⟨rfl, rfl⟩ := k1
  obtain ⟨d4, f4⟩ := (uses_runSub ogr s a).frame _ _ _ _ k2
  refine ⟨g1, g2, e2, k2, ?_, fun p => ?_⟩
  · rw [d2, d1, d4, d3]
  · by_cases ha : p ∈ a.outputs
    · have hb : p ∉ b.outputs := (h.1 p ha).2
      rw [f2 p hb]
      rcases k4 p with e | ⟨e, e'⟩
      · exact e
      · rw [e, e', f3 p hb]
    · rw [f4 p ha]
      rcases e4 p with e | ⟨e, e'⟩
      · exact e
      · rw [e, e', f1 p ha]

theorem reordered_at (ogr : Ogr K) (s : Setting β K) {l l' : List (Sub K)} (h : Reordered l l') :
    ∀ {fs after : FileSystem β K} {n : Nat}, script ogr s l fs n = some (.ok (), after) →
      ∃ after', script ogr s l' fs n = some (.ok (), after') ∧ SameDisk after after' := by
  induction h with
  | refl l => exact fun hx => ⟨_, hx, SameDisk.refl _⟩
  | trans _ _ ih ih' =>
    intro fs after n hx
    obtain ⟨a1, h1, h2⟩ := ih hx
    obtain ⟨a2, h3, h4⟩ := ih' h1
    exact ⟨a2, h3, h2.trans h4⟩
  | swap pre post h =>
    rename_i a b
    intro fs after n hx
    rw [script_append] at hx ⊢
    obtain ⟨_, fs0, hp, hx⟩ := bind_some hx
    obtain ⟨_, fs1, h1, hx⟩ := bind_some (x := runSub ogr s a) hx
    obtain ⟨_, fs2, h2, hx⟩ := bind_some (x := runSub ogr s b) hx
    obtain ⟨g1, g2, k1, k2, k3⟩ := swap_runSub ogr s h h1 h2
    obtain ⟨after', k4, k5⟩ := same_script ogr s post k3 hx
    refine ⟨after', ?_, k5⟩
    have e2 : Does (runSub ogr s a >>= fun _ => script ogr s post) g1 n () after' := Does.bind k2 k4
    have e1 : Does (runSub ogr s b >>= fun _ => runSub ogr s a >>= fun _ => script ogr s post) fs0 n () after' := Does.bind k1 e2
    exact Does.bind hp e1

theorem Independent.symm {a b : Sub K} (h : Independent a b) : Independent b a := ⟨h.2, h.1⟩

theorem Reordered.symm {l l' : List (Sub K)} (h : Reordered l l') : Reordered l' l := by
  induction h with
  | refl l => exact .refl l
  | trans _ _ ih ih' => exact .trans ih' ih
  | swap pre post h => exact .swap pre post h.symm

/-- C106, the order does not matter: subcommands of which neither writes a file the other one uses can change places. A script
ends well after such changes if and only if it did before, and leaves the same files. -/
theorem C106_order (ogr : Ogr K) (s : Setting β K) {l l' : List (Sub K)} (h : Reordered l l') (before after : FileSystem β K) :
    (script ogr s l).Leaves before (.ok ()) after ↔ (script ogr s l').Leaves before (.ok ()) after := by
  have key : ∀ {l l' : List (Sub K)}, Reordered l l' → (script ogr s l).Leaves before (.ok ()) after →
      (script ogr s l').Leaves before (.ok ()) after := by
    rintro l l' h ⟨N, hN⟩
    refine ⟨N, fun m hm => ?_⟩
    obtain ⟨fs'', h1, h2⟩ := hN m hm
    obtain ⟨after', h3, h4⟩ := reordered_at ogr s h h1
    exact ⟨after', h3, h4.symm.trans h2⟩
  exact ⟨key h, key h.symm⟩

/-- C106, repetition: a subcommand that writes rasters, none of them over one of its own inputs, can be given again: it ends
well and leaves everything as it is. -/
theorem C106_repeat (ogr : Ogr K) (s : Setting β K) {c : Sub K} (hc : ∀ p ∈ c.outputs, p ∉ c.inputs)
    {before after : FileSystem β K} (h : (runSub ogr s c).Leaves before (.ok ()) after) :
    (runSub ogr s c).Leaves after (.ok ()) after := by
  obtain ⟨N, hN⟩ := h
  refine ⟨N, fun m hm => ?_⟩
  obtain ⟨a, h1, h2⟩ := hN m hm
  obtain ⟨d1, f1⟩ := (uses_runSub ogr s c).frame _ _ _ _ h1
  have hA : Agree (· ∈ c.inputs) before after :=
    ⟨by rw [← h2.1, d1], fun p hp => by rw [← h2.2 p, f1 p fun hq => hc p hq hp]⟩
  rcases (uses_runSub ogr s c).same before after m hA with ⟨e, _⟩ | ⟨r, u, a', k1, k2, k3, k4⟩
  · rw [h1] at e; cases e
  rw [h1] at k1
  simp only [Option.some.injEq, Prod.mk.injEq] at k1
  obtain ⟨rfl, rfl⟩ := k1
  obtain ⟨d2, f2⟩ := (uses_runSub ogr s c).frame _ _ _ _ k2
  refine ⟨a', k2, d2, fun p => ?_⟩
  rcases k4 p with e | ⟨_, e'⟩
  · rw [← e, h2.2 p]
  · exact e'

end Command
end Malstroem
