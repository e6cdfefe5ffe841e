/-
What commands read and write.
-/
import Verif.Proofs.Command
import Verif.Spec.Subcommands

set_option linter.unusedSectionVars false

namespace Malstroem
namespace Command
open Spec Scripts
variable {K : Type} [Field K] [LinearOrder K] {β : Type} [LinearOrder β] [OrderTop β] {α γ : Type}

/-- The directories are the same and so are the files that satisfy `P`. -/
def Agree (P : Path → Prop) (fs fs' : FileSystem β K) : Prop :=
  fs.directories = fs'.directories ∧ ∀ p, P p → fs.files.get? p = fs'.files.get? p

/-- Only files that satisfy `W` are changed, and what happens is decided by the directories and the files that satisfy `P`. -/
structure Uses (P W : Path → Prop) (x : Cmd β K α) : Prop where
  frame : ∀ fs n r fs', x fs n = some (r, fs') → fs'.directories = fs.directories ∧
    ∀ p, ¬ W p → fs'.files.get? p = fs.files.get? p
  same : ∀ fs₁ fs₂ n, Agree P fs₁ fs₂ → (x fs₁ n = none ∧ x fs₂ n = none) ∨
    ∃ r fs₁' fs₂', x fs₁ n = some (r, fs₁') ∧ x fs₂ n = some (r, fs₂') ∧ Agree P fs₁' fs₂' ∧
      ∀ p, fs₁'.files.get? p = fs₂'.files.get? p ∨
        (fs₁'.files.get? p = fs₁.files.get? p ∧ fs₂'.files.get? p = fs₂.files.get? p)

namespace Uses
variable {P W : Path → Prop}

theorem bind {x : Cmd β K α} {f : α → Cmd β K γ} (hx : Uses P W x) (hf : ∀ a, Uses P W (f a)) : Uses P W (x >>= f) where
  frame fs n r fs' h := by
    rw [bind_apply] at h
    rcases hxn : x fs n with _ | ⟨_ | a, fs1⟩
    · rw [hxn] at h; cases h
    · rw [hxn] at h
      simp only [Option.bind_some, Option.some.injEq, Prod.mk.injEq] at h
      rw [← h.2]
      exact hx.frame _ _ _ _ hxn
    · rw [hxn] at h
      obtain ⟨h1, h2⟩ := hx.frame _ _ _ _ hxn
      obtain ⟨h3, h4⟩ := (hf a).frame fs1 n r fs' h
      exact ⟨h3.trans h1, fun p hp => (h4 p hp).trans (h2 p hp)⟩
  same fs₁ fs₂ n h := by
    rw [bind_apply, bind_apply]
    rcases hx.same fs₁ fs₂ n h with ⟨h1, h2⟩ | ⟨r, g₁, g₂, h1, h2, h3, h4⟩
    · rw [h1, h2]; exact .inl ⟨rfl, rfl⟩
    · rw [h1, h2]
      cases r with
      | error e => exact .inr ⟨.error e, g₁, g₂, rfl, rfl, h3, h4⟩
      | ok a =>
        rcases (hf a).same g₁ g₂ n h3 with ⟨e1, e2⟩ | ⟨r, k₁, k₂, e1, e2, e3, e4⟩
        · exact .inl ⟨e1, e2⟩
        · refine .inr ⟨r, k₁, k₂, e1, e2, e3, fun p => ?_⟩
          rcases e4 p with e | ⟨e, e'⟩
          · exact .inl e
          · rcases h4 p with q | ⟨q, q'⟩
            · exact .inl (by rw [e, e', q])
            · exact .inr ⟨e.trans q, e'.trans q'⟩

/-- A command that changes nothing and whose result does not depend on files. -/
theorem const {x : Cmd β K α} (h : ∀ n, (∀ fs, x fs n = none) ∨ ∃ r, ∀ fs, x fs n = some (r, fs)) : Uses P W x where
  frame fs n r fs' hx := by
    rcases h n with h | ⟨r', h⟩
    · rw [h] at hx; cases hx
    · rw [h] at hx
      simp only [Option.some.injEq, Prod.mk.injEq] at hx
      rw [← hx.2]; exact ⟨rfl, fun _ _ => rfl⟩
  same fs₁ fs₂ n hA := by
    rcases h n with h | ⟨r', h⟩
    · exact .inl ⟨h _, h _⟩
    · exact .inr ⟨r', fs₁, fs₂, h _, h _, hA, fun p => .inr ⟨rfl, rfl⟩⟩

theorem pure (a : α) : Uses P W (Pure.pure a : Cmd β K α) := const fun _ => .inr ⟨.ok a, fun _ => rfl⟩

theorem fail (e : PyErr) : Uses P W (Cmd.fail e : Cmd β K α) := const fun _ => .inr ⟨.error e, fun _ => rfl⟩

theorem run (x : Run α) : Uses P W (Cmd.run x : Cmd β K α) := const fun n => by
  cases hx : x n with
  | none => exact .inl fun fs => by show Option.map _ (x n) = _; rw [hx]; rfl
  | some r => exact .inr ⟨r, fun fs => by show Option.map _ (x n) = _; rw [hx]; rfl⟩

theorem look {path : Path} (hp : P path) {g : Option (Content β K) → Cmd β K α} (hg : ∀ c, Uses P W (g c)) :
    Uses P W (Cmd.files >>= fun fs => g (fs.files.get? path)) where
  frame fs n r fs' h := (hg _).frame fs n r fs' h
  same fs₁ fs₂ n h := by
    have := (hg (fs₁.files.get? path)).same fs₁ fs₂ n h
    show ((g (fs₁.files.get? path)) fs₁ n = none ∧ (g (fs₂.files.get? path)) fs₂ n = none) ∨
      ∃ r fs₁' fs₂', (g (fs₁.files.get? path)) fs₁ n = some (r, fs₁') ∧
        (g (fs₂.files.get? path)) fs₂ n = some (r, fs₂') ∧ _ ∧ _
    rw [← h.2 path hp]
    exact this

theorem put {path : Path} (hw : W path) (content : Content β K) : Uses P W (Command.put path content) where
  frame fs n r fs' h := by
    change (if path.1 ∈ fs.directories then _ else _) = _ at h
    split_ifs at h
    · simp only [Option.some.injEq, Prod.mk.injEq] at h
      rw [← h.2]
      refine ⟨rfl, fun p hp => ?_⟩
      show Dict.get? (fs.files.set _ _) p = _
      rw [Dict.get?_set]
      split_ifs with e
      · exact absurd (by simpa [eq_comm] using e) (fun e : p = path => hp (e ▸ hw))
      · rfl
    · simp only [Option.some.injEq, Prod.mk.injEq] at h
      rw [← h.2]
      exact ⟨rfl, fun _ _ => rfl⟩
  same fs₁ fs₂ n h := by
    right
    by_cases hd : path.1 ∈ fs₁.directories
    · refine ⟨.ok (), fs₁.put path content, fs₂.put path content, Does.put hd content n, Does.put (h.1 ▸ hd) content n,
        ⟨h.1, fun p hp => ?_⟩, fun p => ?_⟩
      · rw [get_put, get_put, h.2 p hp]
      · rw [get_put, get_put]
        split
        · exact .inl rfl
        · exact .inr ⟨rfl, rfl⟩
    · refine ⟨.error .assertionError, fs₁, fs₂, ?_, ?_, h, fun p => .inr ⟨rfl, rfl⟩⟩
      · show (if _ then _ else _) = _; rw [if_neg hd]
      · show (if _ then _ else _) = _; rw [if_neg (h.1 ▸ hd)]

theorem mustExist : ∀ {paths : List Path}, (∀ p ∈ paths, P p) → Uses P W (Command.mustExist paths : Cmd β K Unit) := by
  intro paths
  induction paths with
  | nil => intro _; exact pure _
  | cons p rest ih =>
    intro h
    refine look (g := fun c : Option (Content β K) => match c with
      | some _ => Command.mustExist rest
      | none => Cmd.fail .usageError) (h p (by simp)) fun c => ?_
    cases c with
    | none => exact fail _
    | some c => exact ih fun q hq => h q (by simp [hq])

theorem openRaster {path : Path} (hp : P path) : Uses P W (Command.openRaster path : Cmd β K _) := by
  refine look (g := fun c : Option (Content β K) => match c with
    | some (.raster values georef) => Pure.pure (values, georef)
    | _ => Cmd.fail .attributeError) hp fun c => ?_
  split
  · exact pure _
  · exact fail _

theorem openElevations {path : Path} (hp : P path) : Uses P W (Command.openElevations path : Cmd β K _) :=
  (openRaster hp).bind fun _ => by split; exact pure _; exact fail _

theorem readElevations {path : Path} (hp : P path) (subst : Option β) :
    Uses P W (Command.readElevations path subst : Cmd β K _) :=
  (openRaster hp).bind fun _ => by split; exact pure _; exact fail _

theorem readNumbers {path : Path} (hp : P path) : Uses P W (Command.readNumbers path : Cmd β K _) :=
  (openRaster hp).bind fun _ => by split; exact pure _; exact fail _

theorem readDirections {path : Path} (hp : P path) : Uses P W (Command.readDirections path : Cmd β K _) :=
  (openRaster hp).bind fun _ => by split; exact pure _; exact fail _

theorem readCounts {path : Path} (hp : P path) : Uses P W (Command.readCounts path : Cmd β K _) :=
  (openRaster hp).bind fun _ => by split; exact pure _; exact fail _

theorem readLabels {path : Path} (hp : P path) : Uses P W (Command.readLabels path : Cmd β K _) :=
  (openRaster hp).bind fun _ => by split; exact pure _; exact fail _

theorem openData {dem accum : Option Path} (hd : ∀ p ∈ dem.toList, P p) (ha : ∀ p ∈ accum.toList, P p) :
    Uses P W (Command.openData dem accum : Cmd β K _) := by
  cases accum with
  | some path => exact (readCounts (ha path (by simp))).bind fun _ => pure _
  | none => cases dem with
    | some path => exact (openElevations (hd path (by simp))).bind fun _ => pure _
    | none => exact fail _

theorem openForUpdate {path : Path} (hp : P path) : Uses P W (Command.openForUpdate path : Cmd β K _) := by
  refine look (g := fun c : Option (Content β K) => match c with
    | some (.geopackage layers polygons) => Pure.pure (layers, polygons)
    | none => Pure.pure ([], [])
    | some _ => Cmd.fail .other) hp fun c => ?_
  split
  · exact pure _
  · exact pure _
  · exact fail _

variable (ogr : Ogr K)

theorem writeLayer {path : Path} (hp : P path) (hw : W path) (layer : String) (features : List (Feature K)) :
    Uses P W (Command.writeLayer ogr path layer features : Cmd β K _) :=
  (openForUpdate hp).bind fun _ => put hw _

theorem readLayer {path : Path} (hp : P path) (layer : String) :
    Uses P W (Command.readLayer ogr path layer : Cmd β K _) := by
  refine look (g := fun c : Option (Content β K) => match c with
    | some (.geopackage layers _) => Cmd.run (Run.ofExcept (Vector.readGeojsonFeatures ogr.fid ogr.shape layers layer))
    | _ => Cmd.fail .other) hp fun c => ?_
  split
  · exact run _
  · exact fail _

theorem vectorizeLabelsFileIo {labels path : Path} (hl : P labels) (hp : P path) (hw : W path) (layer : String) :
    Uses P W (Command.vectorizeLabelsFileIo ogr labels path layer : Cmd β K _) :=
  (readLabels hl).bind fun _ => (openForUpdate hp).bind fun _ => by
    dsimp only
    split_ifs
    · exact fail _
    · exact put hw _

theorem readPrecipitation {p : Path} (hp : P p) (elev : β → K) : Uses P W (Command.readPrecipitation elev p : Cmd β K _) :=
  (openRaster hp).bind fun x => by
    obtain ⟨v, g⟩ := x
    cases v <;> first | exact pure _ | exact fail _

theorem readRain (elev : β → K) {pr bluespots : Option Path} (h1 : ∀ p ∈ pr.toList, P p) (h2 : ∀ p ∈ bluespots.toList, P p) :
    Uses P W (Command.readRain elev pr bluespots : Cmd β K _) := by
  cases pr with
  | none => exact pure _
  | some pr => cases bluespots with
    | none => exact fail _
    | some b => exact (readPrecipitation (h1 _ (by simp)) elev).bind fun _ => (readLabels (h2 _ (by simp))).bind fun _ => pure _

end Uses

variable [FloorRing K]

/-- Every subcommand uses its inputs and changes its outputs only. -/
theorem uses_runSub (ogr : Ogr K) (s : Setting β K) (c : Sub K) :
    Uses (· ∈ c.inputs) (· ∈ c.outputs) (runSub ogr s c) := by
  cases c with
  | filled dem out =>
    exact (Uses.mustExist (by simp [Sub.inputs, givenFiles])).bind fun _ =>
      (Uses.openElevations (by simp [Sub.inputs, givenFiles])).bind fun _ => (Uses.run _).bind fun _ =>
      Uses.put (by simp [Sub.outputs, rasterOutputs]) _
  | depths dem filled out =>
    exact (Uses.mustExist (by simp [Sub.inputs, givenFiles])).bind fun _ =>
      (Uses.openElevations (by simp [Sub.inputs, givenFiles])).bind fun _ =>
      (Uses.openElevations (by simp [Sub.inputs, givenFiles])).bind fun _ =>
      Uses.put (by simp [Sub.outputs, rasterOutputs]) _
  | flowdir dem out =>
    exact (Uses.mustExist (by simp [Sub.inputs, givenFiles])).bind fun _ =>
      (Uses.openElevations (by simp [Sub.inputs, givenFiles])).bind fun _ => (Uses.run _).bind fun _ =>
      Uses.put (by simp [Sub.outputs, rasterOutputs]) _
  | accum flowdir out =>
    exact (Uses.mustExist (by simp [Sub.inputs, givenFiles])).bind fun _ =>
      (Uses.readDirections (by simp [Sub.inputs, givenFiles])).bind fun _ => (Uses.run _).bind fun _ =>
      Uses.put (by simp [Sub.outputs, rasterOutputs]) _
  | bspots depths out filter =>
    exact (Uses.mustExist (by simp [Sub.inputs, givenFiles])).bind fun _ =>
      (Uses.readNumbers (by simp [Sub.inputs, givenFiles])).bind fun _ => (Uses.run _).bind fun _ =>
      (Uses.run _).bind fun _ => Uses.put (by simp [Sub.outputs, rasterOutputs]) _
  | wsheds bluespots flowdir out =>
    exact (Uses.mustExist (by simp [Sub.inputs, givenFiles])).bind fun _ =>
      (Uses.readLabels (by simp [Sub.inputs, givenFiles])).bind fun _ =>
      (Uses.readDirections (by simp [Sub.inputs, givenFiles])).bind fun _ => (Uses.run _).bind fun _ =>
      Uses.put (by simp [Sub.outputs, rasterOutputs]) _
  | pourpts bluespots depths watersheds dem accum out layername =>
    refine (Uses.mustExist fun p hp => ?_).bind fun _ =>
      (Uses.readLabels (by simp [Sub.inputs, givenFiles])).bind fun _ =>
      (Uses.readNumbers (by simp [Sub.inputs, givenFiles])).bind fun _ =>
      (Uses.readLabels (by simp [Sub.inputs, givenFiles])).bind fun _ =>
      (Uses.openData (fun p hp => ?_) fun p hp => ?_).bind fun _ => (Uses.run _).bind fun _ =>
      Uses.writeLayer ogr (by simp [Sub.inputs, vectorOutputs]) (by simp [Sub.outputs, vectorOutputs]) _ _
    · exact List.mem_append_left _ hp
    · exact List.mem_append_left _ (List.mem_append_left _ (List.mem_append_right _ hp))
    · exact List.mem_append_left _ (List.mem_append_right _ hp)
  | polys raster out layername =>
    exact (Uses.mustExist (by simp [Sub.inputs, givenFiles])).bind fun _ =>
      Uses.vectorizeLabelsFileIo ogr (by simp [Sub.inputs, givenFiles]) (by simp [Sub.inputs, vectorOutputs])
        (by simp [Sub.outputs, vectorOutputs]) _
  | network bluespots flowdir pourpoints pourpoints_layer out nodes_layer streams_layer =>
    exact (Uses.mustExist (by simp [Sub.inputs, givenFiles])).bind fun _ =>
      (Uses.readLayer ogr (by simp [Sub.inputs, givenFiles]) _).bind fun _ =>
      (Uses.readLabels (by simp [Sub.inputs, givenFiles])).bind fun _ =>
      (Uses.readDirections (by simp [Sub.inputs, givenFiles])).bind fun _ => (Uses.run _).bind fun _ =>
      (Uses.writeLayer ogr (by simp [Sub.inputs, vectorOutputs]) (by simp [Sub.outputs, vectorOutputs]) _ _).bind fun _ =>
      Uses.writeLayer ogr (by simp [Sub.inputs, vectorOutputs]) (by simp [Sub.outputs, vectorOutputs]) _ _
  | hyps bluespots dem pourpoints pourpoints_layer zresolution out hyps_layer =>
    exact (Uses.mustExist (by simp [Sub.inputs, givenFiles])).bind fun _ =>
      (Uses.readLayer ogr (by simp [Sub.inputs, givenFiles]) _).bind fun _ =>
      (Uses.readLabels (by simp [Sub.inputs, givenFiles])).bind fun _ =>
      (Uses.readElevations (by simp [Sub.inputs, givenFiles]) _).bind fun _ => (Uses.run _).bind fun _ =>
      Uses.writeLayer ogr (by simp [Sub.inputs, vectorOutputs]) (by simp [Sub.outputs, vectorOutputs]) _ _
  | initvolumes nodes nodes_layer mm pr pr_unit bluespots out out_layer out_attribute =>
    refine (Uses.mustExist fun p hp => ?_).bind fun _ => ?_
    · refine List.mem_append_left _ ?_
      rw [givenFiles, List.append_assoc]
      exact List.mem_append_right _ hp
    · split_ifs
      · exact Uses.fail _
      · exact Uses.fail _
      · refine (Uses.readLayer ogr (by simp [Sub.inputs, givenFiles]) _).bind fun _ =>
          (Uses.readRain s.elev (fun p hp => ?_) fun p hp => ?_).bind fun _ => (Uses.run _).bind fun _ =>
          Uses.writeLayer ogr (by simp [Sub.inputs, vectorOutputs]) (by simp [Sub.outputs, vectorOutputs]) _ _
        · exact List.mem_append_left _ (List.mem_append_left _ (List.mem_append_right _ hp))
        · exact List.mem_append_left _ (List.mem_append_right _ hp)
  | finalvolumes inputvolumes inputvolumes_layer volume_attribute out out_layer =>
    exact (Uses.readLayer ogr (by simp [Sub.inputs, givenFiles]) _).bind fun _ => (Uses.run _).bind fun _ =>
      Uses.writeLayer ogr (by simp [Sub.inputs, vectorOutputs]) (by simp [Sub.outputs, vectorOutputs]) _ _
  | finallevels finalvols finalvols_layer hyps hyps_layer out out_layer =>
    exact (Uses.readLayer ogr (by simp [Sub.inputs, givenFiles]) _).bind fun _ =>
      (Uses.readLayer ogr (by simp [Sub.inputs, givenFiles]) _).bind fun _ => (Uses.run _).bind fun _ =>
      Uses.writeLayer ogr (by simp [Sub.inputs, vectorOutputs]) (by simp [Sub.outputs, vectorOutputs]) _ _
  | finalbluespots bluespots dem finallevels finallevels_layer out_depths out_bluespots =>
    refine (Uses.mustExist (by simp [Sub.inputs, givenFiles])).bind fun _ => ?_
    split_ifs
    · exact Uses.fail _
    · refine (Uses.readLabels (by simp [Sub.inputs, givenFiles])).bind fun _ =>
        (Uses.openElevations (by simp [Sub.inputs, givenFiles])).bind fun _ =>
        (Uses.readLayer ogr (by simp [Sub.inputs, givenFiles]) _).bind fun _ => (Uses.run _).bind fun out =>
        ?_
      have hlast : ∀ data georef, Uses (· ∈ (Sub.finalbluespots bluespots dem finallevels finallevels_layer out_depths
          out_bluespots : Sub K).inputs) (· ∈ (Sub.finalbluespots bluespots dem finallevels finallevels_layer out_depths
          out_bluespots : Sub K).outputs) (match out_bluespots, data with
          | some path, some data => writeRaster path georef (.labels data (some 0))
          | _, _ => (Pure.pure () : Cmd β K Unit)) := by
        intro data georef
        split
        · exact Uses.put (by simp [Sub.outputs, rasterOutputs]) _
        · exact Uses.pure _
      dsimp only
      split
      · exact (Uses.put (by simp [Sub.outputs, rasterOutputs]) _).bind fun _ => hlast _ _
      · exact hlast _ _

/-! ### Commands that only read -/

/-- Every step of a subcommand that reads. -/
macro "reads" : tactic => `(tactic| first
  | exact Uses.pure _ | exact Uses.fail _ | exact Uses.run _
  | exact Uses.mustExist (by simp) | exact Uses.openElevations trivial | exact Uses.readElevations trivial _
  | exact Uses.readNumbers trivial | exact Uses.readDirections trivial | exact Uses.readLabels trivial
  | exact Uses.openForUpdate trivial | exact Uses.openData (by simp) (by simp) | exact Uses.readRain _ (by simp) (by simp)
  | exact Uses.readLayer _ trivial _)

/-- A command that changes nothing. -/
abbrev Quiet (x : Cmd β K α) : Prop := Uses (fun _ => True) (fun _ => False) x

theorem Quiet.same {x : Cmd β K α} (h : Quiet x) {fs fs' : FileSystem β K} {n : Nat} {r : Except PyErr α}
    (hx : x fs n = some (r, fs')) : SameDisk fs' fs :=
  ⟨(h.frame _ _ _ _ hx).1, fun p => (h.frame _ _ _ _ hx).2 p id⟩

theorem SameDisk.refl (fs : FileSystem β K) : SameDisk fs fs := ⟨rfl, fun _ => rfl⟩

theorem SameDisk.symm {fs fs' : FileSystem β K} (h : SameDisk fs fs') : SameDisk fs' fs := ⟨h.1.symm, fun p => (h.2 p).symm⟩

theorem SameDisk.trans {fs fs' fs'' : FileSystem β K} (h : SameDisk fs fs') (h' : SameDisk fs' fs'') : SameDisk fs fs'' :=
  ⟨h.1.trans h'.1, fun p => (h.2 p).trans (h'.2 p)⟩

/-! ### Commands that change nothing when they fail -/

/-- If the command raises an exception it has changed nothing, provided the directories satisfy `D`. -/
def Safe (D : List String → Prop) (x : Cmd β K α) : Prop :=
  ∀ fs n e fs', D fs.directories → x fs n = some (.error e, fs') → SameDisk fs' fs

theorem Safe.bind {D : List String → Prop} {x : Cmd β K α} {f : α → Cmd β K γ} (hx : Quiet x) (hf : ∀ a, Safe D (f a)) :
    Safe D (x >>= f) := by
  intro fs n e fs' hD h
  rw [bind_apply] at h
  rcases hxn : x fs n with _ | ⟨_ | a, fs1⟩
  · rw [hxn] at h; cases h
  · rw [hxn] at h
    simp only [Option.bind_some, Option.some.injEq, Prod.mk.injEq] at h
    rw [← h.2]
    exact hx.same hxn
  · rw [hxn] at h
    have h1 := hx.same hxn
    exact (hf a fs1 n e fs' (h1.1 ▸ hD) h).trans h1

theorem Quiet.safe {D : List String → Prop} {x : Cmd β K α} (hx : Quiet x) : Safe D x :=
  fun _ _ _ _ _ h => hx.same h

theorem Safe.put {D : List String → Prop} (path : Path) (content : Content β K) : Safe D (Command.put path content) := by
  intro fs n e fs' _ h
  change (if path.1 ∈ fs.directories then _ else _) = _ at h
  split_ifs at h
  · simp at h
  · simp only [Option.some.injEq, Prod.mk.injEq] at h
    rw [← h.2]; exact SameDisk.refl _

theorem Safe.writeLayer {D : List String → Prop} (ogr : Ogr K) (path : Path) (layer : String) (features : List (Feature K)) :
    Safe D (Command.writeLayer ogr path layer features : Cmd β K _) :=
  Safe.bind (Uses.openForUpdate trivial) fun _ => Safe.put _ _

/-- A write that can be followed by another one. -/
theorem Safe.two {D : List String → Prop} {x y : Cmd β K Unit} (hx : Safe D x)
    (hy : ∀ fs n fs1, D fs.directories → x fs n = some (.ok (), fs1) → ∀ e fs2, y fs1 n ≠ some (.error e, fs2)) :
    Safe D (x >>= fun _ => y) := by
  intro fs n e fs' hD h
  rw [bind_apply] at h
  rcases hxn : x fs n with _ | ⟨_ | a, fs1⟩
  · rw [hxn] at h; cases h
  · rw [hxn] at h
    simp only [Option.bind_some, Option.some.injEq, Prod.mk.injEq] at h
    rw [← h.2]
    exact hx _ _ _ _ hD hxn
  · rw [hxn] at h
    exact absurd h (hy fs n fs1 hD hxn e fs')

theorem put_ok {path : Path} {content : Content β K} {fs fs' : FileSystem β K} {n : Nat} {u : Unit}
    (h : Command.put path content fs n = some (.ok u, fs')) : path.1 ∈ fs.directories ∧ fs' = fs.put path content := by
  change (if path.1 ∈ fs.directories then _ else _) = _ at h
  split_ifs at h with hd
  · simp only [Option.some.injEq, Prod.mk.injEq] at h
    exact ⟨hd, h.2.symm⟩
  · simp at h

theorem openForUpdate_ok {path : Path} {fs fs' : FileSystem β K} {n : Nat} {a}
    (h : (Command.openForUpdate path : Cmd β K _) fs n = some (.ok a, fs')) :
    packageAt fs path a.1 a.2 ∧ fs' = fs := by
  have hf : (Command.openForUpdate path : Cmd β K _) fs n = (match fs.files.get? path with
      | some (.geopackage layers polygons) => Pure.pure (layers, polygons)
      | none => Pure.pure ([], [])
      | some _ => Cmd.fail .other : Cmd β K _) fs n := rfl
  rw [hf] at h
  rcases hg : fs.files.get? path with _ | c
  · rw [hg] at h
    have h : some (Except.ok ([], []), fs) = some (Except.ok a, fs') := h
    simp only [Option.some.injEq, Prod.mk.injEq, Except.ok.injEq] at h
    obtain ⟨rfl, rfl⟩ := h
    exact ⟨.inr ⟨hg, rfl, rfl⟩, rfl⟩
  · cases c with
    | raster v g =>
      rw [hg] at h
      have h : some (Except.error PyErr.other, fs) = some (Except.ok a, fs') := h
      simp at h
    | other =>
      rw [hg] at h
      have h : some (Except.error PyErr.other, fs) = some (Except.ok a, fs') := h
      simp at h
    | geopackage l q =>
      rw [hg] at h
      have h : some (Except.ok (l, q), fs) = some (Except.ok a, fs') := h
      simp only [Option.some.injEq, Prod.mk.injEq, Except.ok.injEq] at h
      obtain ⟨rfl, rfl⟩ := h
      exact ⟨.inl hg, rfl⟩

theorem writeLayer_ok {ogr : Ogr K} {path : Path} {layer : String} {features : List (Feature K)}
    {fs fs' : FileSystem β K} {n : Nat} {u : Unit}
    (h : (Command.writeLayer ogr path layer features : Cmd β K _) fs n = some (.ok u, fs')) :
    path.1 ∈ fs.directories ∧ ∃ layers polygons, packageAt fs path layers polygons ∧
      fs' = fs.put path (.geopackage (withLayer ogr layers layer features) polygons) := by
  unfold Command.writeLayer at h
  rw [bind_apply] at h
  rcases ho : (Command.openForUpdate path : Cmd β K _) fs n with _ | ⟨_ | a, fs1⟩
  · rw [ho] at h; cases h
  · rw [ho] at h; simp at h
  · rw [ho] at h
    obtain ⟨h1, rfl⟩ := openForUpdate_ok ho
    obtain ⟨h2, h3⟩ := put_ok (n := n) h
    exact ⟨h2, a.1, a.2, h1, h3⟩

theorem writeLayer_no_error (ogr : Ogr K) {fs fs' : FileSystem β K} {path : Path} {layers : Vector.Datasource K}
    {polygons : Dict String (List (PolygonFeature K))} (hdir : path.1 ∈ fs.directories) (h : packageAt fs path layers polygons)
    (name : String) (features : List (Feature K)) {n : Nat} {e : PyErr}
    (hw : (Command.writeLayer ogr path name features : Cmd β K _) fs n = some (.error e, fs')) : False := by
  have := Does.writeLayer ogr hdir h name features n
  unfold Does at this
  rw [this] at hw
  simp at hw

theorem Safe.runSub (ogr : Ogr K) (s : Setting β K) (c : Sub K) :
    Safe (fun d => (∀ p ∈ c.outputs, p.1 ∈ d) ∨ c.outputs.length ≤ 1) (runSub ogr s c) := by
  cases c with
  | network bluespots flowdir pourpoints pourpoints_layer out nodes_layer streams_layer =>
    unfold Command.runSub
    repeat (refine Safe.bind (by reads) fun _ => ?_)
    refine Safe.two (Safe.writeLayer ogr _ _ _) fun fs n fs1 _ h e fs2 h2 => ?_
    obtain ⟨hd, l, q, _, rfl⟩ := writeLayer_ok h
    exact writeLayer_no_error ogr (by exact hd) (.inl (by rw [get_put, if_pos rfl])) _ _ h2
  | finalbluespots bluespots dem finallevels finallevels_layer out_depths out_bluespots =>
    unfold Command.runSub
    refine Safe.bind (by reads) fun _ => ?_
    split_ifs
    · exact Quiet.safe (by reads)
    · repeat (refine Safe.bind (by reads) fun _ => ?_)
      rename_i out
      have hlast : ∀ D georef, Safe D (match out_bluespots, out.2 with
          | some path, some data => writeRaster path georef (.labels data (some 0))
          | _, _ => (Pure.pure () : Cmd β K Unit)) := by
        intro D georef
        split
        · exact Safe.put _ _
        · exact Quiet.safe (by reads)
      dsimp only
      split
      · refine Safe.two (Safe.put _ _) fun fs n fs1 hD h e fs2 h2 => ?_
        obtain ⟨hd, rfl⟩ := put_ok h
        have hpure : ∀ fs1 : FileSystem β K, some (Except.ok (), fs1) = some (Except.error e, fs2) → False := by
          intro fs1 h; simp at h
        cases out_bluespots with
        | none => exact hpure _ h2
        | some path2 =>
          rename_i out_depths _ _ path data _ _
          have hd2 := hD.resolve_right (by simp [Sub.outputs, rasterOutputs, vectorOutputs])
          generalize out.2 = o2 at h2
          cases o2 with
          | none => exact hpure _ h2
          | some labels =>
            have h2' : (if path2.1 ∈ fs.directories then _ else _) = _ := h2
            rw [if_pos (hd2 _ (by simp [Sub.outputs, rasterOutputs]))] at h2'
            simp at h2'
      · exact hlast _ _
  | initvolumes nodes nodes_layer mm pr pr_unit bluespots out out_layer out_attribute =>
    unfold Command.runSub
    refine Safe.bind (by reads) fun _ => ?_
    split_ifs
    · exact Quiet.safe (by reads)
    · exact Quiet.safe (by reads)
    · repeat first
        | exact Safe.writeLayer ogr _ _ _
        | refine Safe.bind (by reads) fun _ => ?_
  | polys raster out layername =>
    unfold Command.runSub Command.vectorizeLabelsFileIo
    repeat (refine Safe.bind (by reads) fun _ => ?_)
    dsimp only
    split_ifs
    · exact Quiet.safe (by reads)
    · exact Safe.put _ _
  | _ =>
    unfold Command.runSub
    repeat (refine Safe.bind (by reads) fun _ => ?_)
    first
      | exact Safe.put _ _
      | exact Safe.writeLayer ogr _ _ _

/-! ### The other layers of a GeoPackage -/

/-- The command keeps the layer `name` of the file `path`. -/
def KeepsLayer (path : Path) (name : String) (x : Cmd β K α) : Prop :=
  ∀ fs n r fs', x fs n = some (r, fs') → layerAt fs' path name = layerAt fs path name ∧
    polygonsAt fs' path name = polygonsAt fs path name

theorem KeepsLayer.bind {path : Path} {name : String} {x : Cmd β K α} {f : α → Cmd β K γ} (hx : KeepsLayer path name x)
    (hf : ∀ a, KeepsLayer path name (f a)) : KeepsLayer path name (x >>= f) := by
  intro fs n r fs' h
  rw [bind_apply] at h
  rcases hxn : x fs n with _ | ⟨_ | a, fs1⟩
  · rw [hxn] at h; cases h
  · rw [hxn] at h
    simp only [Option.bind_some, Option.some.injEq, Prod.mk.injEq] at h
    rw [← h.2]
    exact hx _ _ _ _ hxn
  · rw [hxn] at h
    obtain ⟨h1, h2⟩ := hx _ _ _ _ hxn
    obtain ⟨h3, h4⟩ := hf a _ _ _ _ h
    exact ⟨h3.trans h1, h4.trans h2⟩

theorem Quiet.keepsLayer {path : Path} {name : String} {x : Cmd β K α} (hx : Quiet x) : KeepsLayer path name x := by
  intro fs n r fs' h
  have := (hx.same h).2 path
  unfold layerAt polygonsAt
  rw [this]
  exact ⟨rfl, rfl⟩

/-- After the file is opened, it is replaced by one with the same layers but for those named differently. -/
theorem KeepsLayer.update {path : Path} {name : String}
    {g : Vector.Datasource K × Dict String (List (PolygonFeature K)) → Cmd β K Unit}
    (hg : ∀ a fs n r fs', g a fs n = some (r, fs') → fs' = fs ∨ ∃ layers polygons, fs' = fs.put path (.geopackage layers polygons) ∧
      layers.get? name = a.1.get? name ∧ polygons.get? name = a.2.get? name) :
    KeepsLayer path name (Command.openForUpdate path >>= g) := by
  intro fs n r fs' h
  rw [bind_apply] at h
  rcases hxn : (Command.openForUpdate path : Cmd β K _) fs n with _ | ⟨_ | a, fs1⟩
  · rw [hxn] at h; cases h
  · rw [hxn] at h
    simp only [Option.bind_some, Option.some.injEq, Prod.mk.injEq] at h
    rw [← h.2]
    exact Quiet.keepsLayer (Uses.openForUpdate trivial) _ _ _ _ hxn
  · rw [hxn] at h
    obtain ⟨hp, rfl⟩ := openForUpdate_ok hxn
    rcases hg a fs1 n r fs' h with rfl | ⟨l, q, rfl, hl, hq⟩
    · exact ⟨rfl, rfl⟩
    · unfold layerAt polygonsAt
      rw [get_put, if_pos rfl]
      rcases hp with hp | ⟨hp, e1, e2⟩
      · rw [hp]; exact ⟨hl, hq⟩
      · rw [hp]
        rw [e1] at hl; rw [e2] at hq
        exact ⟨hl, hq⟩

theorem KeepsLayer.writeLayer (ogr : Ogr K) {path : Path} {name layer : String} (h : name ≠ layer)
    (features : List (Feature K)) : KeepsLayer path name (Command.writeLayer ogr path layer features : Cmd β K _) := by
  refine KeepsLayer.update fun a fs n r fs' hx => ?_
  change (if path.1 ∈ fs.directories then _ else _) = _ at hx
  split_ifs at hx
  · simp only [Option.some.injEq, Prod.mk.injEq] at hx
    exact .inr ⟨_, _, hx.2.symm, get_withLayer ogr a.1 (fun e => h e.symm) features, rfl⟩
  · simp only [Option.some.injEq, Prod.mk.injEq] at hx
    exact .inl hx.2.symm

theorem KeepsLayer.runSub (ogr : Ogr K) (s : Setting β K) {c : Sub K} {path : Path} (hp : path ∈ vectorOutputs c)
    {name : String} (hn : name ∉ layerOutputs c) : KeepsLayer path name (runSub ogr s c) := by
  cases c with
  | filled | depths | flowdir | accum | bspots | wsheds | finalbluespots => simp [vectorOutputs] at hp
  | network bluespots flowdir pourpoints pourpoints_layer out nodes_layer streams_layer =>
    simp only [vectorOutputs, List.mem_singleton] at hp
    simp only [layerOutputs, List.mem_cons, List.not_mem_nil, or_false, not_or] at hn
    subst hp
    unfold Command.runSub
    repeat (refine KeepsLayer.bind (Quiet.keepsLayer (by reads)) fun _ => ?_)
    exact KeepsLayer.bind (KeepsLayer.writeLayer ogr hn.1 _) fun _ => KeepsLayer.writeLayer ogr hn.2 _
  | initvolumes nodes nodes_layer mm pr pr_unit bluespots out out_layer out_attribute =>
    simp only [vectorOutputs, List.mem_singleton] at hp
    simp only [layerOutputs, List.mem_singleton] at hn
    subst hp
    unfold Command.runSub
    refine KeepsLayer.bind (Quiet.keepsLayer (by reads)) fun _ => ?_
    split_ifs
    · exact Quiet.keepsLayer (by reads)
    · exact Quiet.keepsLayer (by reads)
    · repeat first
        | exact KeepsLayer.writeLayer ogr hn _
        | refine KeepsLayer.bind (Quiet.keepsLayer (by reads)) fun _ => ?_
  | polys raster out layername =>
    simp only [vectorOutputs, List.mem_singleton] at hp
    simp only [layerOutputs, List.mem_singleton] at hn
    subst hp
    unfold Command.runSub Command.vectorizeLabelsFileIo
    refine KeepsLayer.bind (Quiet.keepsLayer (by reads)) fun _ => ?_
    refine KeepsLayer.bind (Quiet.keepsLayer (Uses.readLabels trivial)) fun _ => ?_
    refine KeepsLayer.update fun a fs n r fs' hx => ?_
    dsimp only at hx
    split_ifs at hx
    · left
      have hx : some (Except.error PyErr.attributeError, fs) = some (r, fs') := hx
      simp only [Option.some.injEq, Prod.mk.injEq] at hx
      exact hx.2.symm
    · change (if path.1 ∈ fs.directories then _ else _) = _ at hx
      split_ifs at hx
      · simp only [Option.some.injEq, Prod.mk.injEq] at hx
        exact .inr ⟨_, _, hx.2.symm, rfl, by rw [Dict.get?_set, if_neg fun e => hn e.symm]⟩
      · simp only [Option.some.injEq, Prod.mk.injEq] at hx
        exact .inl hx.2.symm
  | _ =>
    simp only [vectorOutputs, List.mem_singleton] at hp
    simp only [layerOutputs, List.mem_singleton] at hn
    subst hp
    unfold Command.runSub
    repeat first
      | exact KeepsLayer.writeLayer ogr hn _
      | refine KeepsLayer.bind (Quiet.keepsLayer (by reads)) fun _ => ?_

/-! ### Rasters that are certainly written -/

/-- If the command ends well, what is then in the file `p` is decided by the directories and the files that satisfy `P`. -/
def Sets (P : Path → Prop) (p : Path) (x : Cmd β K α) : Prop :=
  ∀ fs₁ fs₂ n a₁ a₂ fs₁' fs₂', Agree P fs₁ fs₂ → x fs₁ n = some (.ok a₁, fs₁') → x fs₂ n = some (.ok a₂, fs₂') →
    fs₁'.files.get? p = fs₂'.files.get? p

theorem bind_some {x : Cmd β K α} {f : α → Cmd β K γ} {fs fs' : FileSystem β K} {n : Nat} {c : γ}
    (h : (x >>= f) fs n = some (.ok c, fs')) : ∃ a fs1, x fs n = some (.ok a, fs1) ∧ f a fs1 n = some (.ok c, fs') := by
  rw [bind_apply] at h
  rcases hxn : x fs n with _ | ⟨_ | a, fs1⟩
  · rw [hxn] at h; cases h
  · rw [hxn] at h; simp at h
  · rw [hxn] at h; exact ⟨a, fs1, rfl, h⟩

theorem Sets.after {P W : Path → Prop} {p : Path} {x : Cmd β K α} {f : α → Cmd β K γ} (hx : Uses P W x)
    (hf : ∀ a, Sets P p (f a)) : Sets P p (x >>= f) := by
  intro fs₁ fs₂ n a₁ a₂ fs₁' fs₂' hA h1 h2
  obtain ⟨b₁, g₁, h1, k1⟩ := bind_some h1
  obtain ⟨b₂, g₂, h2, k2⟩ := bind_some h2
  rcases hx.same fs₁ fs₂ n hA with ⟨e, _⟩ | ⟨r, u₁, u₂, e1, e2, e3, _⟩
  · rw [h1] at e; cases e
  · rw [h1] at e1; rw [h2] at e2
    simp only [Option.some.injEq, Prod.mk.injEq] at e1 e2
    obtain ⟨rfl, rfl⟩ := e1
    obtain ⟨e, rfl⟩ := e2
    cases e
    exact hf _ _ _ _ _ _ _ _ e3 k1 k2

theorem Sets.before {P W : Path → Prop} {p : Path} {x : Cmd β K α} {f : α → Cmd β K γ} (hx : Uses P W x) (hp : Sets P p x)
    (hf : ∀ a, Uses P W (f a)) : Sets P p (x >>= f) := by
  intro fs₁ fs₂ n a₁ a₂ fs₁' fs₂' hA h1 h2
  obtain ⟨b₁, g₁, h1, k1⟩ := bind_some h1
  obtain ⟨b₂, g₂, h2, k2⟩ := bind_some h2
  have hs := hp _ _ _ _ _ _ _ hA h1 h2
  rcases hx.same fs₁ fs₂ n hA with ⟨e, _⟩ | ⟨r, u₁, u₂, e1, e2, e3, _⟩
  · rw [h1] at e; cases e
  · rw [h1] at e1; rw [h2] at e2
    simp only [Option.some.injEq, Prod.mk.injEq] at e1 e2
    obtain ⟨rfl, rfl⟩ := e1
    obtain ⟨e, rfl⟩ := e2
    cases e
    rcases (hf _).same _ _ n e3 with ⟨e, _⟩ | ⟨r, v₁, v₂, q1, q2, _, q4⟩
    · rw [k1] at e; cases e
    · rw [k1] at q1; rw [k2] at q2
      simp only [Option.some.injEq, Prod.mk.injEq] at q1 q2
      obtain ⟨_, rfl⟩ := q1
      obtain ⟨_, rfl⟩ := q2
      rcases q4 p with q | ⟨q, q'⟩
      · exact q
      · rw [q, q', hs]

theorem Sets.put {P : Path → Prop} (p : Path) (content : Content β K) : Sets P p (Command.put p content) := by
  intro fs₁ fs₂ n a₁ a₂ fs₁' fs₂' _ h1 h2
  obtain ⟨_, rfl⟩ := put_ok h1
  obtain ⟨_, rfl⟩ := put_ok h2
  rw [get_put, get_put, if_pos rfl, if_pos rfl]

end Command
end Malstroem
