/-
Lemmas about the raster reader and writer.
-/
import Verif.Model.Io
import Verif.Proofs.FlowAccum
import Mathlib.Tactic.Linarith
import Mathlib.Tactic.NormNum
import Mathlib.Tactic.Positivity

set_option linter.unusedSectionVars false

namespace Malstroem
namespace Io
open Spec (Num DType Holds IsNodata ExactCast)

theorem le_fin {x y : Rat} : le (.fin x) (.fin y) = true ↔ x ≤ y := by simp [le]

theorem isclose_iff {x y : Num} (hy : y ≠ .nan) : isclose x y = true ↔ IsNodata y x := by
  unfold isclose IsNodata
  cases x <;> cases y <;> simp_all
  rintro rfl
  have := abs_nonneg ‹Rat›
  positivity

theorem isnan_iff {x : Num} : isnan x = true ↔ IsNodata .nan x := by
  unfold isnan IsNodata
  simp

theorem fold_min (l : List Num) (hl : ∀ v ∈ l, ∃ q : Rat, v = .fin q) (x : Rat) :
    ∃ q : Rat, l.foldl (fun a b => if isnan a || isnan b then .nan else if le a b then a else b) (.fin x) = .fin q ∧
      (q = x ∨ Num.fin q ∈ l) ∧ q ≤ x ∧ ∀ v : Rat, Num.fin v ∈ l → q ≤ v := by
  induction l generalizing x with
  | nil => exact ⟨x, rfl, .inl rfl, le_refl _, by simp⟩
  | cons y l ih =>
    obtain ⟨y, rfl⟩ := hl y (List.mem_cons_self ..)
    have hl' := fun v hv => hl v (List.mem_cons_of_mem _ hv)
    rw [List.foldl_cons]
    by_cases h : x ≤ y
    · have e : (if isnan (.fin x) || isnan (.fin y) then Num.nan else if le (.fin x) (.fin y) then .fin x else .fin y) =
        .fin x := by simp [isnan, le, h]
      rw [e]
      obtain ⟨q, h1, h2, h3, h4⟩ := ih hl' x
      refine ⟨q, h1, h2.imp id (List.mem_cons_of_mem _), h3, fun v hv => ?_⟩
      rcases List.mem_cons.1 hv with hv | hv
      · cases hv; exact le_trans h3 h
      · exact h4 v hv
    · have e : (if isnan (.fin x) || isnan (.fin y) then Num.nan else if le (.fin x) (.fin y) then .fin x else .fin y) =
        .fin y := by simp [isnan, le, h]
      rw [e]
      obtain ⟨q, h1, h2, h3, h4⟩ := ih hl' y
      refine ⟨q, h1, .inr ?_, by linarith, fun v hv => ?_⟩
      · rcases h2 with rfl | h2
        · exact List.mem_cons_self ..
        · exact List.mem_cons_of_mem _ h2
      rcases List.mem_cons.1 hv with hv | hv
      · cases hv; exact h3
      · exact h4 v hv

theorem fold_max (l : List Num) (hl : ∀ v ∈ l, ∃ q : Rat, v = .fin q) (x : Rat) :
    ∃ q : Rat, l.foldl (fun a b => if isnan a || isnan b then .nan else if le b a then a else b) (.fin x) = .fin q ∧
      (q = x ∨ Num.fin q ∈ l) ∧ x ≤ q ∧ ∀ v : Rat, Num.fin v ∈ l → v ≤ q := by
  induction l generalizing x with
  | nil => exact ⟨x, rfl, .inl rfl, le_refl _, by simp⟩
  | cons y l ih =>
    obtain ⟨y, rfl⟩ := hl y (List.mem_cons_self ..)
    have hl' := fun v hv => hl v (List.mem_cons_of_mem _ hv)
    rw [List.foldl_cons]
    by_cases h : y ≤ x
    · have e : (if isnan (.fin x) || isnan (.fin y) then Num.nan else if le (.fin y) (.fin x) then .fin x else .fin y) =
        .fin x := by simp [isnan, le, h]
      rw [e]
      obtain ⟨q, h1, h2, h3, h4⟩ := ih hl' x
      refine ⟨q, h1, h2.imp id (List.mem_cons_of_mem _), h3, fun v hv => ?_⟩
      rcases List.mem_cons.1 hv with hv | hv
      · cases hv; exact le_trans h h3
      · exact h4 v hv
    · have e : (if isnan (.fin x) || isnan (.fin y) then Num.nan else if le (.fin y) (.fin x) then .fin x else .fin y) =
        .fin y := by simp [isnan, le, h]
      rw [e]
      obtain ⟨q, h1, h2, h3, h4⟩ := ih hl' y
      refine ⟨q, h1, .inr ?_, by linarith, fun v hv => ?_⟩
      · rcases h2 with rfl | h2
        · exact List.mem_cons_self ..
        · exact List.mem_cons_of_mem _ h2
      rcases List.mem_cons.1 hv with hv | hv
      · cases hv; exact h3
      · exact h4 v hv

theorem minimum_ok {l : List Num} (hl : ∀ v ∈ l, ∃ q : Rat, v = .fin q) (hne : l ≠ []) :
    ∃ q : Rat, minimum l = .ok (.fin q) ∧ Num.fin q ∈ l ∧ ∀ v : Rat, Num.fin v ∈ l → q ≤ v := by
  cases l with
  | nil => exact absurd rfl hne
  | cons y l =>
    obtain ⟨y, rfl⟩ := hl y (List.mem_cons_self ..)
    obtain ⟨q, h1, h2, h3, h4⟩ := fold_min l (fun v hv => hl v (List.mem_cons_of_mem _ hv)) y
    refine ⟨q, by rw [minimum, h1], ?_, fun v hv => ?_⟩
    · rcases h2 with rfl | h2
      · exact List.mem_cons_self ..
      · exact List.mem_cons_of_mem _ h2
    · rcases List.mem_cons.1 hv with hv | hv
      · cases hv; exact h3
      · exact h4 v hv

theorem maximum_ok {l : List Num} (hl : ∀ v ∈ l, ∃ q : Rat, v = .fin q) (hne : l ≠ []) :
    ∃ q : Rat, maximum l = .ok (.fin q) ∧ Num.fin q ∈ l ∧ ∀ v : Rat, Num.fin v ∈ l → v ≤ q := by
  cases l with
  | nil => exact absurd rfl hne
  | cons y l =>
    obtain ⟨y, rfl⟩ := hl y (List.mem_cons_self ..)
    obtain ⟨q, h1, h2, h3, h4⟩ := fold_max l (fun v hv => hl v (List.mem_cons_of_mem _ hv)) y
    refine ⟨q, by rw [maximum, h1], ?_, fun v hv => ?_⟩
    · rcases h2 with rfl | h2
      · exact List.mem_cons_self ..
      · exact List.mem_cons_of_mem _ h2
    · rcases List.mem_cons.1 hv with hv | hv
      · cases hv; exact h3
      · exact h4 v hv

/-- Values of an integer type. -/
theorem holds_int {t : DType} {lo hi : Int} (ht : t.range? = some (lo, hi)) {x : Num} :
    Holds t x ↔ ∃ n : Int, x = .fin n ∧ lo ≤ n ∧ n ≤ hi := by
  have : Holds t x ↔ ∃ lo hi n : Int, t.range? = some (lo, hi) ∧ x = .fin n ∧ lo ≤ n ∧ n ≤ hi := by
    cases t <;> simp only [DType.range?, reduceCtorEq] at ht <;> exact Iff.rfl
  rw [this, ht]
  constructor
  · rintro ⟨a, b, n, h1, h2⟩
    cases h1
    exact ⟨n, h2⟩
  · rintro ⟨n, h⟩
    exact ⟨_, _, n, rfl, h⟩

theorem create_ok (w : Writer) (t : DType) (d : Raster Num) (h : d.rows ≠ 0 ∧ d.cols ≠ 0) :
    w.create t d = .ok ⟨t, d, if w.transform ≠ [] then w.transform else [0, 1, 0, 0, 0, 1],
      if w.crs ≠ "" then w.crs else "", w.nodata⟩ := by
  rw [Writer.create, if_neg (by omega)]

theorem create_inv {w : Writer} {t : DType} {d : Raster Num} {f : File} (h : w.create t d = .ok f) :
    d.rows ≠ 0 ∧ d.cols ≠ 0 ∧ f.dtype = t ∧ f.data = d ∧
      f.transform = (if w.transform ≠ [] then w.transform else [0, 1, 0, 0, 0, 1]) ∧
      f.crs = (if w.crs ≠ "" then w.crs else "") ∧ f.nodata = w.nodata := by
  rw [Writer.create] at h
  split at h
  · exact absurd h (by simp)
  · simp only [Except.ok.injEq] at h
    subst h
    rename_i h
    exact ⟨by omega, by omega, rfl, rfl, rfl, rfl, rfl⟩

theorem gdalType_self {t t' : DType} (h : gdalType t = some t') : t' = t ∧ Spec.IsFileType t := by
  cases t <;> simp [gdalType] at h <;> subst h <;> simp [Spec.IsFileType]

/-- Writing after a conversion that is exact. -/
theorem writeCast_inv {astype : DType → Num → Num} (hcast : ExactCast astype) {w : Writer} {d : Raster Num} {t : DType}
    (hall : ∀ c, d.Has c → Holds t (d.get c)) {f : File} (h : w.writeCast astype d t = .ok f) :
    d.rows ≠ 0 ∧ d.cols ≠ 0 ∧ f.dtype = t ∧ Spec.IsFileType t ∧ Raster.Same f.data d ∧
      f.transform = (if w.transform ≠ [] then w.transform else [0, 1, 0, 0, 0, 1]) ∧
      f.crs = (if w.crs ≠ "" then w.crs else "") ∧ f.nodata = w.nodata := by
  rw [Writer.writeCast] at h
  split at h
  · rename_i t' ht
    obtain ⟨rfl, hft⟩ := gdalType_self ht
    obtain ⟨h1, h2, h3, h4, h5, h6, h7⟩ := create_inv h
    refine ⟨h1, h2, h3, hft, ?_, h5, h6, h7⟩
    rw [h4]
    exact ⟨rfl, rfl, fun c hc => hcast _ _ (hall c hc)⟩
  · exact absurd h (by simp)

end Io
end Malstroem
