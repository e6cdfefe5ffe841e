/-
DemTool.process: decomposition of a run.
-/
import Verif.Proofs.FlowTrace
import Verif.Model.Dem

set_option linter.unusedSectionVars false

namespace Malstroem
open Spec

namespace Dem
variable {β γ : Type*} [LinearOrder β] [OrderTop β] [LinearOrder γ] [Zero γ]

theorem process_inv {eng : Engine β γ} {sub : β → β → γ} {safe : Raster β → (β → β) × (β → β)}
    {square want : Bool} {dem : Raster β} {out : Out β γ}
    (h : Returns (process eng sub safe square want dem) (.ok out)) :
    square = true ∧ Returns (eng.fillTerrain dem) (.ok out.filled) ∧ out.depths = depths sub out.filled dem ∧
    Returns (eng.fillTerrainNoFlats (safe dem).1 (safe dem).2 dem) (.ok out.noFlats) ∧
    out.flowdir = Flow.terrainFlowdirection eng.drop eng.scale out.noFlats true ∧
    (want = true → ∃ a, out.accum = some a ∧ Returns (eng.accumulatedFlow out.flowdir) (.ok a)) ∧
    (want = false → out.accum = none) := by
  obtain ⟨n, hn⟩ := h
  have key : ∀ m, n ≤ m → square = true ∧ eng.fillTerrain dem m = some (.ok out.filled) ∧
      out.depths = depths sub out.filled dem ∧
      eng.fillTerrainNoFlats (safe dem).1 (safe dem).2 dem m = some (.ok out.noFlats) ∧
      out.flowdir = Flow.terrainFlowdirection eng.drop eng.scale out.noFlats true ∧
      (want = true → ∃ a, out.accum = some a ∧ eng.accumulatedFlow out.flowdir m = some (.ok a)) ∧
      (want = false → out.accum = none) := by
    intro m hm
    have h := hn m hm
    unfold process at h
    cases hs : square
    · simp [hs] at h
    · simp only [hs, not_true_eq_false, if_false] at h
      cases hf : eng.fillTerrain dem m with
      | none => simp [hf] at h
      | some r =>
        cases r with
        | error e => simp [hf] at h
        | ok filled =>
          simp only [hf] at h
          cases hg : eng.fillTerrainNoFlats (safe dem).1 (safe dem).2 dem m with
          | none => simp [hg] at h
          | some r =>
            cases r with
            | error e => simp [hg] at h
            | ok nf =>
              simp only [hg] at h
              cases hw : want
              · simp only [hw, Bool.false_eq_true, if_false, Option.some.injEq, Except.ok.injEq] at h
                subst h
                exact ⟨rfl, rfl, rfl, rfl, rfl, by simp, fun _ => rfl⟩
              · simp only [hw, if_true] at h
                cases ha : eng.accumulatedFlow (Flow.terrainFlowdirection eng.drop eng.scale nf true) m with
                | none => simp [ha] at h
                | some r =>
                  cases r with
                  | error e => simp [ha] at h
                  | ok acc =>
                    simp only [ha, Option.some.injEq, Except.ok.injEq] at h
                    subst h
                    exact ⟨rfl, rfl, rfl, rfl, rfl, fun _ => ⟨acc, rfl, ha⟩, by simp⟩
  obtain ⟨h1, _, h3, _, h5, h6, h7⟩ := key n le_rfl
  refine ⟨h1, ⟨n, fun m hm => (key m hm).2.1⟩, h3, ⟨n, fun m hm => (key m hm).2.2.2.1⟩, h5, fun hw => ?_, h7⟩
  obtain ⟨a, ha, _⟩ := h6 hw
  refine ⟨a, ha, n, fun m hm => ?_⟩
  obtain ⟨a', ha', h'⟩ := (key m hm).2.2.2.2.2.1 hw
  rw [ha] at ha'
  cases ha'
  exact h'

theorem process_intro {eng : Engine β γ} {sub : β → β → γ} {safe : Raster β → (β → β) × (β → β)}
    {want : Bool} {dem filled nf : Raster β} {acc : Raster Int}
    (hf : Returns (eng.fillTerrain dem) (.ok filled))
    (hg : Returns (eng.fillTerrainNoFlats (safe dem).1 (safe dem).2 dem) (.ok nf))
    (ha : want = true → Returns (eng.accumulatedFlow (Flow.terrainFlowdirection eng.drop eng.scale nf true)) (.ok acc)) :
    Returns (process eng sub safe true want dem)
      (.ok ⟨filled, depths sub filled dem, nf, Flow.terrainFlowdirection eng.drop eng.scale nf true,
        if want then some acc else none⟩) := by
  obtain ⟨n1, h1⟩ := hf
  obtain ⟨n2, h2⟩ := hg
  cases want
  · refine ⟨max n1 n2, fun m hm => ?_⟩
    unfold process
    simp [h1 m (le_trans (le_max_left _ _) hm), h2 m (le_trans (le_max_right _ _) hm)]
  · obtain ⟨n3, h3⟩ := ha rfl
    refine ⟨max (max n1 n2) n3, fun m hm => ?_⟩
    unfold process
    simp [h1 m (le_trans (le_trans (le_max_left _ _) (le_max_left _ _)) hm),
      h2 m (le_trans (le_trans (le_max_right _ _) (le_max_left _ _)) hm), h3 m (le_trans (le_max_right _ _) hm)]

end Dem
end Malstroem
