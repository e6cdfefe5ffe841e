/-
The contract of connected component labelling can be met on every raster.
-/
import Verif.Proofs.Bluespots
import Mathlib.SetTheory.Cardinal.NatCard
import Mathlib.Data.Set.Finite.Basic

namespace Malstroem
open Spec

theorem grid_finite (rows cols : Nat) : {c : Cell | InGrid rows cols c}.Finite := by
  refine Set.Finite.subset (List.finite_toSet (Raster.cellList rows cols)) ?_
  intro c hc
  exact Flow.mem_cellList.2 hc

theorem exists_labelling (rows cols : Nat) (wet : Cell → Prop) :
    ∃ (lab : Cell → Int) (n : Nat), IsLabelling rows cols wet lab n := by
  classical
  let S : Cell → Prop := fun x => InGrid rows cols x ∧ wet x
  let W := {c : Cell // S c}
  have : Finite W := ((grid_finite rows cols).subset (fun c (hc : S c) => hc.1)).to_subtype
  let st : Setoid W := {
    r := fun a b => ConnectedIn S a.1 b.1
    iseqv := ⟨fun a => .refl a.2, fun h => h.symm, fun h1 h2 => h1.trans h2⟩ }
  have : Finite (Quotient st) := Quotient.finite st
  let e := Finite.equivFin (Quotient st)
  refine ⟨fun c => if h : S c then ((e (Quotient.mk st ⟨c, h⟩)).val : Int) + 1 else 0, Nat.card (Quotient st), ?_, ?_, ?_, ?_⟩
  · intro c hc
    by_cases h : S c
    · simp only [dif_pos h]
      exact ⟨fun h0 => by omega, fun h0 => absurd h.2 h0⟩
    · simp only [dif_neg h, true_iff]
      exact fun hw => h ⟨hc, hw⟩
  · intro c hc
    by_cases h : S c
    · simp only [dif_pos h]
      have := (e (Quotient.mk st ⟨c, h⟩)).isLt
      omega
    · simp only [dif_neg h]; omega
  · intro l h1 h2
    obtain ⟨⟨c, hS⟩, hc⟩ := Quotient.exists_rep (e.symm ⟨l - 1, by omega⟩)
    refine ⟨c, hS.1, ?_⟩
    simp only [dif_pos hS]
    have : e (Quotient.mk st ⟨c, hS⟩) = ⟨l - 1, by omega⟩ := by rw [hc]; simp
    rw [this]
    simp only
    omega
  · intro a b ha hb hwa hwb
    have hSa : S a := ⟨ha, hwa⟩
    have hSb : S b := ⟨hb, hwb⟩
    simp only [dif_pos hSa, dif_pos hSb]
    constructor
    · intro h
      have h' : (e (Quotient.mk st ⟨a, hSa⟩)).val = (e (Quotient.mk st ⟨b, hSb⟩)).val := by omega
      exact Quotient.exact (e.injective (Fin.ext h'))
    · intro h
      have : Quotient.mk st ⟨a, hSa⟩ = Quotient.mk st ⟨b, hSb⟩ := Quotient.sound h
      rw [this]

/-- There is a labelling function meeting the contract. -/
theorem exists_labelContract : ∃ cc, LabelContract cc := by
  classical
  refine ⟨fun r => (⟨r.rows, r.cols, Classical.choose (exists_labelling r.rows r.cols fun c => r.get c = true)⟩,
    Classical.choose (Classical.choose_spec (exists_labelling r.rows r.cols fun c => r.get c = true))), fun r => ?_⟩
  exact ⟨rfl, rfl, Classical.choose_spec (Classical.choose_spec (exists_labelling r.rows r.cols fun c => r.get c = true))⟩

end Malstroem
