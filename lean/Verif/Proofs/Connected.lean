/-
Connectedness by king moves: equivalence with the reflexive transitive closure.
-/
import Verif.Proofs.FillCore
import Mathlib.Logic.Relation

namespace Malstroem
open Spec

/-- One king move between cells of `S`. -/
def AdjIn (S : Cell → Prop) (a b : Cell) : Prop := Adj a b ∧ S a ∧ S b

theorem connectedIn_iff {S : Cell → Prop} {a b : Cell} :
    ConnectedIn S a b ↔ S a ∧ Relation.ReflTransGen (AdjIn S) a b := by
  constructor
  · rintro ⟨p, h1, h2, h3, h4⟩
    induction p generalizing a with
    | nil => simp at h1
    | cons x p ih =>
      have hx : x = a := by simpa using h1
      subst hx
      refine ⟨h4 x (by simp), ?_⟩
      cases p with
      | nil =>
        have : x = b := by simpa using h2
        subst this; exact .refl
      | cons y p =>
        have hc := List.isChain_cons_cons.1 h3
        have := ih rfl (by rwa [List.getLast?_cons_cons] at h2) hc.2 (fun z hz => h4 z (List.mem_cons_of_mem _ hz))
        exact .head ⟨hc.1, h4 x (by simp), h4 y (by simp)⟩ this.2
  · rintro ⟨ha, h⟩
    induction h using Relation.ReflTransGen.head_induction_on with
    | refl => exact ⟨[b], rfl, rfl, List.isChain_singleton _, by simpa using ha⟩
    | @head x y hxy _ ih =>
      obtain ⟨p, h1, h2, h3, h4⟩ := ih hxy.2.2
      cases p with
      | nil => simp at h1
      | cons z p =>
        have hz : z = y := by simpa using h1
        subst hz
        refine ⟨x :: z :: p, rfl, by rw [List.getLast?_cons_cons]; exact h2, List.isChain_cons_cons.2 ⟨hxy.1, h3⟩, ?_⟩
        intro w hw
        rcases List.mem_cons.1 hw with rfl | hw
        · exact ha
        · exact h4 w hw

theorem Spec.ConnectedIn.left {S : Cell → Prop} {a b : Cell} (h : ConnectedIn S a b) : S a := (connectedIn_iff.1 h).1

theorem adjIn_symm {S : Cell → Prop} {a b : Cell} (h : AdjIn S a b) : AdjIn S b a :=
  ⟨adj_symm h.1, h.2.2, h.2.1⟩

theorem Spec.ConnectedIn.right {S : Cell → Prop} {a b : Cell} (h : ConnectedIn S a b) : S b := by
  obtain ⟨h1, h2⟩ := connectedIn_iff.1 h
  rcases Relation.ReflTransGen.cases_tail h2 with rfl | ⟨u, _, hu⟩
  · exact h1
  · exact hu.2.2

theorem Spec.ConnectedIn.symm {S : Cell → Prop} {a b : Cell} (h : ConnectedIn S a b) : ConnectedIn S b a := by
  refine connectedIn_iff.2 ⟨h.right, ?_⟩
  have := (connectedIn_iff.1 h).2
  induction this with
  | refl => exact .refl
  | tail _ hs ih => exact .head (adjIn_symm hs) (ih ((connectedIn_iff.2 ⟨h.left, by assumption⟩)))

theorem Spec.ConnectedIn.trans {S : Cell → Prop} {a b c : Cell} (h : ConnectedIn S a b) (h' : ConnectedIn S b c) :
    ConnectedIn S a c :=
  connectedIn_iff.2 ⟨h.left, (connectedIn_iff.1 h).2.trans (connectedIn_iff.1 h').2⟩

theorem Spec.ConnectedIn.refl {S : Cell → Prop} {a : Cell} (h : S a) : ConnectedIn S a a :=
  connectedIn_iff.2 ⟨h, .refl⟩

theorem Spec.ConnectedIn.mono {S T : Cell → Prop} {a b : Cell} (h : ConnectedIn S a b) (hST : ∀ x, S x → T x) :
    ConnectedIn T a b := by
  obtain ⟨p, h1, h2, h3, h4⟩ := h
  exact ⟨p, h1, h2, h3, fun x hx => hST x (h4 x hx)⟩

theorem Spec.ConnectedIn.step {S : Cell → Prop} {a b : Cell} (h : Adj a b) (ha : S a) (hb : S b) : ConnectedIn S a b :=
  connectedIn_iff.2 ⟨ha, .single ⟨h, ha, hb⟩⟩

end Malstroem
