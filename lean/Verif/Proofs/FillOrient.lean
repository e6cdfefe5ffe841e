import Verif.Proofs.FillMain

set_option linter.unusedSectionVars false

namespace Malstroem
open Spec

/-- A relabelling of cells that maps one raster onto another and keeps neighbourhood and edge. -/
structure GridMap (rows cols rows' cols' : Nat) (σ : Cell → Cell) : Prop where
  grid : ∀ c, InGrid rows cols c → InGrid rows' cols' (σ c)
  edge : ∀ c, OnEdge rows cols c → OnEdge rows' cols' (σ c)
  adj : ∀ a b, Adj a b → Adj (σ a) (σ b)

theorem GridMap.escape {rows cols rows' cols' : Nat} {σ : Cell → Cell} (h : GridMap rows cols rows' cols' σ)
    {c : Cell} {p : List Cell} (hp : IsEscape rows cols c p) : IsEscape rows' cols' (σ c) (p.map σ) where
  head := by
    have := hp.head
    cases p with
    | nil => simp at this
    | cons a q => simp at this; simp [this]
  chain := List.isChain_map_of_isChain σ (fun a b hab => h.adj a b hab) hp.chain
  inside := by
    intro x hx
    obtain ⟨y, hy, rfl⟩ := List.mem_map.1 hx
    exact h.grid y (hp.inside y hy)
  exit := by
    obtain ⟨e, he, he2⟩ := hp.exit
    exact ⟨σ e, by rw [List.getLast?_map, he]; rfl, h.edge e he2⟩

theorem GridMap.spill {β : Type*} [LinearOrder β] {rows cols rows' cols' : Nat} {σ τ : Cell → Cell}
    (h : GridMap rows cols rows' cols' σ) (h' : GridMap rows' cols' rows cols τ)
    (hτσ : ∀ c, InGrid rows cols c → τ (σ c) = c) {dem dem' : Cell → β}
    (hd : ∀ c, InGrid rows cols c → dem' (σ c) = dem c)
    (hd' : ∀ c, InGrid rows' cols' c → dem (τ c) = dem' c)
    {c : Cell} (hc : InGrid rows cols c) {z : β}
    (hz : IsSpillLevel rows cols dem c z) : IsSpillLevel rows' cols' dem' (σ c) z := by
  have high : ∀ {r k r' k' : Nat} {φ : Cell → Cell} {d d' : Cell → β} {p : List Cell} {z : β},
      (∀ x ∈ p, InGrid r k x) → (∀ c, InGrid r k c → d' (φ c) = d c) → IsHighest d p z → IsHighest d' (p.map φ) z := by
    intro r k r' k' φ d d' p z hin hdd hz
    constructor
    · obtain ⟨x, hx, hx2⟩ := hz.1
      exact ⟨φ x, List.mem_map_of_mem hx, by rw [hdd x (hin x hx), hx2]⟩
    · rintro y ⟨x, hx, rfl⟩
      obtain ⟨w, hw, rfl⟩ := List.mem_map.1 hx
      rw [hdd w (hin w hw)]
      exact hz.2 ⟨w, hw, rfl⟩
  constructor
  · obtain ⟨p, hp, hh⟩ := hz.1
    exact ⟨p.map σ, h.escape hp, high (r' := 0) (k' := 0) hp.inside hd hh⟩
  · rintro y ⟨p, hp, hh⟩
    refine hz.2 ⟨p.map τ, ?_, high (r' := 0) (k' := 0) hp.inside hd' hh⟩
    have := h'.escape hp
    rwa [hτσ c hc] at this

theorem gridMap_transpose (rows cols : Nat) : GridMap rows cols cols rows (fun c => (c.2, c.1)) := by
  constructor
  · rintro ⟨r, c⟩ h; unfold InGrid at *; simp only at *; omega
  · rintro ⟨r, c⟩ h; unfold OnEdge InGrid at *; simp only at *; omega
  · rintro ⟨r, c⟩ ⟨r', c'⟩ h
    unfold Adj at *
    simp only [ne_eq, Prod.mk.injEq] at *
    exact ⟨fun hh => h.1 ⟨hh.2, hh.1⟩, h.2.2, h.2.1⟩

theorem gridMap_flipud (rows cols : Nat) : GridMap rows cols rows cols (fun c => ((rows : Int) - 1 - c.1, c.2)) := by
  constructor
  · rintro ⟨r, c⟩ h; unfold InGrid at *; simp only at *; omega
  · rintro ⟨r, c⟩ h; unfold OnEdge InGrid at *; simp only at *; omega
  · rintro ⟨r, c⟩ ⟨r', c'⟩ h
    unfold Adj at *
    simp only [ne_eq, Prod.mk.injEq, abs_le] at *
    refine ⟨fun hh => h.1 ?_, ?_, ?_⟩ <;> omega

theorem gridMap_fliplr (rows cols : Nat) : GridMap rows cols rows cols (fun c => (c.1, (cols : Int) - 1 - c.2)) := by
  constructor
  · rintro ⟨r, c⟩ h; unfold InGrid at *; simp only at *; omega
  · rintro ⟨r, c⟩ h; unfold OnEdge InGrid at *; simp only at *; omega
  · rintro ⟨r, c⟩ ⟨r', c'⟩ h
    unfold Adj at *
    simp only [ne_eq, Prod.mk.injEq, abs_le] at *
    refine ⟨fun hh => h.1 ?_, ?_, ?_⟩ <;> omega

end Malstroem
