/-
Specification vocabulary: a drainage basin in a window of the DEM.
-/
import Verif.Spec.Direct
import Verif.Spec.Window

namespace Malstroem
namespace Spec

/-- The window covers a basin, the cells `S` of the DEM: whatever flows to a cell of it or from one is of it; its cells and
their neighbours lie in the window; and neighbours that are not of it have not been raised in the terrain `nf` without flats
(they are ground that water of the basin would have to climb). -/
structure CoversBasin {β : Type*} (win dem nf : Raster β) (fd : Cell → Nat) (o : Cell) (S : Cell → Prop) : Prop where
  inside : ∀ c, S c → dem.Has c
  whole : ∀ a b, Step dem.rows dem.cols fd a b → (S a ↔ S b)
  covered : ∀ c, S c → ∀ x, dem.Has x → x = c ∨ Adj c x → ∃ y, win.Has y ∧ x = shift o y
  ridge : ∀ c, S c → ∀ x, dem.Has x → Adj c x → ¬ S x → nf.get x = dem.get x

/-- The bluespot `l` lies in the basin `S`. -/
def SpotIn (lab : Cell → Int) (n : Nat) (S : Cell → Prop) (l : Nat) : Prop := 1 ≤ l ∧ l ≤ n ∧ ∃ c, S c ∧ lab c = l

variable {β K : Type}

/-- A run on a window and a run on the whole DEM agree over the basin `S`, where the bluespot `l` of the DEM has the number
`σ l` in the window: water surface, depths, flow, bluespots, watersheds and pour points. -/
structure SameBasin (rows cols rows' cols' : Nat) (o : Cell) (S : Cell → Prop) (σ : Nat → Nat) (out out' : Complete.Out β K) :
    Prop where
  terrain : ∀ y, InGrid rows' cols' y → S (shift o y) → out'.dem.filled.get y = out.dem.filled.get (shift o y) ∧
    out'.dem.depths.get y = out.dem.depths.get (shift o y) ∧ out'.dem.flowdir.get y = out.dem.flowdir.get (shift o y)
  background : σ 0 = 0
  named : ∀ c, InGrid rows cols c → S c →
    (out.bluespots.labeled.get c ≠ 0 →
      SpotIn out.bluespots.labeled.get out.bluespots.nlabels S (out.bluespots.labeled.get c).toNat) ∧
    (out.bluespots.watersheds.get c ≠ 0 →
      SpotIn out.bluespots.labeled.get out.bluespots.nlabels S (out.bluespots.watersheds.get c).toNat)
  labels : ∀ y, InGrid rows' cols' y → S (shift o y) →
    out'.bluespots.labeled.get y = σ (out.bluespots.labeled.get (shift o y)).toNat ∧
    out'.bluespots.watersheds.get y = σ (out.bluespots.watersheds.get (shift o y)).toNat
  spots : ∀ l : Nat, SpotIn out.bluespots.labeled.get out.bluespots.nlabels S l → 1 ≤ σ l ∧ σ l ≤ out'.bluespots.nlabels ∧
    (∀ c, InGrid rows cols c → out.bluespots.labeled.get c = l ∨ out.bluespots.watersheds.get c = l → S c) ∧
    ∀ y, InGrid rows' cols' y → (out'.bluespots.labeled.get y = σ l ↔ out.bluespots.labeled.get (shift o y) = l) ∧
      (out'.bluespots.watersheds.get y = σ l ↔ out.bluespots.watersheds.get (shift o y) = l)
  points : ∀ l : Nat, SpotIn out.bluespots.labeled.get out.bluespots.nlabels S l → ∃ p q,
    out.bluespots.pourpoints[l]? = some p ∧ out'.bluespots.pourpoints[σ l]? = some q ∧
    (p.cell_row, p.cell_col) = shift o (q.cell_row, q.cell_col) ∧ q.coordinates = p.coordinates ∧ q.bspot_dmax = p.bspot_dmax ∧
    q.bspot_area = p.bspot_area ∧ q.bspot_vol = p.bspot_vol ∧ q.wshed_area = p.wshed_area ∧ q.bspot_fumm = p.bspot_fumm

/-- The cells `B` of a window, as cells of the DEM it is cut out of at `o`. -/
def Placed (o : Cell) (B : Cell → Prop) (c : Cell) : Prop := ∃ y, B y ∧ c = shift o y

/-- Runs on two DEMs agree over the basin `B`, cells of a window cut out of the one at `o` and out of the other at `o'`. The
bluespot `l` of the one has the number `τ l` in the other. -/
structure SharedBasin (rows cols rows' cols' : Nat) (o o' : Cell) (B : Cell → Prop) (τ : Nat → Nat) (out out' : Complete.Out β K) :
    Prop where
  terrain : ∀ y, B y → out'.dem.filled.get (shift o' y) = out.dem.filled.get (shift o y) ∧
    out'.dem.depths.get (shift o' y) = out.dem.depths.get (shift o y) ∧
    out'.dem.flowdir.get (shift o' y) = out.dem.flowdir.get (shift o y)
  background : τ 0 = 0
  labels : ∀ y, B y → out'.bluespots.labeled.get (shift o' y) = τ (out.bluespots.labeled.get (shift o y)).toNat ∧
    out'.bluespots.watersheds.get (shift o' y) = τ (out.bluespots.watersheds.get (shift o y)).toNat
  spots : ∀ l : Nat, SpotIn out.bluespots.labeled.get out.bluespots.nlabels (Placed o B) l →
    SpotIn out'.bluespots.labeled.get out'.bluespots.nlabels (Placed o' B) (τ l) ∧
    (∀ c, InGrid rows cols c → out.bluespots.labeled.get c = l ∨ out.bluespots.watersheds.get c = l → Placed o B c) ∧
    (∀ c, InGrid rows' cols' c → out'.bluespots.labeled.get c = τ l ∨ out'.bluespots.watersheds.get c = τ l → Placed o' B c) ∧
    ∀ y, B y → (out'.bluespots.labeled.get (shift o' y) = τ l ↔ out.bluespots.labeled.get (shift o y) = l) ∧
      (out'.bluespots.watersheds.get (shift o' y) = τ l ↔ out.bluespots.watersheds.get (shift o y) = l)
  all : ∀ l' : Nat, SpotIn out'.bluespots.labeled.get out'.bluespots.nlabels (Placed o' B) l' →
    ∃ l, SpotIn out.bluespots.labeled.get out.bluespots.nlabels (Placed o B) l ∧ τ l = l'
  points : ∀ l : Nat, SpotIn out.bluespots.labeled.get out.bluespots.nlabels (Placed o B) l → ∃ p q y,
    out.bluespots.pourpoints[l]? = some p ∧ out'.bluespots.pourpoints[τ l]? = some q ∧
    (p.cell_row, p.cell_col) = shift o y ∧ (q.cell_row, q.cell_col) = shift o' y ∧ q.coordinates = p.coordinates ∧
    q.bspot_dmax = p.bspot_dmax ∧ q.bspot_area = p.bspot_area ∧ q.bspot_vol = p.bspot_vol ∧ q.wshed_area = p.wshed_area ∧
    q.bspot_fumm = p.bspot_fumm

end Spec
end Malstroem
