/-
Specification vocabulary: the numbers of the bluespots.
-/
import Verif.Spec.Direct

namespace Malstroem
namespace Spec

/-- `σ` exchanges the numbers 1 to `n` and keeps 0. -/
structure IsRenumbering (n : Nat) (σ : Nat → Nat) : Prop where
  zero : σ 0 = 0
  range : ∀ l ≤ n, σ l ≤ n
  injective : ∀ a ≤ n, ∀ b ≤ n, σ a = σ b → a = b

/-- The two pour point records say the same, apart from the numbers of their bluespots. -/
structure SamePoint {K : Type} (p q : Bluespots.PourPoint K) : Prop where
  cell : q.cell_row = p.cell_row ∧ q.cell_col = p.cell_col
  area : q.bspot_area = p.bspot_area
  vol : q.bspot_vol = p.bspot_vol
  wshed_area : q.wshed_area = p.wshed_area
  fumm : q.bspot_fumm = p.bspot_fumm
  coordinates : q.coordinates = p.coordinates

/-- Two runs of the chain agree up to the renumbering `σ` of the bluespots. -/
structure SameButNumbers {β K : Type} (rows cols : Nat) (σ : Nat → Nat) (out out' : Complete.Out β K) : Prop where
  dem : out'.dem = out.dem
  nlabels : out'.bluespots.nlabels = out.bluespots.nlabels
  numbers : IsRenumbering out.bluespots.nlabels σ
  labeled : ∀ c, InGrid rows cols c → out'.bluespots.labeled.get c = σ (out.bluespots.labeled.get c).toNat
  watersheds : ∀ c, InGrid rows cols c → out'.bluespots.watersheds.get c = σ (out.bluespots.watersheds.get c).toNat
  points : ∀ l ≤ out.bluespots.nlabels, ∃ p q, out.bluespots.pourpoints[l]? = some p ∧ out'.bluespots.pourpoints[σ l]? = some q ∧
    SamePoint p q ∧ (1 ≤ l → q.bspot_dmax = p.bspot_dmax) ∧ p.bspot_id = l ∧ q.bspot_id = σ l

end Spec
end Malstroem
