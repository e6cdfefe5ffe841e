/-
Specification vocabulary for the whole chain of tools.
-/
import Verif.Model.Complete
import Verif.Spec.Rain
import Verif.Spec.Flow

namespace Malstroem
namespace Spec

/-- What is assumed of the DEM and of the arithmetic on elevations: at least 2x2 cells with finite elevations; elevation
differences (`sub` for the depths, `drop` for the slopes) and the scaling of diagonal ones have the right sign; adding
`short` or `diag` is monotone, does not lower, keeps finite values finite and raises the elevations that occur on the
no-flats surface, computed by the Python or the compiled fill (see C57). -/
structure SoundTerrain {β K : Type} [LinearOrder β] [OrderTop β] [Zero K] [LT K] (drop sub : β → β → K) (scale : K → K)
    (safe : Raster β → (β → β) × (β → β)) (dem : Raster β) : Prop where
  rows : 2 ≤ dem.rows
  cols : 2 ≤ dem.cols
  drop_pos : ∀ a b, a < ⊤ → b < ⊤ → (0 < drop a b ↔ b < a)
  sub_pos : ∀ a b, dem.Has a → dem.Has b → (0 < sub (dem.get a) (dem.get b) ↔ dem.get b < dem.get a)
  sub_self : ∀ a, dem.Has a → sub (dem.get a) (dem.get a) = 0
  scale_pos : ∀ a b, 0 < scale (drop a b) ↔ 0 < drop a b
  finite : ∀ c, dem.Has c → dem.get c < ⊤
  mono : Monotone (safe dem).1 ∧ Monotone (safe dem).2
  ge : ∀ x, x ≤ (safe dem).1 x ∧ x ≤ (safe dem).2 x
  keep : ∀ x, x < ⊤ → (safe dem).1 x < ⊤ ∧ (safe dem).2 x < ⊤
  strict : ∀ nf, Returns (Fill.fillTerrainNoFlats (safe dem).1 (safe dem).2 dem) (.ok nf) ∨
    Returns (FillCython.fillTerrainNoFlats (safe dem).1 (safe dem).2 dem) (.ok nf) → ∀ c, dem.Has c →
    nf.get c < (safe dem).1 (nf.get c) ∧ nf.get c < (safe dem).2 (nf.get c)

/-- The node feature has no downstream node. -/
def IsRoot {K : Type} [DecidableEq K] (f : Feature K) : Prop := f.properties.get? "dstrnodeid" = some .none

instance {K : Type} [DecidableEq K] (f : Feature K) : Decidable (IsRoot f) := by unfold IsRoot; infer_instance

/-- Feature `g` is `f` with changes in the attributes `keys` only. -/
structure SameBut {K : Type} (keys : List String) (f g : Feature K) : Prop where
  id : g.id = f.id
  geometry : g.geometry = f.geometry
  others : ∀ key ∉ keys, g.properties.get? key = f.properties.get? key

end Spec
end Malstroem
