/-
Model of malstroem/dem.py (DemTool.process).
-/
import Verif.Model.FillCython
import Verif.Model.FlowCython

namespace Malstroem
namespace Dem

/-- dem.py:71 `depths = filled - dem`. `sub` is the (rounded) subtraction. -/
def depths {β γ : Type*} (sub : β → β → γ) (filled dem : Raster β) : Raster γ where
  rows := filled.rows
  cols := filled.cols
  get := fun c => sub (filled.get c) (dem.get c)

/-- The functions DemTool looks up in `fill` and `flow`; `speedups.enable()` replaces them (speedups/__init__.py:37-80).
`drop` and `scale` are the elevation difference and the treatment of diagonal drops in `_terrain_flow`. -/
structure Engine (β γ : Type*) where
  fillTerrain : Raster β → Nat → Option (Except PyErr (Raster β))
  fillTerrainNoFlats : (β → β) → (β → β) → Raster β → Nat → Option (Except PyErr (Raster β))
  drop : β → β → γ
  scale : γ → γ
  accumulatedFlow : Raster Nat → Nat → Option (Except PyErr (Raster Int))

section
variable {β γ : Type*} [LinearOrder β] [OrderTop β]

/-- Pure Python functions. `drop` is the float64 subtraction, `scale` is `/ SQRT2`. -/
def python (drop : β → β → γ) (scale : γ → γ) : Engine β γ where
  fillTerrain := Fill.fillTerrain
  fillTerrainNoFlats := Fill.fillTerrainNoFlats
  drop := drop
  scale := scale
  accumulatedFlow := Flow.accumulatedFlow

/-- Compiled functions. `drop` is the float64 subtraction, `scale` is `* INV_SQRT2`. -/
def compiled (junk : Int × Int) (drop : β → β → γ) (scale : γ → γ) : Engine β γ where
  fillTerrain := FillCython.fillTerrain
  fillTerrainNoFlats := FillCython.fillTerrainNoFlats
  drop := drop
  scale := scale
  accumulatedFlow := fun fd n => (FlowCython.accumulatedFlow junk fd n).map .ok

/-- The rasters DemTool writes. `noFlats` is not written; it is kept to state properties. -/
structure Out (β γ : Type*) where
  filled : Raster β
  depths : Raster γ
  noFlats : Raster β
  flowdir : Raster Nat
  accum : Option (Raster Int)

variable [LT γ] [DecidableLT γ] [Zero γ]

/-- dem.py:52-93 `DemTool.process`. `square` is the outcome of the assertion in lines 58-59 that cells are square. `sub` is
the float32 subtraction in line 71. `safe`
is `minimum_safe_short_and_diag` (fill.py:235-250), given as the two operations `+ short` and `+ diag`.
The dtype conversion in line 55 and the reading/writing of rasters are not modelled. -/
def process (eng : Engine β γ) (sub : β → β → γ) (safe : Raster β → (β → β) × (β → β)) (square want_accum : Bool)
    (dem : Raster β) (fuel : Nat) : Option (Except PyErr (Out β γ)) :=
  if ¬ square then some (.error .assertionError)
  else
    match eng.fillTerrain dem fuel with
    | none => none
    | some (.error e) => some (.error e)
    | some (.ok filled) =>
      let depths := depths sub filled dem
      let (short, diag) := safe dem
      match eng.fillTerrainNoFlats short diag dem fuel with
      | none => none
      | some (.error e) => some (.error e)
      | some (.ok filled_no_flats) =>
        let flowdir := Flow.terrainFlowdirection eng.drop eng.scale filled_no_flats true
        if want_accum then
          match eng.accumulatedFlow flowdir fuel with
          | none => none
          | some (.error e) => some (.error e)
          | some (.ok accum) => some (.ok ⟨filled, depths, filled_no_flats, flowdir, some accum⟩)
        else some (.ok ⟨filled, depths, filled_no_flats, flowdir, none⟩)

end
end Dem
end Malstroem
