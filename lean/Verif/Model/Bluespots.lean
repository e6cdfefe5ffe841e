/-
Model of malstroem/bluespots.py and of transform_cell_to_world in malstroem/vector.py.

Numbers (depths, areas, volumes, coordinates) are elements of a linearly ordered field `K`. `fl` is what becomes of the exact
result of an arithmetic operation: a rounding for floating point arithmetic (C78), the identity in the definitions without
`Fl`, which are exact. Coordinates are always exact.
-/
import Verif.Model.LabelCython
import Verif.Model.Dem
import Mathlib.Algebra.Order.Field.Basic
import Mathlib.Algebra.Order.Group.Unbundled.Abs

namespace Malstroem

/-- A computation that may run out of fuel, raise an exception or return. -/
abbrev Run (α : Type) : Type := ReaderT Nat (ExceptT PyErr Option) α

/-- A fuelled function as a `Run`. -/
def Run.ofFuel {α : Type} (f : Nat → Option (Except PyErr α)) : Run α := fun n => f n

/-- A function without loops as a `Run`. -/
def Run.ofExcept {α : Type} (x : Except PyErr α) : Run α := fun _ => some x

/-- `raise e`. -/
def Run.fail {α : Type} (e : PyErr) : Run α := fun _ => some (.error e)

/-- The run returns a value or raises, for every sufficiently large amount of fuel. -/
def Run.Yields {α : Type} (x : Run α) (r : Except PyErr α) : Prop := Returns (fun n => x n) r

/-- A GDAL geotransform: a list of six numbers. -/
structure GeoTransform (K : Type) where
  t0 : K
  t1 : K
  t2 : K
  t3 : K
  t4 : K
  t5 : K

section
variable {K : Type} [Field K] [LinearOrder K]

/-- `gdal.ApplyGeoTransform(gt, pixel, line)` (documented affine formula). -/
def applyGeoTransform (gt : GeoTransform K) (pixel line : K) : K × K :=
  (gt.t0 + pixel * gt.t1 + line * gt.t2, gt.t3 + pixel * gt.t4 + line * gt.t5)

/-- vector.py:21-39 `transform_cell_to_world`. -/
def transformCellToWorld (cell : Cell) (gt : GeoTransform K) : K × K :=
  let row := cell.1
  let col := cell.2
  applyGeoTransform gt ((col : K) + 1 / 2) ((row : K) + 1 / 2)

namespace Bluespots

/-- The dict passed to the filter function (bluespots.py:42-44). -/
structure StatUnits (K : Type) where
  min : WithTop K
  max : WithBot K
  sum : K
  count : Int
  volume : K
  area : K

/-- bluespots.py:23-46 `filterbluespots`. The filter function is any predicate. -/
def filterbluespotsFl (fl : K → K) (filterfunction : StatUnits K → Bool) (cell_area : K) (raw_bluespot_stats : List (Label.Stat K)) :
    List Bool :=
  raw_bluespot_stats.map fun s =>
    filterfunction { min := s.min, max := s.max, sum := s.sum, count := s.count,
                     volume := fl (s.sum * cell_area), area := fl (fl (s.count : K) * cell_area) }

/-- The GeoJSON point feature built for a pour point (bluespots.py:77-87). `fumm = none` stands for the nan or inf
numpy computes when the watershed is empty. -/
structure PourPoint (K : Type) where
  id : Int
  bspot_id : Int
  cell_row : Int
  cell_col : Int
  bspot_dmax : WithBot K
  bspot_area : K
  bspot_vol : K
  wshed_area : K
  bspot_fumm : Option K
  coordinates : K × K

/-- bluespots.py:75-87: one element of the loop. -/
def pourPointFl {β : Type} (fl : K → K) (transform : GeoTransform K) (cell_area : K) (ix : Int) (pp : Label.Index β)
    (bs : Label.Stat K) (ws : Int) : PourPoint K :=
  let bspot_vol := fl (bs.sum * cell_area)
  let wshed_area := fl (fl (ws : K) * cell_area)
  { id := ix
    bspot_id := ix
    cell_row := pp.row
    cell_col := pp.col
    bspot_dmax := bs.max
    bspot_area := fl (fl (bs.count : K) * cell_area)
    bspot_vol := bspot_vol
    wshed_area := wshed_area
    bspot_fumm := if wshed_area = 0 then none else some (fl (fl (1000 * bspot_vol) / wshed_area))
    coordinates := transformCellToWorld (pp.row, pp.col) transform }

/-- bluespots.py:49-88 `assemble_pourpoints`: `enumerate(zip(...))` stops at the shortest list. -/
def assemblePourpointsFl {β : Type} (fl : K → K) (transform : GeoTransform K) (pp_pix : List (Label.Index β))
    (bluespot_stats : List (Label.Stat K)) (watershed_stats : List Int) : List (PourPoint K) :=
  let cell_width := |transform.t1|
  let cell_height := |transform.t5|
  let cell_area := fl (cell_width * cell_height)
  ((pp_pix.zip (bluespot_stats.zip watershed_stats)).zipIdx).map fun s =>
    pourPointFl fl transform cell_area (s.2 : Int) s.1.1 s.1.2.1 s.1.2.2

/-- label.py:19-40 `connected_components`: the external `scipy.ndimage.label` with the 3x3 structure of ones. The
parameter `cc` is this external function on the raster of non-zero cells. -/
def connectedComponents {α : Type} [Zero α] [DecidableEq α] (cc : Raster Bool → Raster Int × Nat) (data : Raster α) :
    Raster Int × Nat :=
  cc { rows := data.rows, cols := data.cols, get := fun c => data.get c ≠ 0 }

/-- The functions BluespotTool looks up in `fill`, `flow` and `label` that `speedups.enable()` replaces
(speedups/__init__.py:37-80). `label_count` and `label_max_index` have no compiled version. -/
structure Engine (β K : Type) where
  fillTerrainNoFlats : (β → β) → (β → β) → Raster β → Nat → Option (Except PyErr (Raster β))
  watershedsFromLabels : Raster Nat → Raster Int → Int → Nat → Option (Except PyErr (Raster Int))
  labelStats : Raster K → Raster Int → Option Int → Except PyErr (List (Label.Stat K))
  labelMinIndex : Raster β → Raster Int → Option Int → Except PyErr (List (Label.Index β))

/-- Pure Python functions. -/
def pythonFl {β : Type} [LinearOrder β] [OrderTop β] (fl : K → K) : Engine β K where
  fillTerrainNoFlats := Fill.fillTerrainNoFlats
  watershedsFromLabels := Flow.watershedsFromLabels
  labelStats := Label.labelStatsFl fl
  labelMinIndex := Label.labelMinIndex

/-- Compiled functions. -/
def compiledFl {β : Type} [LinearOrder β] [OrderTop β] (fl : K → K) (junk : Int × Int) : Engine β K where
  fillTerrainNoFlats := FillCython.fillTerrainNoFlats
  watershedsFromLabels := fun fd lab unassigned n => (FlowCython.watershedsFromLabels junk fd lab unassigned n).map .ok
  labelStats := LabelCython.labelStatsFl fl
  labelMinIndex := LabelCython.labelMinIndex

/-- What BluespotTool writes. -/
structure Out (K : Type) where
  labeled : Raster Int
  nlabels : Nat
  watersheds : Raster Int
  pourpoints : List (PourPoint K)

/-- bluespots.py:138-219 `BluespotTool.process` (and the assertion of its constructor, line 134). Not modelled: reading
and writing files and the optional vectorisation. Without a filter function the names `labeled`, `nlabels` and
`bluespot_stats` are never assigned (lines 161-163), so line 185 raises UnboundLocalError. -/
def processFl {β : Type} [LinearOrder β] [OrderTop β] (fl : K → K) (cc : Raster Bool → Raster Int × Nat) (eng : Engine β K)
    (safe : Raster β → (β → β) × (β → β)) (transform : GeoTransform K) (depths : Raster K)
    (filter_function : Option (StatUnits K → Bool)) (flowdir : Raster Nat) (input_accum : Option (Raster Int))
    (input_dem : Option (Raster β)) : Run (Out K) := do
  if input_accum.isNone ∧ input_dem.isNone then Run.fail .assertionError
  else
    let cell_width := |transform.t1|
    let cell_height := |transform.t5|
    let cell_area := fl (cell_width * cell_height)
    if ¬ |fl (cell_width - cell_height)| < fl (fl (1 / 100) * |cell_width|) then Run.fail .assertionError
    else
      let raw := connectedComponents cc depths
      let raw_bluespot_stats ← Run.ofExcept (eng.labelStats depths raw.1 none)
      match filter_function with
      | none => Run.fail .nameError
      | some filterfunction =>
        let keepers := filterbluespotsFl fl filterfunction cell_area raw_bluespot_stats
        let new_components ← Run.ofExcept (Label.keepLabels raw.1 keepers 0)
        let lab := cc new_components
        let labeled := lab.1
        let nlabels := lab.2
        let bluespot_stats ← Run.ofExcept (eng.labelStats depths labeled none)
        let watersheds ← Run.ofFuel (eng.watershedsFromLabels flowdir labeled 0)
        let watershed_stats ← Run.ofExcept (Label.labelCount watersheds)
        match input_accum, input_dem with
        | some accum, _ =>
          let accum : Raster (WithBot Int) := { rows := accum.rows, cols := accum.cols, get := fun c => (accum.get c : WithBot Int) }
          let pp_pix ← Run.ofExcept (Label.labelMaxIndex accum labeled (some nlabels))
          pure { labeled := labeled, nlabels := nlabels, watersheds := watersheds,
                 pourpoints := assemblePourpointsFl fl transform pp_pix bluespot_stats watershed_stats }
        | none, some dem =>
          let sd := safe dem
          let filled_no_flats ← Run.ofFuel (eng.fillTerrainNoFlats sd.1 sd.2 dem)
          let pp_pix ← Run.ofExcept (eng.labelMinIndex filled_no_flats labeled (some nlabels))
          pure { labeled := labeled, nlabels := nlabels, watersheds := watersheds,
                 pourpoints := assemblePourpointsFl fl transform pp_pix bluespot_stats watershed_stats }
        | none, none => Run.fail .other

/-- bluespots.py:23-46 `filterbluespots` with exact arithmetic. -/
abbrev filterbluespots (filterfunction : StatUnits K → Bool) := filterbluespotsFl id filterfunction

/-- bluespots.py:75-87 with exact arithmetic. -/
abbrev pourPoint {β : Type} (transform : GeoTransform K) (cell_area : K) (ix : Int) (pp : Label.Index β) :=
  pourPointFl id transform cell_area ix pp

/-- bluespots.py:49-88 `assemble_pourpoints` with exact arithmetic. -/
abbrev assemblePourpoints {β : Type} (transform : GeoTransform K) (pp_pix : List (Label.Index β)) :=
  assemblePourpointsFl id transform pp_pix

/-- Pure Python functions with exact arithmetic. -/
abbrev python {β : Type} [LinearOrder β] [OrderTop β] : Engine β K := pythonFl id

/-- Compiled functions with exact arithmetic. -/
abbrev compiled {β : Type} [LinearOrder β] [OrderTop β] (junk : Int × Int) : Engine β K := compiledFl id junk

/-- bluespots.py:138-219 `BluespotTool.process` with exact arithmetic. -/
abbrev process {β : Type} [LinearOrder β] [OrderTop β] (cc : Raster Bool → Raster Int × Nat) (eng : Engine β K) :=
  processFl id cc eng

end Bluespots
end
end Malstroem
