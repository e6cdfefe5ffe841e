/-
Specification: what becomes of results in other units of length and height and with another origin of coordinates.
-/
import Verif.Model.Complete
import Verif.Spec.Vector

namespace Malstroem
namespace Spec

/-- A change of units and of the origin of coordinates: `len` new units of length make up an old one, `height` new units
of height (elevations, depths, rain) make up an old one, and the old origin has the coordinates `dx`, `dy`. -/
structure UnitChange (K : Type) where
  len : K
  height : K
  dx : K
  dy : K

namespace UnitChange
variable {K : Type} [Field K] [LinearOrder K] (u : UnitChange K)

/-- New units of area in an old one. -/
def area : K := u.len * u.len

/-- New units of volume in an old one. -/
def volume : K := u.area * u.height

/-- The new coordinates of a point. -/
def point (p : K × K) : K × K := (u.len * p.1 + u.dx, u.len * p.2 + u.dy)

/-- The georeference that gives every point of the raster its new coordinates. -/
def transform (gt : GeoTransform K) : GeoTransform K where
  t0 := u.len * gt.t0 + u.dx
  t1 := u.len * gt.t1
  t2 := u.len * gt.t2
  t3 := u.len * gt.t3 + u.dy
  t4 := u.len * gt.t4
  t5 := u.len * gt.t5

/-- How many new units of an attribute make up an old one. Ids, rows and columns, counts and percentages have no unit. -/
def factor (name : String) : Option K :=
  if name ∈ ["bspot_area", "wshed_area", "cell_area"] then some u.area
  else if name ∈ ["bspot_vol", "inputv", "spillv", "v"] then some u.volume
  else if name ∈ ["bspot_dmax", "bspot_fumm", "hist_lower_bound", "hist_upper_bound", "hist_resolution", "zmin", "zmax",
    "approx_z", "approx_dmax"] then some u.height
  else none

/-- A value in new units. -/
def value : Option K → Val K → Val K
  | some k, .num x => .num (k * x)
  | some k, .int i => .num (k * i)
  | _, v => v

/-- The attributes of a feature in new units. -/
def props (p : Props K) : Props K := p.map fun kv => (kv.1, value (u.factor kv.1) kv.2)

/-- A geometry in new coordinates. -/
def geometry : Geometry K → Geometry K
  | .none => .none
  | .point xy => .point (u.point xy)
  | .lineString l => .lineString (l.map u.point)

/-- A feature in new units and coordinates. -/
def feature (f : Feature K) : Feature K := ⟨f.id, u.geometry f.geometry, u.props f.properties⟩

/-- A feature of the layer `hypsometry` in new units and coordinates. Without bins there is no resolution: the attribute
`hist_resolution` is then -1 in every unit. -/
def hypsFeature (f : Feature K) : Feature K :=
  if Dict.get? f.properties "hist_num_bins" = some (.int 0) then
    ⟨f.id, u.geometry f.geometry,
      f.properties.map fun kv => (kv.1, if kv.1 = "hist_resolution" then kv.2 else value (u.factor kv.1) kv.2)⟩
  else u.feature f

/-- What a filter is asked about, in new units. -/
def stats (s : Bluespots.StatUnits K) : Bluespots.StatUnits K where
  min := s.min.map (u.height * ·)
  max := s.max.map (u.height * ·)
  sum := u.height * s.sum
  count := s.count
  volume := u.volume * s.volume
  area := u.area * s.area

/-- A pour point in new units and coordinates. -/
def pourPoint (p : Bluespots.PourPoint K) : Bluespots.PourPoint K where
  id := p.id
  bspot_id := p.bspot_id
  cell_row := p.cell_row
  cell_col := p.cell_col
  bspot_dmax := p.bspot_dmax.map (u.height * ·)
  bspot_area := u.area * p.bspot_area
  bspot_vol := u.volume * p.bspot_vol
  wshed_area := u.area * p.wshed_area
  bspot_fumm := p.bspot_fumm.map (u.height * ·)
  coordinates := u.point p.coordinates

/-- The results up to the final state, `o` in old and `o'` in new units. `elevation` gives the new elevation of an old one.
Everything that has no unit is the same. -/
structure Results {β β' : Type} (elevation : β → β') (o : Complete.Out β K) (o' : Complete.Out β' K) : Prop where
  filled : o'.dem.filled = ⟨o.dem.filled.rows, o.dem.filled.cols, fun c => elevation (o.dem.filled.get c)⟩
  depths : o'.dem.depths = ⟨o.dem.depths.rows, o.dem.depths.cols, fun c => u.height * o.dem.depths.get c⟩
  flowdir : o'.dem.flowdir = o.dem.flowdir
  accum : o'.dem.accum = o.dem.accum
  bluespots : o'.bluespots.labeled = o.bluespots.labeled
  nlabels : o'.bluespots.nlabels = o.bluespots.nlabels
  watersheds : o'.bluespots.watersheds = o.bluespots.watersheds
  pourpoints : o'.bluespots.pourpoints = o.bluespots.pourpoints.map u.pourPoint
  nodes : o'.nodes = o.nodes.map u.feature
  streams : o'.streams = o.streams.map u.feature
  volumes : o'.volumes = o.volumes.map u.feature
  final : o'.final = o.final.map u.feature

/-- The layers `hypsometry` and `finallevels` and the rasters `finaldepths` and `finalbluespots`, `l` in old and `l'` in new
units. -/
structure Levels (l l' : Complete.LevelsOut K) : Prop where
  hyps : l'.hyps = l.hyps.map u.hypsFeature
  levels : l'.levels = l.levels.map u.feature
  depths : ∃ d d', l.depths = some d ∧ l'.depths = some d' ∧ d'.rows = d.rows ∧ d'.cols = d.cols ∧
    ∀ c, d.Has c → d'.get c = u.height * d.get c
  extent : ∃ e e', l.extent = some e ∧ l'.extent = some e' ∧ e'.rows = e.rows ∧ e'.cols = e.cols ∧
    ∀ c, e.Has c → e'.get c = e.get c

end UnitChange

/-- The run `x'` does what `x` does: it fails with the same error, or it succeeds with results that are related by `R` to those
of `x`. -/
def SameRun {α α' : Type} (R : α → α' → Prop) (x : Run α) (x' : Run α') : Prop :=
  (∀ e, x.Yields (.error e) → x'.Yields (.error e)) ∧
  ∀ out, x.Yields (.ok out) → ∃ out', x'.Yields (.ok out') ∧ R out out'

/-- A geometry moved by `dx`, `dy`. -/
def moveGeometry {K : Type} [Add K] (dx dy : K) : Geometry K → Geometry K
  | .none => .none
  | .point xy => .point (xy.1 + dx, xy.2 + dy)
  | .lineString l => .lineString (l.map fun xy => (xy.1 + dx, xy.2 + dy))

/-- Feature `g` is feature `f`, moved by `dx`, `dy`. Its attributes are the same numbers. -/
structure Moved {K : Type} [Field K] (dx dy : K) (f g : Feature K) : Prop where
  id : g.id = f.id
  geometry : g.geometry = moveGeometry dx dy f.geometry
  attributes : List.Forall₂ (fun kv kv' => kv'.1 = kv.1 ∧ SameNumber kv.2 kv'.2) f.properties g.properties

end Spec
end Malstroem
