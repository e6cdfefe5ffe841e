/-
Specification vocabulary for hypsometry and water levels: the volume of water over given ground elevations, histograms of
elevations, what hypsometry records and level features say. The records are the data the tools write; nothing in this file
models malstroem code except that `fromFlatdict` is used as the reader of the attributes.
-/
import Verif.Model.Hyps
import Mathlib.Algebra.Field.Defs
import Mathlib.Algebra.Order.Ring.Defs
import Mathlib.Algebra.BigOperators.Group.List.Basic

namespace Malstroem
namespace Spec
variable {K : Type} [Field K] [LinearOrder K]

/-- The volume of water with a horizontal surface at `level` over cells of area `area` with ground elevations `zs`. -/
def waterVolume (area : K) (zs : List K) (level : K) : K := (zs.map fun z => area * max 0 (level - z)).sum

/-- How many of the elevations are in `[a, b)`. -/
def countIn (zs : List K) (a b : K) : Nat := (zs.filter fun z => a ≤ z ∧ z < b).length

/-- `counts` is a histogram with bins of width `resolution` from `lower` to `upper` of those elevations that are not
below `lower`; no elevation is at or above `upper`. -/
structure IsHistogramAbove (resolution : K) (zs : List K) (counts : List Int) (lower upper : K) : Prop where
  nonempty : counts ≠ []
  upper_eq : upper = lower + counts.length * resolution
  upper_lt : ∀ z ∈ zs, z < upper
  count : ∀ i : Nat, i < counts.length →
    counts[i]? = some (countIn zs (lower + i * resolution) (lower + (i + 1) * resolution) : Int)

/-- `counts` is a histogram with bins of width `resolution` of all the elevations, without empty bins at its ends. -/
structure IsHistogram (resolution : K) (zs : List K) (counts : List Int) (lower upper : K) : Prop
    extends IsHistogramAbove resolution zs counts lower upper where
  lower_le : ∀ z ∈ zs, lower ≤ z
  first : ∃ z ∈ zs, z < lower + resolution
  last : ∃ z ∈ zs, upper - resolution ≤ z

/-- `x` is the least element of the list. -/
def IsMin (zs : List K) (x : K) : Prop := x ∈ zs ∧ ∀ z ∈ zs, x ≤ z

/-- `x` is the greatest element of the list. -/
def IsMax (zs : List K) (x : K) : Prop := x ∈ zs ∧ ∀ z ∈ zs, z ≤ x

end Spec

open Spec
variable {K : Type} [Field K] [LinearOrder K]

/-- The hypsometry record `s` describes ground elevations `zs`: their minimum and maximum, and their histogram, whose bins
start at multiples of the resolution. -/
structure Hyps.Describes (res : K) (zs : List K) (zmin zmax : K) (s : Hyps.Stats K) : Prop where
  min : IsMin zs zmin
  max : IsMax zs zmax
  zmin_eq : s.zmin = zmin
  zmax_eq : s.zmax = zmax
  resolution : s.zhistogram.bins.resolution = res
  num_bins : s.zhistogram.bins.num_bins = s.zhistogram.counts.length
  hist : IsHistogram res zs s.zhistogram.counts s.zhistogram.bins.lower_bound s.zhistogram.bins.upper_bound
  multiple : ∃ k : Int, s.zhistogram.bins.lower_bound = k * res

/-- What the record of a bluespot says, whatever the sign of its elevations: the histogram may start above the lowest
elevation if that is negative. -/
structure Hyps.Roughly (res : K) (zs : List K) (zmin zmax : K) (s : Hyps.Stats K) : Prop where
  zmin_eq : s.zmin = zmin
  zmax_eq : s.zmax = zmax
  resolution : s.zhistogram.bins.resolution = res
  num_bins : s.zhistogram.bins.num_bins = s.zhistogram.counts.length
  above : IsHistogramAbove res zs s.zhistogram.counts s.zhistogram.bins.lower_bound s.zhistogram.bins.upper_bound
  lower : s.zhistogram.bins.lower_bound ≤ zmin ↔ 0 ≤ zmin ∨ ∃ k : Int, zmin = k * res

/-- The record of the background: no histogram, minimum and maximum of the elevations if there are any. -/
def Hyps.IsBackground (zs : List K) (s : Hyps.Stats K) : Prop :=
  s.zhistogram = ⟨[], ⟨0, 0, 0, -1⟩⟩ ∧ (zs = [] → s.zmin = ⊤ ∧ s.zmax = ⊥) ∧
    (zs ≠ [] → ∃ zmin zmax : K, s.zmin = zmin ∧ s.zmax = zmax ∧ IsMin zs zmin ∧ IsMax zs zmax)

/-- The attributes written by `bluespot_hypsometry_io`. -/
def hypsKeys : List String := ["hist_counts", "hist_num_bins", "hist_lower_bound", "hist_upper_bound",
  "hist_resolution", "zmin", "zmax", "cell_area"]

/-- The feature `g` is `f` with the hypsometry of a bluespot and the cell area added. -/
structure IsHypsFeature [FloorRing K] (area : K) (s : Hyps.Stats K) (f g : Feature K) : Prop where
  id : g.id = f.id
  geometry : g.geometry = f.geometry
  others : ∀ k ∉ hypsKeys, g.properties.get? k = f.properties.get? k
  stats : Hyps.fromFlatdict g.properties = .ok s
  area : g.properties.get? "cell_area" = some (.num area)

/-- The feature `g` is `f` with a water level added; `z` and `dz` are the values of `approx_z` and `approx_dmax`. -/
structure IsLevelFeature (z dz : Val K) (f g : Feature K) : Prop where
  id : g.id = f.id
  geometry : g.geometry = f.geometry
  others : ∀ k, k ≠ "approx_z" → k ≠ "approx_dmax" → g.properties.get? k = f.properties.get? k
  level : g.properties.get? "approx_z" = some z
  depth : g.properties.get? "approx_dmax" = some dz

end Malstroem
