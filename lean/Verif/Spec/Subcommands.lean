/-
C106: the files a subcommand uses, from its options in docs/cli.rst, and what it means that two commands do not depend on each
other.
-/
import Verif.Model.Subcommands

namespace Malstroem
namespace Command

/-- The files given by the options of a subcommand other than `-out`, `-out_depths`, `-out_bluespots`. -/
def givenFiles {K : Type} : Sub K → List Path
  | .filled dem _ => [dem]
  | .depths dem filled _ => [dem, filled]
  | .flowdir dem _ => [dem]
  | .accum flowdir _ => [flowdir]
  | .bspots depths _ _ => [depths]
  | .wsheds bluespots flowdir _ => [bluespots, flowdir]
  | .pourpts bluespots depths watersheds dem accum _ _ => [bluespots, depths, watersheds] ++ dem.toList ++ accum.toList
  | .polys raster _ _ => [raster]
  | .network bluespots flowdir pourpoints _ _ _ _ => [bluespots, flowdir, pourpoints]
  | .hyps bluespots dem pourpoints _ _ _ _ => [bluespots, dem, pourpoints]
  | .initvolumes nodes _ _ pr _ bluespots _ _ _ => [nodes] ++ pr.toList ++ bluespots.toList
  | .finalvolumes inputvolumes _ _ _ _ => [inputvolumes]
  | .finallevels finalvols _ hyps _ _ _ => [finalvols, hyps]
  | .finalbluespots bluespots dem finallevels _ _ _ => [bluespots, dem, finallevels]

/-- The raster files given by `-out`, `-out_depths`, `-out_bluespots`. They are replaced. -/
def rasterOutputs {K : Type} : Sub K → List Path
  | .filled _ out | .depths _ _ out | .flowdir _ out | .accum _ out | .bspots _ out _ | .wsheds _ _ out => [out]
  | .finalbluespots _ _ _ _ out_depths out_bluespots => out_depths.toList ++ out_bluespots.toList
  | _ => []

/-- The vector file given by `-out`. A layer is added to it or extended. -/
def vectorOutputs {K : Type} : Sub K → List Path
  | .pourpts _ _ _ _ _ out _ | .polys _ out _ | .network _ _ _ _ out _ _ | .hyps _ _ _ _ _ out _
  | .initvolumes _ _ _ _ _ _ out _ _ | .finalvolumes _ _ _ out _ | .finallevels _ _ _ _ out _ => [out]
  | _ => []

/-- The layers that are written to the vector file. -/
def layerOutputs {K : Type} : Sub K → List String
  | .pourpts _ _ _ _ _ _ layername | .polys _ _ layername => [layername]
  | .network _ _ _ _ _ nodes_layer streams_layer => [nodes_layer, streams_layer]
  | .hyps _ _ _ _ _ _ hyps_layer => [hyps_layer]
  | .initvolumes _ _ _ _ _ _ _ out_layer _ | .finalvolumes _ _ _ _ out_layer | .finallevels _ _ _ _ _ out_layer => [out_layer]
  | _ => []

/-- The files whose contents matter. -/
def Sub.inputs {K : Type} (c : Sub K) : List Path := givenFiles c ++ vectorOutputs c

/-- The files that may change. -/
def Sub.outputs {K : Type} (c : Sub K) : List Path := rasterOutputs c ++ vectorOutputs c

/-- Neither command writes a file that matters to the other or that the other writes. -/
def Independent {K : Type} (a b : Sub K) : Prop :=
  (∀ p ∈ a.outputs, p ∉ b.inputs ∧ p ∉ b.outputs) ∧ (∀ p ∈ b.outputs, p ∉ a.inputs ∧ p ∉ a.outputs)

/-- The second list is the first one in another order, in which only independent commands have changed places. -/
inductive Reordered {K : Type} : List (Sub K) → List (Sub K) → Prop
  | refl (l : List (Sub K)) : Reordered l l
  | swap (before : List (Sub K)) {a b : Sub K} (after : List (Sub K)) (h : Independent a b) :
    Reordered (before ++ a :: b :: after) (before ++ b :: a :: after)
  | trans {l l' l'' : List (Sub K)} : Reordered l l' → Reordered l' l'' → Reordered l l''

variable {K : Type} [Field K] [LinearOrder K] {β : Type} [LinearOrder β] [OrderTop β]

/-- The same directories, and the same contents in the same files. -/
def SameDisk (fs fs' : FileSystem β K) : Prop :=
  fs.directories = fs'.directories ∧ ∀ p, fs.files.get? p = fs'.files.get? p

/-- A layer of points or lines in a GeoPackage; `none` if there is no such layer or file. -/
def layerAt (fs : FileSystem β K) (path : Path) (name : String) : Option (Vector.Layer K) :=
  match fs.files.get? path with
  | some (.geopackage layers _) => layers.get? name
  | _ => none

/-- A layer of polygons in a GeoPackage; `none` if there is no such layer or file. -/
def polygonsAt (fs : FileSystem β K) (path : Path) (name : String) : Option (List (PolygonFeature K)) :=
  match fs.files.get? path with
  | some (.geopackage _ polygons) => polygons.get? name
  | _ => none

/-- For every sufficiently large amount of fuel the command, started with the files `fs`, ends with result `r` and leaves the
files of `fs'`. -/
def Cmd.Leaves {α : Type} (x : Cmd β K α) (fs : FileSystem β K) (r : Except PyErr α) (fs' : FileSystem β K) : Prop :=
  ∃ n, ∀ m, n ≤ m → ∃ fs'', x fs m = some (r, fs'') ∧ SameDisk fs'' fs'

end Command
end Malstroem
