/-
Specification vocabulary for approximate water levels: a consistent set of bluespots with their pour points, and final
volumes for them. Nothing in this file models malstroem code.
-/
import Verif.Spec.Hyps
import Verif.Spec.Rain
import Verif.Spec.Bluespots

namespace Malstroem
namespace Spec
variable {K : Type} [Field K] [LinearOrder K]

/-- Bluespots 1..n of non-negative elevations with their pour points. `cells l` are the cells of bluespot `l`, `zmin l`
and `zmax l` its lowest and highest ground, `spill l` the level at which it spills, and the pour point features, one for
each of 0..n, hold the depth and the volume of the full bluespots. The feature of the background (0) holds some depth
and volume, the volume being 0 if there are no background cells. -/
structure IsLevelScene (lab : Raster Int) (dem : Raster K) (gt gt' : GeoTransform K) (pourpoints : List (Feature K))
    (ids : List Int) (n : Nat) (cells : Nat → List Cell) (zmin zmax spill : Nat → K) : Prop where
  shape : lab.rows = dem.rows ∧ lab.cols = dem.cols
  same_size : |(|gt'.t5| - |gt.t5|)| < 15 / 100000000 ∧ |(|gt'.t1| - |gt.t1|)| < 15 / 100000000
  size : gt.t1 ≠ 0 ∧ gt.t5 ≠ 0
  top : TopLabel lab.rows lab.cols lab.get none n
  nonneg : ∀ c, InGrid lab.rows lab.cols c → 0 ≤ lab.get c
  cells_of : ∀ l, l ≤ n → CellsOf lab.rows lab.cols lab.get l (cells l)
  min : ∀ l, 1 ≤ l → l ≤ n → IsMin ((cells l).map dem.get) (zmin l)
  max : ∀ l, 1 ≤ l → l ≤ n → IsMax ((cells l).map dem.get) (zmax l)
  above_zero : ∀ l, 1 ≤ l → l ≤ n → 0 ≤ zmin l
  below_spill : ∀ l, 1 ≤ l → l ≤ n → zmax l < spill l
  has_id : List.Forall₂ (fun f i => f.properties.get? "bspot_id" = some (.int i)) pourpoints ids
  distinct : ids.Nodup
  all : ∀ i, i ∈ ids ↔ 0 ≤ i ∧ i ≤ n
  bluespot : ∀ (f : Feature K) (l : Nat), 1 ≤ l → (f, (l : Int)) ∈ pourpoints.zip ids →
    HasNumber f "bspot_dmax" (spill l - zmin l) ∧
    HasNumber f "bspot_vol" (waterVolume (cellArea gt) ((cells l).map dem.get) (spill l))
  background : ∀ f, (f, (0 : Int)) ∈ pourpoints.zip ids →
    (∃ x, f.properties.get? "bspot_dmax" = some x ∧ (x = .ninf ∨ ∃ y, x.float = .ok y)) ∧
    ∃ vol, HasNumber f "bspot_vol" vol ∧ (cells 0 = [] → vol = 0)

/-- Features as written by the tool that computes final water volumes: each has a node type, and the pour points of
bluespots 0..n have an integer bluespot id and a final volume. -/
structure IsFinalVolumes (n : Nat) (finalvols : List (Feature K)) : Prop where
  nodetype : ∀ f ∈ finalvols, ∃ t, f.properties.get? "nodetype" = some t
  pourpoint : ∀ f ∈ finalvols, f.properties.get? "nodetype" = some (.str "pourpoint") →
    ∃ (l : Nat) (v : K), l ≤ n ∧ f.properties.get? "bspot_id" = some (.int l) ∧ HasNumber f "v" v

/-- What holds of the level given to a bluespot with ground elevations `zs` between `zmin` and `zmax`, spill level `spill`
and final volume `v`: it lies between the lowest ground and the spill level, is the lowest ground if there is no water
and the spill level if the bluespot is full (more than 99.99 %); otherwise it is not above the highest ground, within
two bins of the exact level if that is at least two bins below the highest ground, and within four bins of the exact level
or the highest ground, whichever is lower. -/
structure IsApproxLevel (area res : K) (zs : List K) (zmin zmax spill v level : K) : Prop where
  bounds : zmin ≤ level ∧ level ≤ spill
  empty : v ≤ 0 → level = zmin
  full : 9999 / 10000 * waterVolume area zs spill < v → level = spill
  below : v ≤ 9999 / 10000 * waterVolume area zs spill → level ≤ zmax
  close : ∀ exact, waterVolume area zs exact = v → v ≤ 9999 / 10000 * waterVolume area zs spill → zmin ≤ exact →
    exact ≤ zmax - 2 * res → |level - exact| ≤ 2 * res
  near : ∀ exact, waterVolume area zs exact = v → v ≤ 9999 / 10000 * waterVolume area zs spill → zmin ≤ exact →
    |level - Min.min exact zmax| ≤ 4 * res

/-- The dictionary gives a level to each label 0..m other than the background, and `m` is its largest key. -/
structure Covers {α : Type} (levels : Dict Int α) (background : Int) (m : Nat) : Prop where
  mem : (m : Int) ∈ levels.map (·.1)
  le : ∀ k ∈ levels.map (·.1), k ≤ (m : Int)
  has : ∀ l : Nat, l ≤ m → (l : Int) ≠ background → ∃ z, levels.get? (l : Int) = some z

/-- The extent and the depths of the water that stands at level `level l` in each bluespot `l`. -/
structure IsFlooded (lab : Raster Int) (dem : Raster K) (background : Int) (level : Int → K)
    (extent : Raster Int) (depths : Raster K) : Prop where
  shape : extent.rows = lab.rows ∧ extent.cols = lab.cols ∧ depths.rows = lab.rows ∧ depths.cols = lab.cols
  wet : ∀ c, InGrid lab.rows lab.cols c → lab.get c ≠ background →
    extent.get c = if dem.get c ≤ level (lab.get c) then lab.get c else background
  depth : ∀ c, InGrid lab.rows lab.cols c → lab.get c ≠ background →
    depths.get c = Max.max 0 (level (lab.get c) - dem.get c)
  outside : ∀ c, InGrid lab.rows lab.cols c → lab.get c = background → extent.get c = background
  dry : ∀ c, InGrid lab.rows lab.cols c → lab.get c = background → -999 ≤ dem.get c → depths.get c = 0

end Spec
end Malstroem
