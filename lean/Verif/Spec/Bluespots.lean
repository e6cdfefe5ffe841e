/-
Specification vocabulary for bluespots: what the English properties say about bluespots and pour points.
The records `StatUnits`, `PourPoint` and `GeoTransform` are the data the tool hands to the filter and writes.
-/
import Verif.Spec.Label
import Verif.Spec.Arith
import Verif.Model.Bluespots
import Mathlib.Algebra.BigOperators.Group.List.Basic

namespace Malstroem
namespace Spec
variable {K : Type} [Field K] [LinearOrder K]

/-- The area of one raster cell. -/
def cellArea (gt : GeoTransform K) : K := |gt.t1| * |gt.t5|

/-- Input cells are (nearly) square. -/
def SquareCells (gt : GeoTransform K) : Prop := |(|gt.t1| - |gt.t5|)| < 1 / 100 * |gt.t1|

/-- `u` holds the depth statistics of the bluespot consisting of the cells `cs`. -/
structure IsStats (depth : Cell → K) (area : K) (cs : List Cell) (u : Bluespots.StatUnits K) : Prop where
  min : IsLeast {x | ∃ c ∈ cs, x = (depth c : WithTop K)} u.min
  max : IsGreatest {x | ∃ c ∈ cs, x = (depth c : WithBot K)} u.max
  sum : u.sum = (cs.map depth).sum
  count : u.count = cs.length
  volume : u.volume = (cs.map depth).sum * area
  area : u.area = (cs.length : K) * area

/-- The connected set of wet cells containing the cell `c` passes the filter. -/
def Passes (rows cols : Nat) (depth : Cell → K) (area : K) (filter : Bluespots.StatUnits K → Bool) (c : Cell) : Prop :=
  ∃ cs u, Lists rows cols (fun x => ConnectedIn (fun y => InGrid rows cols y ∧ depth y ≠ 0) c x) cs ∧
    IsStats depth area cs u ∧ filter u = true

/-- `p` is the pour point record of the label `l`, whose cells are `cs` and whose watershed consists of the cells
`ws`. -/
structure IsPourPoint (gt : GeoTransform K) (depth : Cell → K) (l : Nat) (cs ws : List Cell)
    (p : Bluespots.PourPoint K) : Prop where
  id : p.id = l
  bspot_id : p.bspot_id = l
  dmax : cs ≠ [] → IsGreatest {x | ∃ c ∈ cs, x = (depth c : WithBot K)} p.bspot_dmax
  area : p.bspot_area = (cs.length : K) * cellArea gt
  vol : p.bspot_vol = (cs.map depth).sum * cellArea gt
  wshed_area : p.wshed_area = (ws.length : K) * cellArea gt
  fumm : p.bspot_fumm = if p.wshed_area = 0 then none else some (1000 * p.bspot_vol / p.wshed_area)
  coordinates : p.coordinates = transformCellToWorld (p.cell_row, p.cell_col) gt

/-! The same with rounded arithmetic: `fl` is applied to the exact result of every operation. The sum of the depths is
added up in row-major order. -/

/-- The area of one raster cell. -/
def cellAreaFl (fl : K → K) (gt : GeoTransform K) : K := fl (|gt.t1| * |gt.t5|)

/-- Input cells are (nearly) square, as far as the rounded comparison can tell. -/
def SquareCellsFl (fl : K → K) (gt : GeoTransform K) : Prop :=
  |fl (|gt.t1| - |gt.t5|)| < fl (fl (1 / 100) * |gt.t1|)

/-- `IsStats` with rounded arithmetic. -/
structure IsStatsFl (fl : K → K) (depth : Cell → K) (area : K) (cs : List Cell) (u : Bluespots.StatUnits K) : Prop where
  min : IsLeast {x | ∃ c ∈ cs, x = (depth c : WithTop K)} u.min
  max : IsGreatest {x | ∃ c ∈ cs, x = (depth c : WithBot K)} u.max
  sum : u.sum = sumFl fl (cs.map depth)
  count : u.count = cs.length
  volume : u.volume = fl (sumFl fl (cs.map depth) * area)
  area : u.area = fl (fl (cs.length : K) * area)

/-- `Passes` with rounded arithmetic. -/
def PassesFl (fl : K → K) (rows cols : Nat) (depth : Cell → K) (area : K) (filter : Bluespots.StatUnits K → Bool)
    (c : Cell) : Prop :=
  ∃ cs u, Lists rows cols (fun x => ConnectedIn (fun y => InGrid rows cols y ∧ depth y ≠ 0) c x) cs ∧
    IsStatsFl fl depth area cs u ∧ filter u = true

/-- `IsPourPoint` with rounded arithmetic; coordinates are exact. -/
structure IsPourPointFl (fl : K → K) (gt : GeoTransform K) (depth : Cell → K) (l : Nat) (cs ws : List Cell)
    (p : Bluespots.PourPoint K) : Prop where
  id : p.id = l
  bspot_id : p.bspot_id = l
  dmax : cs ≠ [] → IsGreatest {x | ∃ c ∈ cs, x = (depth c : WithBot K)} p.bspot_dmax
  area : p.bspot_area = fl (fl (cs.length : K) * cellAreaFl fl gt)
  vol : p.bspot_vol = fl (sumFl fl (cs.map depth) * cellAreaFl fl gt)
  wshed_area : p.wshed_area = fl (fl (ws.length : K) * cellAreaFl fl gt)
  fumm : p.bspot_fumm = if p.wshed_area = 0 then none else some (fl (fl (1000 * p.bspot_vol) / p.wshed_area))
  coordinates : p.coordinates = transformCellToWorld (p.cell_row, p.cell_col) gt

end Spec
end Malstroem
