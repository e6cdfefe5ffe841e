/-
Specification vocabulary for hypsometry statistics in floating point arithmetic.
-/
import Verif.Spec.Hyps
import Verif.Spec.Float

namespace Malstroem
namespace Spec

/-- How many of the elevations satisfy a condition. -/
def countOf (zs : List Rat) (p : Rat → Prop) [DecidablePred p] : Int := ((zs.filter fun z => p z).length : Int)

/-- What is assumed of `np.histogram(data, bins, (lo, hi))[0]` for bins that are wide compared with the spacing of float32 numbers at `hi`:
one count per bin; exactly the values between `conv lo` and `conv hi` are counted, where `conv` is the conversion of the bounds to the type of
the data; a value is counted among the first `i` bins if it is below the upper edge of bin `i`, up to a tolerance of `hi / 2 ^ 23`. -/
def HistogramCounts (conv : Rat → Rat) (histogram : List Rat → Int → Rat → Rat → Except PyErr (List Int)) : Prop :=
  ∀ (data : List Rat) (bins : Nat) (lo hi : Rat), 1 ≤ bins → 0 ≤ lo → lo < hi → 2 ^ (-120 : Int) ≤ hi → hi * bins ≤ 2 ^ 21 * (hi - lo) →
    ∃ counts, histogram data bins lo hi = .ok counts ∧ counts.length = bins ∧ (∀ c ∈ counts, 0 ≤ c) ∧
      counts.sum = countOf data (fun z => conv lo ≤ z ∧ z ≤ conv hi) ∧
      ∀ i ≤ bins, countOf data (fun z => conv lo ≤ z ∧ z ≤ conv hi ∧ z < lo + i * ((hi - lo) / bins) - hi / 2 ^ 23) ≤ (counts.take i).sum ∧
        (counts.take i).sum ≤ countOf data fun z => conv lo ≤ z ∧ z ≤ conv hi ∧ z ≤ lo + i * ((hi - lo) / bins) + hi / 2 ^ 23

/-- A resolution that is not extreme, and elevations that are not negative, not extremely close to zero without being zero, and at most a
million steps of the resolution. -/
structure FloatElevations (res : Rat) (zs : List Rat) : Prop where
  res_lower : 2 ^ (-100 : Int) ≤ res
  res_upper : res ≤ 2 ^ 100
  elevation : ∀ z ∈ zs, (z = 0 ∨ 2 ^ (-149 : Int) ≤ z) ∧ z ≤ 2 ^ 20 * res

/-- What the record of a bluespot with elevations `zs` says up to rounding: minimum and maximum elevation, one count per bin, the bounds of
the histogram enclose the elevations, are not negative and not further than one step away from them, and are a whole number of steps apart. -/
structure BinsAround (res : Rat) (zmin zmax : Rat) (s : Hyps.Stats Rat) : Prop where
  zmin_eq : s.zmin = zmin
  zmax_eq : s.zmax = zmax
  resolution : s.zhistogram.bins.resolution = res
  num_bins : s.zhistogram.bins.num_bins = s.zhistogram.counts.length
  nonneg : ∀ c ∈ s.zhistogram.counts, 0 ≤ c
  lower_nonneg : 0 ≤ s.zhistogram.bins.lower_bound
  lower_le : s.zhistogram.bins.lower_bound ≤ zmin * (1 + 1 / 2 ^ 50)
  lower_ge : zmin * (1 - 1 / 2 ^ 50) - res ≤ s.zhistogram.bins.lower_bound
  upper_ge : zmax * (1 - 1 / 2 ^ 50) ≤ s.zhistogram.bins.upper_bound
  upper_le : s.zhistogram.bins.upper_bound ≤ (zmax + res) * (1 + 1 / 2 ^ 50)
  width : |s.zhistogram.bins.upper_bound - s.zhistogram.bins.lower_bound - s.zhistogram.counts.length * res| ≤ (zmax + res) / 2 ^ 50

end Spec
end Malstroem
