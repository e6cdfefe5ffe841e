/-
C91: filling a DEM that is not float32.
-/
import Verif.Proofs.FillStored
import Verif.Props.Fill
import Verif.Props.Datum
import Verif.Props.Float
import Verif.Model.Dem
import Mathlib.Tactic.NormNum
import Mathlib.Tactic.Linarith

set_option linter.unusedSectionVars false

namespace Malstroem
open Spec
open Malstroem.Float

section General
variable {β : Type*} [LinearOrder β] [OrderTop β]

/-- `fill_terrain` cannot finish with `c`: `c` is not on the edge, its elevation becomes higher when it is converted to the
number type of the filled raster, no water stands on it in the converted terrain, and a neighbour's level is lower. -/
def NeverSettles (store : β → β) (dem : Raster β) (c : Cell) : Prop :=
  Interior dem.rows dem.cols c ∧ dem.get c < store (dem.get c) ∧
  IsSpillLevel dem.rows dem.cols (fun x => store (dem.get x)) c (store (dem.get c)) ∧
  ∃ b z, Adj c b ∧ IsSpillLevel dem.rows dem.cols (fun x => store (dem.get x)) b z ∧ z < store (dem.get c)

theorem stuck_iff {store : β → β} {dem F : Raster β} (hF : Returns (Fill.fillTerrain (dem.map store)) (.ok F)) (c : Cell)
    (hc : Interior dem.rows dem.cols c) : Fill.Stuck store dem F c ↔ NeverSettles store dem c := by
  have sp : ∀ x, dem.Has x → IsSpillLevel dem.rows dem.cols (fun x => store (dem.get x)) x (F.get x) :=
    fun x hx => C04_fill_eq_spill_level _ F hF x hx
  have hnb : ∀ b, Adj c b → dem.Has b := by
    intro b hb
    have h := interior_iff.1 hc
    rw [adj_iff] at hb
    unfold Raster.Has InGrid
    rcases hb with rfl | rfl | rfl | rfl | rfl | rfl | rfl | rfl <;> simp only <;> omega
  have hge : store (dem.get c) ≤ F.get c := (Fill.inv_of_returns hF).1.ge c hc.1
  constructor
  · rintro ⟨h1, h2, b, hb, hlt⟩
    have he : F.get c = store (dem.get c) := le_antisymm h2 hge
    refine ⟨hc, by rwa [← he], by have := sp c hc.1; rwa [he] at this, b, F.get b, hb, sp b (hnb b hb), by rwa [← he]⟩
  · rintro ⟨_, h1, h2, b, z, hb, hz, hlt⟩
    have he : F.get c = store (dem.get c) := (sp c hc.1).unique h2
    refine ⟨by rwa [he], by rw [he], b, hb, ?_⟩
    rw [he, (sp b (hnb b hb)).unique hz]
    exact hlt

/-- C91 (partial): filling with pure Python a DEM whose values have to be converted. It ends exactly when there is no cell
that never settles; then every cell has its spill level, converted. `store` is any conversion that keeps the order. -/
theorem C91_fill_partial (store : β → β) (hm : Monotone store) (hi : ∀ x, store (store x) = store x) (ht : store ⊤ = ⊤)
    (dem : Raster β) (hr : 3 ≤ dem.rows) (hc : 3 ≤ dem.cols) :
    ((∃ c, NeverSettles store dem c) → ∀ fuel, Fill.fillTerrainStored store dem fuel = none) ∧
    ((¬ ∃ c, NeverSettles store dem c) → ∃ r, Returns (Fill.fillTerrainStored store dem) r ∧
      r.rows = dem.rows ∧ r.cols = dem.cols ∧
      ∀ c, dem.Has c → ∃ z, IsSpillLevel dem.rows dem.cols dem.get c z ∧ r.get c = store z) := by
  obtain ⟨F, hF, _⟩ := (C01_fill_returns (dem.map store)).1 (by rw [Raster.map_rows]; omega) (by rw [Raster.map_cols]; omega)
  obtain ⟨G, hG, _⟩ := (C01_fill_returns dem).1 (by omega) (by omega)
  constructor
  · rintro ⟨c, hn⟩ fuel
    rcases hE : Fill.fillTerrainStored store dem fuel with _ | r
    · rfl
    · exact absurd ((stuck_iff hF c hn.1).2 hn) (Fill.stored_ends hm hi ht hr hc hF hE c hn.1)
  · intro hn
    obtain ⟨r, hR, hS⟩ := Fill.stored_returns hm hi ht hr hc hF fun c hin hst => hn ⟨c, (stuck_iff hF c hin).1 hst⟩
    have hI := (Fill.inv_of_returns hF).1
    refine ⟨r, hR, hS.1.trans hI.rows, hS.2.1.trans hI.cols, fun c hc => ?_⟩
    have hz := C04_fill_eq_spill_level dem G hG c hc
    refine ⟨G.get c, hz, ?_⟩
    have hrc : r.Has c := by unfold Raster.Has at *; rwa [hS.1, hS.2.1, hI.rows, hI.cols]
    rw [hS.2.2 c hrc]
    exact (C04_fill_eq_spill_level _ F hF c hc).unique (spill_map hm hz)

/-- C91: converting the DEM first, as `DemTool` does, always ends with the converted spill levels. -/
theorem C91_convert_first (store : β → β) (hm : Monotone store) (dem : Raster β) (hr : 2 ≤ dem.rows) (hc : 2 ≤ dem.cols) :
    ∃ r, Returns (Fill.fillTerrain (dem.map store)) (.ok r) ∧ r.rows = dem.rows ∧ r.cols = dem.cols ∧
      ∀ c, dem.Has c → ∃ z, IsSpillLevel dem.rows dem.cols dem.get c z ∧ r.get c = store z := by
  obtain ⟨F, hF, _⟩ := (C01_fill_returns (dem.map store)).1 hr hc
  obtain ⟨G, hG, _⟩ := (C01_fill_returns dem).1 hr hc
  have hI := (Fill.inv_of_returns hF).1
  exact ⟨F, hF, hI.rows, hI.cols, fun c hc => ⟨G.get c, C04_fill_eq_spill_level dem G hG c hc,
    (C04_fill_eq_spill_level _ F hF c hc).unique (spill_map hm (C04_fill_eq_spill_level dem G hG c hc))⟩⟩

/-- C91 is false for compiled functions: they refuse every DEM that is not float32. -/
theorem C91_compiled_false (dem : Raster β) (hr : 2 ≤ dem.rows) (hc : 2 ≤ dem.cols) (fuel : Nat) :
    FillCython.fillTerrainTyped .other dem fuel = some (.error .valueError) := by
  unfold FillCython.fillTerrainTyped
  rw [if_neg (by omega)]

/-- A dry cell next to an edge cell that is not higher. -/
theorem spill_beside_edge {rows cols : Nat} {s : Cell → β} {c b : Cell} (hc : InGrid rows cols c) (hb : OnEdge rows cols b)
    (hab : Adj c b) (hle : s b ≤ s c) : IsSpillLevel rows cols s c (s c) := by
  refine ⟨⟨[c, b], ⟨rfl, ?_, ?_, b, rfl, hb⟩, ⟨c, by simp, rfl⟩, ?_⟩, ?_⟩
  · simpa using hab
  · intro x hx
    simp at hx
    rcases hx with rfl | rfl
    exacts [hc, hb.1]
  · rintro h ⟨x, hx, rfl⟩
    simp at hx
    rcases hx with rfl | rfl
    exacts [le_rfl, hle]
  · rintro h ⟨p, hp, hz⟩
    obtain ⟨q, rfl⟩ := hp.exists_cons
    exact hz.2 ⟨c, by simp, rfl⟩

theorem spill_on_edge {rows cols : Nat} {s : Cell → β} {b : Cell} (hb : OnEdge rows cols b) :
    IsSpillLevel rows cols s b (s b) := by
  refine ⟨⟨[b], ⟨rfl, by simp, by simpa using hb.1, b, rfl, hb⟩, ⟨b, by simp, rfl⟩, ?_⟩, ?_⟩
  · rintro h ⟨x, hx, rfl⟩
    simp at hx
    rw [hx]
  · rintro h ⟨p, hp, hz⟩
    obtain ⟨q, rfl⟩ := hp.exists_cons
    exact hz.2 ⟨b, by simp, rfl⟩

end General

section Float32

/-- Converting to float32: finite elevations are rounded. -/
def toFloat32 (fl : Rat → Rat) : WithTop Rat → WithTop Rat := WithTop.map fl

theorem toFloat32_ok {fl : Rat → Rat} (h : IsRounding 24 (-149) fl) :
    Monotone (toFloat32 fl) ∧ (∀ x, toFloat32 fl (toFloat32 fl x) = toFloat32 fl x) ∧ toFloat32 fl ⊤ = ⊤ := by
  refine ⟨WithTop.monotone_map_iff.2 fun x y hxy => fl_mono h hxy, fun x => ?_, rfl⟩
  cases x with
  | top => rfl
  | coe x =>
    show ((fl (fl x) : Rat) : WithTop Rat) = ((fl x : Rat) : WithTop Rat)
    rw [fl_exact h (h x).1]

/-- An elevation in float64, halfway between two float32 plus a quarter of their distance. -/
def z64 : Rat := 1 + 3 / 2 ^ 25

theorem z64_f64 : IsF64 z64 := ⟨2 ^ 25 + 3, -25, by norm_num, by norm_num, by unfold z64; norm_num⟩

/-- It is rounded up. -/
theorem fl_z64 {fl : Rat → Rat} (h : IsRounding 24 (-149) fl) : fl z64 = 1 + 1 / 2 ^ 23 := by
  have hz : IsFloat 24 (-149) (1 + 1 / 2 ^ 23 : Rat) := ⟨2 ^ 23 + 1, -23, by norm_num, by norm_num, by norm_num⟩
  have hd := (h z64).2 _ hz
  have e : |z64 - (1 + 1 / 2 ^ 23)| = 1 / 2 ^ 25 := by unfold z64; norm_num [abs_of_neg]
  rw [e, abs_le] at hd
  obtain ⟨h1, h2⟩ := hd
  unfold z64 at h1 h2
  have hpos : 0 ≤ fl (1 + 3 / 2 ^ 25) := by norm_num at h1 h2 ⊢; linarith
  have hg : IsGap 24 (-149) (-23) (fl z64) := by
    refine ⟨by norm_num, ?_, .inr ?_⟩ <;> unfold z64 <;> rw [abs_of_nonneg hpos] <;> norm_num at h1 h2 ⊢ <;> linarith
  obtain ⟨a, ha, _⟩ := hg.multiple (h z64).1
  have ha' : fl (1 + 3 / 2 ^ 25) = a * 2 ^ (-23 : Int) := ha
  rw [ha'] at h1 h2
  have l1 : (8388608 : Rat) < a := by norm_num at h1 h2 ⊢; linarith
  have l2 : (a : Rat) < 8388610 := by norm_num at h1 h2 ⊢; linarith
  have l1' : (8388608 : Int) < a := by exact_mod_cast l1
  have l2' : a < (8388610 : Int) := by exact_mod_cast l2
  have : a = 8388609 := by omega
  rw [ha, this]
  norm_num

/-- A 3 by 3 DEM with a hill in the middle. -/
def hill64 : Raster (WithTop Rat) := ⟨3, 3, fun c => if c = (1, 1) then (z64 : WithTop Rat) else ((0 : Rat) : WithTop Rat)⟩

/-- C91 is false: a hill of 3 by 3 cells with float64 elevations is never filled by pure Python, however long it runs. -/
theorem C91_float64_false : (∀ c, hill64.Has c → ∃ x : Rat, hill64.get c = x ∧ IsF64 x) ∧
    ∀ fl, IsRounding 24 (-149) fl → ∀ fuel, Fill.fillTerrainStored (toFloat32 fl) hill64 fuel = none := by
  constructor
  · intro c _
    by_cases hc : c = (1, 1)
    · exact ⟨z64, by simp [hill64, hc], z64_f64⟩
    · exact ⟨0, by simp [hill64, hc], 0, 0, by norm_num, by norm_num, by norm_num⟩
  · intro fl h
    obtain ⟨h1, h2, h3⟩ := toFloat32_ok h
    refine (C91_fill_partial _ h1 h2 h3 hill64 (by decide) (by decide)).1 ⟨(1, 1), ?_⟩
    have e1 : hill64.get (1, 1) = (z64 : WithTop Rat) := by simp [hill64]
    have e2 : hill64.get (0, 1) = ((0 : Rat) : WithTop Rat) := by simp [hill64]
    have s1 : toFloat32 fl (hill64.get (1, 1)) = ((1 + 1 / 2 ^ 23 : Rat) : WithTop Rat) := by
      rw [e1, ← fl_z64 h]; rfl
    have s2 : toFloat32 fl (hill64.get (0, 1)) = ((0 : Rat) : WithTop Rat) := by
      rw [e2]
      show ((fl 0 : Rat) : WithTop Rat) = _
      rw [fl_exact h ⟨0, 0, by norm_num, by norm_num, by norm_num⟩]
    have lt : toFloat32 fl (hill64.get (0, 1)) < toFloat32 fl (hill64.get (1, 1)) := by
      rw [s1, s2, WithTop.coe_lt_coe]; norm_num
    refine ⟨by decide, ?_, ?_, (0, 1), _, by decide, ?_, lt⟩
    · rw [s1, e1, WithTop.coe_lt_coe]; unfold z64; norm_num
    · exact spill_beside_edge (s := fun x => toFloat32 fl (hill64.get x)) (b := (0, 1)) (by decide) (by decide) (by decide)
        lt.le
    · exact spill_on_edge (s := fun x => toFloat32 fl (hill64.get x)) (by decide)

/-- Level terrain. -/
def level64 : Raster (WithTop Rat) := ⟨3, 3, fun _ => (z64 : WithTop Rat)⟩

/-- C91 is false of the depths as well: filling a level float64 DEM ends, and `filled - dem` is above 0 in every cell
although nothing is enclosed. -/
theorem C91_depths_false {fl : Rat → Rat} (h : IsRounding 24 (-149) fl) :
    (∀ c, level64.Has c → IsSpillLevel 3 3 level64.get c (level64.get c)) ∧
    ∃ r, Returns (Fill.fillTerrainStored (toFloat32 fl) level64) r ∧
      ∀ c, level64.Has c → ∃ x : Rat, (Dem.depths exactSub r level64).get c = x ∧ 0 < x := by
  obtain ⟨h1, h2, h3⟩ := toFloat32_ok h
  obtain ⟨G, hG, _⟩ := (C01_fill_returns level64).1 (by decide) (by decide)
  have hlev : ∀ c, level64.Has c → IsSpillLevel 3 3 level64.get c (level64.get c) := by
    intro c hc
    have := C04_fill_eq_spill_level level64 G hG c hc
    obtain ⟨⟨p, hp, hz⟩, _⟩ := this
    obtain ⟨x, _, hx⟩ := hz.1
    have e : G.get c = level64.get c := hx.symm
    rw [← e]
    exact C04_fill_eq_spill_level level64 G hG c hc
  refine ⟨hlev, ?_⟩
  obtain ⟨r, hR, hrows, hcols, hval⟩ := (C91_fill_partial _ h1 h2 h3 level64 (by decide) (by decide)).2 (by
    rintro ⟨c, hc, _, hsp, b, z, hb, hz, hlt⟩
    obtain ⟨⟨p, hp, hh⟩, _⟩ := hz
    obtain ⟨x, _, hx⟩ := hh.1
    have e : toFloat32 fl (level64.get c) = z := hx
    rw [e] at hlt
    exact lt_irrefl _ hlt)
  refine ⟨r, hR, fun c hc => ?_⟩
  obtain ⟨z, hz, hrz⟩ := hval c hc
  have e : z = level64.get c := hz.unique (hlev c hc)
  refine ⟨1 + 1 / 2 ^ 23 - z64, ?_, by unfold z64; norm_num⟩
  show exactSub (r.get c) (level64.get c) = _
  rw [hrz, e]
  show exactSub ((fl z64 : Rat) : WithTop Rat) (z64 : WithTop Rat) = _
  rw [fl_z64 h]
  rfl

/-- A rounding to float32 exists, and a DEM that is filled although its values are rounded: the theorem's second case. -/
example : ∃ fl, IsRounding 24 (-149) fl := exists_rounding 24 (by norm_num) (-149)

/-- Compiled functions and float32: as before. -/
example (dem : Raster (WithTop Rat)) (n : Nat) : FillCython.fillTerrainTyped .float32 dem n = FillCython.fillTerrain dem n := by
  unfold FillCython.fillTerrainTyped
  split_ifs <;> rfl

end Float32
end Malstroem
