/-
Property C81: flow directions in floating point arithmetic, with the Python and with the compiled functions.
-/
import Verif.Proofs.FlowFloat
import Verif.Props.Float
import Verif.Props.Flow

set_option linter.unusedSectionVars false

namespace Malstroem
open Spec

namespace Float
variable {fl : Rat → Rat}

/-- Around every cell that is not on the edge, the drops to the neighbours are whole multiples of one power of two, of
at most 2^24 of it. (Elevations with a fixed number of binary places have this property; so have float32 elevations
that do not differ too much in size.) -/
def WholeDrops (t : Raster (WithTop F64)) : Prop :=
  ∀ c, Interior t.rows t.cols c → ∃ e : Int, -1000 ≤ e ∧
    ∀ b, Adj c b → ∃ m : Int, |m| ≤ 2 ^ 24 ∧ num (t.get c) - num (t.get b) = m * 2 ^ e

/-- Flow directions computed without rounding: real numbers, diagonal drops divided by the square root of two. C13 says
what they are. -/
noncomputable def exactFlow (t : Raster (WithTop F64)) (edges : Bool) : Raster Nat :=
  Flow.terrainFlowdirection (fun a b => ((num a - num b : Rat) : ℝ)) (fun x => x / Real.sqrt 2) t edges

theorem adj_neighbour (c : Cell) {k : Nat} (hk : k < 8) : Adj c (neighbour c k) := by
  rw [adj_iff]
  obtain ⟨r, q⟩ := c
  interval_cases k <;> simp [neighbour, offset, sub_eq_add_neg]

theorem flow_eq {γ γ' : Type*} [LinearOrder γ] [Zero γ] [LinearOrder γ'] [Zero γ'] {sub : WithTop F64 → WithTop F64 → γ}
    {scale : γ → γ} {sub' : WithTop F64 → WithTop F64 → γ'} {scale' : γ' → γ'} {t : Raster (WithTop F64)} (edges : Bool)
    (h : ∀ c, Interior t.rows t.cols c →
      Flow.cellFlow sub scale t c.1 c.2 = Flow.cellFlow sub' scale' t c.1 c.2) :
    Flow.terrainFlowdirection sub scale t edges = Flow.terrainFlowdirection sub' scale' t edges := by
  have : Flow.terrainFlow sub scale t = Flow.terrainFlow sub' scale' t := by
    unfold Flow.terrainFlow
    congr 1
    funext c
    by_cases hc : Interior t.rows t.cols c
    · rw [if_pos (Flow.mem_range_interior.2 hc), if_pos (Flow.mem_range_interior.2 hc), h c hc]
    · rw [if_neg (fun h => hc (Flow.mem_range_interior.1 h)), if_neg (fun h => hc (Flow.mem_range_interior.1 h))]
  unfold Flow.terrainFlowdirection
  rw [this]

theorem flow_exact (hfl : IsRounding 53 (-1074) fl) {κ : Rat} (hκ : IsDiagFactor κ) {t : Raster (WithTop F64)}
    (ht : WholeDrops t) (edges : Bool) :
    Flow.terrainFlowdirection (fsub fl) (fun x => fl (x * κ)) t edges = exactFlow t edges := by
  refine flow_eq edges fun c hc => ?_
  obtain ⟨e, he, hm⟩ := ht c hc
  choose! m hm1 hm2 using hm
  rw [Flow.cellFlow_eq, Flow.cellFlow_eq]
  have hf := ranks_float hfl hκ he (fun k => m (neighbour c k)) (fun k hk => hm1 _ (adj_neighbour c hk))
  have hu : (0 : ℝ) < ((2 ^ e : Rat) : ℝ) := by exact_mod_cast two_pos e
  have hr := Flow.ranks_real hu (fun k => m (neighbour c k))
  have h1 : Flow.Ranks (fun k => m (neighbour c k)) (slope (fsub fl) (fun x => fl (x * κ)) t.get c) := by
    refine ⟨fun k hk => ?_, fun i hi j hj => ?_⟩
    · rw [← hf.pos k hk, slope, fsub, hm2 _ (adj_neighbour c hk)]
    · intro mi mj
      rw [← hf.lt i hi j hj mi mj, slope, slope, fsub, fsub, hm2 _ (adj_neighbour c hi), hm2 _ (adj_neighbour c hj)]
  have h2 : Flow.Ranks (fun k => m (neighbour c k))
      (slope (fun a b => ((num a - num b : Rat) : ℝ)) (fun x => x / Real.sqrt 2) t.get c) := by
    have hcast : ∀ k, k < 8 → ((num (t.get c) - num (t.get (neighbour c k)) : Rat) : ℝ) =
        (m (neighbour c k) : ℝ) * ((2 ^ e : Rat) : ℝ) := fun k hk => by
      rw [hm2 _ (adj_neighbour c hk)]; push_cast; rfl
    refine ⟨fun k hk => ?_, fun i hi j hj => ?_⟩
    · rw [← hr.pos k hk, slope, hcast k hk]
    · intro mi mj
      rw [← hr.lt i hi j hj mi mj, slope, slope, hcast i hi, hcast j hj]
  exact h1.best_eq h2

/-- The constant of flow.py:22 is the double nearest to the square root of two: it is a double, and at most half the
distance of the doubles between 1 and 2 away. -/
theorem sqrt2_nearest : IsF64 Fill.sqrt2 ∧ |(Fill.sqrt2 : ℝ) - Real.sqrt 2| < 2 ^ (-53 : Int) := by
  refine ⟨⟨6369051672525773, -52, by norm_num, by norm_num, by norm_num [Fill.sqrt2]⟩, ?_⟩
  have h1 : ((Fill.sqrt2 : Rat) : ℝ) = 6369051672525773 / 2 ^ 52 := by norm_num [Fill.sqrt2]
  rw [h1, abs_lt]
  constructor
  · have : Real.sqrt 2 < 6369051672525773 / 2 ^ 52 + 2 ^ (-53 : Int) :=
      (Real.sqrt_lt' (by norm_num)).2 (by norm_num)
    linarith
  · have : 6369051672525773 / 2 ^ 52 - 2 ^ (-53 : Int) < Real.sqrt 2 :=
      (Real.lt_sqrt (by norm_num)).2 (by norm_num)
    linarith

/-- The constant of _flow.pyx:94 is the rounded quotient of one and that of flow.py. -/
theorem invSqrt2_rounded (hfl : IsRounding 53 (-1074) fl) : fl (1 / Fill.sqrt2) = FlowCython.invSqrt2 := by
  refine le_antisymm (fl_down hfl (e := -53) ⟨by norm_num, by norm_num [FlowCython.invSqrt2, abs_lt],
    .inr (by norm_num [FlowCython.invSqrt2, le_abs])⟩
    ⟨1592262918131443 * 4, -53, by norm_num, by norm_num, by norm_num [FlowCython.invSqrt2]⟩
    (by norm_num [FlowCython.invSqrt2]) (by norm_num [FlowCython.invSqrt2, Fill.sqrt2])) ?_
  have := fl_up hfl (by norm_num) (e := -53) (a := FlowCython.invSqrt2 - 2 ^ (-53 : Int)) (x := 1 / Fill.sqrt2)
    ⟨by norm_num, by norm_num [FlowCython.invSqrt2, abs_lt], .inr (by norm_num [FlowCython.invSqrt2, le_abs])⟩
    ⟨1592262918131443 * 4 - 1, -53, by norm_num, by norm_num, by norm_num [FlowCython.invSqrt2]⟩
    (by norm_num [FlowCython.invSqrt2]) (by norm_num [FlowCython.invSqrt2, Fill.sqrt2])
  linarith

/-- C81, the part that holds: if around every cell the drops are at most 2^24 multiples of a power of two, the Python
and the compiled functions compute the same flow directions, those of exact arithmetic. Missing (and false,
`C81_flowdir_false`): other terrains. -/
theorem C81_flowdir_partial (hfl : IsRounding 53 (-1074) fl) (t : Raster (WithTop F64)) (ht : WholeDrops t) (edges : Bool) :
    Flow.terrainFlowdirection (fsub fl) (fun x => fl (x * (1 / Fill.sqrt2))) t edges = exactFlow t edges ∧
    Flow.terrainFlowdirection (fsub fl) (fun x => fl (x * FlowCython.invSqrt2)) t edges = exactFlow t edges :=
  ⟨flow_exact hfl python_factor ht edges, flow_exact hfl compiled_factor ht edges⟩

/-- A 3x3 terrain with float32 elevations: 8 m in the middle, 2.36348462 m above it, 0.02876351 m above to the right,
9 m elsewhere. -/
def demoTie : Raster (WithTop F64) where
  rows := 3
  cols := 3
  get c :=
    if c = (1, 1) then ((⟨8, 8, 0, by norm_num, by norm_num, by norm_num⟩ : F64) : WithTop F64)
    else if c = (0, 1) then ((⟨9913173 / 2 ^ 22, 9913173, -22, by norm_num, by norm_num, by norm_num⟩ : F64) : WithTop F64)
    else if c = (0, 2) then ((⟨7721145 / 2 ^ 28, 7721145, -28, by norm_num, by norm_num, by norm_num⟩ : F64) : WithTop F64)
    else ((⟨9, 9, 0, by norm_num, by norm_num, by norm_num⟩ : F64) : WithTop F64)

theorem demoTie_dem : IsDem32 demoTie := by
  refine ⟨by decide, by decide, fun c _ => ?_⟩
  simp only [demoTie]
  split_ifs
  · exact ⟨_, rfl, 8, 0, by norm_num, by norm_num, by norm_num⟩
  · exact ⟨_, rfl, 9913173, -22, by norm_num, by norm_num, by norm_num⟩
  · exact ⟨_, rfl, 7721145, -28, by norm_num, by norm_num, by norm_num⟩
  · exact ⟨_, rfl, 9, 0, by norm_num, by norm_num, by norm_num⟩

theorem demoTie_flow (hfl : IsRounding 53 (-1074) fl) {κ : Rat} (hκ : 1 / 2 < κ) :
    (Flow.terrainFlowdirection (fsub fl) (fun x => fl (x * κ)) demoTie true).get (1, 1) =
      if 23641259 / 2 ^ 22 < fl (2139762503 / 2 ^ 28 * κ) then 1 else 0 := by
  have e1 : fl (8 - 9913173 / 2 ^ 22) = 23641259 / 2 ^ 22 := by
    rw [show (8 - 9913173 / 2 ^ 22 : Rat) = 23641259 / 2 ^ 22 by norm_num]
    exact fl_exact hfl ⟨23641259, -22, by norm_num, by norm_num, by norm_num⟩
  have e2 : fl (8 - 7721145 / 2 ^ 28) = 2139762503 / 2 ^ 28 := by
    rw [show (8 - 7721145 / 2 ^ 28 : Rat) = 2139762503 / 2 ^ 28 by norm_num]
    exact fl_exact hfl ⟨2139762503, -28, by norm_num, by norm_num, by norm_num⟩
  have e3 : fl (8 - 9) = -1 := by
    rw [show (8 - 9 : Rat) = -1 by norm_num]
    exact fl_exact hfl ⟨-1, 0, by norm_num, by norm_num, by norm_num⟩
  have e4 : fl (-1 * κ) ≤ 0 := fl_nonpos hfl (by linarith)
  have hin : (Flow.terrainFlowdirection (fsub fl) (fun x => fl (x * κ)) demoTie true).get (1, 1) =
      Flow.cellFlow (fsub fl) (fun x => fl (x * κ)) demoTie 1 1 := rfl
  have hpos : (0 : Rat) < 23641259 / 2 ^ 22 := by norm_num
  have g : ∀ (r c : Int), num (demoTie.get (r, c)) = if (r, c) = ((1, 1) : Cell) then 8 else if (r, c) = ((0, 1) : Cell) then 9913173 / 2 ^ 22
      else if (r, c) = ((0, 2) : Cell) then 7721145 / 2 ^ 28 else 9 := by
    intro r c
    simp only [demoTie]
    split_ifs <;> rfl
  rw [hin]
  unfold Flow.cellFlow
  simp only [fsub, g]
  norm_num only [Prod.mk.injEq, and_true, true_and, and_false, false_and, if_true, if_false, and_self]
  norm_num only at e1 e2 e3
  rw [e1, e2, e3, if_pos (show (23641259 / 4194304 : Rat) > 0 by norm_num)]
  generalize fl (2139762503 / 268435456 * κ) = D
  generalize fl (-1 * κ) = N at e4
  have n1 : ¬ (-1 : Rat) > 23641259 / 4194304 := by norm_num
  have n2 : ¬ N > 23641259 / 4194304 := not_lt.2 (e4.trans (by norm_num))
  by_cases hD : D > 23641259 / 4194304
  · have h0 : (0 : Rat) < D := lt_trans (by norm_num) hD
    have n3 : ¬ (-1 : Rat) > D := not_lt.2 (by linarith)
    have n4 : ¬ N > D := not_lt.2 (by linarith)
    have hD' := gt_iff_lt.1 hD
    simp only [if_pos hD, if_neg n3, if_neg n4, if_pos hD']
  · have hD' : ¬ 23641259 / 4194304 < D := hD
    simp only [if_neg hD, if_neg n1, if_neg n2, if_neg hD']

/-- C81 is false, even for float32 elevations: on `demoTie` the Python functions send the water of the cell in the middle
up and to the right (code 1), the compiled ones up (code 0). -/
theorem C81_flowdir_false (hfl : IsRounding 53 (-1074) fl) : IsDem32 demoTie ∧
    (Flow.terrainFlowdirection (fsub fl) (fun x => fl (x * (1 / Fill.sqrt2))) demoTie true).get (1, 1) = 1 ∧
    (Flow.terrainFlowdirection (fsub fl) (fun x => fl (x * FlowCython.invSqrt2)) demoTie true).get (1, 1) = 0 := by
  have hb : IsF64 (23641259 / 2 ^ 22) := ⟨23641259, -22, by norm_num, by norm_num, by norm_num⟩
  have hg : IsGap 53 (-1074) (-50) (23641259 / 2 ^ 22) := ⟨by norm_num, by norm_num [abs_lt], .inr (by norm_num [le_abs])⟩
  refine ⟨demoTie_dem, ?_, ?_⟩
  · rw [demoTie_flow hfl (by norm_num [Fill.sqrt2]), if_pos]
    have := fl_up hfl (by norm_num) hg hb (by norm_num) (x := 2139762503 / 2 ^ 28 * (1 / Fill.sqrt2))
      (by norm_num [Fill.sqrt2])
    have h2 := two_pos (-50)
    linarith
  · rw [demoTie_flow hfl (by norm_num [FlowCython.invSqrt2]), if_neg]
    exact not_lt.2 (fl_down hfl hg hb (by norm_num) (by norm_num [FlowCython.invSqrt2]))

/-- A 3x3 terrain with elevations in quarter metres. -/
def demoQuarters : Raster (WithTop F64) where
  rows := 3
  cols := 3
  get c := ((⟨((c.1 * 3 + c.2 * 5 : Int) % 16 : Int) * 2 ^ (-2 : Int), (c.1 * 3 + c.2 * 5) % 16, -2, by
    rw [abs_lt]; constructor <;> omega, by norm_num, rfl⟩ : F64) : WithTop F64)

/-- Non-vacuity of C81: `demoQuarters` has whole drops, and some are positive. -/
example : WholeDrops demoQuarters ∧ num (demoQuarters.get (0, 1)) < num (demoQuarters.get (1, 1)) := by
  refine ⟨fun c _ => ⟨-2, by norm_num, fun b _ => ⟨(c.1 * 3 + c.2 * 5) % 16 - (b.1 * 3 + b.2 * 5) % 16, ?_, ?_⟩⟩, ?_⟩
  · rw [abs_le]; constructor <;> omega
  · simp only [demoQuarters, num, WithTop.untopD_coe]
    push_cast
    ring
  · simp only [demoQuarters, num, WithTop.untopD_coe]
    norm_num

end Float
end Malstroem
