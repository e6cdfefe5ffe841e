/-
Properties C47, C48, C65, C66: reading and writing rasters.
-/
import Verif.Proofs.Io
import Mathlib.Tactic.Ring
import Mathlib.Tactic.FieldSimp

set_option linter.unusedSectionVars false

namespace Malstroem
namespace Io
open Spec (Num DType Holds IsNodata ExactCast IsFileType)

/-! ### C47 -/

/-- C47, what holds: with a substitute value and a nodata value other than zero, `read` returns the stored raster with
exactly the nodata cells replaced by the substitute (converted to the type of the raster; if numpy cannot convert it the
exception is raised); without a substitute or a nodata value the data is unchanged. Missing: a nodata value of zero, for
which the claim is false (`C47_false`). -/
theorem C47_read_partial (store : DType → Num → Except PyErr Num) (file : File) (subst : Option Num) (r : Reader)
    (hopen : Reader.open file subst = .ok r) :
    r.shape = (file.data.rows, file.data.cols) ∧
    (∀ nodata s v, file.nodata = some nodata → nodata ≠ .fin 0 → subst = some s → store file.dtype s = .ok v →
      ∃ a, r.read store = .ok a ∧ a.dtype = file.dtype ∧ a.data.rows = file.data.rows ∧ a.data.cols = file.data.cols ∧
        ∀ c, (IsNodata nodata (file.data.get c) → a.data.get c = v) ∧
          (¬ IsNodata nodata (file.data.get c) → a.data.get c = file.data.get c)) ∧
    (∀ nodata s e, file.nodata = some nodata → nodata ≠ .fin 0 → subst = some s → store file.dtype s = .error e →
      r.read store = .error e) ∧
    (file.nodata = none ∨ subst = none → r.read store = .ok ⟨file.dtype, file.data⟩) := by
  unfold Reader.open at hopen
  split at hopen
  · cases hopen
    refine ⟨rfl, ?_, ?_, ?_⟩
    · intro nodata s v h1 h2 h3 h4
      simp only [Reader.read, h1, h3, truthy, h2, ne_eq, not_false_eq_true, decide_true, if_true, h4]
      refine ⟨_, rfl, rfl, rfl, rfl, fun c => ?_⟩
      by_cases hn : nodata = .nan
      · subst hn
        have : isnan Num.nan = true := by simp [isnan]
        simp only [this, if_true]
        rw [← isnan_iff]
        exact ⟨fun h => by rw [if_pos h], fun h => by rw [if_neg h]⟩
      · have : isnan nodata = false := by simp [isnan, hn]
        simp only [this, Bool.false_eq_true, if_false]
        rw [← isclose_iff hn]
        exact ⟨fun h => by rw [if_pos h], fun h => by rw [if_neg h]⟩
    · intro nodata s e h1 h2 h3 h4
      simp only [Reader.read, h1, h3, truthy, h2, ne_eq, not_false_eq_true, decide_true, if_true, h4]
    · rintro (h | h)
      · simp only [Reader.read, h]
      · simp only [Reader.read, h]
        split
        · rename_i h'; cases h'
        · rfl
  · cases hopen

/-- A raster of two cells with nodata 0. -/
def zeroNodata : File :=
  { dtype := .float32, data := ⟨1, 2, fun c => if c.2 = 0 then .fin 0 else .fin 1⟩, transform := [0, 1, 0, 0, 0, -1], crs := "",
    nodata := some (.fin 0) }

/-- C47 is false: with nodata 0 the nodata cell is not replaced. -/
theorem C47_false : ∃ r a, Reader.open zeroNodata (some (.fin (-999))) = .ok r ∧
    r.read (fun _ v => .ok v) = .ok a ∧ IsNodata (.fin 0) (zeroNodata.data.get (0, 0)) ∧ a.data.get (0, 0) = .fin 0 := by
  refine ⟨_, _, rfl, rfl, .inl rfl, rfl⟩

/-- C47: for an integer raster with a nodata value of at most five digits only the cells equal to it are nodata. -/
theorem C47_integer (nodata x : Int) (h : |nodata| ≤ 99999) : IsNodata (.fin nodata) (.fin x) ↔ x = nodata := by
  constructor
  · rintro (h1 | ⟨n, v, h1, h2, h3⟩)
    · simpa using h1
    · simp only [Num.fin.injEq] at h1 h2
      subst h1 h2
      have h' : |(nodata : Rat)| ≤ 99999 := by rw [← Int.cast_abs]; exact_mod_cast h
      have : |((x - nodata : Int) : Rat)| < 1 := by
        push_cast
        refine lt_of_le_of_lt h3 ?_
        linarith
      rw [← Int.cast_abs] at this
      have : |x - nodata| < 1 := by exact_mod_cast this
      have := Int.abs_lt_one_iff.1 this
      omega
  · rintro rfl
    exact .inl rfl

/-- C47: beyond that the tolerance reaches other integers: with nodata -100000 a cell with -99999 counts as nodata. -/
theorem C47_tolerance : IsNodata (.fin (-100000)) (.fin (-99999)) := by
  refine .inr ⟨_, _, rfl, rfl, ?_⟩
  norm_num [abs_of_neg]

/-- Non-vacuity for C47. -/
example : ∃ r a, Reader.open { zeroNodata with nodata := some (.fin 1) } (some (.fin (-999))) = .ok r ∧
    r.read (fun _ v => .ok v) = .ok a ∧ a.data.toRows = [[.fin 0, .fin (-999)]] := by
  exact ⟨_, _, rfl, rfl, by decide +kernel⟩

/-! ### C48 -/

theorem values_of {d : Raster Num} {t : DType} {lo hi : Int} (ht : t.range? = some (lo, hi))
    (hv : ∀ c, d.Has c → Holds t (d.get c)) : ∀ v ∈ d.cells.map d.get, ∃ q : Rat, v = .fin q := by
  intro v hvm
  obtain ⟨c, hc, rfl⟩ := List.mem_map.1 hvm
  obtain ⟨n, hn, _⟩ := (holds_int ht).1 (hv c (Flow.mem_cellList.1 hc))
  exact ⟨n, hn⟩

theorem cells_ne {d : Raster Num} (h : d.rows ≠ 0 ∧ d.cols ≠ 0) : d.cells.map d.get ≠ [] := by
  have : ((0, 0) : Cell) ∈ d.cells := Flow.mem_cellList.2 (by simp only [Spec.InGrid]; omega)
  intro e
  have := List.mem_map_of_mem (f := d.get) this
  rw [e] at this
  cases this

theorem writeCast_ok {astype : DType → Num → Num} {w : Writer} {d : Raster Num} {t : DType} (ht : gdalType t = some t)
    (h : d.rows ≠ 0 ∧ d.cols ≠ 0) : ∃ f, w.writeCast astype d t = .ok f := by
  rw [Writer.writeCast, ht]
  exact ⟨_, create_ok w t _ h⟩

/-- What a file written by the writer must look like. -/
structure Written (w : Writer) (data : Arr) (f : File) : Prop where
  filetype : IsFileType f.dtype
  same : Raster.Same f.data data.data
  fits : ∀ c, f.data.Has c → Holds f.dtype (f.data.get c)
  transform : w.transform ≠ [] → f.transform = w.transform
  crs : f.crs = w.crs
  nodata : f.nodata = w.nodata

theorem written_cast {astype : DType → Num → Num} (hcast : ExactCast astype) {w : Writer} {data : Arr} {t : DType}
    (hall : ∀ c, data.data.Has c → Holds t (data.data.get c)) {f : File} (h : w.writeCast astype data.data t = .ok f) :
    Written w data f := by
  obtain ⟨h1, h2, h3, h4, h5, h6, h7, h8⟩ := writeCast_inv hcast hall h
  refine ⟨h3 ▸ h4, h5, fun c hc => ?_, fun hne => by rw [h6, if_pos hne], ?_, h8⟩
  · have hc' : data.data.Has c := by
      unfold Raster.Has Spec.InGrid at hc ⊢
      rw [h5.1, h5.2.1] at hc; exact hc
    rw [h3, h5.2.2 c hc]; exact hall c hc'
  · rw [h7]; split
    · rfl
    · rename_i h; simp only [ne_eq, not_not] at h; exact h.symm

theorem written_create {w : Writer} {data : Arr} (hall : ∀ c, data.data.Has c → Holds data.dtype (data.data.get c))
    {t : DType} (ht : gdalType data.dtype = some t) {f : File} (h : w.create t data.data = .ok f) : Written w data f := by
  obtain ⟨rfl, hft⟩ := gdalType_self ht
  obtain ⟨h1, h2, h3, h4, h6, h7, h8⟩ := create_inv h
  refine ⟨h3 ▸ hft, h4 ▸ ⟨rfl, rfl, fun _ _ => rfl⟩, fun c hc => ?_, fun hne => by rw [h6, if_pos hne], ?_, h8⟩
  · rw [h4] at hc
    rw [h3, h4]; exact hall c hc
  · rw [h7]; split
    · rfl
    · rename_i h; simp only [ne_eq, not_not] at h; exact h.symm

/-- C48: for every integer raster a file that `write` produces holds exactly its values, in a type that can represent each
of them; and for a raster with at least one cell it produces a file iff one of the integer file types can represent all
values (otherwise it raises). -/
theorem C48_integer (astype : DType → Num → Num) (hcast : ExactCast astype) (w : Writer) (data : Arr) (lo hi : Int)
    (hint : data.dtype.range? = some (lo, hi)) (hv : ∀ c, data.data.Has c → Holds data.dtype (data.data.get c)) :
    (∀ f, w.write astype data = .ok f → Written w data f) ∧
    (data.data.rows ≠ 0 ∧ data.data.cols ≠ 0 → ((∃ f, w.write astype data = .ok f) ↔
      ∃ t, IsFileType t ∧ t.range?.isSome ∧ ∀ c, data.data.Has c → Holds t (data.data.get c))) := by
  rw [Writer.write]
  rcases hg : gdalType data.dtype with _ | t
  swap
  · refine ⟨fun f h => written_create hv hg h, fun hne => ⟨fun _ => ?_, fun _ => ?_⟩⟩
    · obtain ⟨rfl, hft⟩ := gdalType_self hg
      exact ⟨data.dtype, hft, by rw [hint]; rfl, hv⟩
    · exact ⟨_, create_ok w t _ hne⟩
  by_cases hne : data.data.rows ≠ 0 ∧ data.data.cols ≠ 0
  swap
  · refine ⟨fun f h => ?_, fun h => absurd h hne⟩
    have : data.data.cells.map data.data.get = [] := by
      rw [List.map_eq_nil_iff, List.eq_nil_iff_forall_not_mem]
      intro c hc
      have := Flow.mem_cellList.1 hc
      simp only [Spec.InGrid] at this
      omega
    simp [this, minimum, bind, Except.bind] at h
  have hvals := values_of hint hv
  obtain ⟨mn, h1, h2, h3⟩ := minimum_ok hvals (cells_ne hne)
  obtain ⟨mx, g1, g2, g3⟩ := maximum_ok hvals (cells_ne hne)
  have hk : isIntKind data.dtype = true := by
    revert hint
    cases data.dtype <;> simp [DType.range?, isIntKind]
  simp only [h1, g1, bind, Except.bind, hk, if_true]
  have hmem : ∀ v, v ∈ data.data.cells.map data.data.get ↔ ∃ c, data.data.Has c ∧ data.data.get c = v := by
    intro v
    rw [List.mem_map]
    exact ⟨fun ⟨c, hc, e⟩ => ⟨c, Flow.mem_cellList.1 hc, e⟩, fun ⟨c, hc, e⟩ => ⟨c, Flow.mem_cellList.2 hc, e⟩⟩
  -- a type whose range covers the extremes holds all values
  have hall : ∀ (t : DType) (lo hi : Int), t.range? = some (lo, hi) → (lo : Rat) ≤ mn → mx ≤ hi →
      ∀ c, data.data.Has c → Holds t (data.data.get c) := by
    intro t lo hi ht hlo hhi c hc
    obtain ⟨n, hn, _⟩ := (holds_int hint).1 (hv c hc)
    have hm := (hmem _).2 ⟨c, hc, hn⟩
    refine (holds_int ht).2 ⟨n, hn, ?_, ?_⟩
    · exact_mod_cast le_trans hlo (h3 _ hm)
    · exact_mod_cast le_trans (g3 _ hm) hhi
  have hback : ∀ (t : DType) (lo hi : Int), t.range? = some (lo, hi) →
      (∀ c, data.data.Has c → Holds t (data.data.get c)) → (lo : Rat) ≤ mn ∧ mx ≤ hi := by
    intro t lo hi ht h
    constructor
    · obtain ⟨c, hc, e⟩ := (hmem _).1 h2
      obtain ⟨n, hn, hlo, _⟩ := (holds_int ht).1 (h c hc)
      rw [e] at hn
      cases hn
      exact_mod_cast hlo
    · obtain ⟨c, hc, e⟩ := (hmem _).1 g2
      obtain ⟨n, hn, _, hhi⟩ := (holds_int ht).1 (h c hc)
      rw [e] at hn
      cases hn
      exact_mod_cast hhi
  have hmm : mn ≤ mx := h3 _ g2
  -- no file type, no file
  have hnone : ∀ (hno : ∀ (t : DType) (lo hi : Int), IsFileType t → t.range? = some (lo, hi) → ¬ ((lo : Rat) ≤ mn ∧ mx ≤ hi)),
      ¬ ∃ t, IsFileType t ∧ t.range?.isSome ∧ ∀ c, data.data.Has c → Holds t (data.data.get c) := by
    rintro hno ⟨t, h1, h2, h3⟩
    obtain ⟨⟨lo, hi⟩, ht⟩ := Option.isSome_iff_exists.1 h2
    exact hno t lo hi h1 ht (hback t lo hi ht h3)
  have hyes : ∀ (t : DType) (lo hi : Int), gdalType t = some t → t.range? = some (lo, hi) → (lo : Rat) ≤ mn → mx ≤ hi →
      (∀ f, w.writeCast astype data.data t = .ok f → Written w data f) ∧
      (data.data.rows ≠ 0 ∧ data.data.cols ≠ 0 → ((∃ f, w.writeCast astype data.data t = .ok f) ↔
        ∃ t, IsFileType t ∧ t.range?.isSome ∧ ∀ c, data.data.Has c → Holds t (data.data.get c))) := by
    intro t lo hi hg ht hlo hhi
    refine ⟨fun f h => written_cast hcast (hall t lo hi ht hlo hhi) h, fun hne => ⟨fun _ => ?_, fun _ => writeCast_ok hg hne⟩⟩
    exact ⟨t, (gdalType_self hg).2, by rw [ht]; rfl, hall t lo hi ht hlo hhi⟩
  have hnof : ∀ (hno : ∀ (t : DType) (lo hi : Int), IsFileType t → t.range? = some (lo, hi) → ¬ ((lo : Rat) ≤ mn ∧ mx ≤ hi)),
      (∀ f, Except.error PyErr.nameError = Except.ok f → Written w data f) ∧
      (data.data.rows ≠ 0 ∧ data.data.cols ≠ 0 → ((∃ f : File, Except.error PyErr.nameError = Except.ok f) ↔
        ∃ t, IsFileType t ∧ t.range?.isSome ∧ ∀ c, data.data.Has c → Holds t (data.data.get c))) := by
    intro hno
    exact ⟨fun f h => by (cases h), fun _ => ⟨fun ⟨f, h⟩ => by (cases h), fun h => absurd h (hnone hno)⟩⟩
  simp only [le_fin, Bool.and_eq_true]
  split
  · rename_i h0
    split
    · rename_i hu
      exact hyes .uint8 0 (2 ^ 8 - 1) rfl rfl (by simpa using h0) (by norm_num; linarith)
    split
    · rename_i hu
      exact hyes .uint16 0 (2 ^ 16 - 1) rfl rfl (by simpa using h0) (by norm_num; linarith)
    split
    · rename_i hu
      exact hyes .uint32 0 (2 ^ 32 - 1) rfl rfl (by simpa using h0) (by norm_num; linarith)
    · rename_i hu
      refine hnof ?_
      rintro t lo hi (rfl | rfl | rfl | rfl | rfl | rfl | rfl) ht <;> simp only [DType.range?, Option.some.injEq,
        Prod.mk.injEq, reduceCtorEq] at ht <;> obtain ⟨rfl, rfl⟩ := ht <;> rintro ⟨-, hx⟩ <;> norm_num at hx <;> linarith
  · rename_i h0
    split
    · rename_i hu
      exact hyes .int16 (-2 ^ 15) (2 ^ 15 - 1) rfl rfl (by norm_num; linarith [hu.1]) (by norm_num; linarith [hu.2])
    split
    · rename_i hu
      exact hyes .int32 (-2 ^ 31) (2 ^ 31 - 1) rfl rfl (by norm_num; linarith [hu.1]) (by norm_num; linarith [hu.2])
    · rename_i hs hu
      refine hnof ?_
      rintro t lo hi (rfl | rfl | rfl | rfl | rfl | rfl | rfl) ht <;> simp only [DType.range?, Option.some.injEq,
        Prod.mk.injEq, reduceCtorEq] at ht <;> obtain ⟨rfl, rfl⟩ := ht <;> rintro ⟨hl, hx⟩ <;> norm_num at hx hl
      · exact h0 hl
      · exact h0 hl
      · exact hs ⟨by linarith, by linarith⟩
      · exact h0 hl
      · exact hu ⟨by linarith, by linarith⟩

/-- numpy's conversion to an integer type for integers: wraps around. -/
def wrap (t : DType) (x : Num) : Num :=
  match t.range?, x with
  | some (lo, hi), .fin q => .fin ((q.num - lo) % (hi - lo + 1) + lo : Int)
  | _, _ => x

/-- Non-vacuity for C48: an int64 raster is stored as uint16, one with a value that does not fit anywhere is refused. The
wrapping conversion is exact on the values that fit. -/
example : (Writer.write wrap ⟨[1, 2, 0, 3, 0, -2], "EPSG:25832", some (.fin 0)⟩
    ⟨.int64, ⟨1, 2, fun c => if c.2 = 0 then .fin 0 else .fin 65535⟩⟩).toOption.map (fun f => (f.dtype, f.data.toRows)) =
    some (.uint16, [[.fin 0, .fin 65535]]) := by decide +kernel
example : (Writer.write wrap ⟨[1, 2, 0, 3, 0, -2], "EPSG:25832", some (.fin 0)⟩
    ⟨.int64, ⟨1, 2, fun c => if c.2 = 0 then .fin (-1) else .fin 2147483648⟩⟩).toOption.isNone = true := by decide +kernel
example : ExactCast wrap := by
  rintro t x h
  rcases ht : t.range? with _ | ⟨lo, hi⟩
  · simp [wrap, ht]
  · obtain ⟨n, rfl, h1, h2⟩ := (holds_int ht).1 h
    simp only [wrap, ht, Rat.num_intCast]
    rw [Int.emod_eq_of_lt (by omega) (by omega)]
    simp

/-! ### C65 -/

theorem holds_float32_of_float16 {x : Num} (h : Holds .float16 x) : Holds .float32 x := by
  cases x with
  | fin x =>
    obtain ⟨⟨m, e, h1, h2, h3⟩, h4⟩ := h
    refine ⟨⟨m, e, lt_trans h1 (by norm_num), by omega, h3⟩, le_trans h4 (by norm_num)⟩
  | _ => trivial

theorem holds_float64_of_float32 {x : Num} (h : Holds .float32 x) : Holds .float64 x := by
  cases x with
  | fin x =>
    obtain ⟨⟨m, e, h1, h2, h3⟩, h4⟩ := h
    refine ⟨⟨m, e, lt_trans h1 (by norm_num), by omega, h3⟩, le_trans h4 (mul_le_mul (by norm_num)
      (pow_le_pow_right₀ (by norm_num) (by norm_num)) (by positivity) (by norm_num))⟩
  | _ => trivial

theorem holds_float32_of_bool {x : Num} (h : Holds .bool x) : Holds .float32 x := by
  have h' : x = .fin 0 ∨ x = .fin 1 := by cases x <;> exact h
  rcases h' with rfl | rfl
  · exact ⟨⟨0, 0, by norm_num, by norm_num, by norm_num⟩, by norm_num⟩
  · exact ⟨⟨1, 0, by norm_num, by norm_num, by norm_num⟩, by norm_num⟩

/-- C65, what holds: for every raster of booleans, integers or floating point numbers up to 64 bits, a file that `write`
produces holds exactly its values, in a type that can represent each of them, with the transform, crs and nodata value of
the writer. Missing: long doubles, for which the claim is false (`C65_false`). -/
theorem C65_write_partial (astype : DType → Num → Num) (hcast : ExactCast astype) (w : Writer) (data : Arr)
    (hl : data.dtype ≠ .longdouble) (hv : ∀ c, data.data.Has c → Holds data.dtype (data.data.get c)) (f : File)
    (h : w.write astype data = .ok f) : Written w data f := by
  rcases hr : data.dtype.range? with _ | ⟨lo, hi⟩
  swap
  · exact (C48_integer astype hcast w data lo hi hr hv).1 f h
  rw [Writer.write] at h
  rcases hg : gdalType data.dtype with _ | t
  swap
  · rw [hg] at h
    exact written_create hv hg h
  simp only [hg] at h
  have h32 : ∀ c, data.data.Has c → Holds .float32 (data.data.get c) := by
    intro c hc
    have := hv c hc
    revert hl hr hg this
    cases data.dtype <;> simp only [DType.range?, gdalType, reduceCtorEq, ne_eq, not_false_eq_true, not_true_eq_false,
      false_implies, true_implies]
    · exact holds_float32_of_float16
    · exact holds_float32_of_bool
  have hk : isIntKind data.dtype = false := by
    revert hr
    cases data.dtype <;> simp [DType.range?, isIntKind]
  simp only [hk, Bool.false_eq_true, if_false, bind, Except.bind] at h
  split at h
  · cases h
  split at h
  · cases h
  split at h
  · exact written_cast hcast h32 h
  · exact written_cast hcast (fun c hc => holds_float64_of_float32 (h32 c hc)) h

/-- C65 is false for long doubles: the integer 16777217 is stored as another number, without an exception, whenever the
result of the conversion is a float32 value. -/
theorem C65_false (astype : DType → Num → Num) (hres : Holds .float32 (astype .float32 (.fin 16777217)))
    (w : Writer) :
    ∃ f, w.write astype ⟨.longdouble, ⟨1, 1, fun _ => .fin 16777217⟩⟩ = .ok f ∧ f.data.rows = 1 ∧ f.data.cols = 1 ∧
      f.data.get (0, 0) ≠ .fin 16777217 := by
  have h1 : minimum ((Raster.cells (⟨1, 1, fun _ => .fin 16777217⟩ : Raster Num)).map fun _ => Num.fin 16777217) =
    .ok (.fin 16777217) := by decide +kernel
  have h2 : maximum ((Raster.cells (⟨1, 1, fun _ => .fin 16777217⟩ : Raster Num)).map fun _ => Num.fin 16777217) =
    .ok (.fin 16777217) := by decide +kernel
  simp only [Writer.write, gdalType, h1, h2, bind, Except.bind, isIntKind, Bool.false_eq_true, if_false, le_fin,
    Bool.and_eq_true]
  rw [if_pos (by norm_num)]
  simp only [Writer.writeCast, gdalType]
  rw [create_ok _ _ _ (by simp)]
  refine ⟨_, rfl, rfl, rfl, fun h => ?_⟩
  have hh := hres
  simp only at h
  rw [h] at hh
  obtain ⟨⟨m, e, h1, _, h3⟩, _⟩ := hh
  rcases lt_or_ge 0 e with he | he
  · obtain ⟨k, rfl⟩ : ∃ k : Nat, e = (k : Int) + 1 := ⟨(e - 1).toNat, by omega⟩
    have : ((16777217 : Int) : Rat) = ((m * 2 ^ k * 2 : Int) : Rat) := by
      push_cast
      rw [h3, zpow_add_one₀ (by norm_num), zpow_natCast]
      ring
    have : (16777217 : Int) = m * 2 ^ k * 2 := by exact_mod_cast this
    omega
  · obtain ⟨k, rfl⟩ : ∃ k : Nat, e = -(k : Int) := ⟨(-e).toNat, by omega⟩
    have : ((16777217 * 2 ^ k : Int) : Rat) = ((m : Int) : Rat) := by
      push_cast
      rw [h3, zpow_neg, zpow_natCast]
      field_simp
    have hm : 16777217 * 2 ^ k = m := by exact_mod_cast this
    have : (1 : Int) ≤ 2 ^ k := one_le_pow₀ (by norm_num)
    have := (abs_lt.1 h1).2
    norm_num at this
    omega

/-! ### C66 -/

/-- C66: a raster of booleans, integers or floating point numbers up to 64 bits that `write` has stored is read back with the
same shape and values, with the transform and crs it was written with: by a reader without a nodata substitute, if it was
written without a nodata value or with nodata 0, and in general if the substitute equals the nodata value, can be
stored, and no other value of the raster is within the tolerance of it. -/
theorem C66_roundtrip (astype : DType → Num → Num) (hcast : ExactCast astype) (store : DType → Num → Except PyErr Num)
    (w : Writer) (hw : w.transform.length = 6) (data : Arr) (hl : data.dtype ≠ .longdouble)
    (hv : ∀ c, data.data.Has c → Holds data.dtype (data.data.get c)) (f : File) (h : w.write astype data = .ok f)
    (subst : Option Num)
    (hsub : subst = none ∨ w.nodata = none ∨ w.nodata = some (.fin 0) ∨
      ∃ s, subst = some s ∧ w.nodata = some s ∧ store f.dtype s = .ok s ∧
        ∀ c, data.data.Has c → IsNodata s (data.data.get c) → data.data.get c = s) :
    ∃ r a, Reader.open f subst = .ok r ∧ r.transform = w.transform ∧ r.crs = w.crs ∧
      r.shape = (data.data.rows, data.data.cols) ∧ r.read store = .ok a ∧ a.data.Same data.data := by
  obtain ⟨_, hsame, _, htr, hcrs, hnd⟩ := C65_write_partial astype hcast w data hl hv f h
  have hne : w.transform ≠ [] := by intro e; rw [e] at hw; cases hw
  have htr := htr hne
  obtain ⟨r, hr, hr1, hr2, hr3, hr4⟩ : ∃ r, Reader.open f subst = .ok r ∧ r.transform = f.transform ∧ r.crs = f.crs ∧
      r.shape = (f.data.rows, f.data.cols) ∧ r = ⟨f, f.transform, f.crs, f.nodata, subst, r.shape, r.resolution⟩ := by
    unfold Reader.open
    rw [htr, List.getElem?_eq_getElem (by omega), List.getElem?_eq_getElem (by omega)]
    exact ⟨_, rfl, rfl, rfl, rfl, rfl⟩
  have hc := C47_read_partial store f subst r hr
  have key : ∃ a, r.read store = .ok a ∧ a.data.Same data.data := by
    rcases hsub with h1 | h1 | h1 | ⟨s, h1, h2, h3, h4⟩
    · exact ⟨_, hc.2.2.2 (.inr h1), hsame⟩
    · exact ⟨_, hc.2.2.2 (.inl (hnd.trans h1)), hsame⟩
    · refine ⟨⟨f.dtype, f.data⟩, ?_, hsame⟩
      rw [hr4]
      simp only [Reader.read, hnd.trans h1]
      cases subst <;> simp [truthy]
    · by_cases hz : s = .fin 0
      · refine ⟨⟨f.dtype, f.data⟩, ?_, hsame⟩
        rw [hr4]
        simp only [Reader.read, hnd.trans h2, hz]
        cases subst <;> simp [truthy]
      obtain ⟨a, g1, g2, g3, g4, g5⟩ := hc.2.1 s s s (hnd.trans h2) hz h1 h3
      refine ⟨a, g1, g3.trans hsame.1, g4.trans hsame.2.1, fun c hcc => ?_⟩
      have hcf : f.data.Has c := by
        unfold Raster.Has Spec.InGrid at hcc ⊢
        rw [g3, g4] at hcc; exact hcc
      have hcd : data.data.Has c := by
        unfold Raster.Has Spec.InGrid at hcf ⊢
        rw [hsame.1, hsame.2.1] at hcf; exact hcf
      have e := hsame.2.2 c hcf
      by_cases hn : IsNodata s (f.data.get c)
      · rw [(g5 c).1 hn, h4 c hcd (e ▸ hn)]
      · rw [(g5 c).2 hn, e]
  obtain ⟨a, ha, hs⟩ := key
  exact ⟨r, a, hr, hr1.trans htr, hr2.trans hcrs, by rw [hr3, hsame.1, hsame.2.1], ha, hs⟩

/-- Non-vacuity for C65 and C66: a boolean raster written with nodata -999 and read back. -/
example : ((Writer.write wrap ⟨[1, 2, 0, 3, 0, -2], "EPSG:25832", some (.fin (-999))⟩
    ⟨.bool, ⟨1, 2, fun c => if c.2 = 0 then .fin 0 else .fin 1⟩⟩).bind fun f =>
      (Reader.open f (some (.fin (-999)))).bind fun r => (r.read fun _ v => .ok v).map fun a =>
        (f.dtype, r.transform, a.data.toRows)).toOption =
    some (.float32, [1, 2, 0, 3, 0, -2], [[.fin 0, .fin 1]]) := by decide +kernel

end Io
end Malstroem
