/-
Properties C13-C23 and C59: flow directions, traces, accumulated flow, watersheds.
-/
import Verif.Props.Fill
import Verif.Proofs.DemTool
import Verif.Proofs.Connected
import Verif.Proofs.FlowAccum8
import Mathlib.Analysis.Real.Sqrt

set_option linter.unusedSectionVars false

namespace Malstroem
open Spec

/-! ### Concrete rasters used to show that hypotheses can be met -/

/-- A draining 3x4 flow direction raster. -/
def demoFlow : Raster Nat := Raster.ofRows [[7,0,0,1],[6,3,3,2],[5,2,2,3]]

/-- A raster with outward edges whose interior holds a two-cell cycle and a code 8 cell. -/
def demoCycle : Raster Nat := Raster.ofRows [[7,0,0,0,1],[6,2,6,8,2],[6,0,6,4,2],[5,4,4,4,3]]

/-- Decidable sufficient condition for `Drains`: the trace leaves the raster within `n` steps. -/
def drainsIn (fd : Raster Nat) : Nat → Cell → Bool
  | 0, _ => false
  | n + 1, c => Flow.cellInRaster fd.rows fd.cols c && decide (fd.get c < 8) &&
      (!Flow.cellInRaster fd.rows fd.cols (neighbour c (fd.get c)) || drainsIn fd n (neighbour c (fd.get c)))

theorem drainsIn_sound (fd : Raster Nat) : ∀ n c, drainsIn fd n c = true → Drains fd.rows fd.cols fd.get c := by
  intro n
  induction n with
  | zero => intro c h; cases h
  | succ n ih =>
    intro c h
    simp only [drainsIn, Bool.and_eq_true, Bool.or_eq_true, decide_eq_true_eq, Flow.cellInRaster_iff,
      Bool.not_eq_true'] at h
    obtain ⟨⟨hc, hlt⟩, h⟩ := h
    have hft : FlowsTo fd.get c (neighbour c (fd.get c)) := Flow.flowsTo_iff.2 ⟨hlt, rfl⟩
    by_cases hg : InGrid fd.rows fd.cols (neighbour c (fd.get c))
    · have hd := ih _ (h.resolve_left (by rw [Flow.cellInRaster_iff.2 hg]; simp))
      exact Flow.Drains.up (.single ⟨hc, hg, hft⟩) hd
    · exact ⟨c, .refl, hc, _, hft, hg⟩

theorem demoFlow_drains : ∀ c, demoFlow.Has c → Drains demoFlow.rows demoFlow.cols demoFlow.get c := by
  intro c hc
  apply drainsIn_sound demoFlow 6
  have := Flow.mem_cellList.2 hc
  revert c
  have h : ∀ c ∈ Raster.cellList demoFlow.rows demoFlow.cols, drainsIn demoFlow 6 c = true := by decide +kernel
  intro c _ hm
  exact h c hm

/-! ### C13 -/

section C13
variable {β γ : Type*} [LinearOrder β] [LinearOrder γ] [Zero γ]

/-- C13: a non-edge cell gets code 8 iff no neighbour is strictly lower, and otherwise the first direction clockwise
from Up with the largest drop per distance. `sub` and `scale` are the elevation difference and the division of a
diagonal drop by sqrt 2 as computed (rounded or not); assumed is only that they have the right sign. -/
theorem C13_flowdir_steepest (sub : β → β → γ) (scale : γ → γ) (t : Raster β)
    (hsub : ∀ a b, t.Has a → t.Has b → (0 < sub (t.get a) (t.get b) ↔ t.get b < t.get a))
    (hscale : ∀ a b, 0 < scale (sub a b) ↔ 0 < sub a b) (outward : Bool) (c : Cell) (hc : Interior t.rows t.cols c) :
    let code := (Flow.terrainFlowdirection sub scale t outward).get c
    (code = 8 ↔ ∀ b, Adj c b → ¬ t.get b < t.get c) ∧
    (code ≠ 8 → code < 8 ∧ t.get (neighbour c code) < t.get c ∧
      (∀ k < 8, slope sub scale t.get c k ≤ slope sub scale t.get c code) ∧
      (∀ k < code, slope sub scale t.get c k < slope sub scale t.get c code)) := by
  simp only [Flow.flowdirection_interior sub scale t outward hc]
  have hpos : ∀ k < 8, (0 < slope sub scale t.get c k ↔ t.get (neighbour c k) < t.get c) := fun k hk =>
    Flow.slope_pos_iff (hsub _ _ hc.1 (Flow.interior_move_inGrid hc hk)) hscale
  rcases Flow.cellFlow_spec sub scale t c with ⟨h1, h2⟩ | ⟨h1, h2, h3, h4⟩
  · refine ⟨⟨fun _ b hb hlt => ?_, fun _ => h1⟩, fun h => absurd h1 h⟩
    obtain ⟨k, hk, rfl⟩ := Flow.exists_move_of_adj hb
    exact absurd (h2 k hk) (not_le.2 ((hpos k hk).2 hlt))
  · refine ⟨⟨fun h => absurd h1 (by omega), fun h => ?_⟩, fun _ => ⟨h1, (hpos _ h1).1 h2, h3, h4⟩⟩
    exact absurd ((hpos _ h1).1 h2) (h _ (Flow.move_adj c h1))

end C13

/-- Real-valued slope: drop over Euclidean distance between cell centres. -/
noncomputable def dropPerDistance (z : Cell → ℝ) (a b : Cell) : ℝ :=
  (z a - z b) / √(((a.1 - b.1 : Int) : ℝ) ^ 2 + ((a.2 - b.2 : Int) : ℝ) ^ 2)

theorem slope_real (z : Cell → ℝ) (c : Cell) {k : Nat} (hk : k < 8) :
    slope (· - ·) (· / √2) z c k = dropPerDistance z c (neighbour c k) := by
  obtain ⟨r, q⟩ := c
  unfold slope dropPerDistance neighbour
  interval_cases k <;> simp [offset] <;> norm_num

/-- C13 in exact real arithmetic: the slope is the height difference over the Euclidean distance of the cell centres. -/
theorem C13_flowdir_steepest_real (t : Raster ℝ) (outward : Bool) (c : Cell) (hc : Interior t.rows t.cols c) :
    let code := (Flow.terrainFlowdirection (· - ·) (· / √2) t outward).get c
    (code = 8 ↔ ∀ b, Adj c b → t.get c ≤ t.get b) ∧
    (code ≠ 8 → code < 8 ∧ t.get (neighbour c code) < t.get c ∧
      (∀ b, Adj c b → dropPerDistance t.get c b ≤ dropPerDistance t.get c (neighbour c code)) ∧
      (∀ k < code, dropPerDistance t.get c (neighbour c k) < dropPerDistance t.get c (neighbour c code))) := by
  have h := C13_flowdir_steepest (· - ·) (· / √2) t (fun a b _ _ => sub_pos)
    (fun a b => div_pos_iff_of_pos_right (by positivity)) outward c hc
  simp only at h ⊢
  refine ⟨by simpa only [not_lt] using h.1, fun hne => ?_⟩
  obtain ⟨h1, h2, h3, h4⟩ := h.2 hne
  refine ⟨h1, h2, fun b hb => ?_, fun k hk => ?_⟩
  · obtain ⟨k, hk, rfl⟩ := Flow.exists_move_of_adj hb
    have := h3 k hk
    rwa [slope_real _ _ hk, slope_real _ _ h1] at this
  · have := h4 k hk
    rwa [slope_real _ _ (hk.trans h1), slope_real _ _ h1] at this

/-- Non-vacuity for C13: a tie between UpRight and DownLeft is broken clockwise from Up; a pit gets code 8. -/
example : (Flow.terrainFlowdirection (· - · : Int → Int → Int) id
    (Raster.ofRows [[9,9,1,9],[9,5,9,9],[1,9,3,9],[9,9,9,9]]) false).toRows =
    [[8,8,8,8],[8,1,0,8],[8,6,8,8],[8,8,8,8]] := by decide +kernel

example : Interior 4 4 (1, 1) := by decide

/-! ### C14 -/

/-- C14: with `edges_flow_outward` each edge cell flows to a cell outside the raster, without it each edge cell has code
8, and the flag does not matter for the other cells. -/
theorem C14_edges {β γ : Type*} [LinearOrder β] [LinearOrder γ] [Zero γ] (sub : β → β → γ) (scale : γ → γ)
    (t : Raster β) :
    (∀ c, OnEdge t.rows t.cols c → ∃ b,
      FlowsTo (Flow.terrainFlowdirection sub scale t true).get c b ∧ ¬ InGrid t.rows t.cols b) ∧
    (∀ c, OnEdge t.rows t.cols c → (Flow.terrainFlowdirection sub scale t false).get c = 8) ∧
    (∀ c, Interior t.rows t.cols c → (Flow.terrainFlowdirection sub scale t true).get c =
      (Flow.terrainFlowdirection sub scale t false).get c) ∧
    (∀ b, (Flow.terrainFlowdirection sub scale t b).rows = t.rows ∧
      (Flow.terrainFlowdirection sub scale t b).cols = t.cols) := by
  refine ⟨fun c hc => (Flow.flowdirection_edge sub scale t hc).1.2, fun c hc => (Flow.flowdirection_edge sub scale t hc).2,
    fun c hc => ?_, fun b => Flow.flowdirection_rows sub scale t b⟩
  rw [Flow.flowdirection_interior sub scale t true hc, Flow.flowdirection_interior sub scale t false hc]

/-- Non-vacuity for C14. -/
example : OnEdge 4 4 (3, 2) ∧ OnEdge 1 3 (0, 1) := by decide

/-! ### C15 -/

section C15
variable {β γ : Type*} [LinearOrder β] [OrderTop β] [LinearOrder γ] [Zero γ]

theorem noPits_of_escape {rows cols : Nat} {z : Cell → β}
    (h : ∀ c, InGrid rows cols c → ∃ p, IsEscape rows cols c p ∧ p.IsChain (fun a b => z b < z a)) :
    Flow.NoPits rows cols z := by
  intro c hc
  obtain ⟨p, hp, hch⟩ := h c hc.1
  cases p with
  | nil => have := hp.head; simp at this
  | cons a p =>
    have ha : a = c := by simpa using hp.head
    subst ha
    cases p with
    | nil =>
      obtain ⟨e, he, hedge⟩ := hp.exit
      simp at he
      subst he
      exact absurd hedge hc.2
    | cons b p =>
      exact ⟨b, (List.isChain_cons_cons.1 hp.chain).1, (List.isChain_cons_cons.1 hch).1⟩

/-- The conclusion of C15 for one surface and the directions derived from it. -/
def DrainsDownhill (rows cols : Nat) (z : Cell → β) (fd : Raster Nat) : Prop :=
  ∀ c, InGrid rows cols c → fd.get c < 8 ∧ Drains rows cols fd.get c ∧
    ∃ l, Returns (fun n => Flow.traceDownstream fd n c) (l, none) ∧ IsTrace rows cols fd.get c l ∧ l.Nodup ∧
      l.IsChain (fun a b => z b < z a)

theorem drainsDownhill_of_noPits {sub : β → β → γ} {scale : γ → γ} (t : Raster β)
    (hsub : ∀ a b, t.Has a → t.Has b → (0 < sub (t.get a) (t.get b) ↔ t.get b < t.get a))
    (hscale : ∀ a b, 0 < scale (sub a b) ↔ 0 < sub a b) (h : Flow.NoPits t.rows t.cols t.get) :
    DrainsDownhill t.rows t.cols t.get (Flow.terrainFlowdirection sub scale t true) := by
  set fd := Flow.terrainFlowdirection sub scale t true with hfd
  have hrows : fd.rows = t.rows := (Flow.flowdirection_rows sub scale t true).1
  have hcols : fd.cols = t.cols := (Flow.flowdirection_rows sub scale t true).2
  have hedge : ∀ c, OnEdge t.rows t.cols c → FlowsOut t.rows t.cols fd.get c :=
    fun c hc => (Flow.flowdirection_edge sub scale t hc).1
  have hint := fun c (hc : Interior t.rows t.cols c) =>
    Flow.flowdirection_descends (sub := sub) (scale := scale) t hsub hscale h true hc
  have hdr := Flow.drains_of_descent (z := t.get) hedge hint
  intro c hc
  have hcodes : ∀ c, fd.Has c → fd.get c ≤ 8 := by
    intro c hc
    have hc : InGrid fd.rows fd.cols c := hc
    rw [hrows, hcols] at hc
    exact (Flow.Drains.code_lt (hdr c hc)).le
  refine ⟨Flow.Drains.code_lt (hdr c hc), hdr c hc, ?_⟩
  obtain ⟨r, hr⟩ := Flow.traceDownstream_total hcodes _ c le_rfl (fun hc b hb => by
    apply Flow.not_onCycle_of_drains
    rw [hrows, hcols]
    apply hdr
    have := Flow.downstream_inGrid hb hc
    rwa [hrows, hcols] at this)
  have hc' : fd.Has c := by show InGrid fd.rows fd.cols c; rw [hrows, hcols]; exact hc
  obtain ⟨h1, _, h3⟩ := Flow.traceDownstream_correct hcodes _ c r hr
  have ht := h3 hc'
  rw [hrows, hcols] at ht
  have hn : r = (r.1, none) := by rw [← h1]
  refine ⟨r.1, ?_, ht, ?_, ?_⟩
  · rw [← hn]
    exact Returns.of_mono hr (fun n r h => Flow.traceDownstream_mono n c r h)
  · exact Flow.trace_nodup r.1 c ht (fun x hx => Flow.not_onCycle_of_drains (hdr x (ht.inside x hx)))
  · have hin := ht.inside
    have hch := ht.chain
    generalize r.1 = l at hin hch
    clear ht hr h1 h3 hn
    induction l with
    | nil => exact List.isChain_nil
    | cons a l ih =>
      cases l with
      | nil => exact List.isChain_singleton _
      | cons b l =>
        obtain ⟨hab, hch⟩ := List.isChain_cons_cons.1 hch
        refine List.isChain_cons_cons.2 ⟨?_, ih (fun x hx => hin x (List.mem_cons_of_mem _ hx)) hch⟩
        rcases edge_or_interior (hin a (by simp)) with he | hi
        · exact absurd ⟨hin a (by simp), hin b (by simp), hab⟩ (Flow.flowsOut_no_step (hedge a he))
        · obtain ⟨d, hd, hlt⟩ := hint a hi
          rw [Flow.flowsTo_det hab hd]; exact hlt

/-- C15: in the flow directions DemTool writes, no cell has code 8 and the trace of each cell strictly descends the
no-flats surface, repeats no cell and leaves the raster. Assumptions: DEM elevations are finite; adding `short`/`diag` is
monotone, does not lower and keeps finite values finite; it strictly raises the elevations that occur on the no-flats
surface (see C57); elevation differences and the diagonal scaling have the right sign. -/
theorem C15_dem_flow_drains (drop sub : β → β → γ) (scale : γ → γ) (safe : Raster β → (β → β) × (β → β))
    (square want : Bool) (dem : Raster β) (out : Dem.Out β γ)
    (hdrop : ∀ a b, a < ⊤ → b < ⊤ → (0 < drop a b ↔ b < a)) (hscale : ∀ a b, 0 < scale (drop a b) ↔ 0 < drop a b)
    (hfin : ∀ c, dem.Has c → dem.get c < ⊤)
    (hmono : Monotone (safe dem).1 ∧ Monotone (safe dem).2)
    (hge : ∀ x, x ≤ (safe dem).1 x ∧ x ≤ (safe dem).2 x)
    (hkeep : ∀ x, x < ⊤ → (safe dem).1 x < ⊤ ∧ (safe dem).2 x < ⊤)
    (h : Returns (Dem.process (Dem.python drop scale) sub safe square want dem) (.ok out))
    (hstrict : ∀ c, dem.Has c → out.noFlats.get c < (safe dem).1 (out.noFlats.get c) ∧
      out.noFlats.get c < (safe dem).2 (out.noFlats.get c)) :
    DrainsDownhill dem.rows dem.cols out.noFlats.get out.flowdir := by
  obtain ⟨_, _, _, hnf, hfd, _, _⟩ := Dem.process_inv h
  have h7 := C07_noflats_strictly_downslope _ _ hmono.1 hmono.2 (fun x => (hge x).1) (fun x => (hge x).2) dem
    out.noFlats hfin (fun x hx => (hkeep x hx).1) (fun x hx => (hkeep x hx).2) hnf (fun c hc _ => hstrict c hc)
  obtain ⟨r, hr, hrows, hcols, _⟩ := C06_noflats_returns_bracketed _ _ hmono.1 hmono.2 (fun x => (hge x).1)
    (fun x => (hge x).2) dem (Fill.shape_of_returns_nf hnf).1 (Fill.shape_of_returns_nf hnf).2
  have heq : Except.ok r = Except.ok (ε := PyErr) out.noFlats := Returns.unique hr hnf
  cases heq
  rw [hfd, ← hrows, ← hcols]
  apply drainsDownhill_of_noPits
  · intro a b ha hb
    have ha : InGrid out.noFlats.rows out.noFlats.cols a := ha
    have hb : InGrid out.noFlats.rows out.noFlats.cols b := hb
    rw [hrows, hcols] at ha hb
    exact hdrop _ _ (h7 a ha).1 (h7 b hb).1
  · exact hscale
  · apply noPits_of_escape
    intro c hc
    rw [hrows, hcols] at hc ⊢
    obtain ⟨_, p, hp, hch⟩ := h7 c hc
    exact ⟨p, hp, hch.imp fun a b h => h.1⟩

/-- C15: `DemTool.process` returns on every DEM with square cells and at least 2x2 cells, whether or not the accumulated
flow is wanted. -/
theorem C15_dem_process_returns (drop sub : β → β → γ) (scale : γ → γ) (safe : Raster β → (β → β) × (β → β))
    (want : Bool) (dem : Raster β) (hr : 2 ≤ dem.rows) (hc : 2 ≤ dem.cols)
    (hdrop : ∀ a b, a < ⊤ → b < ⊤ → (0 < drop a b ↔ b < a)) (hscale : ∀ a b, 0 < scale (drop a b) ↔ 0 < drop a b)
    (hfin : ∀ c, dem.Has c → dem.get c < ⊤)
    (hmono : Monotone (safe dem).1 ∧ Monotone (safe dem).2)
    (hge : ∀ x, x ≤ (safe dem).1 x ∧ x ≤ (safe dem).2 x)
    (hkeep : ∀ x, x < ⊤ → (safe dem).1 x < ⊤ ∧ (safe dem).2 x < ⊤)
    (hstrict : ∀ nf, Returns (Fill.fillTerrainNoFlats (safe dem).1 (safe dem).2 dem) (.ok nf) → ∀ c, dem.Has c →
      nf.get c < (safe dem).1 (nf.get c) ∧ nf.get c < (safe dem).2 (nf.get c)) :
    ∃ out, Returns (Dem.process (Dem.python drop scale) sub safe true want dem) (.ok out) := by
  obtain ⟨f, hf, _⟩ := (C01_fill_returns dem).1 hr hc
  obtain ⟨nf, hnf, hrows, hcols, _⟩ := C06_noflats_returns_bracketed _ _ hmono.1 hmono.2 (fun x => (hge x).1)
    (fun x => (hge x).2) dem hr hc
  cases want
  · exact ⟨_, Dem.process_intro (eng := Dem.python drop scale) (acc := Flow.zeros 0 0) hf hnf (by simp)⟩
  · have hd := C15_dem_flow_drains drop sub scale safe true false dem _ hdrop hscale hfin hmono hge hkeep
      (Dem.process_intro (eng := Dem.python drop scale) (want := false) (acc := Flow.zeros 0 0) hf hnf (by simp))
      (fun c hc => hstrict nf hnf c hc)
    simp only at hd
    have hsh := Flow.flowdirection_rows drop scale nf true
    obtain ⟨A, hA, _⟩ := Flow.accumulatedFlow_returns (flowdir := Flow.terrainFlowdirection drop scale nf true) (by
      intro c hc
      have hc : InGrid (Flow.terrainFlowdirection drop scale nf true).rows _ c := hc
      rw [hsh.1, hsh.2, hrows, hcols] at hc
      exact (hd c hc).1)
    exact ⟨_, Dem.process_intro (eng := Dem.python drop scale) hf hnf (fun _ => hA)⟩

/-- C15 with the compiled functions (2x2 cells or more, but not 3 rows or columns, for which they raise, see C09). -/
theorem C15_dem_flow_drains_compiled (junk : Int × Int) (drop sub : β → β → γ) (scale : γ → γ)
    (safe : Raster β → (β → β) × (β → β))
    (square want : Bool) (dem : Raster β) (hr : 2 ≤ dem.rows ∧ dem.rows ≠ 3) (hc : 2 ≤ dem.cols ∧ dem.cols ≠ 3) (out : Dem.Out β γ)
    (hdrop : ∀ a b, a < ⊤ → b < ⊤ → (0 < drop a b ↔ b < a)) (hscale : ∀ a b, 0 < scale (drop a b) ↔ 0 < drop a b)
    (hfin : ∀ c, dem.Has c → dem.get c < ⊤)
    (hmono : Monotone (safe dem).1 ∧ Monotone (safe dem).2)
    (hge : ∀ x, x ≤ (safe dem).1 x ∧ x ≤ (safe dem).2 x)
    (hkeep : ∀ x, x < ⊤ → (safe dem).1 x < ⊤ ∧ (safe dem).2 x < ⊤)
    (h : Returns (Dem.process (Dem.compiled junk drop scale) sub safe square want dem) (.ok out))
    (hstrict : ∀ c, dem.Has c → out.noFlats.get c < (safe dem).1 (out.noFlats.get c) ∧
      out.noFlats.get c < (safe dem).2 (out.noFlats.get c)) :
    DrainsDownhill dem.rows dem.cols out.noFlats.get out.flowdir := by
  obtain ⟨_, _, _, hnf, hfd, _, _⟩ := Dem.process_inv h
  obtain ⟨r, hr, hrows, hcols, _, _, _, hrfin, h7⟩ := C11_compiled_noflats_valid _ _ hmono.1 hmono.2
    (fun x => (hge x).1) (fun x => (hge x).2) dem hr hc hfin (fun x hx => (hkeep x hx).1) (fun x hx => (hkeep x hx).2)
  have heq : Except.ok r = Except.ok (ε := PyErr) out.noFlats := Returns.unique hr hnf
  cases heq
  have h7 := h7 (fun c hc _ => hstrict c hc)
  rw [hfd, ← hrows, ← hcols]
  apply drainsDownhill_of_noPits
  · intro a b ha hb
    have ha : InGrid out.noFlats.rows out.noFlats.cols a := ha
    have hb : InGrid out.noFlats.rows out.noFlats.cols b := hb
    rw [hrows, hcols] at ha hb
    exact hdrop _ _ (hrfin a ha) (hrfin b hb)
  · exact hscale
  · apply noPits_of_escape
    intro c hc
    rw [hrows, hcols] at hc ⊢
    obtain ⟨p, hp, hch⟩ := h7 c hc
    exact ⟨p, hp, hch.imp fun a b h => h.1⟩

end C15

/-- Elevation difference of `WithTop Int`, used in examples. -/
def subTop (a b : WithTop Int) : Int := a.untopD 0 - b.untopD 0

/-- Non-vacuity for C15: a run of DemTool on `demoPit`. -/
example : ((Dem.process (Dem.python subTop id) subTop (fun _ => ((· + 1), (· + 2))) true true demoPit 30).map
    fun r => r.toOption.map fun o => (o.flowdir.toRows, o.accum.map Raster.toRows)) =
    some (some ([[7,0,0,0,1],[6,3,3,3,2],[6,2,2,2,2],[5,4,4,4,3]],
      some [[1,1,1,1,1],[1,1,1,1,1],[1,1,3,5,7],[1,1,1,1,1]])) := by decide +kernel

example : ∀ a b : WithTop Int, a < ⊤ → b < ⊤ → (0 < subTop a b ↔ b < a) := by
  intro a b ha hb
  lift a to Int using ha.ne
  lift b to Int using hb.ne
  simp [subTop]

/-! ### C16 -/

/-- C16: `upstream_cells` never raises and lists, without duplicates, exactly the raster cells that flow to the cell. -/
theorem C16_upstream_exact (fd : Raster Nat) (c : Cell) :
    ∃ l, Flow.upstreamCells fd c = .ok l ∧ l.Nodup ∧
      ∀ x, x ∈ l ↔ InGrid fd.rows fd.cols x ∧ FlowsTo fd.get x c :=
  ⟨Flow.up fd c, Flow.upstreamCells_eq fd c, Flow.nodup_up fd c, fun _ => Flow.mem_up⟩

/-- Non-vacuity for C16 (a code outside 0..8 in a neighbour is harmless). -/
example : (Flow.upstreamCells (Raster.ofRows [[3,5,200],[2,8,6],[0,8,7]]) (1, 1)).toOption =
    some [(1, 2), (2, 2), (1, 0), (0, 0)] := by decide +kernel

/-! ### C17 -/

/-- C17: whenever the generator ends it has yielded the downstream trace, without an exception. -/
theorem C17_trace_correct (fd : Raster Nat) (hcodes : ∀ c, fd.Has c → fd.get c ≤ 8) (c : Cell) (hc : fd.Has c)
    (l : List Cell) (e : Option PyErr) (h : Returns (fun n => Flow.traceDownstream fd n c) (l, e)) :
    e = none ∧ IsTrace fd.rows fd.cols fd.get c l ∧ (∀ x, x ∈ l ↔ Downstream fd.rows fd.cols fd.get c x) := by
  obtain ⟨n, hn⟩ := h
  obtain ⟨h1, _, h3⟩ := Flow.traceDownstream_correct hcodes n c _ (hn n le_rfl)
  exact ⟨h1, h3 hc, Flow.trace_downstream l c (h3 hc)⟩

/-- C17: if the flow from the cell meets no cycle the generator ends, and yields no cell twice. -/
theorem C17_trace_finite (fd : Raster Nat) (hcodes : ∀ c, fd.Has c → fd.get c ≤ 8) (c : Cell) (hc : fd.Has c)
    (hno : ∀ b, Downstream fd.rows fd.cols fd.get c b → ¬ OnCycle fd.rows fd.cols fd.get b) :
    ∃ l, Returns (fun n => Flow.traceDownstream fd n c) (l, none) ∧ l.Nodup := by
  obtain ⟨r, hr⟩ := Flow.traceDownstream_total hcodes _ c le_rfl (fun _ => hno)
  obtain ⟨h1, _, h3⟩ := Flow.traceDownstream_correct hcodes _ c r hr
  have ht := h3 hc
  refine ⟨r.1, ?_, Flow.trace_nodup r.1 c ht (fun x hx => hno x ((Flow.trace_downstream r.1 c ht x).1 hx))⟩
  have hn : r = (r.1, none) := by rw [← h1]
  rw [← hn]
  exact Returns.of_mono hr (fun n r h => Flow.traceDownstream_mono n c r h)

/-- C17, converse: once the flow runs into a cycle the generator never ends. -/
theorem C17_trace_infinite (fd : Raster Nat) (c b : Cell) (hb : Downstream fd.rows fd.cols fd.get c b)
    (hcyc : OnCycle fd.rows fd.cols fd.get b) : ∀ n, Flow.traceDownstream fd n c = none :=
  fun n => Flow.traceDownstream_cycle n c b hb hcyc

/-- Non-vacuity for C17. -/
example : Flow.traceDownstream demoFlow 9 (1, 1) = some ([(1, 1), (2, 2), (2, 3)], none) := by decide +kernel

example : ∀ c ∈ Raster.cellList 3 4, demoFlow.get c ≤ 8 := by decide +kernel

/-! ### C18 -/

/-- C18: on a draining raster `accumulated_flow` returns the number of cells whose trace passes through each cell. -/
theorem C18_accum_counts (fd : Raster Nat) (hd : ∀ c, fd.Has c → Drains fd.rows fd.cols fd.get c) :
    ∃ A, Returns (Flow.accumulatedFlow fd) (.ok A) ∧ A.rows = fd.rows ∧ A.cols = fd.cols ∧
      ∀ c, fd.Has c → A.get c = upstreamCount fd.rows fd.cols fd.get c := by
  obtain ⟨A, h1, h2, h3, h4⟩ := Flow.accumulatedFlow_returns (flowdir := fd) (fun c hc => Flow.Drains.code_lt (hd c hc))
  exact ⟨A, h1, h2, h3, fun c hc => (h4 c hc).1 (Flow.Drains.noCycleAbove (hd c hc))⟩

/-- C18 for arbitrary codes 0..7, draining or not: cells with a flow cycle upstream get 0, the others their count. -/
theorem C18_accum_counts_any (fd : Raster Nat) (hcodes : ∀ c, fd.Has c → fd.get c < 8) :
    ∃ A, Returns (Flow.accumulatedFlow fd) (.ok A) ∧ A.rows = fd.rows ∧ A.cols = fd.cols ∧
      ∀ c, fd.Has c →
        ((∀ a, Downstream fd.rows fd.cols fd.get a c → ¬ OnCycle fd.rows fd.cols fd.get a) →
          A.get c = upstreamCount fd.rows fd.cols fd.get c) ∧
        ((∃ a, Downstream fd.rows fd.cols fd.get a c ∧ OnCycle fd.rows fd.cols fd.get a) → A.get c = 0) := by
  obtain ⟨A, h1, h2, h3, h4⟩ := Flow.accumulatedFlow_returns (flowdir := fd) hcodes
  refine ⟨A, h1, h2, h3, fun c hc => ⟨(h4 c hc).1, fun ⟨a, ha, hcyc⟩ => (h4 c hc).2 fun hno => hno a ha hcyc⟩⟩

/-- Non-vacuity for C18: `demoFlow` drains. -/
example : ∀ c, demoFlow.Has c → Drains demoFlow.rows demoFlow.cols demoFlow.get c := demoFlow_drains

example : ((Flow.accumulatedFlow demoFlow 14).map fun r => r.toOption.map Raster.toRows) =
    some (some [[1,1,1,1],[1,1,1,1],[1,1,3,5]]) := by decide +kernel

/-! ### C19 -/

/-- C19: on a draining raster the accumulated flow of the cells that flow off the raster sums to the number of cells,
each cell has at least 1 and less than the cell it flows to. -/
theorem C19_accum_total (fd : Raster Nat) (hd : ∀ c, fd.Has c → Drains fd.rows fd.cols fd.get c) (A : Raster Int)
    (hA : Returns (Flow.accumulatedFlow fd) (.ok A)) :
    (((Raster.cellList fd.rows fd.cols).filter fun c =>
      decide (¬ InGrid fd.rows fd.cols (neighbour c (fd.get c)))).map A.get).sum = fd.rows * fd.cols ∧
    (∀ c, fd.Has c → 1 ≤ A.get c) ∧
    (∀ c d, Step fd.rows fd.cols fd.get c d → A.get c < A.get d) := by
  obtain ⟨A', hA', _, _, hspec⟩ := C18_accum_counts fd hd
  have heq : Except.ok A' = Except.ok (ε := PyErr) A := Returns.unique hA' hA
  cases heq
  refine ⟨?_, fun c hc => ?_, fun c d h => ?_⟩
  · set outs := (Raster.cellList fd.rows fd.cols).filter fun c =>
      decide (¬ InGrid fd.rows fd.cols (neighbour c (fd.get c))) with houts
    have hmem : ∀ e, e ∈ outs ↔ FlowsOut fd.rows fd.cols fd.get e := by
      intro e
      simp only [houts, List.mem_filter, Flow.mem_cellList, decide_eq_true_eq]
      constructor
      · rintro ⟨h1, h2⟩
        exact ⟨h1, _, Flow.flowsTo_iff.2 ⟨Flow.Drains.code_lt (hd e h1), rfl⟩, h2⟩
      · rintro ⟨h1, b, hb, hout⟩
        refine ⟨h1, ?_⟩
        rw [(Flow.flowsTo_iff.1 hb).2] at hout
        exact hout
    have hnd : outs.Nodup := (Flow.nodup_cellList _ _).filter _
    obtain ⟨_, hsum⟩ := Flow.ncard_iUnion_list (Flow.upSet fd.rows fd.cols fd.get) Flow.upSet_finite outs hnd (by
      intro u hu v hv hne
      rw [Set.disjoint_left]
      rintro x ⟨_, hxu⟩ ⟨_, hxv⟩
      have hu := (hmem u).1 hu
      have hv := (hmem v).1 hv
      rcases Flow.downstream_total hxu hxv with h | h
      · rcases Relation.ReflTransGen.cases_head h with h | ⟨w, hw, _⟩
        · exact hne h
        · exact Flow.flowsOut_no_step hu hw
      · rcases Relation.ReflTransGen.cases_head h with h | ⟨w, hw, _⟩
        · exact hne h.symm
        · exact Flow.flowsOut_no_step hv hw)
    have hU : (⋃ u ∈ outs, Flow.upSet fd.rows fd.cols fd.get u) = {c | InGrid fd.rows fd.cols c} := by
      ext x
      simp only [Set.mem_iUnion]
      constructor
      · rintro ⟨u, _, hx, _⟩; exact hx
      · intro hx
        have hx : InGrid fd.rows fd.cols x := hx
        obtain ⟨e, hxe, he⟩ := hd x hx
        exact ⟨e, (hmem e).2 he, hx, hxe⟩
    rw [hU, Flow.ncard_grid] at hsum
    have hmap : outs.map A.get = (outs.map fun u => (Flow.upSet fd.rows fd.cols fd.get u).ncard).map
        (fun n : Nat => (n : Int)) := by
      rw [List.map_map]
      exact List.map_congr_left fun u hu => hspec u ((hmem u).1 hu).1
    rw [hmap]
    have : ∀ l : List Nat, (l.map (fun n : Nat => (n : Int))).sum = ((l.sum : Nat) : Int) := by
      intro l
      induction l with
      | nil => rfl
      | cons a l ih => simp
    rw [this, ← hsum]
    push_cast
    rfl
  · rw [hspec c hc]
    exact_mod_cast Flow.upstreamCount_pos hc
  · rw [hspec c h.1, hspec d h.2.1]
    exact_mod_cast Flow.upstreamCount_lt h (Flow.not_onCycle_of_drains (hd d h.2.1))

/-! ### C20 -/

/-- C20: on every raster with codes 0..7 (in particular on every draining one) the compiled `accumulated_flow` returns
the same raster as the pure Python one. -/
theorem C20_compiled_accum_eq_python (junk : Int × Int) (fd : Raster Nat) (hcodes : ∀ c, fd.Has c → fd.get c < 8) :
    ∃ A B, Returns (Flow.accumulatedFlow fd) (.ok A) ∧ Returns (FlowCython.accumulatedFlow junk fd) B ∧ A.Same B := by
  obtain ⟨A, h1, h2, h3, h4⟩ := Flow.accumulatedFlow_returns hcodes
  obtain ⟨B, g1, g2, g3, g4⟩ := FlowCython.accumulatedFlow_returns junk hcodes
  refine ⟨A, B, h1, g1, h2.trans g2.symm, h3.trans g3.symm, fun c hc => ?_⟩
  have hc : fd.Has c := by
    have hc : InGrid A.rows A.cols c := hc
    rwa [h2, h3] at hc
  by_cases hno : Flow.NoCycleAbove fd.rows fd.cols fd.get c
  · rw [(h4 c hc).1 hno, (g4 c hc).1 hno]
  · rw [(h4 c hc).2 hno, (g4 c hc).2 hno]

/-- Non-vacuity for C20. -/
example : ((FlowCython.accumulatedFlow (0, 0) demoFlow 14).map Raster.toRows) =
    some [[1,1,1,1],[1,1,1,1],[1,1,3,5]] := by decide +kernel

example : ∀ c, demoFlow.Has c → demoFlow.get c < 8 := fun c hc => Flow.Drains.code_lt (demoFlow_drains c hc)

/-! ### C21 -/

section Watersheds
variable {L : Type*} [DecidableEq L]

/-- What C21 says about a result. -/
def IsWatershed (rows cols : Nat) (fd : Cell → Nat) (un : L) (lab lab' : Cell → L) : Prop :=
  ∀ c, InGrid rows cols c →
    FirstLabel rows cols fd lab un c (lab' c) ∧
    (lab c ≠ un → lab' c = lab c) ∧
    (lab' c = un ↔ ∀ d, Downstream rows cols fd c d → lab d = un) ∧
    (lab' c ≠ un → ∃ d, Downstream rows cols fd c d ∧ lab d = lab' c)

theorem firstLabel_facts {rows cols : Nat} {fd : Cell → Nat} {un : L} {lab : Cell → L} {c : Cell} {v : L}
    (h : FirstLabel rows cols fd lab un c v) :
    (lab c ≠ un → v = lab c) ∧ (v = un ↔ ∀ d, Downstream rows cols fd c d → lab d = un) ∧
    (v ≠ un → ∃ d, Downstream rows cols fd c d ∧ lab d = v) := by
  induction h with
  | @here c hc =>
    refine ⟨fun _ => rfl, ⟨fun h => absurd h hc, fun h => absurd (h c .refl) hc⟩, fun _ => ⟨c, .refl, rfl⟩⟩
  | @next c d v hc hs _ ih =>
    refine ⟨fun h => absurd hc h, ⟨fun h x hx => ?_, fun h => ?_⟩, fun h => ?_⟩
    · rcases Relation.ReflTransGen.cases_head hx with rfl | ⟨w, hw, hwx⟩
      · exact hc
      · rw [Flow.step_det hw hs] at hwx
        exact ih.2.1.1 h x hwx
    · exact ih.2.1.2 fun x hx => h x (.head hs hx)
    · obtain ⟨x, hx, hv⟩ := ih.2.2 h
      exact ⟨x, .head hs hx, hv⟩
  | @out c hc hn =>
    refine ⟨fun h => absurd hc h, ⟨fun _ x hx => ?_, fun _ => rfl⟩, fun h => absurd rfl h⟩
    rcases Relation.ReflTransGen.cases_head hx with rfl | ⟨w, hw, _⟩
    · exact hc
    · exact absurd hw (hn w)

/-- C21: on a draining raster `watersheds_from_labels` gives each cell the label of the first labelled cell on its
trace, for every order in which the edge cells are visited (`order` lists raster cells, among them all edge cells). -/
theorem C21_watershed_first_label_any_order (fd : Raster Nat)
    (hd : ∀ c, fd.Has c → Drains fd.rows fd.cols fd.get c) (lab : Raster L) (un : L) (order : List Cell)
    (hin : ∀ c ∈ order, fd.Has c) (hall : ∀ c, OnEdge fd.rows fd.cols c → c ∈ order) :
    ∃ lab', Returns (fun n => Flow.watershedsLoop fd un n order lab) (.ok lab') ∧
      lab'.rows = lab.rows ∧ lab'.cols = lab.cols ∧
      IsWatershed fd.rows fd.cols fd.get un lab.get lab'.get := by
  obtain ⟨lab', h1, h2, h3, _⟩ := Flow.watershedsLoop_returns (un := un) lab order
    (fun c hc => ⟨hin c hc, hd c (hin c hc)⟩) hall
  exact ⟨lab', h1, h2.1, h2.2, fun c hc => ⟨h3 c (hd c hc), firstLabel_facts (h3 c (hd c hc))⟩⟩

/-- C21 for the order the code uses. -/
theorem C21_watershed_first_label (fd : Raster Nat) (hr : 0 < fd.rows) (hc : 0 < fd.cols)
    (hd : ∀ c, fd.Has c → Drains fd.rows fd.cols fd.get c) (lab : Raster L) (un : L) :
    ∃ lab', Returns (Flow.watershedsFromLabels fd lab un) (.ok lab') ∧
      lab'.rows = lab.rows ∧ lab'.cols = lab.cols ∧
      IsWatershed fd.rows fd.cols fd.get un lab.get lab'.get :=
  C21_watershed_first_label_any_order fd hd lab un (Flow.edgeCellIndexes fd.rows fd.cols)
    (fun _ h => ((Flow.mem_edgeCellIndexes hr hc).1 h).1) (fun _ h => (Flow.mem_edgeCellIndexes hr hc).2 h)

/-- Non-vacuity for C21: `demoFlow` drains (`demoFlow_drains`); labels 5 in (2,2) and 9 in (1,0). -/
example : ((Flow.watershedsFromLabels demoFlow (Raster.ofRows [[0,0,0,0],[9,0,0,0],[0,0,5,0]]) 0 20).map
    fun r => r.toOption.map Raster.toRows) =
    some (some ([[0,0,0,0],[9,5,0,0],[0,5,5,0]] : List (List Nat))) := by decide +kernel

/-! ### C22 -/

/-- C22: if the cells of a label are connected, so are the cells of its watershed. Stated for every relabelling that
satisfies the conclusion of C21. -/
theorem C22_watershed_connected (rows cols : Nat) (fd : Cell → Nat) (un : L) (lab lab' : Cell → L)
    (h : IsWatershed rows cols fd un lab lab') (v : L) (hv : v ≠ un)
    (hconn : ∀ a b, InGrid rows cols a → InGrid rows cols b → lab a = v → lab b = v →
      ConnectedIn (fun x => InGrid rows cols x ∧ lab x = v) a b) :
    ∀ a b, InGrid rows cols a → InGrid rows cols b → lab' a = v → lab' b = v →
      ConnectedIn (fun x => InGrid rows cols x ∧ lab' x = v) a b := by
  have hto : ∀ a v', InGrid rows cols a → FirstLabel rows cols fd lab un a v' → v' = v →
      ∃ d, InGrid rows cols d ∧ lab d = v ∧ ConnectedIn (fun x => InGrid rows cols x ∧ lab' x = v) a d := by
    intro a v' ha hF
    induction hF with
    | @here a hna =>
      intro hv'
      have hl : lab' a = v := by rw [(h a ha).2.1 hna, hv']
      exact ⟨a, ha, hv', .refl ⟨ha, hl⟩⟩
    | @next a d v' hun hs hF ih =>
      intro hv'
      subst hv'
      obtain ⟨x, hx, hlx, hcx⟩ := ih hs.2.1 rfl
      have hla : lab' a = v' := (Flow.firstLabel_det (h a ha).1 (.next hun hs hF))
      exact ⟨x, hx, hlx, (ConnectedIn.step (Flow.flowsTo_adj hs.2.2) ⟨ha, hla⟩ hcx.left).trans hcx⟩
    | out => intro hv'; exact absurd hv'.symm hv
  intro a b ha hb hla hlb
  obtain ⟨a', ha', hla', hca⟩ := hto a _ ha (h a ha).1 hla
  obtain ⟨b', hb', hlb', hcb⟩ := hto b _ hb (h b hb).1 hlb
  have hmid := (hconn a' b' ha' hb' hla' hlb').mono (T := fun x => InGrid rows cols x ∧ lab' x = v) (by
    rintro x ⟨hx, hlx⟩
    refine ⟨hx, ?_⟩
    rw [(h x hx).2.1 (by rw [hlx]; exact hv), hlx])
  exact (hca.trans hmid).trans hcb.symm

/-! ### C23 -/

/-- C23: if all edge cells flow off the raster then `watersheds_from_labels` returns, whatever the interior directions
(cycles, code 8, invalid codes); draining cells get the first label downstream, the others keep their label. -/
theorem C23_watershed_total (fd : Raster Nat) (hr : 0 < fd.rows) (hc : 0 < fd.cols)
    (hedge : ∀ c, OnEdge fd.rows fd.cols c → FlowsOut fd.rows fd.cols fd.get c) (lab : Raster L) (un : L) :
    ∃ lab', Returns (Flow.watershedsFromLabels fd lab un) (.ok lab') ∧
      (∀ c, ¬ Drains fd.rows fd.cols fd.get c → lab'.get c = lab.get c) ∧
      (∀ c, Drains fd.rows fd.cols fd.get c → FirstLabel fd.rows fd.cols fd.get lab.get un c (lab'.get c)) := by
  obtain ⟨lab', h1, _, h3, h4⟩ := Flow.watershedsLoop_returns (un := un) lab (Flow.edgeCellIndexes fd.rows fd.cols)
    (fun c h => by
      have he := (Flow.mem_edgeCellIndexes hr hc).1 h
      exact ⟨he.1, c, .refl, hedge c he⟩) (fun _ h => (Flow.mem_edgeCellIndexes hr hc).2 h)
  exact ⟨lab', h1, h4, h3⟩

/-- Non-vacuity for C23: a raster with a cycle and a code 8 cell in the interior. -/
example : ((Flow.watershedsFromLabels demoCycle
    (Raster.ofRows [[0,0,0,0,0],[0,0,7,0,0],[3,0,0,0,0],[0,0,0,4,0]]) 0 20).map fun r => r.toOption.map Raster.toRows) =
    some (some ([[0,0,0,0,0],[0,0,7,0,0],[3,0,0,4,0],[0,0,0,4,0]] : List (List Nat))) := by decide +kernel

example : ∀ c ∈ Flow.edgeCellIndexes demoCycle.rows demoCycle.cols,
    ¬ InGrid demoCycle.rows demoCycle.cols (neighbour c (demoCycle.get c)) := by decide +kernel

/-- The compiled `assign_watersheds_upstream` does the same as the pure Python one (part of C21/C23: they hold for it
too). -/
theorem C21_compiled_watershed_eq_python (junk : Int × Int) (fd : Raster Nat) (lab : Raster L) (un : L) (c : Cell)
    (n : Nat) :
    Flow.assignWatershedsUpstream fd lab c un n =
      (FlowCython.assignLoop junk fd un n lab [(c, un)]).map .ok :=
  FlowCython.assignLoop_eq junk un n lab [(c, un)]

end Watersheds

/-! ### C59 -/

/-- C59 is false: a code 8 cell makes the pure Python `accumulated_flow` raise TypeError. -/
theorem C59_accum_code8_raises : ∃ fd : Raster Nat, (∀ c, fd.Has c → fd.get c ≤ 8) ∧
    (∀ c, fd.Has c → ¬ OnCycle fd.rows fd.cols fd.get c) ∧
    Returns (Flow.accumulatedFlow fd) (.error .typeError) := by
  refine ⟨⟨1, 1, fun _ => 8⟩, fun _ _ => le_rfl, fun c _ hc => ?_, 1, fun m hm => ?_⟩
  · obtain ⟨b, hb, _⟩ := Relation.TransGen.head'_iff.1 hc
    have := (Flow.flowsTo_iff.1 hb.2.2).1
    simp at this
  · obtain ⟨m, rfl⟩ : ∃ k, m = k + 1 := ⟨m - 1, by omega⟩
    rfl

/-- C59, what holds: with codes 0..7 `accumulated_flow` returns. -/
theorem C59_accum_returns_partial (fd : Raster Nat) (hcodes : ∀ c, fd.Has c → fd.get c < 8) :
    ∃ A, Returns (Flow.accumulatedFlow fd) (.ok A) := by
  obtain ⟨A, h, _⟩ := Flow.accumulatedFlow_returns hcodes
  exact ⟨A, h⟩

/-- C59, exactly: `accumulated_flow` returns if and only if every cell has a flow direction. One cell with code 8
anywhere is enough to make it raise TypeError, wherever it is and whatever flows there. -/
theorem C59_exact (fd : Raster Nat) :
    ((∃ A, Returns (Flow.accumulatedFlow fd) (.ok A)) ↔ ∀ c, fd.Has c → fd.get c < 8) ∧
    ((∀ c, fd.Has c → fd.get c ≤ 8) → (∃ c, fd.Has c ∧ fd.get c = 8) →
      Returns (Flow.accumulatedFlow fd) (.error .typeError)) := by
  have hraise : ∀ c, fd.Has c → ¬ fd.get c < 8 → ∀ n, fd.rows * fd.cols + 2 ≤ n →
      ∃ e, Flow.accumulatedFlow fd n = some (.error e) ∧ ((∀ c, fd.Has c → fd.get c ≤ 8) → e = .typeError) :=
    fun c hc h8 n hn => Flow.accumLoop8 n _ _ (Flow.traceAll8_stuck _ (fun c h => by simp [h]) (by omega) hc h8)
  refine ⟨⟨?_, C59_accum_returns_partial fd⟩, fun hcodes ⟨c, hc, h8⟩ => ⟨fd.rows * fd.cols + 2, fun n hn => ?_⟩⟩
  · rintro ⟨A, n, hA⟩ c hc
    by_contra h8
    obtain ⟨e, he, _⟩ := hraise c hc h8 (max n (fd.rows * fd.cols + 2)) (le_max_right _ _)
    rw [hA _ (le_max_left _ _)] at he
    cases he
  · obtain ⟨e, he, hty⟩ := hraise c hc (by omega) n hn
    rw [he, hty hcodes]

/-- Non-vacuity for C59: the code 8 cell in the middle is away from the edge, and every other cell flows off the
raster. -/
example : (∀ c ∈ Raster.cellList 3 3, (Raster.ofRows [[7,0,1],[6,8,2],[5,4,3]] : Raster Nat).get c ≤ 8) ∧
    ((Flow.accumulatedFlow (Raster.ofRows [[7,0,1],[6,8,2],[5,4,3]]) 20).map fun r => r.toOption.map Raster.toRows) =
      some none := by decide +kernel

/-- C59: the flow directions `terrain_flowdirection` computes with `edges_flow_outward=False` always make
`accumulated_flow` raise TypeError. -/
theorem C59_edges_not_outward {β γ : Type*} [LinearOrder γ] [Zero γ] (sub : β → β → γ) (scale : γ → γ)
    (terrain : Raster β) (hr : 0 < terrain.rows) (hc : 0 < terrain.cols) :
    Returns (Flow.accumulatedFlow (Flow.terrainFlowdirection sub scale terrain false)) (.error .typeError) := by
  have h8 : ∀ c, (Flow.terrainFlowdirection sub scale terrain false).get c ≤ 8 := by
    intro c
    simp only [Flow.terrainFlowdirection, Bool.false_eq_true, if_false, Flow.terrainFlow]
    split
    · rcases Flow.cellFlow_spec sub scale terrain c with ⟨h, _⟩ | ⟨h, _⟩ <;> omega
    · exact le_rfl
  refine (C59_exact _).2 (fun c _ => h8 c) ⟨(0, 0), ?_, ?_⟩
  · show InGrid terrain.rows terrain.cols (0, 0)
    simp only [InGrid]
    omega
  · simp only [Flow.terrainFlowdirection, Bool.false_eq_true, if_false, Flow.terrainFlow]
    rw [if_neg]
    rintro ⟨h, _⟩
    have := (mem_pyRange_pos.1 h).1
    omega

/-- C59 for the compiled loop: `cell_in_direction_cython` leaves the delta of code 8 uninitialised. When that memory
holds zeros, `accumulated_flow` never returns on a raster with a cell that does not flow anywhere. -/
theorem C59_compiled_hangs (fd : Raster Nat) {c : Cell} (hc : fd.Has c) (h8 : 8 ≤ fd.get c) :
    ∀ n, FlowCython.accumulatedFlow (0, 0) fd n = none := by
  have hlarge : ∀ n, fd.rows * fd.cols + 2 ≤ n → FlowCython.accumulatedFlow (0, 0) fd n = none := by
    intro n hn
    cases h : FlowCython.accumulatedFlow (0, 0) fd n with
    | none => rfl
    | some A =>
      have h1 := FlowCython.accumLoop8 n _ _ _ h
      rw [Flow.traceAll8_stuck _ (fun _ _ => rfl) (by omega) hc (by omega)] at h1
      cases h1
  intro n
  cases h : FlowCython.accumulatedFlow (0, 0) fd n with
  | none => rfl
  | some A =>
    have := FlowCython.accumulatedFlow_mono h (le_max_left n (fd.rows * fd.cols + 2))
    rw [hlarge _ (le_max_right _ _)] at this
    cases this

example : ∀ n ∈ List.range 30, (FlowCython.accumulatedFlow (0, 0) (Raster.ofRows [[7,0,1],[6,8,2],[5,4,3]]) n).isNone := by
  decide +kernel

end Malstroem
