/-
Property theorems C96: the recursion limit of the interpreter and the stream network.
-/
import Verif.Proofs.NetDepth
import Verif.Props.Net

set_option linter.unusedSectionVars false

namespace Malstroem
open Spec

variable {flowdir : Raster Nat} {labeled : Raster Int} {pps : List Cell} {args : List Net.PourPointArg}

/-- C96, what holds. An interpreter with room for `depth` nested generators gives the same network as one without limit
as long as no stream passes `depth` junctions one after the other; else it raises RecursionError. -/
theorem C96_partial (h : NetInput flowdir labeled pps args) (depth : Nat) (hd : 1 ≤ depth) (R : List Net.Node)
    (hR : Returns (Net.geometricPourpointNetwork flowdir labeled args (some 0)) (.ok R)) :
    (¬ JunctionsInSeries R depth →
      Returns (Net.geometricPourpointNetworkLimited depth flowdir labeled args (some 0)) (.ok R)) ∧
    (JunctionsInSeries R depth →
      Returns (Net.geometricPourpointNetworkLimited depth flowdir labeled args (some 0)) (.error .recursionError)) := by
  obtain ⟨A, M, h2, hM, hmax, hst, hA, hkeys⟩ :=
    Net.network_groups h.shape.1 h.shape.2 h.codes h.acyclic h.good h.args
  generalize flowdir.rows * flowdir.cols + 1 = N at h2
  obtain ⟨K, hK⟩ : ∃ K, ∀ e ∈ A, Net.need e.2 ≤ K :=
    ⟨(A.map fun e => Net.need e.2).sum, fun e he => List.single_le_sum (by simp) _ (List.mem_map_of_mem he)⟩
  obtain ⟨N', hN'⟩ := hR
  have key : ∀ n, max (max N K) N' ≤ n →
      (Net.geometricPourpointNetworkLimited depth flowdir labeled args (some 0) n =
          (some (.error .recursionError) : Option (Except PyErr _)) ∧ JunctionsInSeries R depth) ∨
      (Net.geometricPourpointNetworkLimited depth flowdir labeled args (some 0) n =
          (some (.ok R) : Option (Except PyErr _)) ∧ ¬ JunctionsInSeries R depth) := by
    intro n hn
    have e1 := h2 n (by omega)
    have e2 := hN' n (by omega)
    obtain ⟨R', h3, _, _, h4⟩ := Net.untangleAll_outcome (fd := flowdir.get) (n := n) hd (M + 1) A (M + 1) [] le_rfl
      (fun e he => ⟨(hA e he).1, (hA e he).2.1, (hK e he).trans (by omega), fun i hi => by
        have := (hA e he).2.2 i hi; omega⟩)
    rw [List.nil_append] at h3 h4
    unfold Net.geometricPourpointNetwork at e2
    rw [Net.comp_bind e1, hM, Net.comp_bind (x := ExceptT.mk (some (Except.ok M))) (a := M) rfl] at e2
    have : (some (.ok R') : Option (Except PyErr _)) = some (.ok R) := h3.symm.trans e2
    obtain rfl : R' = R := by simpa using this
    unfold Net.geometricPourpointNetworkLimited
    rw [Net.comp_bind e1, hM, Net.comp_bind (x := ExceptT.mk (some (Except.ok M))) (a := M) rfl]
    exact h4
  refine ⟨fun hno => ⟨max (max N K) N', fun n hn => ?_⟩, fun hs => ⟨max (max N K) N', fun n hn => ?_⟩⟩
  · rcases key n hn with ⟨_, hs⟩ | ⟨h, _⟩
    · exact absurd hs hno
    · exact h
  · rcases key n hn with ⟨h, _⟩ | ⟨_, hno⟩
    · exact h
    · exact absurd hs hno

/-- C96, with few bluespots. The limit is not met if it is higher than the number of pour points. -/
theorem C96_few_partial (h : NetInput flowdir labeled pps args) (depth : Nat) (hd : pps.length < depth) :
    ∃ R, Returns (Net.geometricPourpointNetwork flowdir labeled args (some 0)) (.ok R) ∧
      Returns (Net.geometricPourpointNetworkLimited depth flowdir labeled args (some 0)) (.ok R) := by
  obtain ⟨A, M, h2, hM, hmax, hst, hA, hkeys⟩ :=
    Net.network_groups h.shape.1 h.shape.2 h.codes h.acyclic h.good h.args
  generalize flowdir.rows * flowdir.cols + 1 = N at h2
  obtain ⟨_, R, _, _, hR, _⟩ := Net.network_ok h.shape.1 h.shape.2 h.codes h.acyclic h.good h.args
  obtain ⟨K, hK⟩ : ∃ K, ∀ e ∈ A, Net.need e.2 ≤ K :=
    ⟨(A.map fun e => Net.need e.2).sum, fun e he => List.single_le_sum (by simp) _ (List.mem_map_of_mem he)⟩
  refine ⟨R, hR, ?_⟩
  obtain ⟨N', hN'⟩ := hR
  refine ⟨max (max N K) N', fun n hn => ?_⟩
  have e1 := h2 n (by omega)
  have e2 := hN' n (by omega)
  have hlen : (A.flatMap (·.2)).length = pps.length := by
    have := hst.perm.length_eq
    simpa using this
  unfold Net.geometricPourpointNetwork at e2
  rw [Net.comp_bind e1, hM, Net.comp_bind (x := ExceptT.mk (some (Except.ok M))) (a := M) rfl] at e2
  unfold Net.geometricPourpointNetworkLimited
  rw [Net.comp_bind e1, hM, Net.comp_bind (x := ExceptT.mk (some (Except.ok M))) (a := M) rfl,
    Net.untangleAllLimited_eq (fd := flowdir.get) A (M + 1) [] (fun e he => ⟨(hA e he).1, (hA e he).2.1,
      (hK e he).trans (by omega), by
        have : e.2.length ≤ (A.flatMap (·.2)).length := by
          rw [List.flatMap_def]
          exact (List.sublist_flatten_of_mem (List.mem_map_of_mem (f := fun e : Option Int × List Net.Node => e.2) he)).length_le
        omega⟩)]
  exact e2

/-- The comb of streams with `m` teeth is valid input. -/
theorem comb_input (m : Nat) (hm : 1 ≤ m) :
    NetInput (Net.Comb.flowdir m) (Net.Comb.labels m) (Net.Comb.pourPoints m) ((Net.Comb.pourPoints m).map .pix) where
  shape := ⟨rfl, rfl⟩
  codes := fun c _ => Net.Comb.codes m c
  acyclic := Net.Comb.acyclic m
  good := Net.Comb.good m hm
  args := by
    rw [List.forall₂_iff_get]
    refine ⟨by simp, fun i h1 h2 => .inl ?_⟩
    simp

/-- C96 is false. Whatever the limit, there is valid input on which the network function raises RecursionError, though
without a limit it returns. -/
theorem C96_false (depth : Nat) : ∃ flowdir labeled pps args, NetInput flowdir labeled pps args ∧
    (∃ R, Returns (Net.geometricPourpointNetwork flowdir labeled args (some 0)) (.ok R)) ∧
    Returns (Net.geometricPourpointNetworkLimited depth flowdir labeled args (some 0)) (.error .recursionError) := by
  have h := comb_input (depth + 2) (by omega)
  exact ⟨_, _, _, _, h, (C32_network_returns h).1, Net.Comb.network_comb (by omega) (by omega) h.args⟩

/-- Both cases of `C96_partial` occur: the comb with three teeth has a stream with two junctions. -/
example : ∃ R, Returns (Net.geometricPourpointNetwork (Net.Comb.flowdir 3) (Net.Comb.labels 3)
      ((Net.Comb.pourPoints 3).map .pix) (some 0)) (.ok R) ∧ JunctionsInSeries R 2 ∧ ¬ JunctionsInSeries R 5 := by
  have h := comb_input 3 (by omega)
  obtain ⟨R, hR, h5⟩ := C96_few_partial h 5 (by decide)
  refine ⟨R, hR, ?_, ?_⟩
  · by_contra hno
    have := Returns.unique ((C96_partial h 2 (by omega) R hR).1 hno) (Net.Comb.network_comb (by omega) (by omega) h.args)
    cases this
  · intro hs
    have := Returns.unique ((C96_partial h 5 (by omega) R hR).2 hs) h5
    cases this

end Malstroem
