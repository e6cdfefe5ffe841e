/-
Property theorem C61: the features written by StreamTool.
-/
import Verif.Proofs.Streams
import Verif.Props.Net

set_option linter.unusedSectionVars false

namespace Malstroem
open Spec

section
variable {K : Type} [Field K] [LinearOrder K] {flowdir : Raster Nat} {labeled : Raster Int} {pps : List Cell}
  {fps : List (Feature K)}

/-- C61 with an output for streams: one node feature for each node of the stream network, in its order, and one line
for each node whose path is not empty. -/
theorem C61_stream_tool (gt : GeoTransform K) (h : NetInput flowdir labeled pps (pps.map .pix))
    (hf : ArePourPoints fps pps) (R : List Net.Node)
    (hR : Returns (Net.geometricPourpointNetwork flowdir labeled (pps.map .pix) (some 0)) (.ok R)) :
    ∃ nodes streams, Returns (Streams.process gt flowdir labeled fps true) (.ok (nodes, streams)) ∧
      List.Forall₂ (IsNodeFeature gt fps) R nodes ∧
      List.Forall₂ (IsStreamFeature gt) (R.filter fun n => n.geometry ≠ []) streams := by
  obtain ⟨h1, _, h2⟩ := C30_nodes h R hR
  have hpp : ∀ n ∈ R, n.nodetype = .pourpoint → ∃ i : Nat, i < pps.length ∧ n.id = i := by
    intro n hn ht
    have : (n.id, n.pix) ∈ pps.zipIdx.map fun x => ((x.2 : Int), x.1) :=
      h1.mem_iff.1 (List.mem_map.2 ⟨n, List.mem_filter.2 ⟨hn, by simpa using ht⟩, rfl⟩)
    obtain ⟨x, hx, he⟩ := List.mem_map.1 this
    exact ⟨x.2, (List.getElem?_eq_some_iff.1 (List.mem_zipIdx_iff_getElem?.1 hx)).1, ((Prod.ext_iff.1 he).1).symm⟩
  obtain ⟨fs, e1, e2⟩ := Streams.process_ok (gt := gt) hf true (ns := R) hR hpp (fun n hn ht => (h2 n hn ht).2.1)
  exact ⟨fs, _, e1, e2, Streams.streamFeatures_ok gt R⟩

/-- C61 without an output for streams: one node feature for each pour point, in the given order. -/
theorem C61_nodes_only (gt : GeoTransform K) (h : NetInput flowdir labeled pps (pps.map .pix))
    (hf : ArePourPoints fps pps) (P : List Net.Node)
    (hP : Returns (Net.pourpointNetwork flowdir labeled (pps.map .pix) (some 0)) (.ok P)) :
    ∃ nodes, Returns (Streams.process gt flowdir labeled fps false) (.ok (nodes, [])) ∧
      List.Forall₂ (IsNodeFeature gt fps) P nodes := by
  obtain ⟨h1, h2⟩ := C30_plain_nodes h P hP
  have hpp : ∀ n ∈ P, n.nodetype = .pourpoint → ∃ i : Nat, i < pps.length ∧ n.id = i := by
    intro n hn ht
    have : (n.id, n.pix) ∈ P.map fun n => (n.id, n.pix) := List.mem_map_of_mem hn
    rw [h1] at this
    obtain ⟨x, hx, he⟩ := List.mem_map.1 this
    exact ⟨x.2, (List.getElem?_eq_some_iff.1 (List.mem_zipIdx_iff_getElem?.1 hx)).1, ((Prod.ext_iff.1 he).1).symm⟩
  obtain ⟨fs, e1, e2⟩ := Streams.process_ok (gt := gt) hf false (ns := P) hP hpp
    (fun n hn ht => by rw [(h2 n hn).1] at ht; cases ht)
  exact ⟨fs, e1, e2⟩

/-- The value of node `n` if the pour points have the values `xs`. -/
def ofPourPoint (xs : List K) (n : Net.Node) : K := if n.nodetype = .pourpoint then xs.getD n.id.toNat 0 else 0

/-- Areas and capacities of the nodes are those of the pour points, 0 for junctions. -/
theorem node_number {gt : GeoTransform K} {key : String}
    (hkey : key = "wshed_area" ∨ key = "bspot_vol" ∨ key = "bspot_area")
    {xs : List K} (hxs : List.Forall₂ (fun f x => f.properties.get? key = some (.num x)) fps xs) {n : Net.Node}
    {f : Feature K} (h : IsNodeFeature gt fps n f) : f.properties.get? key = some (.num (ofPourPoint xs n)) := by
  unfold ofPourPoint
  cases ht : n.nodetype with
  | junction =>
    rw [if_neg (by simp)]
    obtain ⟨_, _, h0, h1, h2⟩ := h.junction ht
    rcases hkey with rfl | rfl | rfl
    · exact h2
    · exact h1
    · exact h0
  | pourpoint =>
    rw [if_pos rfl]
    obtain ⟨_, i, p, h1, h2, h3⟩ := h.pourpoint ht
    rw [h3 key (by rcases hkey with rfl | rfl | rfl <;> simp [copied])]
    obtain ⟨hi, rfl⟩ := List.getElem?_eq_some_iff.1 h2
    have hi' : i < xs.length := by rw [← hxs.length_eq]; exact hi
    have := (List.forall₂_iff_get.1 hxs).2 i hi hi'
    rw [h1]
    simpa [hi'] using this

theorem sum_ofPourPoint {R : List Net.Node}
    (hperm : ((R.filter fun n => n.nodetype = .pourpoint).map fun n => (n.id, n.pix)).Perm
      (pps.zipIdx.map fun x => ((x.2 : Int), x.1))) {xs : List K} (hlen : xs.length = pps.length) :
    (R.map (ofPourPoint xs)).sum = xs.sum := by
  have h1 : (R.map (ofPourPoint xs)).sum =
      ((R.filter fun n => n.nodetype = .pourpoint).map fun n => xs.getD n.id.toNat 0).sum := by
    clear hperm
    induction R with
    | nil => rfl
    | cons n R ih =>
      by_cases ht : n.nodetype = .pourpoint
      · rw [List.map_cons, List.sum_cons, ih]; simp [ofPourPoint, ht]
      · rw [List.map_cons, List.sum_cons, ih]; simp [ofPourPoint, ht]
  have h2 : ((R.filter fun n => n.nodetype = .pourpoint).map fun n => xs.getD n.id.toNat 0) =
      ((R.filter fun n => n.nodetype = .pourpoint).map fun n => (n.id, n.pix)).map fun y : Int × Cell => xs.getD y.1.toNat 0 := by
    rw [List.map_map]; rfl
  rw [h1, h2, (hperm.map _).sum_eq, List.map_map]
  congr 1
  apply List.ext_getElem
  · simp [hlen]
  · intro i h3 h4
    simp [h4]

/-- C61: the catchment areas (capacities, bluespot areas) of the nodes add up to those of the pour points. -/
theorem C61_sums (gt : GeoTransform K) (h : NetInput flowdir labeled pps (pps.map .pix)) (hf : ArePourPoints fps pps)
    (nodes streams : List (Feature K)) (ho : Returns (Streams.process gt flowdir labeled fps true) (.ok (nodes, streams)))
    (key : String) (hkey : key = "wshed_area" ∨ key = "bspot_vol" ∨ key = "bspot_area") (xs : List K)
    (hxs : List.Forall₂ (fun f x => f.properties.get? key = some (.num x)) fps xs) :
    ∃ ys, List.Forall₂ (fun f y => f.properties.get? key = some (.num y)) nodes ys ∧ ys.sum = xs.sum := by
  obtain ⟨R, hR⟩ := (C32_network_returns h).1
  obtain ⟨nodes', streams', h1, h2, h3⟩ := C61_stream_tool gt h hf R hR
  have he := Returns.unique ho h1
  cases he
  refine ⟨R.map (ofPourPoint xs), ?_, sum_ofPourPoint (C30_nodes h R hR).1 (by rw [← hxs.length_eq, hf.length])⟩
  clear hR ho h1 h3
  induction h2 with
  | nil => exact .nil
  | cons hn _ ih => exact .cons (node_number hkey hxs hn) ih

end

/-! ### Non-vacuity -/

def demoStreamPoint (i : Int) (c : Cell) (vol area : Rat) : Feature Rat :=
  ⟨some i, .none, [("bspot_id", .int i), ("cell_row", .int c.1), ("cell_col", .int c.2), ("bspot_area", .num 1),
    ("bspot_vol", .num vol), ("wshed_area", .num area)]⟩

def demoStreamPoints : List (Feature Rat) :=
  [demoStreamPoint 0 (4, 2) 0 20, demoStreamPoint 1 (1, 1) 3 2, demoStreamPoint 2 (1, 3) 5 3]

example : ArePourPoints demoStreamPoints demoNetPps ∧ NetInput demoNetFlow demoNetLab demoNetPps (demoNetPps.map .pix) := by
  constructor
  · refine .cons ⟨rfl, rfl, rfl, ?_⟩ (.cons ⟨rfl, rfl, rfl, ?_⟩ (.cons ⟨rfl, rfl, rfl, ?_⟩ .nil))
    all_goals
      intro key hk
      simp only [copied, List.mem_cons, List.not_mem_nil, or_false] at hk
      rcases hk with rfl | rfl | rfl | rfl <;> exact ⟨_, rfl⟩
  · exact netInput_of_lowest ⟨rfl, rfl⟩ demoNet_codes demoNet_lowest
      (.cons (.inl rfl) (.cons (.inl rfl) (.cons (.inl rfl) .nil)))

set_option synthInstance.maxSize 1000 in
/-- Two pour points whose streams join in a new node 3: the stream of node 1 runs from (1, 1) to the junction. -/
example : ((Streams.process (K := Rat) ⟨0, 1, 0, 0, 0, -1⟩ demoNetFlow demoNetLab demoStreamPoints true 20).run.map
      fun r => r.toOption.map fun x => (x.1.map fun f => (f.id, Dict.get? f.properties "dstrnodeid",
        Dict.get? f.properties "nodetype", Dict.get? f.properties "bspot_vol"), x.2.map fun f => (f.id, f.geometry))) =
    some (some
      ([(some 0, some .none, some (.str "pourpoint"), some (.num 0)),
        (some 3, some .none, some (.str "junction"), some (.num 0)),
        (some 1, some (.int 3), some (.str "pourpoint"), some (.num 3)),
        (some 2, some (.int 3), some (.str "pourpoint"), some (.num 5))],
       [(some 0, .lineString [(5/2, -9/2)]),
        (some 3, .lineString [(5/2, -5/2), (5/2, -7/2), (5/2, -9/2)]),
        (some 1, .lineString [(3/2, -3/2), (5/2, -5/2)]),
        (some 2, .lineString [(7/2, -3/2), (5/2, -5/2)])])) := by
  decide +kernel

end Malstroem
