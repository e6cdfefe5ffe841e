/-
Property theorems C29–C33 and C60: downstream labels and the stream network.
-/
import Verif.Proofs.NetForest
import Verif.Props.Label

set_option linter.unusedSectionVars false

namespace Malstroem
open Spec

/-! ### C29 -/

/-- C29. On every finite trace `next_downstream_label` returns the first foreign label with the path to it, or `None`
with the whole trace; it returns `None` exactly if no cell of the trace has a foreign label. Without `geometry` the
path is not collected. -/
theorem C29_next_label (flowdir : Raster Nat) (labeled : Raster Int) (background : Option Int)
    (hshape : labeled.rows = flowdir.rows ∧ labeled.cols = flowdir.cols)
    (hcodes : ∀ c, flowdir.Has c → flowdir.get c ≤ 8) (c : Cell) (l : List Cell)
    (hl : IsTrace flowdir.rows flowdir.cols flowdir.get c l) :
    ∃ d g, NextLabel flowdir.rows flowdir.cols flowdir.get labeled.get background c d g ∧
      Returns (Net.nextDownstreamLabel flowdir labeled c background true) (.ok (d, g)) ∧
      Returns (Net.nextDownstreamLabel flowdir labeled c background false) (.ok (d, [])) ∧
      g <+: l ∧ (d = none ↔ ∀ x ∈ l, labeled.get x = labeled.get c ∨ some (labeled.get x) = background) ∧
      (d = none → g = l) := by
  obtain ⟨d, g, h1, h2⟩ := Net.next_ok hshape.1 hshape.2 hcodes background hl
  refine ⟨d, g, h1, ⟨l.length + 1, fun n hn => ?_⟩, ⟨l.length + 1, fun n hn => ?_⟩, ?_⟩
  · rw [h2 true n (by omega)]; rfl
  · rw [h2 false n (by omega)]; rfl
  have hnf : ∀ x, ¬ Foreign labeled.get background (labeled.get c) x ↔
      labeled.get x = labeled.get c ∨ some (labeled.get x) = background := by
    intro x; unfold Foreign; tauto
  obtain ⟨l', hl', h⟩ := h1
  obtain rfl := Net.trace_unique hl hl'
  rcases h with ⟨pre, x, post, e1, _, e3, e4, e5⟩ | ⟨e1, e2, e3⟩
  · refine ⟨⟨post, by rw [e5, e1]; simp⟩, ⟨fun h => ?_, fun h => ?_⟩, fun h => ?_⟩
    · rw [e4] at h; cases h
    · exact absurd e3 ((hnf x).2 (h x (by rw [e1]; simp)))
    · rw [e4] at h; cases h
  · exact ⟨by rw [e3], ⟨fun _ x hx => (hnf x).1 (e1 x hx), fun _ => e2⟩, fun _ => e3⟩

/-- The specification determines the label and the path. -/
theorem C29_unique (rows cols : Nat) (fd : Cell → Nat) (lab : Cell → Int) (bg : Option Int) (c : Cell)
    (d d' : Option Int) (g g' : List Cell) (h : NextLabel rows cols fd lab bg c d g)
    (h' : NextLabel rows cols fd lab bg c d' g') : d = d' ∧ g = g' :=
  Net.nextLabel_unique h h'

/-! ### C30, C31, C32, C60: the untangled network -/

/-- What the network functions need: rasters of the same shape, flow codes 0..8 without cycles, pour points in their own
bluespots, given as cells or as features with their label as `bspot_id`. -/
structure NetInput (flowdir : Raster Nat) (labeled : Raster Int) (pps : List Cell) (args : List Net.PourPointArg) :
    Prop where
  shape : labeled.rows = flowdir.rows ∧ labeled.cols = flowdir.cols
  codes : ∀ c, flowdir.Has c → flowdir.get c ≤ 8
  acyclic : ∀ c, ¬ OnCycle flowdir.rows flowdir.cols flowdir.get c
  good : GoodPourPoints flowdir.rows flowdir.cols flowdir.get labeled.get pps
  args : List.Forall₂ (fun (a : Net.PourPointArg) (x : Cell × Nat) => a = .pix x.1 ∨ a = .feature (x.2 : Int) x.1)
    args pps.zipIdx

variable {flowdir : Raster Nat} {labeled : Raster Int} {pps : List Cell} {args : List Net.PourPointArg}

/-- C32. Both network functions return: no error is raised and every loop ends. -/
theorem C32_network_returns (h : NetInput flowdir labeled pps args) :
    (∃ nodes, Returns (Net.geometricPourpointNetwork flowdir labeled args (some 0)) (.ok nodes)) ∧
    (∃ nodes, Returns (Net.pourpointNetwork flowdir labeled args (some 0)) (.ok nodes)) := by
  obtain ⟨_, R, _, _, h1, _⟩ := Net.network_ok h.shape.1 h.shape.2 h.codes h.acyclic h.good h.args
  obtain ⟨nodes, h2, _⟩ := Net.pourpoint_ok h.shape.1 h.shape.2 h.codes h.acyclic h.good h.args
  exact ⟨⟨R, h1⟩, ⟨_, h2⟩⟩

theorem network_result (h : NetInput flowdir labeled pps args) (R : List Net.Node)
    (hR : Returns (Net.geometricPourpointNetwork flowdir labeled args (some 0)) (.ok R)) :
    ∃ nodes M next', Net.Starts flowdir labeled pps nodes ∧ Net.Whole nodes (M + 1) R next' ∧
      (∀ c, labeled.Has c → labeled.get c ≤ M) ∧ (pps.length : Int) ≤ M + 1 := by
  obtain ⟨nodes, R', M, next', h1, h2⟩ := Net.network_ok h.shape.1 h.shape.2 h.codes h.acyclic h.good h.args
  have he : Except.ok R' = Except.ok (ε := PyErr) R := Returns.unique h1 hR
  cases he
  exact ⟨nodes, M, next', h2⟩

theorem plain_result (h : NetInput flowdir labeled pps args) (P : List Net.Node)
    (hP : Returns (Net.pourpointNetwork flowdir labeled args (some 0)) (.ok P)) :
    ∃ nodes, P = nodes.map (fun nd => { nd with geometry := [] }) ∧ Net.Listed flowdir labeled pps nodes := by
  obtain ⟨nodes, h1, h2⟩ := Net.pourpoint_ok h.shape.1 h.shape.2 h.codes h.acyclic h.good h.args
  have he := Returns.unique h1 hP
  exact ⟨nodes, (Except.ok.inj he).symm, h2⟩

/-- C30. The pour points of the result are exactly the given ones, with their index as id and their own cell; all other
nodes are junctions with ids above all labels and above all pour point ids; ids are distinct; each junction has at
least two upstream nodes. -/
theorem C30_nodes (h : NetInput flowdir labeled pps args) (R : List Net.Node)
    (hR : Returns (Net.geometricPourpointNetwork flowdir labeled args (some 0)) (.ok R)) :
    ((R.filter fun n => n.nodetype = .pourpoint).map fun n => (n.id, n.pix)).Perm
      (pps.zipIdx.map fun x => ((x.2 : Int), x.1)) ∧
    (R.map (·.id)).Nodup ∧
    ∀ j ∈ R, j.nodetype = .junction →
      (∀ c, labeled.Has c → labeled.get c < j.id) ∧ (pps.length : Int) ≤ j.id ∧
      2 ≤ (R.filter fun n => n.downstream_id = some j.id).length := by
  obtain ⟨nodes, M, next', hs, hw, hM, hlen⟩ := network_result h R hR
  have hpps : ((R.filter Net.isPP).map fun n => (n.id, n.pix)).Perm (pps.zipIdx.map fun x => ((x.2 : Int), x.1)) :=
    hw.pps.trans hs.perm
  refine ⟨hpps, Net.ids_nodup (Net.pp_ids_nodup hpps) hw.jids (fun n hn hty j hj htj => ?_), fun j hj htj => ?_⟩
  · obtain ⟨i, e1, e2⟩ := Net.pp_index hpps hn hty
    have := (hw.range j hj htj).1
    have hlt := (List.getElem?_eq_some_iff.1 e2).1
    omega
  · have := (hw.range j hj htj).1
    refine ⟨fun c hc => ?_, by omega, (hw.junc j hj htj).2⟩
    have := hM c hc
    omega

/-- C30 for `pourpoint_network`: one node for each pour point, in the given order, no junctions. -/
theorem C30_plain_nodes (h : NetInput flowdir labeled pps args) (P : List Net.Node)
    (hP : Returns (Net.pourpointNetwork flowdir labeled args (some 0)) (.ok P)) :
    (P.map fun n => (n.id, n.pix)) = (pps.zipIdx.map fun x => ((x.2 : Int), x.1)) ∧
    ∀ n ∈ P, n.nodetype = .pourpoint ∧ ((¬ flowdir.Has n.pix ∧ n.downstream_id = none) ∨
      ∃ g, NextLabel flowdir.rows flowdir.cols flowdir.get labeled.get (some 0) n.pix n.downstream_id g) := by
  obtain ⟨nodes, rfl, hl⟩ := plain_result h P hP
  refine ⟨by rw [List.map_map, ← hl.eq]; rfl, fun n hn => ?_⟩
  obtain ⟨k, hk, rfl⟩ := List.mem_map.1 hn
  obtain ⟨i, hi⟩ := hl.node k hk
  refine ⟨hi.type, ?_⟩
  rcases hi.found with ⟨_, hf⟩ | ⟨hf, hd, _⟩
  · exact .inr ⟨_, hf⟩
  · exact .inl ⟨hf, hd⟩

/-- C31. Geometries start in their node's cell; nodes draining to a junction end in its cell; and following the network
from pour point `i` through junctions gives exactly the original path and downstream label (nothing at all for an
absent pour point 0), the same label as `pourpoint_network` gives. -/
theorem C31_paths (h : NetInput flowdir labeled pps args) (R P : List Net.Node)
    (hR : Returns (Net.geometricPourpointNetwork flowdir labeled args (some 0)) (.ok R))
    (hP : Returns (Net.pourpointNetwork flowdir labeled args (some 0)) (.ok P)) :
    (∀ n ∈ R, n.geometry = [] ∨ n.geometry.head? = some n.pix) ∧
    (∀ n ∈ R, ∀ j ∈ R, j.nodetype = .junction → n.downstream_id = some j.id → n.geometry.getLast? = some j.pix) ∧
    (∀ (i : Nat) (p : Cell), pps[i]? = some p → ∃ n ∈ R, n.nodetype = .pourpoint ∧ n.id = i ∧ n.pix = p ∧
      ∃ g d, Route R n g d ∧ (∃ m ∈ P, m.id = i ∧ m.downstream_id = d) ∧
        ((flowdir.Has p ∧ NextLabel flowdir.rows flowdir.cols flowdir.get labeled.get (some 0) p d g) ∨
         (¬ flowdir.Has p ∧ d = none ∧ g = []))) := by
  obtain ⟨nodes, M, next', hs, hw, hM, hlen⟩ := network_result h R hR
  obtain ⟨nodes', hP', hl⟩ := plain_result h P hP
  have hids := (C30_nodes h R hR).2.1
  refine ⟨hw.heads, fun n hn j hj htj hd => ?_, fun i p hp => ?_⟩
  · rcases hw.downs n hn with ⟨m, hm, e1, _⟩ | ⟨k, hk, _, e1, e2⟩
    · exfalso
      obtain ⟨i, hi⟩ := hs.node m hm
      have a := hi.down_le h.shape.1 h.shape.2 hM j.id (by rw [← e1, hd])
      have b := (hw.range j hj htj).1
      omega
    · have : k = j := by
        rw [e1] at hd
        exact List.inj_on_of_nodup_map hids hk hj (Option.some.inj hd)
      rw [e2, this]
  · have hmem : ((i : Int), p) ∈ nodes.map fun n => (n.id, n.pix) := by
      rw [hs.perm.mem_iff]
      exact List.mem_map.2 ⟨(p, i), List.mem_zipIdx_iff_getElem?.2 hp, rfl⟩
    obtain ⟨n, hn, he⟩ := List.mem_map.1 hmem
    obtain ⟨he1, he2⟩ := Prod.ext_iff.1 he
    obtain ⟨k, hk⟩ := hs.node n hn
    have hki : k = i := by have := hk.id; simp only at he1; omega
    subst hki
    obtain ⟨n', hn', e1, e2, e3, hroute⟩ := hw.routes n hn
    have hmem' : ((k : Int), p) ∈ nodes'.map fun n => (n.id, n.pix) := by
      rw [hl.eq]
      exact List.mem_map.2 ⟨(p, k), List.mem_zipIdx_iff_getElem?.2 hp, rfl⟩
    obtain ⟨m, hm, hem⟩ := List.mem_map.1 hmem'
    obtain ⟨k', hk'⟩ := hl.node m hm
    have hfu := Net.found_unique (c := p) (by have := hk'.found; rwa [show m.pix = p from (Prod.ext_iff.1 hem).2] at this)
      (by have := hk.found; rwa [show n.pix = p from he2] at this)
    refine ⟨n', hn', e1, by rw [e2]; exact he1, by rw [e3]; exact he2, n.geometry, n.downstream_id, ?_, ?_, ?_⟩
    · refine Net.RouteTo.route hroute fun j hj htj hd => ?_
      have a := hk.down_le h.shape.1 h.shape.2 hM j.id hd
      have b := (hw.range j hj htj).1
      omega
    · rw [hP']
      exact ⟨_, List.mem_map_of_mem hm, (Prod.ext_iff.1 hem).1, hfu.1⟩
    · have := hk.found
      rwa [show n.pix = p from he2] at this

/-- C60. Two streams of the network share no cell except possibly their last ones (where one ends in the other's start
or both end in the same cell), provided the water leaving a pour point does not come back into its own bluespot. The
stream of the background node 0 is not covered. -/
theorem C60_streams_disjoint (h : NetInput flowdir labeled pps args)
    (hself : ∀ (i : Nat) (p : Cell), 1 ≤ i → pps[i]? = some p → ∀ q,
      Relation.TransGen (Step flowdir.rows flowdir.cols flowdir.get) p q → labeled.get q ≠ i) (R : List Net.Node)
    (hR : Returns (Net.geometricPourpointNetwork flowdir labeled args (some 0)) (.ok R)) :
    ∀ n ∈ R, ∀ m ∈ R, n.id ≠ m.id → n.id ≠ 0 → m.id ≠ 0 → ∀ x ∈ n.geometry.dropLast, x ∉ m.geometry.dropLast := by
  obtain ⟨nodes, M, next', hs, hw, hM, hlen⟩ := network_result h R hR
  have hd := hw.disj (hs.tidy h.acyclic h.good hself)
  intro n hn m hm hne hn0 hm0
  have hsymm : ∀ a b, Net.Apart a b → Net.Apart b a := fun a b hab h1 h2 x hx hx' => hab h2 h1 x hx' hx
  have : Std.Symm Net.Apart := ⟨hsymm⟩
  exact hd.forall hn hm (fun he => hne (by rw [he])) hn0 hm0

/-! ### C33 -/

section C33
variable {β : Type} [LinearOrder β] {rank : Cell → β}

theorem netInput_of_lowest (hshape : labeled.rows = flowdir.rows ∧ labeled.cols = flowdir.cols)
    (hcodes : ∀ c, flowdir.Has c → flowdir.get c ≤ 8)
    (h : LowestOutlets flowdir.rows flowdir.cols flowdir.get labeled.get rank pps)
    (hargs : List.Forall₂ (fun (a : Net.PourPointArg) (x : Cell × Nat) => a = .pix x.1 ∨ a = .feature (x.2 : Int) x.1)
      args pps.zipIdx) : NetInput flowdir labeled pps args :=
  ⟨hshape, hcodes, h.acyclic, h.good, hargs⟩

/-- C33. If the flow falls along some rank and each pour point has the lowest rank of its label, then both network
functions return a forest: following downstream ids never returns to a node, always finds the next node, and ends in a
node without downstream node. Such a node of `pourpoint_network` meets no other bluespot on its way; such a node of
the stream network ends in a cell that flows off the raster (or nowhere). -/
theorem C33_acyclic (hshape : labeled.rows = flowdir.rows ∧ labeled.cols = flowdir.cols)
    (hcodes : ∀ c, flowdir.Has c → flowdir.get c ≤ 8)
    (h : LowestOutlets flowdir.rows flowdir.cols flowdir.get labeled.get rank pps)
    (hargs : List.Forall₂ (fun (a : Net.PourPointArg) (x : Cell × Nat) => a = .pix x.1 ∨ a = .feature (x.2 : Int) x.1)
      args pps.zipIdx) :
    (∃ P, Returns (Net.pourpointNetwork flowdir labeled args (some 0)) (.ok P) ∧ IsForest P ∧
      ∀ r ∈ P, r.downstream_id = none → r.pix = (-1, -1) ∨
        ∃ l, IsTrace flowdir.rows flowdir.cols flowdir.get r.pix l ∧
          ∀ x ∈ l, labeled.get x = labeled.get r.pix ∨ labeled.get x = 0) ∧
    (∃ R, Returns (Net.geometricPourpointNetwork flowdir labeled args (some 0)) (.ok R) ∧ IsForest R ∧
      ∀ r ∈ R, r.downstream_id = none → r.geometry = [] ∨
        ∃ e, r.geometry.getLast? = some e ∧ flowdir.Has e ∧ ∀ q, FlowsTo flowdir.get e q → ¬ flowdir.Has q) := by
  have hin := netInput_of_lowest hshape hcodes h hargs
  constructor
  · obtain ⟨P, hP⟩ := (C32_network_returns hin).2
    obtain ⟨nodes, hPe, hl⟩ := plain_result hin P hP
    refine ⟨P, hP, by rw [hPe]; exact Net.listed_forest h hl, fun r hr hd => ?_⟩
    have hmem : (r.id, r.pix) ∈ P.map fun n => (n.id, n.pix) := List.mem_map_of_mem hr
    rw [(C30_plain_nodes hin P hP).1] at hmem
    obtain ⟨x, hx, he⟩ := List.mem_map.1 hmem
    have hget := List.mem_zipIdx_iff_getElem?.1 hx
    have hpix : x.1 = r.pix := (Prod.ext_iff.1 he).2
    rcases ((C30_plain_nodes hin P hP).2 r hr).2 with ⟨hno, _⟩ | ⟨g, l, hl, h'⟩
    · rcases h.lowest x.2 x.1 hget with ⟨_, h1, _⟩ | ⟨h1, _⟩
      · exact .inl (by rw [← hpix]; exact h1)
      · exact absurd (hpix ▸ h1) hno
    · rcases h' with ⟨_, y, _, _, _, _, hd', _⟩ | ⟨e1, _, _⟩
      · rw [hd] at hd'; cases hd'
      · refine .inr ⟨l, hl, fun y hy => ?_⟩
        have := e1 y hy
        unfold Foreign at this
        simp only [ne_eq, Option.some.injEq] at this
        tauto
  · obtain ⟨R, hR⟩ := (C32_network_returns hin).1
    obtain ⟨nodes, M, next', hs, hw, hM, hlen⟩ := network_result hin R hR
    refine ⟨R, hR, Net.whole_forest h hshape.1 hshape.2 hs hw hM hlen, fun r hr hd => ?_⟩
    rcases hw.downs r hr with ⟨m, hm, e1, e2⟩ | ⟨j, _, _, e1, _⟩
    · obtain ⟨i, hi⟩ := hs.node m hm
      cases hg : r.geometry.getLast? with
      | none => exact .inl (List.getLast?_eq_none_iff.1 hg)
      | some e =>
        rw [hg] at e2
        refine .inr ⟨e, rfl, hi.facts.inside e (List.mem_of_getLast? e2.symm), ?_⟩
        rcases hi.facts.last e e2.symm with ⟨_, h1⟩ | ⟨_, _, h1⟩
        · rw [← e1, hd] at h1; cases h1
        · exact h1
    · rw [hd] at e1; cases e1

end C33

/-- The raster that chooses the pour points belongs to the flow directions: it is their accumulated flow, or a surface
that falls in the direction of the flow. -/
def PourPointRule.Fits {β : Type} [LinearOrder β] [OrderTop β] (flowdir : Raster Nat) : PourPointRule β → Prop
  | .maxAccum a => ∃ A, Returns (Flow.accumulatedFlow flowdir) (.ok A) ∧ a.Same A
  | .minFilled _ nf => ∀ a b, Step flowdir.rows flowdir.cols flowdir.get a b → nf.get b < nf.get a

/-- A surface falls in the direction of the flow directions computed from it, for any DEM at all. -/
theorem fits_of_flowdir {β γ : Type} [LinearOrder β] [OrderTop β] [LinearOrder γ] [Zero γ] (sub : β → β → γ)
    (scale : γ → γ) (dem t : Raster β)
    (hsub : ∀ a b, t.Has a → t.Has b → (0 < sub (t.get a) (t.get b) ↔ t.get b < t.get a))
    (hscale : ∀ a b, 0 < scale (sub a b) ↔ 0 < sub a b) :
    PourPointRule.Fits (Flow.terrainFlowdirection sub scale t true) (.minFilled dem t) := by
  intro a b ⟨ha, hb, hf⟩
  obtain ⟨hrows, hcols⟩ := (C14_edges sub scale t).2.2.2 true
  rw [hrows, hcols] at ha hb
  rcases edge_or_interior ha with he | hi
  · obtain ⟨b', hb', hout⟩ := (C14_edges sub scale t).1 a he
    obtain rfl := Flow.flowsTo_det hf hb'
    exact absurd hb hout
  · have h13 := C13_flowdir_steepest sub scale t hsub hscale true a hi
    dsimp only at h13
    obtain ⟨o, ho, hbo⟩ := hf
    by_cases h8 : (Flow.terrainFlowdirection sub scale t true).get a = 8
    · rw [h8] at ho; cases ho
    · have := (h13.2 h8).2.1
      unfold neighbour at this
      rw [ho] at this
      rw [hbo]; exact this

section
variable {K : Type} [Field K] [LinearOrder K] [IsStrictOrderedRing K] {β : Type} [LinearOrder β] [OrderTop β]
  {cc : Raster Bool → Raster Int × Nat} {eng : Bluespots.Engine β K} {safe : Raster β → (β → β) × (β → β)}
  {gt : GeoTransform K} {depths : Raster K} {rule : PourPointRule β}

theorem lowest_of_choice {γ : Type} [LinearOrder γ] {rank : Cell → γ} {choose : List Cell → Cell → Prop}
    {out : Bluespots.Out K}
    (hne : 0 < depths.rows ∧ 0 < depths.cols)
    (hshape : flowdir.rows = depths.rows ∧ flowdir.cols = depths.cols)
    (hout : Bluespots.IsChosen depths choose out)
    (hchoose : ∀ cs x, choose cs x → x ∈ cs ∧ ∀ c ∈ cs, rank x ≤ rank c)
    (hfalls : ∀ a b, Step flowdir.rows flowdir.cols flowdir.get a b → rank b < rank a) :
    LowestOutlets flowdir.rows flowdir.cols flowdir.get out.labeled.get rank
      (out.pourpoints.map fun p => (p.cell_row, p.cell_col)) := by
  classical
  refine ⟨hfalls, fun i p hp => ?_, fun c hc => ?_, ?_⟩
  · rw [List.getElem?_map] at hp
    obtain ⟨pp, hpp, rfl⟩ := Option.map_eq_some_iff.1 hp
    have hlt := (List.getElem?_eq_some_iff.1 hpp).1
    rw [hout.length] at hlt
    have hcs := lists_filter depths.rows depths.cols fun c => out.labeled.get c = (i : Int)
    obtain ⟨q, hq, _, h1, h2⟩ := hout.points i _ (by omega) hcs
    rw [hpp] at hq
    obtain rfl := Option.some.inj hq
    rw [hshape.1, hshape.2]
    have hmem : ∀ c, c ∈ (Raster.cellList depths.rows depths.cols).filter (fun c => out.labeled.get c = (i : Int)) ↔
        InGrid depths.rows depths.cols c ∧ out.labeled.get c = i := by
      intro c; rw [List.mem_filter, Flow.mem_cellList]; simp
    by_cases hnil : (Raster.cellList depths.rows depths.cols).filter (fun c => out.labeled.get c = (i : Int)) = []
    · have hnone : ∀ c, InGrid depths.rows depths.cols c → out.labeled.get c ≠ i := by
        intro c hc he
        have : c ∈ _ := (hmem c).2 ⟨hc, he⟩
        rw [hnil] at this; cases this
      have hi0 : i = 0 := by
        by_contra h0
        obtain ⟨c, hc, he⟩ := hout.used i (by omega) (by omega)
        exact hnone c hc he
      subst hi0
      exact .inl ⟨rfl, h2 hnil, fun c hc => by simpa using hnone c hc⟩
    · obtain ⟨e1, e2⟩ := hchoose _ _ (h1 hnil)
      have := (hmem _).1 e1
      exact .inr ⟨this.1, this.2, fun c hc he => e2 c ((hmem c).2 ⟨hc, he⟩)⟩
  · rw [hshape.1, hshape.2] at hc
    have := hout.range c hc
    rw [List.length_map, hout.length]
    push_cast
    omega
  · rw [List.length_map, hout.length, hshape.1, hshape.2]
    rcases Nat.eq_zero_or_pos out.nlabels with h0 | hpos
    · refine ⟨(0, 0), by unfold InGrid; omega, ?_⟩
      have := hout.range (0, 0) (by unfold InGrid; omega)
      push_cast
      omega
    · obtain ⟨c, hc, he⟩ := hout.used out.nlabels (by omega) (by omega)
      exact ⟨c, hc, by rw [he]; push_cast; ring⟩

theorem lowest_of_rule (hne : 0 < depths.rows ∧ 0 < depths.cols)
    (hshape : flowdir.rows = depths.rows ∧ flowdir.cols = depths.cols)
    (hdrains : ∀ c, flowdir.Has c → Drains flowdir.rows flowdir.cols flowdir.get c)
    (hvalid : rule.Valid eng safe depths.rows depths.cols) (hfit : rule.Fits flowdir)
    {out : Bluespots.Out K} (h2 : Bluespots.IsChosen depths rule.Chooses out) :
    ∃ (γ : Type) (_ : LinearOrder γ) (rank : Cell → γ),
      LowestOutlets flowdir.rows flowdir.cols flowdir.get out.labeled.get rank
        (out.pourpoints.map fun p => (p.cell_row, p.cell_col)) := by
  cases rule with
  | maxAccum a =>
    obtain ⟨A, hfit, hsame⟩ := hfit
    have hA : ∀ c d, Step flowdir.rows flowdir.cols flowdir.get c d → a.get c < a.get d := by
      intro c d hcd
      have hv : a.rows = flowdir.rows ∧ a.cols = flowdir.cols :=
        ⟨hvalid.1.trans hshape.1.symm, hvalid.2.trans hshape.2.symm⟩
      have hin : ∀ x, InGrid flowdir.rows flowdir.cols x → a.get x = A.get x := by
        intro x hx
        exact hsame.2.2 x (by show InGrid a.rows a.cols x; rw [hv.1, hv.2]; exact hx)
      rw [hin c hcd.1, hin d hcd.2.1]
      exact (C19_accum_total flowdir hdrains A hfit).2.2 c d hcd
    exact ⟨_, inferInstance, fun c => OrderDual.toDual (a.get c), lowest_of_choice hne hshape h2
      (fun cs x hx => ⟨hx.1, fun c hc => OrderDual.toDual_le_toDual.2 (hx.2.1 c hc)⟩)
      (fun c d hcd => OrderDual.toDual_lt_toDual.2 (hA c d hcd))⟩
  | minFilled d nf =>
    exact ⟨_, inferInstance, nf.get, lowest_of_choice hne hshape h2 (fun cs x hx => ⟨hx.1, hx.2.1⟩) hfit⟩

/-- C33 for the output of BluespotTool, both pour point rules: with pour points chosen by the accumulated flow of the
flow directions, or on a surface falling along them, both networks of the result are forests whose roots drain off the
raster. -/
theorem C33_bluespot_network (h : BluespotInput cc eng safe gt depths flowdir rule) (hfit : rule.Fits flowdir)
    (f : Bluespots.StatUnits K → Bool) :
    ∃ out, (Bluespots.process cc eng safe gt depths (some f) flowdir rule.accumArg rule.demArg).Yields (.ok out) ∧
      (∃ P, Returns (Net.pourpointNetwork flowdir out.labeled
          (out.pourpoints.map fun p => .pix (p.cell_row, p.cell_col)) (some 0)) (.ok P) ∧ IsForest P ∧
        ∀ r ∈ P, r.downstream_id = none → r.pix = (-1, -1) ∨
          ∃ l, IsTrace flowdir.rows flowdir.cols flowdir.get r.pix l ∧
            ∀ x ∈ l, out.labeled.get x = out.labeled.get r.pix ∨ out.labeled.get x = 0) ∧
      (∃ R, Returns (Net.geometricPourpointNetwork flowdir out.labeled
          (out.pourpoints.map fun p => .pix (p.cell_row, p.cell_col)) (some 0)) (.ok R) ∧ IsForest R ∧
        ∀ r ∈ R, r.downstream_id = none → r.geometry = [] ∨
          ∃ e, r.geometry.getLast? = some e ∧ FlowsOut flowdir.rows flowdir.cols flowdir.get e) := by
  obtain ⟨out, h1, h2⟩ := bluespot_result h f
  refine ⟨out, h1, ?_⟩
  have hsh : out.labeled.rows = flowdir.rows ∧ out.labeled.cols = flowdir.cols :=
    ⟨h2.shape.1.trans h.shape.1.symm, h2.shape.2.1.trans h.shape.2.symm⟩
  have hlt : ∀ c, flowdir.Has c → flowdir.get c < 8 := fun c hc => Flow.Drains.code_lt (h.drains c hc)
  have hargs : List.Forall₂ (fun (a : Net.PourPointArg) (x : Cell × Nat) => a = .pix x.1 ∨ a = .feature (x.2 : Int) x.1)
      (out.pourpoints.map fun p => .pix (p.cell_row, p.cell_col))
      ((out.pourpoints.map fun p => (p.cell_row, p.cell_col)).zipIdx) := by
    rw [List.zipIdx_map, List.forall₂_map_left_iff, List.forall₂_map_right_iff, List.forall₂_iff_get]
    refine ⟨by simp, fun i h1 h2 => .inl ?_⟩
    simp
  obtain ⟨γ, _, rank, hlow⟩ := lowest_of_rule h.nonempty h.shape h.drains h.valid hfit h2.chosen
  obtain ⟨hp, R, e1, e2, e3⟩ := C33_acyclic hsh (fun c hc => (hlt c hc).le) hlow hargs
  refine ⟨hp, R, e1, e2, fun r hr hd => ?_⟩
  rcases e3 r hr hd with e | ⟨e, he, hin, hq⟩
  · exact .inl e
  · obtain hf := Flow.flowsTo_iff.2 ⟨hlt e hin, rfl⟩
    exact .inr ⟨e, he, hin, _, hf, hq _ hf⟩

end
/-! ### Non-vacuity: two streams that join before they leave the raster -/

def demoNetFlow : Raster Nat :=
  Raster.ofRows [[7,0,0,0,1],[6,3,4,5,2],[6,2,4,6,2],[6,2,4,6,2],[5,4,4,4,3]]
def demoNetLab : Raster Int :=
  Raster.ofRows [[0,0,0,0,0],[0,1,0,2,0],[0,0,0,0,0],[0,0,0,0,0],[0,0,0,0,0]]
/-- Accumulated flow with changed sign. -/
def demoNetRank : Raster Int :=
  Raster.ofRows [[-1,-1,-1,-1,-1],[-1,-1,-1,-1,-1],[-1,-1,-6,-1,-1],[-1,-1,-9,-1,-1],[-1,-1,-10,-1,-1]]
def demoNetPps : List Cell := [(4, 2), (1, 1), (1, 3)]
def demoNetArgs : List Net.PourPointArg := [.pix (4, 2), .feature 1 (1, 1), .pix (1, 3)]

theorem falls_of_check {β : Type} [LinearOrder β] (fd : Raster Nat) (rank : Raster β)
    (h : ∀ c ∈ fd.cells, fd.get c < 8 → Flow.cellInRaster fd.rows fd.cols (neighbour c (fd.get c)) = true →
      rank.get (neighbour c (fd.get c)) < rank.get c) :
    ∀ a b, Step fd.rows fd.cols fd.get a b → rank.get b < rank.get a := by
  rintro a b ⟨ha, hb, hf⟩
  obtain ⟨h1, rfl⟩ := Flow.flowsTo_iff.1 hf
  exact h a (Flow.mem_cellList.2 ha) h1 (Flow.cellInRaster_iff.2 hb)

theorem demoNet_lowest : LowestOutlets demoNetFlow.rows demoNetFlow.cols demoNetFlow.get demoNetLab.get demoNetRank.get
    demoNetPps where
  falls := falls_of_check demoNetFlow demoNetRank (by decide +kernel)
  lowest := by
    have key : ∀ (i : Nat) (p : Cell), (p, i) ∈ demoNetPps.zipIdx →
        Flow.cellInRaster demoNetFlow.rows demoNetFlow.cols p = true ∧ demoNetLab.get p = i ∧
        ∀ c ∈ demoNetFlow.cells, demoNetLab.get c = i → demoNetRank.get p ≤ demoNetRank.get c := by
      have : ∀ x ∈ demoNetPps.zipIdx,
          Flow.cellInRaster demoNetFlow.rows demoNetFlow.cols x.1 = true ∧ demoNetLab.get x.1 = x.2 ∧
          ∀ c ∈ demoNetFlow.cells, demoNetLab.get c = x.2 → demoNetRank.get x.1 ≤ demoNetRank.get c := by
        decide +kernel
      exact fun i p h => this _ h
    intro i p hp
    obtain ⟨h1, h2, h3⟩ := key i p (List.mem_zipIdx_iff_getElem?.2 hp)
    exact .inr ⟨Flow.cellInRaster_iff.1 h1, h2, fun c hc => h3 c (Flow.mem_cellList.2 hc)⟩
  covers := by
    have : ∀ c ∈ demoNetFlow.cells, 0 ≤ demoNetLab.get c ∧ demoNetLab.get c < (demoNetPps.length : Int) := by
      decide +kernel
    exact fun c hc => this c (Flow.mem_cellList.2 hc)
  used := ⟨(1, 3), by decide, by decide +kernel⟩

theorem demoNet_codes : ∀ c, demoNetFlow.Has c → demoNetFlow.get c ≤ 8 := by
  have : ∀ c ∈ demoNetFlow.cells, demoNetFlow.get c ≤ 8 := by decide +kernel
  exact fun c hc => this c (Flow.mem_cellList.2 hc)

theorem demoNet_input : NetInput demoNetFlow demoNetLab demoNetPps demoNetArgs :=
  netInput_of_lowest (by decide) demoNet_codes demoNet_lowest
    (.cons (.inl rfl) (.cons (.inr rfl) (.cons (.inl rfl) .nil)))

/-- The hypotheses of C60 and C33 hold here too. -/
example : ∀ (i : Nat) (p : Cell), 1 ≤ i → demoNetPps[i]? = some p → ∀ q,
    Relation.TransGen (Step demoNetFlow.rows demoNetFlow.cols demoNetFlow.get) p q → demoNetLab.get q ≠ i :=
  demoNet_lowest.self

/-- The run inserts junction 3 in the cell where the two streams meet. -/
example : (Net.geometricPourpointNetwork demoNetFlow demoNetLab demoNetArgs (some 0) 20).run.map Except.toOption =
    some (some [⟨0, none, .pourpoint, (4, 2), [(4, 2)]⟩,
      ⟨3, none, .junction, (2, 2), [(2, 2), (3, 2), (4, 2)]⟩,
      ⟨1, some 3, .pourpoint, (1, 1), [(1, 1), (2, 2)]⟩,
      ⟨2, some 3, .pourpoint, (1, 3), [(1, 3), (2, 2)]⟩]) := by
  decide +kernel

/-- The rule fits for `demoAccum`-like rasters: accumulated flow of draining directions exists (C18) and fits. -/
example : ∃ A, PourPointRule.Fits (β := WithTop Int) demoFlow (.maxAccum A) := by
  obtain ⟨A, hA, _⟩ := C18_accum_counts demoFlow demoFlow_drains
  exact ⟨A, A, hA, rfl, rfl, fun _ _ => rfl⟩

/-- Without the condition on the pour points the network of a cycle-free flow can be cyclic: the water of bluespot 1
leaves its chosen cell into bluespot 2 and comes back. -/
example : (Net.pourpointNetwork (Raster.ofRows [[4], [4], [4]]) (Raster.ofRows [[1], [2], [1]])
    [.pix (-1, -1), .pix (0, 0), .pix (1, 0)] (some 0) 20).run.map Except.toOption =
    some (some [⟨0, none, .pourpoint, (-1, -1), []⟩, ⟨1, some 2, .pourpoint, (0, 0), []⟩,
      ⟨2, some 1, .pourpoint, (1, 0), []⟩]) := by
  decide +kernel

end Malstroem
