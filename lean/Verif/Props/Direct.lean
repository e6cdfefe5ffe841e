/-
Property C110: junctions only pass water on. All arithmetic is exact.
-/
import Verif.Spec.Direct
import Verif.Proofs.Direct
import Verif.Props.MoreRain

set_option linter.unusedSectionVars false

namespace Malstroem
open Spec Network

section Core
variable {K : Type} [Field K] [LinearOrder K] [IsStrictOrderedRing K]

theorem inflow_perm {a b : List (RainNode K)} (h : a.Perm b) (spill : Int → K) (i : Int) : inflow a spill i = inflow b spill i :=
  (h.map _).sum_eq

theorem balanced_perm {a b : List (RainNode K)} (h : a.Perm b) {v spill : Int → K} {n : RainNode K}
    (hb : Balanced a v spill n) : Balanced b v spill n := by
  unfold Balanced at hb ⊢
  rw [arriving_eq] at hb ⊢
  rwa [inflow_perm h] at hb

theorem ends_of_leads {js ns : List (RainNode K)} (hnd : (ns.map (·.id)).Nodup) (hsub : ∀ j ∈ js, j ∈ ns) {n : RainNode K}
    (h : LeadsToRoot ns n) : ∃ d, Ends js n d := by
  induction h with
  | root h => exact ⟨_, .stop fun j _ => by rw [h]; exact nofun⟩
  | @step n m hm hd _ ih =>
    obtain ⟨d, hd'⟩ := ih
    by_cases hj : m ∈ js
    · exact ⟨d, .via hj hd hd'⟩
    · refine ⟨_, .stop fun j hj' e => hj ?_⟩
      rw [hd] at e
      exact eq_of_id hnd hm (hsub j hj') (Option.some.inj e) ▸ hj'

theorem ends_of_route {R : List Net.Node} {g : Net.Node → RainNode K} (hid : ∀ n, (g n).id = n.id)
    (hdown : ∀ n, (g n).down = n.downstream_id) {n : Net.Node} {p : List Cell} {d : Option Int} (h : Route R n p d) :
    Ends ((R.filter fun n => n.nodetype = .junction).map g) (g n) d := by
  induction h with
  | stop h =>
    rw [← hdown]
    refine .stop fun j hj => ?_
    obtain ⟨j, hj', rfl⟩ := List.mem_map.1 hj
    obtain ⟨h1, h2⟩ := List.mem_filter.1 hj'
    rw [hdown, hid]
    exact h j h1 (by simpa using h2)
  | via hj ht hd _ _ ih =>
    exact .via (List.mem_map_of_mem (List.mem_filter.2 ⟨hj, by simpa using ht⟩)) (by rw [hdown, hid, hd]) ih

end Core

section Net
variable {K : Type} [Field K] [LinearOrder K] [IsStrictOrderedRing K]
variable {flowdir : Raster Nat} {labeled : Raster Int} {pps : List Cell} {args : List Net.PourPointArg}

/-- A balanced network without its junctions. -/
theorem direct_of_balanced (hin : NetInput flowdir labeled pps args) {R : List Net.Node}
    (hR : Returns (Net.geometricPourpointNetwork flowdir labeled args (some 0)) (.ok R)) (hf : IsForest R)
    (areas caps : List K) (mm : K) {v spill : Int → K}
    (hbal : ∀ n ∈ R.map fun n => rainNode id areas caps mm n, Balanced (R.map fun n => rainNode id areas caps mm n) v spill n)
    {n : Nat} (hn : pps.length = n + 1) :
    ∃ next : Nat → Option Int,
      GoesTo flowdir.rows flowdir.cols flowdir.get labeled.get n (fun l => pps.getD l (-1, -1)) next ∧
      FinalState n next (fun l => areas.getD l 0 * mm / 1000) (fun l => caps.getD l 0) (fun l : Nat => v l) fun l : Nat => spill l := by
  obtain ⟨hperm, hids, -⟩ := C30_nodes hin R hR
  obtain ⟨P, hP⟩ := (C32_network_returns hin).2
  obtain ⟨-, -, hpath⟩ := C31_paths hin R P hR hP
  have hget : ∀ l ≤ n, pps[l]? = some (pps.getD l (-1, -1)) := by
    intro l hl
    rw [List.getD_eq_getElem?_getD, List.getElem?_eq_getElem (by omega)]; rfl
  have hex : ∀ l : Nat, ∃ d : Option Int, l ≤ n → ∃ m ∈ R, m.nodetype = .pourpoint ∧ m.id = l ∧ ∃ path, Route R m path d ∧
      ((flowdir.Has (pps.getD l (-1, -1)) ∧
          NextLabel flowdir.rows flowdir.cols flowdir.get labeled.get (some 0) (pps.getD l (-1, -1)) d path) ∨
        (¬ flowdir.Has (pps.getD l (-1, -1)) ∧ d = none)) := by
    intro l
    by_cases hl : l ≤ n
    · obtain ⟨m, h1, h2, h3, _, path, d, h4, _, h5⟩ := hpath l _ (hget l hl)
      exact ⟨d, fun _ => ⟨m, h1, h2, h3, path, h4, h5.imp id fun h => ⟨h.1, h.2.1⟩⟩⟩
    · exact ⟨none, fun h => absurd h hl⟩
  choose next hnext using hex
  refine ⟨next, fun l hl => ?_, ?_⟩
  · obtain ⟨_, _, _, _, path, _, h⟩ := hnext l hl
    rcases h with ⟨h1, h2⟩ | ⟨h1, h2⟩
    · exact .inl ⟨h1, path, h2⟩
    · exact .inr ⟨h1, h2⟩
  set g : Net.Node → RainNode K := fun n => rainNode id areas caps mm n with hg
  have hgid : ∀ n, (g n).id = n.id := fun _ => rfl
  set js := (R.filter fun n => n.nodetype = .junction).map g with hjs
  set rs := (R.filter fun n => n.nodetype = .pourpoint).map g with hrs
  have hp : (R.map g).Perm (js ++ rs) := by
    rw [hjs, hrs, ← List.map_append]
    refine List.Perm.map g ?_
    have := List.filter_append_perm (fun n : Net.Node => n.nodetype = .junction) R
    refine this.symm.trans (List.Perm.append_left _ (List.Perm.of_eq (List.filter_congr fun x _ => ?_)))
    cases x.nodetype <;> simp
  have hidsg : ((R.map g).map (·.id)).Nodup := by rw [List.map_map]; exact hids
  have hnd : ((js ++ rs).map (·.id)).Nodup := (hp.map _).nodup_iff.1 hidsg
  have hids' : ((R.filter fun n => n.nodetype = .pourpoint).map (·.id)).Perm ((List.range (n + 1)).map fun k : Nat => (k : Int)) := by
    have := hperm.map Prod.fst
    rw [List.map_map, List.map_map] at this
    refine this.trans (List.Perm.of_eq ?_)
    rw [← hn, List.range_eq_range', ← List.zipIdx_map_snd 0 pps, List.map_map]
    rfl
  have hrsid : ∀ m ∈ rs, ∃ l : Nat, l ≤ n ∧ m.id = l := by
    intro m hm
    obtain ⟨m, hm', rfl⟩ := List.mem_map.1 hm
    have := hids'.mem_iff.1 (List.mem_map_of_mem (f := (·.id)) hm')
    obtain ⟨k, hk, e⟩ := List.mem_map.1 this
    exact ⟨k, by have := List.mem_range.1 hk; omega, e.symm⟩
  have hleads : ∀ m ∈ js ++ rs, LeadsToRoot (R.map g) m := by
    intro m hm
    obtain ⟨m, hm', rfl⟩ := List.mem_map.1 (hp.mem_iff.2 hm)
    exact leads_of_forest hf g (fun _ => rfl) (fun _ => rfl) m hm'
  have key := without_junctions v spill js rs hnd
    (fun m hm => ends_of_leads hidsg (fun j hj => hp.mem_iff.2 (List.mem_append_left _ hj)) (hleads m hm))
    (fun j hj => by
      obtain ⟨j, hj', rfl⟩ := List.mem_map.1 hj
      have ht : j.nodetype ≠ .pourpoint := by
        have := (List.mem_filter.1 hj').2
        simp only [decide_eq_true_eq] at this
        rw [this]; exact nofun
      simp [hg, rainNode, ofPourPoint, ht])
    (fun m hm => balanced_perm hp (hbal m (hp.mem_iff.2 hm)))
    (fun m => next m.id.toNat) (fun m hm => by
      obtain ⟨l, hl, e⟩ := hrsid m hm
      obtain ⟨k, hk1, hk2, hk3, path, hroute, -⟩ := hnext l hl
      have hkm : g k = m := eq_of_id hidsg (List.mem_map_of_mem hk1) (hp.mem_iff.2 (List.mem_append_right _ hm)) (by
        rw [hgid, hk3, e])
      rw [e, Int.toNat_natCast, ← hkm]
      exact ends_of_route (fun _ => rfl) (fun _ => rfl) hroute)
  intro l hl
  obtain ⟨m, hm1, hm2, hm3, -⟩ := hnext l hl
  have hb := key (g m) (List.mem_map_of_mem (List.mem_filter.2 ⟨hm1, by simpa using hm2⟩))
  unfold Balanced at hb
  rw [arriving_eq] at hb
  have hin' : inflow (rs.map fun m => ({ m with down := next m.id.toNat } : RainNode K)) spill l =
      (((List.range (n + 1)).filter fun k => next k = some (l : Int)).map fun k : Nat => spill (k : Int)).sum := by
    unfold inflow
    rw [hrs, List.map_map, List.map_map]
    have h1 : ((R.filter fun n => n.nodetype = .pourpoint).map
        (((fun m : RainNode K => if m.down = some (l : Int) then spill m.id else 0) ∘
          fun m => ({ m with down := next m.id.toNat } : RainNode K)) ∘ g)) =
        ((R.filter fun n => n.nodetype = .pourpoint).map (·.id)).map fun i : Int => if next i.toNat = some (l : Int) then spill i else 0 := by
      rw [List.map_map]; rfl
    rw [h1, (hids'.map _).sum_eq, List.map_map]
    induction List.range (n + 1) with
    | nil => rfl
    | cons k ks ih =>
      rw [List.map_cons, List.sum_cons, ih, List.filter_cons]
      simp only [Function.comp_apply, Int.toNat_natCast]
      by_cases hk : next k = some (l : Int)
      · simp [hk]
      · simp [hk]
  have hid' : ({ g m with down := next (g m).id.toNat } : RainNode K).id = (l : Int) := hm3
  have hvol : ({ g m with down := next (g m).id.toNat } : RainNode K).vol = areas.getD l 0 * mm / 1000 := by
    simp [hg, rainNode, ofPourPoint, hm2, hm3, div_eq_mul_inv]
  have hcap : ({ g m with down := next (g m).id.toNat } : RainNode K).cap = caps.getD l 0 := by
    simp [hg, rainNode, ofPourPoint, hm2, hm3]
  rw [hid', hvol, hcap, hin'] at hb
  exact hb

end Net

section Complete
variable {K : Type} [Field K] [LinearOrder K] [IsStrictOrderedRing K] {β : Type} [LinearOrder β] [OrderTop β]
variable {drop : β → β → K} {sub : β → β → K} {scale : K → K} {safe : Raster β → (β → β) × (β → β)}
  {gt : GeoTransform K} {dem : Raster β} {cc : Raster Bool → Raster Int × Nat}

/-- The rule for the pour points after the results of DemTool. -/
def pourPointRule (dem : Raster β) (d : Dem.Out β K) : PourPointRule β :=
  match d.accum with
  | some a => .maxAccum a
  | none => .minFilled dem d.noFlats

/-- What the features of the final state say, for any water in the bluespots: bluespot `l` gets `areas l * mm / 1000`. -/
theorem direct_report {f : Bluespots.StatUnits K → Bool} {d : Dem.Out β K} {s : Cell → β} {b : Bluespots.Out K}
    {nodes final : List (Feature K)} {choose : List Cell → Cell → Prop} {R : List Net.Node}
    (hdsh : d.depths.rows = dem.rows ∧ d.depths.cols = dem.cols) (hfsh : d.flowdir.rows = dem.rows ∧ d.flowdir.cols = dem.cols)
    (hdown : DrainsDownhill dem.rows dem.cols s d.flowdir)
    (hres : Bluespots.IsResult gt d.depths f d.flowdir choose b)
    (hR : Returns (Net.geometricPourpointNetwork d.flowdir b.labeled
        (b.pourpoints.map fun p => .pix (p.cell_row, p.cell_col)) (some 0)) (.ok R))
    (hforest : IsForest R) (hs2 : List.Forall₂ (IsNodeFeature gt (b.pourpoints.map (·.feature))) R nodes)
    (hperm : ((R.filter fun n => n.nodetype = .pourpoint).map fun n => (n.id, n.pix)).Perm
        ((b.pourpoints.map fun p => (p.cell_row, p.cell_col)).zipIdx.map fun x => ((x.2 : Int), x.1)))
    {γ : Type} [LinearOrder γ] {rank : Cell → γ}
    (hlow : LowestOutlets d.flowdir.rows d.flowdir.cols d.flowdir.get b.labeled.get rank
          (b.pourpoints.map fun p => (p.cell_row, p.cell_col)))
    {areas : List K} {mm : K} {v spill : Int → K}
    (hv3 : List.Forall₂ (SameBut ["inputv", "v", "spillv", "pctv"]) nodes final)
    (hv4 : ∀ n ∈ R.map fun n => rainNode id areas (b.pourpoints.map (·.bspot_vol)) mm n,
      Balanced (R.map fun n => rainNode id areas (b.pourpoints.map (·.bspot_vol)) mm n) v spill n)
    (hv6 : List.Forall₂ (fun (n : Net.Node) f => HasNumber f "v" (v n.id) ∧ HasNumber f "spillv" (spill n.id)) R final) :
    ∃ point next,
      (∀ l ≤ b.nlabels, ∃ p, b.pourpoints[l]? = some p ∧ point l = (p.cell_row, p.cell_col)) ∧
      GoesTo dem.rows dem.cols d.flowdir.get b.labeled.get b.nlabels point next ∧
      (∃ cap : Nat → K, FinalState b.nlabels next (fun l => areas.getD l 0 * mm / 1000) cap (fun l : Nat => v l) (fun l : Nat => spill l) ∧
        ∀ l ≤ b.nlabels, ∀ cs, CellsOf dem.rows dem.cols b.labeled.get l cs → cap l = (cs.map d.depths.get).sum * cellArea gt) ∧
      (∀ l : Nat, l ≤ b.nlabels → ∃ f ∈ final, f.properties.get? "nodeid" = some (.int l) ∧
        HasNumber f "v" (v l) ∧ HasNumber f "spillv" (spill l)) ∧
      ∀ f ∈ final, (∃ l : Nat, l ≤ b.nlabels ∧ f.properties.get? "nodeid" = some (.int l)) ∨
        (f.properties.get? "nodetype" = some (.str "junction") ∧ HasNumber f "v" 0) := by
  have hlt : ∀ c, d.flowdir.Has c → d.flowdir.get c ≤ 8 := fun c hc => by
    have hc : InGrid d.flowdir.rows d.flowdir.cols c := hc
    rw [hfsh.1, hfsh.2] at hc
    exact (Flow.Drains.code_lt (hdown c hc).2.1).le
  have hargs : List.Forall₂ (fun (a : Net.PourPointArg) (x : Cell × Nat) => a = .pix x.1 ∨ a = .feature (x.2 : Int) x.1)
      (b.pourpoints.map fun p => .pix (p.cell_row, p.cell_col))
      (b.pourpoints.map fun p => (p.cell_row, p.cell_col)).zipIdx := by
    rw [List.zipIdx_map, List.forall₂_map_left_iff, List.forall₂_map_right_iff, List.forall₂_iff_get]
    exact ⟨by simp, fun i h1 h2 => .inl (by simp)⟩
  have hin := netInput_of_lowest (labeled := b.labeled) (flowdir := d.flowdir)
    ⟨hres.shape.1.trans (hdsh.1.trans hfsh.1.symm), hres.shape.2.1.trans (hdsh.2.trans hfsh.2.symm)⟩ hlt hlow hargs
  obtain ⟨next, hgo, hstate⟩ := direct_of_balanced hin hR hforest _ _ mm hv4 (n := b.nlabels) (by simpa using hres.length)
  rw [hfsh.1, hfsh.2] at hgo
  have hlen : R.length = nodes.length ∧ R.length = final.length := ⟨hs2.length_eq, hv6.length_eq⟩
  have hall : ∀ (i : Nat) (hi : i < R.length), (final[i]'(hlen.2 ▸ hi)).properties.get? "nodeid" = some (.int R[i].id) ∧
      HasNumber (final[i]'(hlen.2 ▸ hi)) "v" (v R[i].id) ∧ HasNumber (final[i]'(hlen.2 ▸ hi)) "spillv" (spill R[i].id) ∧
      (R[i].nodetype = .junction → (final[i]'(hlen.2 ▸ hi)).properties.get? "nodetype" = some (.str "junction")) := by
    intro i hi
    have h1 := (List.forall₂_iff_get.1 hs2).2 i hi (hlen.1 ▸ hi)
    have h2 := (List.forall₂_iff_get.1 hv3).2 i (hlen.1 ▸ hi) (hlen.2 ▸ hi)
    have h3 := (List.forall₂_iff_get.1 hv6).2 i hi (hlen.2 ▸ hi)
    simp only [List.get_eq_getElem] at h1 h2 h3
    exact ⟨(h2.others _ (by decide)).trans h1.nodeid, h3.1, h3.2, fun ht => (h2.others _ (by decide)).trans (h1.junction ht).1⟩
  have hpt : ∀ l ≤ b.nlabels, ∃ p, b.pourpoints[l]? = some p := fun l hl =>
    ⟨_, List.getElem?_eq_getElem (by have := hres.length; omega)⟩
  refine ⟨_, next, ?_, hgo, ⟨_, hstate, ?_⟩, ?_, ?_⟩
  · intro l hl
    obtain ⟨p, hp⟩ := hpt l hl
    exact ⟨p, hp, by simp [List.getD_eq_getElem?_getD, hp]⟩
  · intro l hl cs hcs
    rw [← hdsh.1, ← hdsh.2] at hcs
    obtain ⟨p, hp, hip, _⟩ := hres.points l cs _ hl hcs (lists_filter _ _ _)
    simp only [List.getD_eq_getElem?_getD, List.getElem?_map, hp, Option.map_some, Option.getD_some, hip.vol]
  · intro l hl
    obtain ⟨p, hp⟩ := hpt l hl
    obtain ⟨hl', hp'⟩ := List.getElem?_eq_some_iff.1 hp
    have hmem : ((l : Int), ((p.cell_row, p.cell_col) : Cell)) ∈
        (R.filter fun n => n.nodetype = .pourpoint).map fun n => (n.id, n.pix) := by
      refine hperm.mem_iff.2 (List.mem_map.2 ⟨((p.cell_row, p.cell_col), l), ?_, rfl⟩)
      refine List.mem_iff_getElem?.2 ⟨l, ?_⟩
      simp [List.getElem?_zipIdx, hp]
    obtain ⟨m, hm, e⟩ := List.mem_map.1 hmem
    have he : m.id = l := congrArg Prod.fst e
    obtain ⟨i, hi, rfl⟩ := List.getElem_of_mem (List.mem_filter.1 hm).1
    obtain ⟨h1, h2, h3, -⟩ := hall i hi
    rw [he] at h1 h2 h3
    exact ⟨_, List.getElem_mem _, h1, h2, h3⟩
  · intro f hf
    obtain ⟨i, hi, rfl⟩ := List.getElem_of_mem hf
    have hi' : i < R.length := by rw [hlen.2]; exact hi
    obtain ⟨h1, h2, h3, h4⟩ := hall i hi'
    rcases ht : R[i].nodetype with _ | _
    · left
      have hmem : (R[i].id, R[i].pix) ∈ (R.filter fun n => n.nodetype = .pourpoint).map fun n => (n.id, n.pix) :=
        List.mem_map.2 ⟨R[i], List.mem_filter.2 ⟨List.getElem_mem _, by simpa using ht⟩, rfl⟩
      obtain ⟨x, hx, e⟩ := List.mem_map.1 (hperm.mem_iff.1 hmem)
      have hx' := List.snd_lt_of_mem_zipIdx hx
      have e' : (x.2 : Int) = R[i].id := congrArg Prod.fst e
      refine ⟨x.2, by rw [List.length_map, hres.length] at hx'; show x.2 ≤ b.nlabels; omega, ?_⟩
      rw [e']; exact h1
    · right
      refine ⟨h4 ht, ?_⟩
      have hb := (hv4 _ (List.mem_map_of_mem (List.getElem_mem hi'))).1
      rw [arriving_eq] at hb
      have hcap : (rainNode id areas (b.pourpoints.map (·.bspot_vol)) mm R[i]).cap = 0 := by
        simp [rainNode, ofPourPoint, ht]
      have hvol : (rainNode id areas (b.pourpoints.map (·.bspot_vol)) mm R[i]).vol = 0 := by
        simp [rainNode, ofPourPoint, ht]
      rw [hcap, hvol, zero_add, min_eq_right (inflow_nonneg (fun n hn => by rw [(hv4 n hn).2]; exact le_max_left _ _) _)] at hb
      have hb : v R[i].id = 0 := hb
      rw [hb] at h2
      exact h2

/-- The chain from the results of DemTool on, for either set of functions. -/
theorem chain_direct {demEngine : Dem.Engine β K} {bluespotEngine : Bluespots.Engine β K}
    (hbe : Bluespots.IsEngine bluespotEngine) (hfill : bluespotEngine.fillTerrainNoFlats = demEngine.fillTerrainNoFlats)
    (hcc : LabelContract cc) (hsq : SquareCells gt) (hsize : 0 < dem.rows ∧ 0 < dem.cols)
    (want : Bool) (f : Bluespots.StatUnits K → Bool) (mm : K) {d : Dem.Out β K} {s : Cell → β}
    (hd : Returns (Dem.process demEngine sub safe true want dem) (.ok d))
    (hdsh : d.depths.rows = dem.rows ∧ d.depths.cols = dem.cols) (hfsh : d.flowdir.rows = dem.rows ∧ d.flowdir.cols = dem.cols)
    (hdown : DrainsDownhill dem.rows dem.cols s d.flowdir)
    (hnsh : d.noFlats.rows = dem.rows ∧ d.noFlats.cols = dem.cols) (hfin : ∀ c, dem.Has c → d.noFlats.get c < ⊤)
    (hdrop : ∀ a b, a < ⊤ → b < ⊤ → (0 < demEngine.drop a b ↔ b < a))
    (hscale : ∀ a b, 0 < demEngine.scale (demEngine.drop a b) ↔ 0 < demEngine.drop a b)
    (hacc : want = true → ∃ a A, d.accum = some a ∧ Returns (Flow.accumulatedFlow d.flowdir) (.ok A) ∧ a.Same A)
    (hno : want = false → d.accum = none) :
    ∃ out point next v spill,
      (Complete.processAll cc demEngine bluespotEngine sub safe gt dem want (some f) mm).Yields (.ok out) ∧ out.dem = d ∧
      ReportsState dem.rows dem.cols gt mm out point next v spill ∧
      Bluespots.IsResult gt d.depths f d.flowdir (pourPointRule dem d).Chooses out.bluespots ∧
      ∃ (γ : Type) (_ : LinearOrder γ) (rank : Cell → γ),
        LowestOutlets dem.rows dem.cols d.flowdir.get out.bluespots.labeled.get rank
          (out.bluespots.pourpoints.map fun p => (p.cell_row, p.cell_col)) := by
  obtain ⟨b, nodes, streams, choose, R, -, -, hrun, hres, hR, hforest, hs2, -, hids, hperm, hjun, hchoose, γ, iγ, rank, hlow⟩ :=
    chain_network_lowest (fl := id) hbe hfill hcc hsq hsize want f hd hdsh hfsh hdown hnsh hfin hdrop hscale hacc hno
  replace hres := hres.exact
  obtain ⟨vols, final, v, spill, hv1, hv2, hv3, hv4, -, hv6⟩ := rain_balance hforest hids hs2 (points_areas b).1
    (points_areas b).2 mm
  obtain ⟨point, next, ho, hg, ⟨cap, hst, hcap⟩, hshown, hothers⟩ := direct_report hdsh hfsh hdown hres hR hforest hs2 hperm hlow
    hv3 hv4 hv6
  rw [hfsh.1, hfsh.2] at hlow
  refine ⟨⟨d, b, nodes, streams, vols, final⟩, point, next, _, _, hrun mm vols final hv1 hv2, rfl,
    ⟨ho, hg, ⟨_, cap, hst, fun l hl cs ws hcs hws => ⟨?_, hcap l hl cs hcs⟩⟩, hshown, hothers⟩, hchoose ▸ hres, γ, iγ, rank, hlow⟩
  rw [← hdsh.1, ← hdsh.2] at hcs hws
  obtain ⟨p, hp, hip, _⟩ := hres.points l cs ws hl hcs hws
  simp only [List.getD_eq_getElem?_getD, List.getElem?_map, hp, Option.map_some, Option.getD_some, hip.wshed_area]

/-- C110: the final state the chain reports can be computed without streams and junctions. Each bluespot gets the rain on
its watershed and what the bluespots spill that find it first when the water runs down from their pour points; it holds
that up to its volume and spills the rest. Junctions hold nothing. -/
theorem C110_direct (h : SoundTerrain drop sub scale safe dem) (hcc : LabelContract cc) (hsq : SquareCells gt)
    (want : Bool) (f : Bluespots.StatUnits K → Bool) (mm : K) :
    ∃ out point next v spill,
      (Complete.processAll cc (Dem.python drop scale) Bluespots.python sub safe gt dem want (some f) mm).Yields (.ok out) ∧
      ReportsState dem.rows dem.cols gt mm out point next v spill := by
  obtain ⟨d, hd, _, hdsh, hfsh, hcells, _, ⟨z, _, hdown⟩, hacc, hno⟩ := C62_dem_outputs h want
  obtain ⟨_, _, _, hnf, hfd, _, _⟩ := Dem.process_inv hd
  have hnf : Returns (Fill.fillTerrainNoFlats (safe dem).1 (safe dem).2 dem) (.ok d.noFlats) := hnf
  obtain ⟨hnsh, hfin, _⟩ := noFlats_finite h hnf
  obtain ⟨out, point, next, v, spill, h1, -, h2, -⟩ := chain_direct (demEngine := Dem.python drop scale)
    (bluespotEngine := Bluespots.python)
    (.inl rfl) rfl hcc hsq ⟨by have := h.rows; omega, by have := h.cols; omega⟩ want f mm hd hdsh hfsh hdown hnsh hfin
    h.drop_pos h.scale_pos (fun hw => by
      obtain ⟨a, h1, h2⟩ := hacc hw
      exact ⟨a, a, h1, h2, rfl, rfl, fun _ _ => rfl⟩) hno
  exact ⟨out, point, next, v, spill, h1, h2⟩

/-- C110 with the compiled functions, for every DEM without exactly three rows or columns. -/
theorem C110_direct_compiled (junk : Int × Int) (h : SoundTerrain drop sub scale safe dem) (hr3 : dem.rows ≠ 3)
    (hc3 : dem.cols ≠ 3) (hcc : LabelContract cc) (hsq : SquareCells gt) (want : Bool) (f : Bluespots.StatUnits K → Bool)
    (mm : K) :
    ∃ out point next v spill,
      (Complete.processAll cc (Dem.compiled junk drop scale) (Bluespots.compiled junk) sub safe gt dem want (some f)
        mm).Yields (.ok out) ∧
      ReportsState dem.rows dem.cols gt mm out point next v spill := by
  obtain ⟨d, hd, _, hdsh, hfsh, _, hcells, _, ⟨z, _, hdown⟩, hacc, hno⟩ := C62_dem_outputs_compiled junk h hr3 hc3 want
  obtain ⟨_, _, _, hnf, hfd, _, _⟩ := Dem.process_inv hd
  obtain ⟨nf, hnf', hnr, hnc, _, _, _, hnfin, _⟩ := C11_compiled_noflats_valid (safe dem).1 (safe dem).2 h.mono.1 h.mono.2
    (fun x => (h.ge x).1) (fun x => (h.ge x).2) dem ⟨h.rows, hr3⟩ ⟨h.cols, hc3⟩ h.finite (fun x hx => (h.keep x hx).1)
    (fun x hx => (h.keep x hx).2)
  have heq : Except.ok nf = Except.ok (ε := PyErr) d.noFlats := Returns.unique hnf' hnf
  cases heq
  obtain ⟨out, point, next, v, spill, h1, -, h2, -⟩ := chain_direct (demEngine := Dem.compiled junk drop scale)
    (bluespotEngine := Bluespots.compiled junk) (.inr ⟨junk, rfl⟩) rfl hcc hsq
    ⟨by have := h.rows; omega, by have := h.cols; omega⟩ want f mm hd hdsh hfsh hdown ⟨hnr, hnc⟩ hnfin h.drop_pos h.scale_pos
    hacc hno
  exact ⟨out, point, next, v, spill, h1, h2⟩

end Complete

/-! ### The hypotheses can be met -/

example : ∃ cc, LabelContract cc ∧ SquareCells (⟨0, 2, 0, 0, 0, -2⟩ : GeoTransform Rat) ∧
    SoundTerrain (K := Rat) exactSub exactSub (· * (7/10)) (exactSafe (1/1000) (14/10000)) (finiteDem demoValley) ∧
    demoValley.rows ≠ 3 ∧ demoValley.cols ≠ 3 := by
  obtain ⟨cc, h⟩ := exists_labelContract
  exact ⟨cc, h, by unfold SquareCells; norm_num, exact_sound demoValley (by decide) (by decide) (by norm_num) (by norm_num)
    (by norm_num), by decide, by decide⟩

/-- A DEM with two pits whose outflows meet above a third. -/
def demoMeeting : Raster Rat := Raster.ofRows [[9,9,9,9,9,9,9],[9,1,9,9,9,1,9],[9,5,9,9,9,5,9],[9,9,4,9,4,9,9],[9,9,9,3,9,9,9],
  [9,9,9,2,9,9,9],[9,9,9,0,9,9,9],[9,9,9,1,9,9,9]]

/-- The labels of its bluespots. -/
def demoMeetingCC (a b c : Int) (_ : Raster Bool) : Raster Int × Nat :=
  ({ rows := 8, cols := 7, get := fun x => if x = (1, 1) then a else if x = (1, 5) then b else if x = (6, 3) then c else 0 }, 3)

/-- What the chain reports of the nodes after 4 m of rain on this DEM. -/
def demoMeetingFinal (a b c : Int) : Option (Option (List (List (Option (Val Rat))))) :=
  ((Complete.processAll (demoMeetingCC a b c) (Dem.python exactSub (· * (7/10))) Bluespots.python exactSub
      (exactSafe (1/1000) (14/10000)) ⟨0, 2, 0, 0, 0, -2⟩ (finiteDem demoMeeting) false (some fun _ => true) (4000 : Rat)).run 80).run.map
    fun r => r.toOption.map fun o => o.final.map fun f => [Dict.get? f.properties "nodeid",
      Dict.get? f.properties "dstrnodeid", Dict.get? f.properties "v", Dict.get? f.properties "spillv"]

/-- Bluespots 1 and 2 get 32 m³ each, hold 16 and spill 16 into junction 4. It passes 32 on to bluespot 3, which gets 384
itself, holds 4 and spills 384 + 32 - 4. -/
example : demoMeetingFinal 1 2 3 =
    some (some [[some (.int 0), some .none, some (.num 0), some (.num 448)],
      [some (.int 3), some .none, some (.num 4), some (.num 412)],
      [some (.int 4), some (.int 3), some (.num 0), some (.num 32)],
      [some (.int 1), some (.int 4), some (.num 16), some (.num 16)],
      [some (.int 2), some (.int 4), some (.num 16), some (.num 16)]]) := by
  decide +kernel

end Malstroem
