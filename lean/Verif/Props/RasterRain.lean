/-
Property C117: rain given as a raster. All arithmetic is exact.
-/
import Verif.Props.Relief
import Verif.Spec.RasterRain

set_option linter.unusedSectionVars false

namespace Malstroem
open Spec Network

namespace Relief
open Finset Contract
variable {K : Type} [Field K] [LinearOrder K] [IsStrictOrderedRing K]
variable {n : Nat} {next : Nat → Option Int} {water water' cap v spill v' spill' : Nat → K} {rank : Nat → Nat}

/-- With more water nothing holds or spills less. -/
theorem more_water (hrank : ∀ a ≤ n, ∀ b : Nat, next a = some (b : Int) → b ≤ n ∧ rank a < rank b)
    (hst : FinalState n next water cap v spill) (hst' : FinalState n next water' cap v' spill')
    (hw : ∀ l ≤ n, water l ≤ water' l) : ∀ l ≤ n, v l ≤ v' l ∧ spill l ≤ spill' l := by
  have key : ∀ N, ∀ l ≤ n, rank l ≤ N → v l ≤ v' l ∧ spill l ≤ spill' l := by
    intro N
    induction N using Nat.strong_induction_on with
    | _ N ih =>
      intro l hl hN
      have h1 : comesTo n next water spill l ≤ comesTo n next water' spill' l := by
        rw [comesTo_sum, comesTo_sum]
        refine add_le_add (hw l hl) (sum_le_sum fun a ha => ?_)
        have han : a ≤ n := by have := mem_range.1 ha; omega
        split
        · next e =>
          have := (hrank a han l e).2
          exact (ih (rank a) (by omega) a han le_rfl).2
        · exact le_rfl
      rw [(hst l hl).1, (hst l hl).2, (hst' l hl).1, (hst' l hl).2]
      exact ⟨min_le_min h1 le_rfl, max_le_max le_rfl (by linarith)⟩
  exact fun l hl => key _ l hl le_rfl

/-- Where the water upstream is the same, the state is the same. -/
theorem same_water (hrank : ∀ a ≤ n, ∀ b : Nat, next a = some (b : Int) → b ≤ n ∧ rank a < rank b)
    (hst : FinalState n next water cap v spill) (hst' : FinalState n next water' cap v' spill') :
    ∀ l ≤ n, (∀ a ≤ n, LeadsTo next a l → water' a = water a) → v' l = v l ∧ spill' l = spill l := by
  have key : ∀ N, ∀ l ≤ n, rank l ≤ N → (∀ a ≤ n, LeadsTo next a l → water' a = water a) → v' l = v l ∧ spill' l = spill l := by
    intro N
    induction N using Nat.strong_induction_on with
    | _ N ih =>
      intro l hl hN h
      have h1 : comesTo n next water' spill' l = comesTo n next water spill l := by
        rw [comesTo_sum, comesTo_sum, h l hl .refl]
        congr 1
        refine sum_congr rfl fun a ha => ?_
        have han : a ≤ n := by have := mem_range.1 ha; omega
        split
        · next e =>
          have := (hrank a han l e).2
          exact (ih (rank a) (by omega) a han le_rfl fun b hb hba => h b hb (hba.tail e)).2
        · rfl
      rw [(hst l hl).1, (hst' l hl).1, (hst l hl).2, (hst' l hl).2, h1]
      exact ⟨rfl, rfl⟩
  exact fun l hl h => key _ l hl le_rfl h

/-- What a node holds and spills more is no more than the water added upstream of it. -/
theorem added_water (hrank : ∀ a ≤ n, ∀ b : Nat, next a = some (b : Int) → b ≤ n ∧ rank a < rank b)
    (hst : FinalState n next water cap v spill) (hst' : FinalState n next water' cap v' spill')
    (hw : ∀ l ≤ n, water l ≤ water' l) {l : Nat} (hl : l ≤ n) (up : Finset Nat) (hup : ∀ a, a ∈ up ↔ a ≤ n ∧ LeadsTo next a l) :
    (v' l - v l) + (spill' l - spill l) ≤ ∑ a ∈ up, (water' a - water a) := by
  classical
  have a := upstream_balance hrank hst hl up hup
  have b := upstream_balance hrank hst' hl up hup
  have hlu : l ∈ up := (hup l).2 ⟨hl, .refl⟩
  rw [← add_sum_erase _ _ hlu] at a b
  have hle : ∑ a ∈ up.erase l, v a ≤ ∑ a ∈ up.erase l, v' a :=
    sum_le_sum fun x hx => (more_water hrank hst hst' hw x ((hup x).1 (mem_of_mem_erase hx)).1).1
  rw [sum_sub_distrib]
  linarith

end Relief

section
variable {K : Type} [Field K] [LinearOrder K] [IsStrictOrderedRing K]

/-- The raster volume tool on the nodes of a network. -/
theorem raster_on_forest {gt : GeoTransform K} {fps nodes : List (Feature K)} {R : List Net.Node}
    (hn : List.Forall₂ (IsNodeFeature gt fps) R nodes) {areas caps water : List K}
    (hareas : List.Forall₂ (fun f x => f.properties.get? "wshed_area" = some (.num x)) fps areas)
    (hcaps : List.Forall₂ (fun f x => f.properties.get? "bspot_vol" = some (.num x)) fps caps) (hlen : water.length = fps.length)
    (hjun : ∀ j ∈ R, j.nodetype = .junction → (fps.length : Int) ≤ j.id) :
    ∃ vols, nodes.mapM (Rain.rasterVolume "inputv" water) = .ok vols ∧
      List.Forall₂ (SameBut ["inputv", "v", "spillv", "pctv"]) nodes vols ∧
      List.Forall₂ (fun f n => Carries "inputv" f.properties n ∧ f.properties.get? "bspot_vol" = some (.num n.cap))
        vols (R.map fun n => rainNode id water caps 1000 n) := by
  induction hn with
  | nil => exact ⟨[], rfl, .nil, .nil⟩
  | @cons n f R nodes hab _ ih =>
    obtain ⟨vols, h1, h0, h2⟩ := ih fun j hj => hjun j (List.mem_cons_of_mem _ hj)
    have ha := node_number (.inl rfl) hareas hab
    have hc := node_number (.inr (.inl rfl)) hcaps hab
    have hid : 0 ≤ n.id ∧ if n.id < water.length then water[n.id.toNat]? = some (ofPourPoint water n) else ofPourPoint water n = 0 := by
      cases ht : n.nodetype with
      | junction =>
        have := hjun n (List.mem_cons_self ..) ht
        refine ⟨by omega, ?_⟩
        rw [if_neg (by omega)]
        simp [ofPourPoint, ht]
      | pourpoint =>
        obtain ⟨_, i, p, e1, e2, _⟩ := hab.pourpoint ht
        have hi := (List.getElem?_eq_some_iff.1 e2).1
        refine ⟨by omega, ?_⟩
        rw [if_pos (by omega), e1, Int.toNat_natCast]
        have : i < water.length := by omega
        simp [ofPourPoint, ht, e1, List.getElem?_eq_getElem this]
    obtain ⟨f', hf1, hf2⟩ := rasterVolume_ok (attr := "inputv") hab.nodeid hid.1 hid.2
    refine ⟨f' :: vols, by rw [List.mapM_cons, hf1, h1]; rfl,
      .cons ⟨hf2.id, hf2.geometry, fun key hk => hf2.others key fun e => hk (by simp [e])⟩ h0, .cons ⟨⟨?_, ?_, ?_, ?_, ?_⟩, ?_⟩ h2⟩
    · rw [hf2.others _ (by decide), hab.nodeid]; rfl
    · rw [hf2.others _ (by decide), hab.down]; rfl
    · exact ⟨_, _, (hf2.others _ (by decide)).trans ha, rfl⟩
    · have : (rainNode id water caps 1000 n).vol = ofPourPoint water n := by
        show ofPourPoint water n * 1000 * (1 / 1000) = _
        ring
      rw [this]
      exact hf2.value
    · exact ⟨_, (hf2.others _ (by decide)).trans hc, rfl⟩
    · exact (hf2.others _ (by decide)).trans hc

/-- The report does not depend on what is said about bluespots that do not exist. -/
theorem Spec.ReportsRain.congr {β : Type} {rows cols : Nat} {gt : GeoTransform K} {lab : Cell → Int} {precip : Cell → K} {factor : K}
    {out : Complete.Out β K} {final : List (Feature K)} {point point' : Nat → Cell} {next next' : Nat → Option Int} {v spill : Nat → K}
    (h : ReportsRain rows cols gt lab precip factor out final point' next' v spill)
    (hp : ∀ l ≤ out.bluespots.nlabels, point' l = point l)
    (hn : ∀ l ≤ out.bluespots.nlabels, next' l = next l) :
    ReportsRain rows cols gt lab precip factor out final point next v spill := by
  obtain ⟨water, cap, hst, hwc⟩ := h.state
  refine ⟨fun l hl => by rw [← hp l hl]; exact h.outlet l hl, fun l hl => by rw [← hp l hl, ← hn l hl]; exact h.goes l hl,
    ⟨water, cap, fun l hl => ?_, hwc⟩, h.shown, h.others⟩
  rw [← comesTo_congr (l := l) hn rfl]
  exact hst l hl

theorem goesTo_unique {rows cols : Nat} {fd : Cell → Nat} {lab : Cell → Int} {n : Nat} {point point' : Nat → Cell}
    {next next' : Nat → Option Int} (h : GoesTo rows cols fd lab n point next) (h' : GoesTo rows cols fd lab n point' next')
    (hp : ∀ l ≤ n, point' l = point l) : ∀ l ≤ n, next' l = next l := by
  intro l hl
  have a := h l hl
  have b := h' l hl
  rw [hp l hl] at b
  rcases a with ⟨a1, path, a2⟩ | ⟨a1, a2⟩ <;> rcases b with ⟨b1, path', b2⟩ | ⟨b1, b2⟩
  · exact (Net.nextLabel_unique b2 a2).1
  · exact absurd a1 b1
  · exact absurd b1 a1
  · rw [a2, b2]

variable {β : Type} [LinearOrder β] [OrderTop β]
variable {drop : β → β → K} {sub : β → β → K} {scale : K → K} {safe : Raster β → (β → β) × (β → β)}
  {gt : GeoTransform K} {dem : Raster β} {cc : Raster Bool → Raster Int × Nat}
  {demEngine : Dem.Engine β K} {bluespotEngine : Bluespots.Engine β K}

theorem GoodDem.raster_rain {want : Bool} {d : Dem.Out β K} {s : Cell → β}
    (g : GoodDem drop sub safe dem want demEngine bluespotEngine d s) (hcc : LabelContract cc) (hsq : SquareCells gt)
    (f : Bluespots.StatUnits K → Bool) (mm : K) :
    ∃ out point next,
      (Complete.processAll cc demEngine bluespotEngine sub safe gt dem want (some f) mm).Yields (.ok out) ∧ out.dem = d ∧
      (∀ (lab : Raster Int), lab = out.bluespots.watersheds ∨ lab = out.bluespots.labeled →
        (lab.rows = dem.rows ∧ lab.cols = dem.cols ∧ LabelsIn dem.rows dem.cols lab.get out.bluespots.nlabels) ∧
        ∀ (precip : Raster K) (unit : Rain.Unit) (factor : K),
          precip.rows = dem.rows ∧ precip.cols = dem.cols → unitFactor (cellArea gt) unit = some factor →
          ∃ vols final v spill, Rain.rasterVolumes out.nodes gt lab precip unit "inputv" = .ok vols ∧
            Returns (Network.finalState vols "inputv") (.ok final) ∧
            ReportsRain dem.rows dem.cols gt lab.get precip.get factor out final point next v spill) ∧
      ∃ rank : Nat → Nat, ∀ a ≤ out.bluespots.nlabels, ∀ b : Nat, next a = some (b : Int) →
        b ≤ out.bluespots.nlabels ∧ rank a < rank b := by
  obtain ⟨b, nodes, streams, choose, R, -, -, hrun, hres, hR, hforest, hs2, -, hids, hperm, hjun, hchoose, γ, iγ, rank, hlow⟩ :=
    chain_network_lowest (fl := id) g.engine g.fill hcc hsq g.size want f g.run g.depths g.flowdir g.down g.noFlats g.finite g.drop
      g.scale g.acc g.noacc
  replace hres := hres.exact
  obtain ⟨vols, final, v, spill, hv1, hv2, hv3, hv4, -, hv6⟩ := rain_balance hforest hids hs2 (points_areas b).1
    (points_areas b).2 mm
  obtain ⟨point, next, ho, hgo, ⟨cap, hst, hcap⟩, hshown, hothers⟩ := direct_report g.depths g.flowdir g.down hres hR hforest hs2
    hperm hlow hv3 hv4 hv6
  have hsh := hres.shape
  have hdsh := g.depths
  refine ⟨⟨d, b, nodes, streams, vols, final⟩, point, next, hrun mm vols final hv1 hv2, rfl, fun lab hlab => ?_, ?_⟩
  · obtain ⟨hr, hc, htop, hin⟩ : lab.rows = dem.rows ∧ lab.cols = dem.cols ∧ TopLabel lab.rows lab.cols lab.get none b.nlabels ∧
        LabelsIn lab.rows lab.cols lab.get b.nlabels := by
      rcases hlab with rfl | rfl
      · refine ⟨hsh.2.2.1.trans hdsh.1, hsh.2.2.2.trans hdsh.2, ?_⟩
        show TopLabel b.watersheds.rows b.watersheds.cols _ _ _ ∧ LabelsIn b.watersheds.rows b.watersheds.cols _ _
        rw [hsh.2.2.1, hsh.2.2.2]
        exact hres.wlabels
      · refine ⟨hsh.1.trans hdsh.1, hsh.2.1.trans hdsh.2, ?_⟩
        show TopLabel b.labeled.rows b.labeled.cols _ _ _ ∧ LabelsIn b.labeled.rows b.labeled.cols _ _
        rw [hsh.1, hsh.2.1]
        exact ⟨hres.labelling.topLabel (by rw [hdsh.1]; exact g.size.1) (by rw [hdsh.2]; exact g.size.2), hres.labelling.range⟩
    refine ⟨⟨hr, hc, by rw [← hr, ← hc]; exact hin⟩, fun precip unit factor hp hu => ?_⟩
    obtain ⟨water, hw1, hw2, hw3⟩ := rasterVolumes_ok (attr := "inputv") (gt := gt) (unit := unit) (water := precip)
      ⟨hr.trans hp.1.symm, hc.trans hp.2.symm⟩ htop hin hu nodes
    obtain ⟨vols, h1, h2, h3⟩ := raster_on_forest (water := water) hs2 (points_areas b).1 (points_areas b).2
      (by rw [hw1, List.length_map, hres.length]) (by simpa using hjun)
    obtain ⟨final, v, spill, f1, f2, f3, -, f5⟩ := forest_balance hforest hids h2 h3
    obtain ⟨point', next', ho', hgo', ⟨cap', hst', hcap'⟩, hshown', hothers'⟩ := direct_report g.depths g.flowdir g.down hres hR hforest
      hs2 hperm hlow f2 f3 f5
    have hpp : ∀ l ≤ b.nlabels, point' l = point l := by
      intro l hl
      obtain ⟨p, p1, p2⟩ := ho l hl
      obtain ⟨q, q1, q2⟩ := ho' l hl
      rw [p1] at q1
      obtain rfl := Option.some.inj q1
      rw [p2, q2]
    refine ⟨vols, final, fun l => v l, fun l => spill l, hw3.trans h1, f1, Spec.ReportsRain.congr (point' := point') (next' := next')
      ⟨ho', hgo', ⟨_, cap', hst', fun l hl cs ws hcs hws => ⟨?_, hcap' l hl cs hcs⟩⟩, hshown', hothers'⟩ hpp
      (goesTo_unique hgo hgo' hpp)⟩
    rw [← hr, ← hc] at hws
    rw [List.getD_eq_getElem?_getD, hw2 l hl, Option.getD_some, lists_unique hws (lists_filter _ _ _)]
    unfold Raster.cells
    ring
  · have hrep : ReportsState dem.rows dem.cols gt mm (⟨d, b, nodes, streams, vols, final⟩ : Complete.Out β K) point next
        (fun l => v l) (fun l => spill l) := by
      refine ⟨ho, hgo, ⟨_, cap, hst, fun l hl cs ws hcs hws => ⟨?_, hcap l hl cs hcs⟩⟩, hshown, hothers⟩
      rw [← hdsh.1, ← hdsh.2] at hcs hws
      obtain ⟨p, hp, hip, _⟩ := hres.points l cs ws hl hcs hws
      simp only [List.getD_eq_getElem?_getD, List.getElem?_map, hp, Option.map_some, Option.getD_some, hip.wshed_area]
    rw [g.flowdir.1, g.flowdir.2] at hlow
    exact Relief.natRank (fun l => rank (point l)) (next_lower hrep (fun c hc => hres.labelling.range c (by
      rw [hdsh.1, hdsh.2]; exact hc)) hlow)

/-- C117: the chain from the DEM to the nodes, `initvolumes` with a precipitation raster and either label raster of the chain,
and `finalvols`: each bluespot gets the precipitation on the cells with its label and what comes from upstream, holds that
up to its volume and spills the rest. -/
theorem C117_state (h : SoundTerrain drop sub scale safe dem) (hfun : Functions drop scale dem demEngine bluespotEngine)
    (hcc : LabelContract cc) (hsq : SquareCells gt) (want : Bool) (f : Bluespots.StatUnits K → Bool) (mm : K) :
    ∃ out point next,
      (Complete.processAll cc demEngine bluespotEngine sub safe gt dem want (some f) mm).Yields (.ok out) ∧
      ∀ (lab : Raster Int), lab = out.bluespots.watersheds ∨ lab = out.bluespots.labeled →
        ∀ (precip : Raster K) (unit : Rain.Unit) (factor : K),
          precip.rows = dem.rows ∧ precip.cols = dem.cols → unitFactor (cellArea gt) unit = some factor →
          ∃ vols final v spill, Rain.rasterVolumes out.nodes gt lab precip unit "inputv" = .ok vols ∧
            Returns (Network.finalState vols "inputv") (.ok final) ∧
            ReportsRain dem.rows dem.cols gt lab.get precip.get factor out final point next v spill := by
  obtain ⟨d, s, g⟩ := good_dem h hfun want
  obtain ⟨out, point, next, h1, -, h2, -⟩ := g.raster_rain hcc hsq f mm
  exact ⟨out, point, next, h1, fun lab hlab => (h2 lab hlab).2⟩

theorem unitFactor_pos (hsq : SquareCells gt) {unit : Rain.Unit} {factor : K} (h : unitFactor (cellArea gt) unit = some factor) :
    0 < factor := by
  have := cellArea_pos hsq
  cases unit <;> simp only [unitFactor, Option.some.injEq, reduceCtorEq] at h <;> subst h <;> positivity

theorem sum_sub_map (cs : List Cell) (g g' : Cell → K) : (cs.map g').sum - (cs.map g).sum = (cs.map fun c => g' c - g c).sum := by
  induction cs with
  | nil => simp
  | cons c cs ih => simp only [List.map_cons, List.sum_cons, ← ih]; ring

/-- The water of all bluespots upstream is the precipitation on all their cells. -/
theorem sum_upstream {rows cols n : Nat} {lab : Cell → Int} (hin : LabelsIn rows cols lab n) {next : Nat → Option Int} {l : Nat}
    (g : Cell → K) (up : Finset Nat) (hup : ∀ a, a ∈ up ↔ a ≤ n ∧ LeadsTo next a l) {cs : List Cell} (hnd : cs.Nodup)
    (hcs : ∀ c, c ∈ cs ↔ InGrid rows cols c ∧ LeadsTo next (lab c).toNat l) :
    ∑ a ∈ up, (((Raster.cellList rows cols).filter fun c => lab c = ((a : Nat) : Int)).map g).sum = (cs.map g).sum := by
  classical
  have hstep : ∀ a ∈ up, (((Raster.cellList rows cols).filter fun c => lab c = ((a : Nat) : Int)).map g).sum =
      ∑ c ∈ cs.toFinset.filter (fun c => (lab c).toNat = a), g c := by
    intro a ha
    obtain ⟨ha1, ha2⟩ := (hup a).1 ha
    rw [← List.sum_toFinset _ ((Flow.nodup_cellList _ _).filter _)]
    congr 1
    ext c
    rw [List.mem_toFinset, Finset.mem_filter, List.mem_toFinset, hcs]
    refine ((lists_filter rows cols fun c => lab c = ((a : Nat) : Int)).2 c).trans ⟨?_, ?_⟩
    · rintro ⟨hc, e⟩
      refine ⟨⟨hc, ?_⟩, by omega⟩
      rw [e, Int.toNat_natCast]; exact ha2
    · rintro ⟨⟨hc, -⟩, e⟩
      exact ⟨hc, by have := hin c hc; omega⟩
  rw [Finset.sum_congr rfl hstep, Finset.sum_fiberwise_of_maps_to, List.sum_toFinset _ hnd]
  intro c hc
  obtain ⟨hc1, hc2⟩ := (hcs c).1 (List.mem_toFinset.1 hc)
  have := hin c hc1
  exact (hup _).2 ⟨by omega, hc2⟩

/-- C117: of two precipitation rasters on the same terrain, for every bluespot: if they agree on its cells and those of the
bluespots upstream (in the label raster used), it holds and spills the same; if nowhere less falls, it holds and spills no
less, and no more in addition than falls in addition on these cells. -/
theorem C117_where (h : SoundTerrain drop sub scale safe dem) (hfun : Functions drop scale dem demEngine bluespotEngine)
    (hcc : LabelContract cc) (hsq : SquareCells gt) (want : Bool) (f : Bluespots.StatUnits K → Bool) (mm : K) :
    ∃ out point next,
      (Complete.processAll cc demEngine bluespotEngine sub safe gt dem want (some f) mm).Yields (.ok out) ∧
      ∀ (lab : Raster Int), lab = out.bluespots.watersheds ∨ lab = out.bluespots.labeled →
        ∀ (precip precip' : Raster K) (unit : Rain.Unit) (factor : K),
          precip.rows = dem.rows ∧ precip.cols = dem.cols → precip'.rows = dem.rows ∧ precip'.cols = dem.cols →
          unitFactor (cellArea gt) unit = some factor →
          ∃ vols final v spill vols' final' v' spill', Rain.rasterVolumes out.nodes gt lab precip unit "inputv" = .ok vols ∧
            Returns (Network.finalState vols "inputv") (.ok final) ∧
            ReportsRain dem.rows dem.cols gt lab.get precip.get factor out final point next v spill ∧
            Rain.rasterVolumes out.nodes gt lab precip' unit "inputv" = .ok vols' ∧
            Returns (Network.finalState vols' "inputv") (.ok final') ∧
            ReportsRain dem.rows dem.cols gt lab.get precip'.get factor out final' point next v' spill' ∧
            ∀ l ≤ out.bluespots.nlabels, ∀ cs : List Cell, cs.Nodup →
              (∀ c, c ∈ cs ↔ InGrid dem.rows dem.cols c ∧ LeadsTo next (lab.get c).toNat l) →
              ((∀ c ∈ cs, precip'.get c = precip.get c) → v' l = v l ∧ spill' l = spill l) ∧
              ((∀ c, InGrid dem.rows dem.cols c → precip.get c ≤ precip'.get c) → v l ≤ v' l ∧ spill l ≤ spill' l ∧
                (v' l - v l) + (spill' l - spill l) ≤ (cs.map fun c => precip'.get c - precip.get c).sum * factor) := by
  classical
  obtain ⟨d, s, g⟩ := good_dem h hfun want
  obtain ⟨out, point, next, h1, -, h2, rank, hR⟩ := g.raster_rain hcc hsq f mm
  refine ⟨out, point, next, h1, fun lab hlab precip precip' unit factor hp hp' hu => ?_⟩
  obtain ⟨⟨-, -, hin⟩, h3⟩ := h2 lab hlab
  obtain ⟨vols, final, v, spill, a1, a2, a3⟩ := h3 precip unit factor hp hu
  obtain ⟨vols', final', v', spill', b1, b2, b3⟩ := h3 precip' unit factor hp' hu
  refine ⟨vols, final, v, spill, vols', final', v', spill', a1, a2, a3, b1, b2, b3, fun l hl cs hnd hcs => ?_⟩
  obtain ⟨water, cap, hst, hwc⟩ := a3.state
  obtain ⟨water', cap', hst', hwc'⟩ := b3.state
  have hcap : ∀ l ≤ out.bluespots.nlabels, cap' l = cap l := by
    intro l hl
    rw [(hwc l hl _ _ (lists_filter _ _ _) (lists_filter _ _ _)).2, (hwc' l hl _ _ (lists_filter _ _ _) (lists_filter _ _ _)).2]
  replace hst' : FinalState out.bluespots.nlabels next water' cap v' spill' := by
    intro l hl
    have := hst' l hl
    rwa [hcap l hl] at this
  have hwat : ∀ a ≤ out.bluespots.nlabels, water a =
      (((Raster.cellList dem.rows dem.cols).filter fun c => lab.get c = ((a : Nat) : Int)).map precip.get).sum * factor :=
    fun a ha => (hwc a ha _ _ (lists_filter _ _ _) (lists_filter _ _ _)).1
  have hwat' : ∀ a ≤ out.bluespots.nlabels, water' a =
      (((Raster.cellList dem.rows dem.cols).filter fun c => lab.get c = ((a : Nat) : Int)).map precip'.get).sum * factor :=
    fun a ha => (hwc' a ha _ _ (lists_filter _ _ _) (lists_filter _ _ _)).1
  refine ⟨fun hsame => ?_, fun hmore => ?_⟩
  · refine Relief.same_water hR hst hst' l hl fun a ha hal => ?_
    rw [hwat a ha, hwat' a ha]
    congr 2
    refine List.map_congr_left fun c hc => ?_
    obtain ⟨hc1, hc2⟩ := ((lists_filter dem.rows dem.cols fun c => lab.get c = ((a : Nat) : Int)).2 c).1 hc
    exact hsame c ((hcs c).2 ⟨hc1, by rw [hc2, Int.toNat_natCast]; exact hal⟩)
  · have hle : ∀ a ≤ out.bluespots.nlabels, water a ≤ water' a := by
      intro a ha
      rw [hwat a ha, hwat' a ha]
      refine mul_le_mul_of_nonneg_right (List.sum_le_sum fun c hc => ?_) (unitFactor_pos hsq hu).le
      exact hmore c (((lists_filter dem.rows dem.cols fun c => lab.get c = ((a : Nat) : Int)).2 c).1 hc).1
    obtain ⟨m1, m2⟩ := Relief.more_water hR hst hst' hle l hl
    refine ⟨m1, m2, ?_⟩
    have hup : ∀ a, a ∈ (Finset.range (out.bluespots.nlabels + 1)).filter (fun a => LeadsTo next a l) ↔
        a ≤ out.bluespots.nlabels ∧ LeadsTo next a l := fun a => by
      rw [Finset.mem_filter, Finset.mem_range]
      exact ⟨fun h => ⟨by omega, h.2⟩, fun h => ⟨by omega, h.2⟩⟩
    refine (Relief.added_water hR hst hst' hle hl _ hup).trans (le_of_eq ?_)
    rw [Finset.sum_sub_distrib, Finset.sum_congr rfl fun a ha => hwat a ((hup a).1 ha).1,
      Finset.sum_congr rfl fun a ha => hwat' a ((hup a).1 ha).1, ← Finset.sum_mul, ← Finset.sum_mul,
      sum_upstream hin _ _ hup hnd hcs, sum_upstream hin _ _ hup hnd hcs, ← sub_mul, sum_sub_map]

end

/-- The hypotheses of `C117_state` and `C117_where` are met. -/
example : ∃ cc, LabelContract cc ∧ SquareCells (⟨0, 2, 0, 0, 0, -2⟩ : GeoTransform Rat) ∧
    SoundTerrain (K := Rat) exactSub exactSub (· * (7/10)) (exactSafe (1/1000) (14/10000)) (finiteDem demoMeeting) ∧
    Functions exactSub (· * (7/10) : Rat → Rat) (finiteDem demoMeeting) (Dem.python exactSub (· * (7/10))) Bluespots.python ∧
    unitFactor (cellArea (⟨0, 2, 0, 0, 0, -2⟩ : GeoTransform Rat)) .mm = some (4 / 1000) := by
  obtain ⟨cc, h⟩ := exists_labelContract
  refine ⟨cc, h, by unfold SquareCells; norm_num, exact_sound demoMeeting (by decide) (by decide) (by norm_num) (by norm_num)
    (by norm_num), .inl ⟨rfl, rfl⟩, by decide +kernel⟩

/-- What the nodes of `demoMeeting` report when it rains `rain c` mm on cell `c`. -/
def demoMeetingRaster (rain : Cell → Rat) : Option (Option (List (List (Option (Val Rat))))) :=
  ((Complete.processAll (demoMeetingCC 1 2 3) (Dem.python exactSub (· * (7/10))) Bluespots.python exactSub
      (exactSafe (1/1000) (14/10000)) ⟨0, 2, 0, 0, 0, -2⟩ (finiteDem demoMeeting) false (some fun _ => true) (4000 : Rat)).run 80).run.map
    fun r => (r.toOption.bind fun o =>
      (Rain.rasterVolumes o.nodes ⟨0, 2, 0, 0, 0, -2⟩ o.bluespots.watersheds ⟨8, 7, rain⟩ .mm "inputv").toOption.bind fun vols =>
        (Network.finalState vols "inputv" 80).run.bind Except.toOption).map fun final =>
      final.map fun f => [Dict.get? f.properties "nodeid", Dict.get? f.properties "v", Dict.get? f.properties "spillv"]

/-- The same rain everywhere gives the state of `demoMeetingFinal`. -/
example : demoMeetingRaster (fun _ => 4000) =
    some (some [[some (.int 0), some (.num 0), some (.num 448)], [some (.int 3), some (.num 4), some (.num 412)],
      [some (.int 4), some (.num 0), some (.num 32)], [some (.int 1), some (.num 16), some (.num 16)],
      [some (.int 2), some (.num 16), some (.num 16)]]) := by
  decide +kernel

/-- With 8 m of rain on the first pit, bluespot 1 and bluespot 3 below it spill 16 m³ more, and nothing else changes. -/
example : demoMeetingRaster (fun c => if c = (1, 1) then 8000 else 4000) =
    some (some [[some (.int 0), some (.num 0), some (.num 448)], [some (.int 3), some (.num 4), some (.num 428)],
      [some (.int 4), some (.num 0), some (.num 48)], [some (.int 1), some (.num 16), some (.num 32)],
      [some (.int 2), some (.num 16), some (.num 16)]]) := by
  decide +kernel

end Malstroem
