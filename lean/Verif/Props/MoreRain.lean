/-
Property C86: more rain, from the DEM to the flooded cells. All arithmetic is exact.
-/
import Verif.Props.Levels

set_option linter.unusedSectionVars false

namespace Malstroem
open Spec Network

section Rain
variable {K : Type} [Field K] [LinearOrder K] [IsStrictOrderedRing K]

/-- The final state of a network with given volumes of water, with the balance of its nodes. -/
theorem forest_balance {R : List Net.Node} {nodes vols : List (Feature K)} (hf : IsForest R) (hids : (R.map (·.id)).Nodup)
    {areas caps : List K} {mm : K} (hsame : List.Forall₂ (SameBut ["inputv", "v", "spillv", "pctv"]) nodes vols)
    (hcarry : List.Forall₂ (fun f n => Carries "inputv" f.properties n ∧ f.properties.get? "bspot_vol" = some (.num n.cap))
      vols (R.map fun n => rainNode id areas caps mm n)) :
    ∃ final, ∃ v spill : Int → K,
      Returns (Network.finalState vols "inputv") (.ok final) ∧
      List.Forall₂ (SameBut ["inputv", "v", "spillv", "pctv"]) nodes final ∧
      (∀ n ∈ R.map fun n => rainNode id areas caps mm n, Balanced (R.map fun n => rainNode id areas caps mm n) v spill n) ∧
      (∃ order, UpstreamFirst (R.map fun n => rainNode id areas caps mm n) order ∧
        ∀ n, n ∈ order ↔ n ∈ R.map fun n => rainNode id areas caps mm n) ∧
      List.Forall₂ (fun (n : Net.Node) f => HasNumber f "v" (v n.id) ∧ HasNumber f "spillv" (spill n.id)) R final := by
  set g := fun n => rainNode id areas caps mm n with hg
  have hnd : ((R.map g).map (·.id)).Nodup := by rw [List.map_map]; exact hids
  obtain ⟨final, rows, v, spill, hfin, hr1, hr2, hr3, hbal, hrow⟩ := C55_final_state_distinct (attr := "inputv")
    (by decide) (hcarry.imp fun _ _ h => h.1) hnd
  have hleads : ∀ n ∈ R.map g, LeadsToRoot (R.map g) n := by
    intro n hn
    obtain ⟨m, hm, rfl⟩ := List.mem_map.1 hn
    exact leads_of_forest hf g (fun _ => rfl) (fun _ => rfl) m hm
  have hrow' : ∀ r ∈ rows, Finished r.1 r.2.2 r.2.1 v spill := by
    intro r hr
    have hmem : r.2.1 ∈ R.map g := by rw [← hr2]; exact List.mem_map_of_mem hr
    exact (hrow r hr).1 (hleads _ hmem)
  have hi : NodeInput "inputv" (vols.map (·.properties)) (R.map g) :=
    ⟨by rw [List.forall₂_map_left_iff]; exact hcarry.imp fun _ _ h => h.1, hnd, by decide⟩
  obtain ⟨order, _, _, _, _, h3, h4, _⟩ := rain_run hi
  refine ⟨final, v, spill, hfin, ?_, fun n hn => hbal n hn (hleads n hn), ⟨order, h4, fun n => ?_⟩, ?_⟩
  · have hfinal : List.Forall₂ (SameBut ["inputv", "v", "spillv", "pctv"]) vols final := by
      rw [← hr1, ← hr3, List.forall₂_map_left_iff, List.forall₂_map_right_iff, List.forall₂_same]
      intro r hr
      have h := hrow' r hr
      exact ⟨h.id, h.geometry, fun key hk => by
        simp only [List.mem_cons, List.not_mem_nil, or_false, not_or] at hk
        exact h.others key hk.2.2.1 hk.2.1 hk.2.2.2⟩
    exact forall₂_trans (fun _ _ _ h1 h2 => ⟨h2.id.trans h1.id, h2.geometry.trans h1.geometry, fun key hk =>
      (h2.others key hk).trans (h1.others key hk)⟩) hsame hfinal
  · exact ⟨fun h => ((h3 n).1 h).1, fun h => (h3 n).2 ⟨h, hleads n h⟩⟩
  · have : List.Forall₂ (fun (n : RainNode K) f => HasNumber f "v" (v n.id) ∧ HasNumber f "spillv" (spill n.id))
        (R.map g) final := by
      rw [← hr2, ← hr3, List.forall₂_map_left_iff, List.forall₂_map_right_iff, List.forall₂_same]
      intro r hr
      exact ⟨⟨_, (hrow' r hr).state.retained, rfl⟩, ⟨_, (hrow' r hr).state.spilled, rfl⟩⟩
    exact List.forall₂_map_left_iff.1 this

/-- The final state of even rain on a network, with the balance of its nodes. -/
theorem rain_balance {gt : GeoTransform K} {fps : List (Feature K)} {R : List Net.Node}
    {nodes : List (Feature K)} (hf : IsForest R) (hids : (R.map (·.id)).Nodup)
    (hn : List.Forall₂ (IsNodeFeature gt fps) R nodes) {areas caps : List K}
    (hareas : List.Forall₂ (fun f x => f.properties.get? "wshed_area" = some (.num x)) fps areas)
    (hcaps : List.Forall₂ (fun f x => f.properties.get? "bspot_vol" = some (.num x)) fps caps) (mm : K) :
    ∃ vols final, ∃ v spill : Int → K, Rain.simpleVolumes nodes "inputv" mm = .ok vols ∧
      Returns (Network.finalState vols "inputv") (.ok final) ∧
      List.Forall₂ (SameBut ["inputv", "v", "spillv", "pctv"]) nodes final ∧
      (∀ n ∈ R.map fun n => rainNode id areas caps mm n, Balanced (R.map fun n => rainNode id areas caps mm n) v spill n) ∧
      (∃ order, UpstreamFirst (R.map fun n => rainNode id areas caps mm n) order ∧
        ∀ n, n ∈ order ↔ n ∈ R.map fun n => rainNode id areas caps mm n) ∧
      List.Forall₂ (fun (n : Net.Node) f => HasNumber f "v" (v n.id) ∧ HasNumber f "spillv" (spill n.id)) R final := by
  obtain ⟨vols, hvols, hsame, hcarry⟩ := volumes_on_forest (fl := id) hn hareas hcaps mm
  obtain ⟨final, v, spill, h⟩ := forest_balance hf hids hsame hcarry
  exact ⟨vols, final, v, spill, hvols, h⟩

/-- Feature `f'` holds and spills at least the water of `f`, and is the same otherwise. -/
structure MoreIn (f f' : Feature K) : Prop where
  same : SameBut ["inputv", "v", "spillv", "pctv"] f f'
  holds : ∃ v v', HasNumber f "v" v ∧ HasNumber f' "v" v' ∧ v ≤ v'
  spills : ∃ s s', HasNumber f "spillv" s ∧ HasNumber f' "spillv" s' ∧ s ≤ s'

/-- Two amounts of even rain on a network. -/
theorem rain_pair {gt : GeoTransform K} {fps : List (Feature K)} {R : List Net.Node}
    {nodes : List (Feature K)} (hf : IsForest R) (hids : (R.map (·.id)).Nodup)
    (hn : List.Forall₂ (IsNodeFeature gt fps) R nodes) {areas caps : List K}
    (hareas : List.Forall₂ (fun f x => f.properties.get? "wshed_area" = some (.num x)) fps areas)
    (hcaps : List.Forall₂ (fun f x => f.properties.get? "bspot_vol" = some (.num x)) fps caps) (hnn : ∀ a ∈ areas, 0 ≤ a)
    {mm mm' : K} (hmm : mm ≤ mm') :
    ∃ vols final vols' final', (Rain.simpleVolumes nodes "inputv" mm = .ok vols ∧
        Returns (Network.finalState vols "inputv") (.ok final)) ∧
      (Rain.simpleVolumes nodes "inputv" mm' = .ok vols' ∧ Returns (Network.finalState vols' "inputv") (.ok final')) ∧
      List.Forall₂ (SameBut ["inputv", "v", "spillv", "pctv"]) nodes final ∧
      List.Forall₂ (SameBut ["inputv", "v", "spillv", "pctv"]) nodes final' ∧ List.Forall₂ MoreIn final final' ∧
      (∃ vs, List.Forall₂ (fun f x => HasNumber f "v" x) final vs) ∧
      (∃ vs, List.Forall₂ (fun f x => HasNumber f "v" x) final' vs) := by
  obtain ⟨vols, final, v, spill, h1, h2, h3, h4, ⟨order, h5, h5'⟩, h6⟩ := rain_balance hf hids hn hareas hcaps mm
  obtain ⟨vols', final', v', spill', k1, k2, k3, k4, -, k6⟩ := rain_balance hf hids hn hareas hcaps mm'
  have hw : ∀ n, Wetter (rainNode id areas caps mm n) (rainNode id areas caps mm' n) := by
    intro n
    refine ⟨rfl, rfl, ?_, le_refl _⟩
    have ha : 0 ≤ ofPourPoint areas n := by
      unfold ofPourPoint
      split
      · rw [List.getD_eq_getElem?_getD]
        cases hx : areas[n.id.toNat]? with
        | none => simp
        | some x => exact hnn x (List.mem_of_getElem? hx)
      · exact le_refl _
    show ofPourPoint areas n * mm * (1 / 1000) ≤ ofPourPoint areas n * mm' * (1 / 1000)
    exact mul_le_mul_of_nonneg_right (mul_le_mul_of_nonneg_left hmm ha) (by norm_num)
  have hmono : ∀ n ∈ R, v n.id ≤ v' n.id ∧ spill n.id ≤ spill' n.id := by
    intro n hnR
    have hmem := List.mem_map_of_mem (f := fun n => rainNode id areas caps mm n) hnR
    obtain ⟨a, b⟩ := spill_mono (ns := R.map fun n => rainNode id areas caps mm n)
      (ns' := R.map fun n => rainNode id areas caps mm' n)
      (by rw [List.forall₂_map_left_iff, List.forall₂_map_right_iff, List.forall₂_same]; exact fun n _ => hw n) h5
      (fun n hn => (h5' n).1 hn) (fun n hn => h4 n ((h5' n).1 hn)) (v' := v') (spill' := spill')
      (fun n _ n' hn' _ => k4 n' hn') _ ((h5' _).2 hmem)
    exact ⟨b _ (List.mem_map_of_mem hnR) (hw n) rfl, a⟩
  refine ⟨vols, final, vols', final', ⟨h1, h2⟩, ⟨k1, k2⟩, h3, k3, ?_,
    ⟨R.map fun n => v n.id, by rw [List.forall₂_map_right_iff]; exact (h6.imp fun _ _ h => h.1).flip⟩,
    ⟨R.map fun n => v' n.id, by rw [List.forall₂_map_right_iff]; exact (k6.imp fun _ _ h => h.1).flip⟩⟩
  clear h1 h2 h4 h5 h5' k1 k2 k4 hf hids
  induction hn generalizing final final' with
  | nil => cases h3; cases k3; exact .nil
  | cons hab _ ih =>
    cases h3 with | cons a1 h3 => cases k3 with | cons b1 k3 => cases h6 with | cons c1 h6 => cases k6 with | cons d1 k6 =>
      refine .cons ⟨⟨b1.id.trans a1.id.symm, b1.geometry.trans a1.geometry.symm, fun key hk =>
        (b1.others key hk).trans (a1.others key hk).symm⟩, ⟨_, _, c1.1, d1.1, (hmono _ (by simp)).1⟩,
        ⟨_, _, c1.2, d1.2, (hmono _ (by simp)).2⟩⟩ ?_
      apply ih <;> first | assumption | exact fun n hn => hmono n (by simp [hn])

end Rain

theorem forall₂_with {α β : Type} {R : α → β → Prop} {l : List α} {m : List β} (h : List.Forall₂ R l m) :
    List.Forall₂ (fun a b => R a b ∧ a ∈ l) l m := by
  induction h with
  | nil => exact .nil
  | cons h _ ih => exact .cons ⟨h, by simp⟩ (ih.imp fun _ _ h => ⟨h.1, by simp [h.2]⟩)

theorem forall₂_filter {α β : Type} {R S : α → β → Prop} {l : List α} {m : List β} {p : α → Bool} {q : β → Bool}
    (hpq : ∀ a b, R a b → q b = p a) (h : List.Forall₂ R l m) (hS : ∀ a b, R a b → p a = true → S a b) :
    List.Forall₂ S (l.filter p) (m.filter q) := by
  induction h with
  | nil => exact .nil
  | @cons a b _ _ h _ ih =>
    rcases hp : p a with _ | _
    · rw [List.filter_cons_of_neg (by simp [hp]), List.filter_cons_of_neg (by simp [hpq a b h, hp])]; exact ih
    · rw [List.filter_cons_of_pos hp, List.filter_cons_of_pos (by simp [hpq a b h, hp])]
      exact .cons (hS a b h hp) ih

section Complete
variable {K : Type} [Field K] [LinearOrder K] [IsStrictOrderedRing K] [FloorRing K]

/-- C86. The `complete` command on the same DEM with two amounts of rain, under the assumptions of C67. All that does not
depend on the rain is the same. With the larger amount every node holds and spills at least as much; no water level is
lower; every flooded cell stays flooded, and by the same bluespot; and the water in the bluespots is nowhere less deep. -/
theorem C86_more_rain {cc : Raster Bool → Raster Int × Nat} (hcc : LabelContract cc) {gt : GeoTransform K}
    (hsq : SquareCells gt) (dem : Raster K) (hr : 2 ≤ dem.rows) (hc : 2 ≤ dem.cols) {short diag k : K} (hs : 0 < short)
    (hd : 0 < diag) (hk : 0 < k) (want : Bool) (f : Bluespots.StatUnits K → Bool) {mm mm' : K} (hmm : mm ≤ mm') {res : K}
    (hres : 0 < res)
    (hnn : ∀ c z, dem.Has c → IsSpillLevel dem.rows dem.cols dem.get c z → dem.get c < z → 0 ≤ dem.get c) :
    ∃ out lv depths extent out' lv' depths' extent',
      (Complete.processWithLevels (·.untopD 0) cc (Dem.python exactSub (· * k)) Bluespots.python
        exactSub (exactSafe short diag) gt (finiteDem dem) want (some f) mm res).Yields (.ok (out, lv)) ∧
      lv.depths = some depths ∧ lv.extent = some extent ∧
      (Complete.processWithLevels (·.untopD 0) cc (Dem.python exactSub (· * k)) Bluespots.python
        exactSub (exactSafe short diag) gt (finiteDem dem) want (some f) mm' res).Yields (.ok (out', lv')) ∧
      lv'.depths = some depths' ∧ lv'.extent = some extent' ∧
      out'.dem = out.dem ∧ out'.bluespots = out.bluespots ∧ out'.nodes = out.nodes ∧ out'.streams = out.streams ∧
      lv'.hyps = lv.hyps ∧
      List.Forall₂ MoreIn out.final out'.final ∧
      List.Forall₂ (fun g g' => g'.properties.get? "nodeid" = g.properties.get? "nodeid" ∧
          g'.properties.get? "bspot_id" = g.properties.get? "bspot_id" ∧
          ∀ l : Nat, 1 ≤ l → g.properties.get? "bspot_id" = some (.int l) →
            ∃ z z', g.properties.get? "approx_z" = some (.num z) ∧ g'.properties.get? "approx_z" = some (.num z') ∧ z ≤ z')
        lv.levels lv'.levels ∧
      ∀ c, dem.Has c → (extent.get c ≠ 0 → extent'.get c = extent.get c) ∧
        (out.bluespots.labeled.get c ≠ 0 → depths.get c ≤ depths'.get c) := by
  have h := exact_sound dem hr hc hs hd hk
  obtain ⟨d, hd, _, hdsh, hfsh, hcells, _, ⟨z, _, hdown⟩, hacc, hno⟩ := C62_dem_outputs h want
  obtain ⟨_, hfill, _, hnf, hfd, _, _⟩ := Dem.process_inv hd
  have hfill : Returns (Fill.fillTerrain (finiteDem dem)) (.ok d.filled) := hfill
  have hnf : Returns (Fill.fillTerrainNoFlats _ _ (finiteDem dem)) (.ok d.noFlats) := hnf
  obtain ⟨hnsh, hfin, _⟩ := noFlats_finite h hnf
  obtain ⟨b, nodes, streams, choose, R, hrun, hb, hR, hforest, hs2, hroots, hids, hperm, hjun⟩ :=
    chain_network (fl := id) (demEngine := Dem.python exactSub (· * k)) (bluespotEngine := Bluespots.python)
    (.inl rfl) rfl hcc hsq ⟨by have := h.rows; omega, by have := h.cols; omega⟩ want f hd hdsh hfsh hdown hnsh hfin
    h.drop_pos h.scale_pos (fun hw => by
      obtain ⟨a, h1, h2⟩ := hacc hw
      exact ⟨a, a, h1, h2, rfl, rfl, fun _ _ => rfl⟩) hno
  replace hb := hb.exact
  obtain ⟨vols, final, vols', final', ⟨a1, a2⟩, ⟨b1, b2⟩, a3, b3, hmore, ⟨vs, a4⟩, ⟨vs', b4⟩⟩ :=
    rain_pair hforest hids hs2 (points_areas b).1 (points_areas b).2 (by
      intro a ha
      obtain ⟨p, hp, rfl⟩ := List.mem_map.1 ha
      obtain ⟨i, hi, rfl⟩ := List.getElem_of_mem hp
      obtain ⟨p, hp, hip, _⟩ := hb.points i _ _ (by have := hb.length; omega) (lists_filter _ _ _) (lists_filter _ _ _)
      obtain ⟨_, hp⟩ := List.getElem?_eq_some_iff.1 hp
      rw [hp, hip.wshed_area]
      exact mul_nonneg (Nat.cast_nonneg _) (mul_nonneg (abs_nonneg _) (abs_nonneg _))) hmm
  have hrun1 := hrun mm vols final a1 a2
  have hrun2 := hrun mm' vols' final' b1 b2
  -- the filled terrain
  have hspill : ∀ c, dem.Has c → IsSpillLevel dem.rows dem.cols dem.get c ((d.filled.get c).untopD 0) :=
    fun c hc => spill_of_finite (hcells c hc).1
  have hdep : ∀ c, dem.Has c → d.depths.get c = (d.filled.get c).untopD 0 - dem.get c :=
    fun c hc => (hcells c hc).2.1
  have hflat : ∀ a b, ConnectedIn (fun c => InGrid d.depths.rows d.depths.cols c ∧ d.depths.get c ≠ 0) a b →
      (d.filled.get a).untopD 0 = (d.filled.get b).untopD 0 := by
    intro a b hab
    have key := (C12_depths (γ := Int) (fun x y : WithTop K => if y < x then 1 else if x = y then 0 else -1)
      (fun x y hxy => by
        rcases hxy.lt_or_eq with e | e
        · simp [e]
        · simp [e])
      (fun x y => by
        rcases lt_trichotomy x y with e | e | e
        · simp [e.ne, not_lt.2 e.le]
        · simp [e]
        · simp [e, e.ne']) (finiteDem dem) d.filled hfill).2.2 a b (hab.mono fun c hc => by
          have hc' : dem.Has c := by have := hc.1; rw [hdsh.1, hdsh.2] at this; exact this
          refine ⟨hc', ?_⟩
          have hlt := (hcells c hc').2.2.2.1 (lt_of_le_of_ne (hcells c hc').2.2.1 (Ne.symm hc.2))
          show 0 < (if (finiteDem dem).get c < d.filled.get c then (1 : Int) else _)
          rw [if_pos hlt]; decide)
    rw [key]
  have hge : ∀ c, dem.Has c → dem.get c ≤ (d.filled.get c).untopD 0 := fun c hc => by
    have := (hcells c hc).2.2.1
    rw [hdep c hc] at this
    linarith
  obtain ⟨zmin, zmax, spill, hscene, hcell⟩ := scene_of_result (fl := fun c => (d.filled.get c).untopD 0) hsq
    ⟨by omega, by omega⟩ hdsh hdep hge hflat (fun c hc hlt => hnn c _ hc (hspill c hc) hlt) hb
  have hrows : b.labeled.rows = dem.rows ∧ b.labeled.cols = dem.cols :=
    ⟨hb.shape.1.trans hdsh.1, hb.shape.2.1.trans hdsh.2⟩
  have hlabels : LabelsIn b.labeled.rows b.labeled.cols b.labeled.get b.nlabels := by
    intro c hc
    rw [hb.shape.1, hb.shape.2.1] at hc
    exact hb.labelling.range c hc
  have hid : ∀ (i : Nat) (p : Feature K), (b.pourpoints.map (·.feature))[i]? = some p →
      i ≤ b.nlabels ∧ p.properties.get? "bspot_id" = some (.int i) := fun i p hp => by
    rw [List.getElem?_map, Option.map_eq_some_iff] at hp
    obtain ⟨p, hp, rfl⟩ := hp
    have hlt := (List.getElem?_eq_some_iff.1 hp).1
    obtain ⟨p', hp', hi, _⟩ := hb.points i _ _ (by have := hb.length; omega) (lists_filter _ _ _) (lists_filter _ _ _)
    rw [hp] at hp'; cases hp'
    refine ⟨by have := hb.length; omega, ?_⟩
    show some (Val.int p.bspot_id) = _
    rw [hi.bspot_id]
  obtain ⟨hyps, lev, e1, hlev, hfinals⟩ := levels_of_finals hres hscene hlabels hid hs2 (by
      have := hperm.map (·.1)
      rw [List.map_map, List.map_map] at this
      have e : (((b.pourpoints.map fun p => (p.cell_row, p.cell_col)).zipIdx.map
          ((fun x : Int × Cell => x.1) ∘ fun x : Cell × Nat => ((x.2 : Int), x.1)))) =
          (List.range (b.nlabels + 1)).map fun (i : Nat) => (i : Int) := by
        rw [← hb.length]
        have hz : ((b.pourpoints.map fun p => (p.cell_row, p.cell_col)).zipIdx.map Prod.snd) =
            List.range b.pourpoints.length := by
          rw [List.zipIdx_map_snd, List.length_map, List.range_eq_range']
        rw [← hz, List.map_map]; rfl
      rw [e] at this
      exact this)
  obtain ⟨levels, extent, depths, level, c1, c2, c3, c4, c5⟩ := hfinals a3 a4
  obtain ⟨levels', extent', depths', level', d1, d2, d3, d4, d5⟩ := hfinals b3 b4
  -- the pour points of the final states
  have hpp : ∀ {fin : List (Feature K)}, List.Forall₂ (SameBut ["inputv", "v", "spillv", "pctv"]) nodes fin →
      ∀ (i : Nat) (x : Feature K), fin[i]? = some x → x.properties.get? "nodetype" = some (.str "pourpoint") →
        ∃ r, ∃ l : Nat, R[i]? = some r ∧ r.id = l ∧ l ≤ b.nlabels ∧ x.properties.get? "bspot_id" = some (.int l) := by
    intro fin hsame i x hx hty
    obtain ⟨nf, hnf, hs⟩ := forall₂_get hsame.flip hx
    obtain ⟨r, hr, hnode⟩ := forall₂_get hs2.flip hnf
    rw [hs.others _ (by decide)] at hty
    rcases ht : r.nodetype with _ | _
    all_goals first
      | (have := (hnode.junction ht).1; rw [hty] at this; simp at this; done)
      | skip
    obtain ⟨_, l, p, h1, h2, h3⟩ := hnode.pourpoint ht
    refine ⟨r, l, hr, h1, (hid l p h2).1, ?_⟩
    rw [hs.others _ (by decide), h3 _ (by decide), (hid l p h2).2]
  have hone : ∀ {fin fin' : List (Feature K)}, List.Forall₂ (SameBut ["inputv", "v", "spillv", "pctv"]) nodes fin →
      List.Forall₂ (SameBut ["inputv", "v", "spillv", "pctv"]) nodes fin' →
      ∀ (i j : Nat) (x y : Feature K) (l : Int), fin[i]? = some x → fin'[j]? = some y →
        x.properties.get? "nodetype" = some (.str "pourpoint") → y.properties.get? "nodetype" = some (.str "pourpoint") →
        x.properties.get? "bspot_id" = some (.int l) → y.properties.get? "bspot_id" = some (.int l) → i = j := by
    intro fin fin' h1 h2 i j x y l hx hy tx ty bx byy
    obtain ⟨r, m, hr, hrm, _, hm⟩ := hpp h1 i x hx tx
    obtain ⟨r', m', hr', hrm', _, hm'⟩ := hpp h2 j y hy ty
    rw [hm] at bx
    rw [hm'] at byy
    have e1 : (m : Int) = l := by simpa using bx
    have e2 : (m' : Int) = l := by simpa using byy
    obtain ⟨hi, hr⟩ := List.getElem?_eq_some_iff.1 hr
    obtain ⟨hj, hr'⟩ := List.getElem?_eq_some_iff.1 hr'
    refine (List.Nodup.getElem_inj_iff hids (hi := by simpa using hi) (hj := by simpa using hj)).1 ?_
    rw [List.getElem_map, List.getElem_map, hr, hr', hrm, hrm', e1, e2]
  have hlevel : ∀ l : Nat, 1 ≤ l → l ≤ b.nlabels → level l ≤ level' l := by
    intro l h1 h2
    obtain ⟨x, hx, _, _, v, tx, bx, vx, lx, _⟩ := c3 l h1 h2
    obtain ⟨y, hy, _, _, w, ty, byy, wy, ly, _⟩ := d3 l h1 h2
    obtain ⟨i, hx⟩ := List.mem_iff_getElem?.1 hx
    obtain ⟨j, hy⟩ := List.mem_iff_getElem?.1 hy
    have hij := hone a3 b3 i j x y l hx hy tx ty bx byy
    subst hij
    obtain ⟨y', hy', hm⟩ := forall₂_get hmore hx
    rw [hy] at hy'; cases hy'
    obtain ⟨v1, v2, k1, k2, k3⟩ := hm.holds
    rw [lx, ly]
    have e1 := hasNumber_unique vx k1
    have e2 := hasNumber_unique wy k2
    subst e1 e2
    exact (hlev l h1 h2).1 k3
  refine ⟨⟨d, b, nodes, streams, vols, final⟩, ⟨hyps, levels, some depths, some extent⟩, depths, extent,
    ⟨d, b, nodes, streams, vols', final'⟩, ⟨hyps, levels', some depths', some extent'⟩, depths', extent', ?_, rfl, rfl, ?_, rfl,
    rfl, rfl, rfl, rfl, rfl, rfl, hmore, ?_, fun c hc => ?_⟩
  · unfold Complete.processWithLevels
    refine Run.yields_bind hrun1 ?_
    refine Run.yields_bind (Run.yields_ofExcept' e1) ?_
    refine Run.yields_bind (Run.yields_ofExcept' c1) ?_
    refine Run.yields_bind (Run.yields_ofExcept' c2) ?_
    exact Run.yields_pure _
  · unfold Complete.processWithLevels
    refine Run.yields_bind hrun2 ?_
    refine Run.yields_bind (Run.yields_ofExcept' e1) ?_
    refine Run.yields_bind (Run.yields_ofExcept' d1) ?_
    refine Run.yields_bind (Run.yields_ofExcept' d2) ?_
    exact Run.yields_pure _
  · have hfil : List.Forall₂ (fun f f' => MoreIn f f' ∧ ∃ i : Nat, final[i]? = some f ∧
        f.properties.get? "nodetype" = some (.str "pourpoint"))
        (final.filter fun f => f.properties.get? "nodetype" = some (.str "pourpoint"))
        (final'.filter fun f => f.properties.get? "nodetype" = some (.str "pourpoint")) := by
      refine forall₂_filter (fun f f' h => ?_) (forall₂_with hmore) fun f f' h hf => ⟨h.1, ?_⟩
      · rw [h.1.same.others _ (by decide)]
      · obtain ⟨i, hi⟩ := List.mem_iff_getElem?.1 h.2
        exact ⟨i, hi, by simpa using hf⟩
    refine (forall₂_comp (forall₂_comp c5.flip hfil) d5).imp fun g g' ⟨f', _, ⟨f, _, hfg, hff, i, hi, ht⟩, hf'g'⟩ => ?_
    obtain ⟨⟨z1, dz1, hz1⟩, hl1⟩ := hfg
    obtain ⟨⟨z2, dz2, hz2⟩, hl2⟩ := hf'g'
    refine ⟨?_, ?_, fun l hl hg => ?_⟩
    · rw [hz2.others _ (by decide) (by decide), hz1.others _ (by decide) (by decide), hff.same.others _ (by decide)]
    · rw [hz2.others _ (by decide) (by decide), hz1.others _ (by decide) (by decide), hff.same.others _ (by decide)]
    · rw [hz1.others _ (by decide) (by decide)] at hg
      obtain ⟨v1, v2, k1, k2, k3⟩ := hff.holds
      obtain ⟨_, l', _, _, hle, hb'⟩ := hpp a3 i f hi ht
      have hll : l' = l := by rw [hb'] at hg; simpa using hg
      subst hll
      refine ⟨_, _, (hl1 _ _ hl hg k1).level, (hl2 _ _ hl (by rw [hff.same.others _ (by decide)]; exact hg) k2).level, ?_⟩
      exact (hlev _ hl hle).1 k3
  · have hin : InGrid b.labeled.rows b.labeled.cols c := by rw [hrows.1, hrows.2]; exact hc
    have hkey : b.labeled.get c ≠ 0 → level (b.labeled.get c) ≤ level' (b.labeled.get c) := by
      intro hne
      have hrange := hlabels c hin
      obtain ⟨l, hl⟩ : ∃ l : Nat, b.labeled.get c = l := ⟨(b.labeled.get c).toNat, by omega⟩
      rw [hl] at hrange hne ⊢
      exact hlevel l (by omega) (by omega)
    constructor
    · intro hne
      have hlab : b.labeled.get c ≠ 0 := fun h0 => hne (c4.outside c hin h0)
      have h1 := c4.wet c hin hlab
      have h2 := d4.wet c hin hlab
      rw [h1] at hne ⊢
      rw [h2]
      by_cases hle : dem.get c ≤ level (b.labeled.get c)
      · rw [if_pos hle, if_pos (hle.trans (hkey hlab))]
      · rw [if_neg hle] at hne; exact absurd rfl hne
    · intro hlab
      rw [c4.depth c hin hlab, d4.depth c hin hlab]
      exact max_le_max le_rfl (sub_le_sub_right (hkey hlab) _)

end Complete

/-! ### The hypotheses can be met -/

example : ∃ cc, LabelContract cc ∧ SquareCells (⟨0, 2, 0, 0, 0, -2⟩ : GeoTransform Rat) ∧
    2 ≤ demoValley.rows ∧ 2 ≤ demoValley.cols ∧ (500 : Rat) ≤ 2000 ∧
    ∀ c z, demoValley.Has c → IsSpillLevel demoValley.rows demoValley.cols demoValley.get c z → demoValley.get c < z →
      0 ≤ demoValley.get c := by
  obtain ⟨cc, h⟩ := exists_labelContract
  refine ⟨cc, h, by unfold SquareCells; norm_num, by decide, by decide, by norm_num, fun c z hc _ _ => ?_⟩
  have key : ∀ c ∈ Raster.cellList 4 5, 0 ≤ demoValley.get c := by decide +kernel
  exact key c (Flow.mem_cellList.2 hc)

set_option synthInstance.maxSize 1000 in
/-- The valley of `Props/Levels.lean`, which 500 mm fill to the level 2.625: with 2000 mm it holds 40 m³ instead of 12, the
level is 4, and one more cell is flooded. -/
example : ((Complete.processWithLevels (·.untopD 0) demoValleyCC (Dem.python exactSub (· * (7/10))) Bluespots.python exactSub
      (exactSafe (1/1000) (14/10000)) ⟨0, 2, 0, 0, 0, -2⟩ (finiteDem demoValley) false (some fun _ => true) (2000 : Rat)
        (1/4)).run 40).run.map (fun r => r.toOption.map fun o => (o.2.levels.map fun f =>
          [Dict.get? f.properties "bspot_id", Dict.get? f.properties "v", Dict.get? f.properties "approx_z"],
          o.2.depths.map (·.toRows), o.2.extent.map (·.toRows))) =
    some (some ([[some (.int 0), some (.num 0), some (.num 4)], [some (.int 1), some (.num 40), some (.num 4)]],
      some [[0,0,0,0,0],[0,1,2,3,0],[0,2,0,2,0],[0,0,0,0,0]],
      some [[0,0,0,0,0],[0,1,1,1,0],[0,1,0,1,0],[0,0,0,0,0]])) := by
  decide +kernel

end Malstroem
