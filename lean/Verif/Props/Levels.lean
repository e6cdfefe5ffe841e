/-
Property C67: the `complete` command up to water levels and flooded extents.
-/
import Verif.Props.Complete
import Verif.Props.Approx

set_option linter.unusedSectionVars false

namespace Malstroem
open Spec

variable {K : Type} [Field K] [LinearOrder K] [IsStrictOrderedRing K] [FloorRing K]

theorem cellArea_nonneg {gt : GeoTransform K} (h : gt.t1 ≠ 0 ∧ gt.t5 ≠ 0) : 0 ≤ cellArea gt :=
  (mul_pos (abs_pos.2 h.1) (abs_pos.2 h.2)).le

theorem exists_min_max {zs : List K} (h : zs ≠ []) : ∃ a b, IsMin zs a ∧ IsMax zs b := by
  have hne : zs.toFinset.Nonempty := by
    obtain ⟨x, hx⟩ := List.exists_mem_of_ne_nil zs h
    exact ⟨x, List.mem_toFinset.2 hx⟩
  obtain ⟨a, ha, ha'⟩ := Finset.exists_min_image zs.toFinset id hne
  obtain ⟨b, hb, hb'⟩ := Finset.exists_max_image zs.toFinset id hne
  exact ⟨a, b, ⟨List.mem_toFinset.1 ha, fun z hz => ha' z (List.mem_toFinset.2 hz)⟩,
    ⟨List.mem_toFinset.1 hb, fun z hz => hb' z (List.mem_toFinset.2 hz)⟩⟩

theorem square_nonzero {gt : GeoTransform K} (h : SquareCells gt) : gt.t1 ≠ 0 ∧ gt.t5 ≠ 0 := by
  unfold SquareCells at h
  have h1 : 0 < |gt.t1| := by
    by_contra hc
    have : |gt.t1| = 0 := le_antisymm (not_lt.1 hc) (abs_nonneg _)
    rw [this, mul_zero] at h
    exact absurd h (not_lt.2 (abs_nonneg _))
  refine ⟨abs_pos.1 h1, fun h5 => ?_⟩
  rw [h5, abs_zero, sub_zero, abs_abs] at h
  linarith

/-- The results of BluespotTool on depths below a filled surface that is level on every bluespot are a consistent set of
bluespots with their pour points. -/
theorem scene_of_result {gt : GeoTransform K} {dem depths : Raster K} {fl : Cell → K} {f : Bluespots.StatUnits K → Bool}
    {flowdir : Raster Nat} {choose : List Cell → Cell → Prop} {b : Bluespots.Out K} (hsq : SquareCells gt)
    (hsize : 0 < dem.rows ∧ 0 < dem.cols) (hsh : depths.rows = dem.rows ∧ depths.cols = dem.cols)
    (hdep : ∀ c, dem.Has c → depths.get c = fl c - dem.get c) (hge : ∀ c, dem.Has c → dem.get c ≤ fl c)
    (hflat : ∀ a b, ConnectedIn (fun c => InGrid depths.rows depths.cols c ∧ depths.get c ≠ 0) a b → fl a = fl b)
    (hnn : ∀ c, dem.Has c → dem.get c < fl c → 0 ≤ dem.get c)
    (hres : Bluespots.IsResult gt depths f flowdir choose b) :
    ∃ zmin zmax spill : Nat → K, IsLevelScene b.labeled dem gt gt (b.pourpoints.map (·.feature))
        ((List.range (b.nlabels + 1)).map fun (i : Nat) => (i : Int)) b.nlabels
        (fun l => (Raster.cellList dem.rows dem.cols).filter fun c => b.labeled.get c = l) zmin zmax spill ∧
      ∀ c, dem.Has c → ∀ l : Nat, 1 ≤ l → b.labeled.get c = l → l ≤ b.nlabels ∧ fl c = spill l ∧ dem.get c < fl c := by
  have hgrid : ∀ c, dem.Has c ↔ InGrid depths.rows depths.cols c := by
    intro c; rw [hsh.1, hsh.2]
  have hlab := hres.labelling
  have hwet : ∀ c, dem.Has c → b.labeled.get c ≠ 0 → depths.get c ≠ 0 ∧ dem.get c < fl c := by
    intro c hc h0
    have h1 : depths.get c ≠ 0 := by
      by_contra h
      exact h0 ((hlab.background c ((hgrid c).1 hc)).2 fun hw => hw.1 h)
    refine ⟨h1, lt_of_le_of_ne (hge c hc) fun e => h1 ?_⟩
    rw [hdep c hc, ← e, sub_self]
  have hstats : ∀ l : Nat, ∃ a m s : K, 1 ≤ l → l ≤ b.nlabels →
      (IsMin (((Raster.cellList dem.rows dem.cols).filter fun c => b.labeled.get c = l).map dem.get) a ∧
        IsMax (((Raster.cellList dem.rows dem.cols).filter fun c => b.labeled.get c = l).map dem.get) m) ∧
      ∀ c, dem.Has c → b.labeled.get c = l → fl c = s := by
    intro l
    by_cases hl : 1 ≤ l ∧ l ≤ b.nlabels
    · obtain ⟨c, hc, hcl⟩ := hlab.used l hl.1 hl.2
      have hc' := (hgrid c).2 hc
      obtain ⟨a, m, hm⟩ := exists_min_max (zs := (((Raster.cellList dem.rows dem.cols).filter fun c =>
        b.labeled.get c = l).map dem.get)) (List.ne_nil_of_mem (List.mem_map_of_mem
          (List.mem_filter.2 ⟨Flow.mem_cellList.2 hc', by simpa using hcl⟩)))
      refine ⟨a, m, fl c, fun _ _ => ⟨hm, fun x hx hxl => ?_⟩⟩
      exact hflat x c ((hres.same x c ((hgrid x).1 hx) hc (by rw [hxl]; omega) (by rw [hcl]; omega)).1
        (by rw [hxl, hcl]))
    · exact ⟨0, 0, 0, fun h1 h2 => absurd ⟨h1, h2⟩ hl⟩
  choose zmin zmax spill hst using hstats
  have hrange := hlab.range
  have hrows : b.labeled.rows = dem.rows ∧ b.labeled.cols = dem.cols :=
    ⟨hres.shape.1.trans hsh.1, hres.shape.2.1.trans hsh.2⟩
  have hspill : ∀ c, dem.Has c → ∀ l : Nat, 1 ≤ l → b.labeled.get c = l →
      l ≤ b.nlabels ∧ fl c = spill l ∧ dem.get c < fl c := by
    intro c hc l hl hcl
    have hln : l ≤ b.nlabels := by
      have := (hrange c ((hgrid c).1 hc)).2
      rw [hcl] at this; omega
    exact ⟨hln, (hst l hl hln).2 c hc hcl, (hwet c hc (by rw [hcl]; omega)).2⟩
  have hcells : ∀ l : Nat, CellsOf dem.rows dem.cols b.labeled.get l
      ((Raster.cellList dem.rows dem.cols).filter fun c => b.labeled.get c = l) := fun l => cellsOf_iff.2 rfl
  have hmem : ∀ (l : Nat) (c : Cell), c ∈ (Raster.cellList dem.rows dem.cols).filter (fun c => b.labeled.get c = l) →
      dem.Has c ∧ b.labeled.get c = l := by
    intro l c hc
    have := List.mem_filter.1 hc
    exact ⟨Flow.mem_cellList.1 this.1, by simpa using this.2⟩
  have hpoint : ∀ (f : Feature K) (l : Nat), (f, (l : Int)) ∈ (b.pourpoints.map (·.feature)).zip
      ((List.range (b.nlabels + 1)).map fun (i : Nat) => (i : Int)) → l ≤ b.nlabels ∧ ∃ p ws, f = p.feature ∧
      IsPourPoint gt depths.get l ((Raster.cellList dem.rows dem.cols).filter fun c => b.labeled.get c = l) ws p := by
    intro f l hf
    obtain ⟨i, hi⟩ := List.mem_iff_getElem?.1 hf
    rw [List.getElem?_zip_eq_some, List.getElem?_map, List.getElem?_map, Option.map_eq_some_iff,
      Option.map_eq_some_iff] at hi
    obtain ⟨⟨p, hp, rfl⟩, j, hj, hjl⟩ := hi
    obtain ⟨hj1, hj2⟩ := List.getElem?_eq_some_iff.1 hj
    rw [List.length_range] at hj1
    rw [List.getElem_range] at hj2
    have hil : i = l := by omega
    subst hil
    have hws := lists_filter depths.rows depths.cols (fun c => b.watersheds.get c = (i : Int))
    have hcs : CellsOf depths.rows depths.cols b.labeled.get i
        ((Raster.cellList dem.rows dem.cols).filter fun c => b.labeled.get c = (i : Int)) := by
      rw [hsh.1, hsh.2]; exact hcells i
    obtain ⟨p', hp', hpp, _⟩ := hres.points i _ _ (by omega) hcs hws
    rw [hp] at hp'; cases hp'
    exact ⟨by omega, p, _, rfl, hpp⟩
  refine ⟨zmin, zmax, spill, ?_, hspill⟩
  refine { shape := hrows, same_size := by simp, size := square_nonzero hsq, top := ?_, nonneg := ?_,
           cells_of := ?_, min := fun l h1 h2 => (hst l h1 h2).1.1, max := fun l h1 h2 => (hst l h1 h2).1.2,
           above_zero := ?_, below_spill := ?_, has_id := ?_, distinct := ?_, all := ?_, bluespot := ?_,
           background := ?_ }
  · refine .inr ⟨.inl rfl, ?_, ?_⟩
    · rcases Nat.eq_zero_or_pos b.nlabels with h0 | h0
      · have hc : InGrid depths.rows depths.cols (0, 0) := by
          rw [hsh.1, hsh.2]
          refine ⟨?_, ?_, ?_, ?_⟩ <;> simp only <;> omega
        refine ⟨(0, 0), by rw [hres.shape.1, hres.shape.2.1]; exact hc, ?_⟩
        have := hrange _ hc
        rw [h0] at this ⊢
        exact_mod_cast le_antisymm this.2 this.1
      · obtain ⟨c, hc, hcl⟩ := hlab.used b.nlabels h0 le_rfl
        exact ⟨c, by rw [hres.shape.1, hres.shape.2.1]; exact hc, hcl⟩
    · rintro _ ⟨c, hc, rfl⟩
      rw [hres.shape.1, hres.shape.2.1] at hc
      exact (hrange c hc).2
  · intro c hc
    rw [hres.shape.1, hres.shape.2.1] at hc
    exact (hrange c hc).1
  · intro l _
    rw [hrows.1, hrows.2]
    exact hcells l
  · intro l h1 h2
    obtain ⟨c, hc, he⟩ := List.mem_map.1 (hst l h1 h2).1.1.1
    obtain ⟨hc, hcl⟩ := hmem l c hc
    rw [← he]
    exact hnn c hc (hspill c hc l h1 hcl).2.2
  · intro l h1 h2
    obtain ⟨c, hc, he⟩ := List.mem_map.1 (hst l h1 h2).1.2.1
    obtain ⟨hc, hcl⟩ := hmem l c hc
    rw [← he, ← (hspill c hc l h1 hcl).2.1]
    exact (hspill c hc l h1 hcl).2.2
  · rw [List.forall₂_map_left_iff, List.forall₂_map_right_iff, List.forall₂_iff_get]
    refine ⟨by rw [hres.length, List.length_range], fun i h1 h2 => ?_⟩
    obtain ⟨p, hp, hi, _⟩ := hres.points i _ _ (by have := hres.length; omega) (lists_filter _ _ _) (lists_filter _ _ _)
    obtain ⟨_, hp⟩ := List.getElem?_eq_some_iff.1 hp
    rw [List.get_eq_getElem, List.get_eq_getElem, hp, List.getElem_range]
    show some (Val.int p.bspot_id) = _
    rw [hi.bspot_id]
  · exact List.nodup_range.map fun a b h => by simpa using h
  · intro i
    simp only [List.mem_map, List.mem_range]
    constructor
    · rintro ⟨j, hj, rfl⟩; omega
    · intro h; exact ⟨i.toNat, by omega, by omega⟩
  · intro f l hl hf
    obtain ⟨hln, p, ws, rfl, hp⟩ := hpoint f l hf
    set cs := (Raster.cellList dem.rows dem.cols).filter fun c => b.labeled.get c = (l : Int) with hcs
    have hd : ∀ c ∈ cs, depths.get c = spill l - dem.get c := by
      intro c hc
      obtain ⟨hc, hcl⟩ := hmem l c hc
      rw [hdep c hc, (hspill c hc l hl hcl).2.1]
    obtain ⟨hmin, hmax⟩ := (hst l hl hln).1
    obtain ⟨c0, hc0, he0⟩ := List.mem_map.1 hmin.1
    have hmx := hp.dmax (List.ne_nil_of_mem hc0)
    have hdm : p.bspot_dmax = ((spill l - zmin l : K) : WithBot K) := by
      refine hmx.unique ⟨⟨c0, hc0, ?_⟩, ?_⟩
      · rw [hd c0 hc0, he0]
      · rintro _ ⟨c, hc, rfl⟩
        rw [hd c hc]
        exact WithBot.coe_le_coe.2 (sub_le_sub_left (hmin.2 _ (List.mem_map_of_mem hc)) _)
    refine ⟨⟨.num (spill l - zmin l), ?_, rfl⟩, ⟨.num p.bspot_vol, rfl, ?_⟩⟩
    · show some (match p.bspot_dmax with | ⊥ => Val.ninf | (x : K) => Val.num x) = _
      rw [hdm]
    · show Except.ok p.bspot_vol = _
      rw [hp.vol]
      unfold waterVolume
      rw [List.map_map, mul_comm, ← List.sum_map_mul_left, List.map_congr_left (fun c hc => ?_)]
      simp only [Function.comp]
      rw [hd c hc, max_eq_right]
      obtain ⟨hc, hcl⟩ := hmem l c hc
      have := hspill c hc l hl hcl
      rw [← this.2.1]
      exact sub_nonneg.2 this.2.2.le
  · intro f hf
    obtain ⟨_, p, ws, rfl, hp⟩ := hpoint f 0 hf
    refine ⟨⟨_, rfl, ?_⟩, p.bspot_vol, ⟨_, rfl, rfl⟩, fun he => ?_⟩
    · cases h : p.bspot_dmax using WithBot.recBotCoe with
      | bot => exact .inl rfl
      | coe x => exact .inr ⟨x, rfl⟩
    · rw [hp.vol]
      have he : (Raster.cellList dem.rows dem.cols).filter (fun c => b.labeled.get c = ((0 : Nat) : Int)) = [] := he
      rw [he]; simp

theorem forall₂_right {α β : Type} {R : α → β → Prop} {l : List α} {m : List β} (h : List.Forall₂ R l m) {b : β}
    (hb : b ∈ m) : ∃ a ∈ l, R a b := by
  induction h with
  | nil => simp at hb
  | cons hab _ ih =>
    rcases List.mem_cons.1 hb with rfl | hb
    · exact ⟨_, by simp, hab⟩
    · obtain ⟨a, ha, h⟩ := ih hb
      exact ⟨a, by simp [ha], h⟩

theorem forall₂_comp {α β γ : Type} {R : α → β → Prop} {S : β → γ → Prop} {l : List α} {m : List β} {n : List γ}
    (h1 : List.Forall₂ R l m) (h2 : List.Forall₂ S m n) : List.Forall₂ (fun a c => ∃ b ∈ m, R a b ∧ S b c) l n := by
  induction h1 generalizing n with
  | nil => cases h2; exact .nil
  | cons h _ ih =>
    cases h2 with
    | cons h' h2 => exact .cons ⟨_, by simp, h, h'⟩ ((ih h2).imp fun _ _ ⟨b, hb, h⟩ => ⟨b, by simp [hb], h⟩)

theorem waterLevel_number {h : Hyps.Stats K} {a : K} {d : WithBot K} {mv fv : K} {z : Val K}
    (e : Approx.waterLevel h a d mv fv = .ok z) : z ≠ .none ∧ ∀ s, z ≠ .str s := by
  unfold Approx.waterLevel at e
  split at e
  · split at e <;> cases e <;> simp
  · split at e
    · dsimp only at e
      generalize Approx.npInterp fv _ _ = r at e
      cases r with
      | error _ => cases e
      | ok x => cases e; simp
    · cases e

theorem mem_mapM {α β : Type} {f : α → Except PyErr β} : ∀ {l : List α} {m : List β}, l.mapM f = .ok m → ∀ y ∈ m,
    ∃ x ∈ l, f x = .ok y
  | [], m, h, y, hy => by rw [List.mapM_nil] at h; cases h; cases hy
  | x :: l, m, h, y, hy => by
    rw [List.mapM_cons] at h
    obtain ⟨a, ha, h⟩ := except_bind_ok h
    obtain ⟨b, hb, h⟩ := except_bind_ok h
    cases h
    rcases List.mem_cons.1 hy with rfl | hy
    · exact ⟨x, by simp, ha⟩
    · obtain ⟨x', hx', h'⟩ := mem_mapM hb y hy
      exact ⟨x', by simp [hx'], h'⟩

theorem levels_numbers {final hyps levels : List (Feature K)} (h : Approx.waterLevelIo final hyps = .ok levels) :
    ∀ g ∈ levels, ∃ z, g.properties.get? "approx_z" = some z ∧ z ≠ .none ∧ ∀ s, z ≠ .str s := by
  intro g hg
  unfold Approx.waterLevelIo at h
  obtain ⟨_, _, h⟩ := except_bind_ok h
  obtain ⟨_, _, h⟩ := except_bind_ok h
  obtain ⟨f, _, h⟩ := mem_mapM h g hg
  unfold Approx.levelFeature at h
  iterate 12 (obtain ⟨_, _, h⟩ := except_bind_ok h)
  obtain ⟨z, hz, h⟩ := except_bind_ok h
  cases h
  refine ⟨z, ?_, waterLevel_number hz⟩
  simp [Dict.get?_set]

/-- Water levels and flooded areas of the final states of a network: `lev` gives the level of each bluespot from the volume
of the water in it, the same for all final states. -/
theorem levels_of_finals {lab : Raster Int} {dem : Raster K} {gt : GeoTransform K} {fps : List (Feature K)}
    {ids : List Int} {n : Nat} {cells : Nat → List Cell} {zmin zmax spill : Nat → K} {res : K} (hres : 0 < res)
    (h : IsLevelScene lab dem gt gt fps ids n cells zmin zmax spill) (hlabels : LabelsIn lab.rows lab.cols lab.get n)
    (hid : ∀ (i : Nat) (p : Feature K), fps[i]? = some p → i ≤ n ∧ p.properties.get? "bspot_id" = some (.int i))
    {R : List Net.Node} {nodes : List (Feature K)} (hR : List.Forall₂ (IsNodeFeature gt fps) R nodes)
    (hperm : ((R.filter fun r => r.nodetype = .pourpoint).map (·.id)).Perm
      ((List.range (n + 1)).map fun (i : Nat) => (i : Int))) :
    ∃ hyps, ∃ lev : Nat → K → K, Hyps.hypsometryIo lab gt dem gt fps res = .ok hyps ∧
      (∀ l, 1 ≤ l → l ≤ n → Monotone (lev l) ∧
        ∀ v, LevelGiven (cellArea gt) res ((cells l).map dem.get) (spill l) v (lev l v)) ∧
      ∀ {final : List (Feature K)}, List.Forall₂ (SameBut ["inputv", "v", "spillv", "pctv"]) nodes final → ∀ {vs : List K},
        List.Forall₂ (fun f x => HasNumber f "v" x) final vs →
      ∃ levels extent depths, ∃ level : Int → K,
        Approx.waterLevelIo final hyps = .ok levels ∧
        Approx.approxBluespotsIo lab levels dem true true 0 = .ok (some depths, some extent) ∧
        (∀ l : Nat, 1 ≤ l → l ≤ n → ∃ f ∈ final, ∃ g ∈ levels, ∃ v,
          f.properties.get? "nodetype" = some (.str "pourpoint") ∧
          f.properties.get? "bspot_id" = some (.int l) ∧ HasNumber f "v" v ∧ level l = lev l v ∧
          IsLevelFeature (.num (level l)) (.num (level l - zmin l)) f g ∧
          IsApproxLevel (cellArea gt) res ((cells l).map dem.get) (zmin l) (zmax l) (spill l) v (level l)) ∧
        IsFlooded lab dem 0 level extent depths ∧
        List.Forall₂ (fun f g => (∃ z dz, IsLevelFeature z dz f g) ∧ ∀ (l : Nat) (v : K), 1 ≤ l →
            f.properties.get? "bspot_id" = some (.int l) →
            HasNumber f "v" v → IsLevelFeature (.num (lev l v)) (.num (lev l v - zmin l)) f g)
          (final.filter fun f => f.properties.get? "nodetype" = some (.str "pourpoint")) levels := by
  obtain ⟨hyps, h1, lev, h2, h3⟩ := levels_run hres h
  refine ⟨hyps, lev, h1, fun l hl hl' => ⟨(h2 l hl hl').mono, (h2 l hl hl').given⟩, fun {final} hsame {vs} hv => ?_⟩
  -- the final features
  have hQ : List.Forall₂ (fun (r : Net.Node) (f : Feature K) =>
      (∃ t, f.properties.get? "nodetype" = some t) ∧ (∃ v, HasNumber f "v" v) ∧
      (r.nodetype = .pourpoint ↔ f.properties.get? "nodetype" = some (.str "pourpoint")) ∧
      (r.nodetype = .pourpoint → ∃ i : Nat, r.id = i ∧ i ≤ n ∧ f.properties.get? "bspot_id" = some (.int i))) R final := by
    have hv' : ∀ f ∈ final, ∃ v, HasNumber f "v" v := by
      intro f hf
      obtain ⟨i, hi⟩ := List.mem_iff_getElem?.1 hf
      obtain ⟨v, _, h⟩ := forall₂_get hv hi
      exact ⟨v, h⟩
    have heq : List.Forall₂ Eq final final := List.forall₂_same.2 fun _ _ => rfl
    refine (forall₂_comp (forall₂_comp hR hsame) heq).imp fun r f ⟨f', h3, ⟨nf, _, h1, h2⟩, h4⟩ => ?_
    subst h4
    have hty : f'.properties.get? "nodetype" = nf.properties.get? "nodetype" := h2.others _ (by decide)
    have hbs : f'.properties.get? "bspot_id" = nf.properties.get? "bspot_id" := h2.others _ (by decide)
    rw [hty, hbs]
    refine ⟨?_, hv' _ h3, ?_, fun hp => ?_⟩
    · cases hn : r.nodetype with
      | pourpoint => exact ⟨_, (h1.pourpoint hn).1⟩
      | junction => exact ⟨_, (h1.junction hn).1⟩
    · refine ⟨fun hp => (h1.pourpoint hp).1, fun hp => ?_⟩
      cases hn : r.nodetype with
      | pourpoint => rfl
      | junction =>
        rw [(h1.junction hn).1] at hp
        simp at hp
    · obtain ⟨_, i, p, e1, e2, e3⟩ := h1.pourpoint hp
      have := hid i p e2
      exact ⟨i, e1, this.1, (e3 _ (by decide)).trans this.2⟩
  have hfinal : IsFinalVolumes n final := by
    constructor
    · intro f hf
      obtain ⟨r, _, h1, _⟩ := forall₂_right hQ hf
      exact h1
    · intro f hf ht
      obtain ⟨r, _, _, ⟨v, hv⟩, h3, h4⟩ := forall₂_right hQ hf
      obtain ⟨i, _, hi, hb⟩ := h4 (h3.2 ht)
      exact ⟨i, v, hi, hb, hv⟩
  obtain ⟨levels, h4, h5⟩ := h3 final hfinal
  have hT := forall₂_comp (List.rel_filter (p := fun r : Net.Node => r.nodetype = .pourpoint)
    (q := fun f : Feature K => f.properties.get? "nodetype" = some (.str "pourpoint"))
    (fun r f hq => by simpa using hq.2.2.1) hQ) h5
  have hT' : List.Forall₂ (fun (r : Net.Node) (g : Feature K) => ∃ (i : Nat) (z : Val K), r.id = i ∧
      g.properties.get? "nodetype" = some (.str "pourpoint") ∧
      g.properties.get? "bspot_id" = some (.int i) ∧ g.properties.get? "approx_z" = some z ∧
      (1 ≤ i → ∃ f ∈ final, ∃ v, i ≤ n ∧ f.properties.get? "nodetype" = some (.str "pourpoint") ∧
        f.properties.get? "bspot_id" = some (.int i) ∧ HasNumber f "v" v ∧ z = .num (lev i v) ∧
        IsLevelFeature (.num (lev i v)) (.num (lev i v - zmin i)) f g))
      (R.filter fun r => r.nodetype = .pourpoint) levels := by
    refine hT.imp fun r g ⟨f, hf, ⟨_, ⟨v, hv⟩, q1, q2⟩, ⟨z, dz, hg⟩, hl⟩ => ?_
    obtain ⟨hf, hp⟩ := List.mem_filter.1 hf
    have hp : f.properties.get? "nodetype" = some (.str "pourpoint") := by simpa using hp
    obtain ⟨i, e1, e2, e3⟩ := q2 (q1.2 hp)
    refine ⟨i, z, e1, (hg.others _ (by decide) (by decide)).trans hp, (hg.others _ (by decide) (by decide)).trans e3,
      hg.level, fun h1 => ⟨f, hf, v, e2, hp, e3, hv, ?_, hl i v h1 e3 hv⟩⟩
    have := (hl i v h1 e3 hv).level
    rw [hg.level] at this
    exact Option.some.inj this
  obtain ⟨kvs, k1, k2⟩ : ∃ kvs : Dict Int (Val K), List.Forall₂ (fun f (kv : Int × Val K) =>
      f.properties.get? "bspot_id" = some (.int kv.1) ∧ f.properties.get? "approx_z" = some kv.2) levels kvs ∧
      kvs.map (·.1) = (R.filter fun r => r.nodetype = .pourpoint).map (·.id) := by
    clear hT h5 h4 hv
    generalize (R.filter fun r => decide (r.nodetype = .pourpoint)) = R' at hT'
    clear hperm
    induction hT' with
    | nil => exact ⟨[], .nil, rfl⟩
    | cons hh _ ih =>
      obtain ⟨kvs, k1, k2⟩ := ih
      obtain ⟨i, z, e1, _, e2, e3, _⟩ := hh
      exact ⟨(i, z) :: kvs, .cons ⟨e2, e3⟩ k1, by rw [List.map_cons, List.map_cons, k2, e1]⟩
  have hkeys : ∀ i : Int, i ∈ kvs.map (·.1) ↔ 0 ≤ i ∧ i ≤ n := by
    intro i
    rw [k2, hperm.mem_iff, List.mem_map]
    constructor
    · rintro ⟨j, hj, rfl⟩
      have := List.mem_range.1 hj
      omega
    · intro hi
      exact ⟨i.toNat, List.mem_range.2 (by omega), by omega⟩
  have hnd : (kvs.map (·.1)).Nodup := by
    rw [k2, hperm.nodup_iff]
    exact List.nodup_range.map fun a b h => by simpa using h
  have hfeat : ∀ kv ∈ kvs, 1 ≤ kv.1 → ∃ (i : Nat), kv.1 = i ∧ ∃ f ∈ final, ∃ g ∈ levels, ∃ v, i ≤ n ∧
      f.properties.get? "nodetype" = some (.str "pourpoint") ∧ f.properties.get? "bspot_id" = some (.int i) ∧ HasNumber f "v" v ∧ kv.2 = .num (lev i v) ∧
      IsLevelFeature (.num (lev i v)) (.num (lev i v - zmin i)) f g := by
    intro kv hkv h1
    obtain ⟨g, hg, e1, e2⟩ := forall₂_right k1 hkv
    obtain ⟨r, _, i, z, d1, _, d2, d3, d4⟩ := forall₂_right hT' hg
    rw [d2] at e1
    have e1 : (i : Int) = kv.1 := by simpa using e1
    obtain ⟨f, hf, v, c0, c5, c1, c2, c3, c4⟩ := d4 (by omega)
    rw [d3] at e2
    exact ⟨i, e1.symm, f, hf, g, hg, v, c0, c5, c1, c2, (Option.some.inj e2).symm.trans c3, c4⟩
  have hallpp : levels.filter (fun f => f.properties.get? "nodetype" = some (.str "pourpoint")) = levels := by
    rw [List.filter_eq_self]
    intro g hg
    obtain ⟨r, _, i, z, _, d, _⟩ := forall₂_right hT' hg
    simpa using d
  obtain ⟨extent, depths, h6, h7⟩ := C46_flooded_io (lab := lab) (dem := dem) (features := levels) (background := 0) (m := n)
    (kvs := kvs) (level := fun i => match kvs.get? i with | some (.num z) => z | _ => 0) (want_depths := true)
    (want_labels := true) (.inl rfl) (fun g hg => by
      obtain ⟨r, _, i, z, _, d, _⟩ := forall₂_right hT' hg
      exact ⟨_, d⟩) (by rw [hallpp]; exact k1) hnd (fun kv hkv => by
      obtain ⟨g, hg, _, e⟩ := forall₂_right k1 hkv
      obtain ⟨z, e', hz⟩ := levels_numbers h4 g hg
      rw [e] at e'
      cases e'
      exact hz) (fun kv hkv hne => by
      obtain ⟨i, _, f, _, g, _, v, _, _, _, _, e, _⟩ := hfeat kv hkv (by
        have := (hkeys kv.1).1 (List.mem_map_of_mem hkv); omega)
      have hget := Dict.get?_of_mem hnd (k := kv.1) (v := kv.2) hkv
      simp only [hget, e]
      rfl) ⟨(hkeys n).2 (by omega), fun k hk => ((hkeys k).1 hk).2, fun l hl _ => by
        cases hg : kvs.get? (l : Int) with
        | some z => exact ⟨z, rfl⟩
        | none => exact absurd ((hkeys l).2 (by omega)) (Dict.get?_eq_none.1 hg)⟩ hlabels
  refine ⟨levels, extent, depths, _, h4, h6, fun l hl1 hl2 => ?_, h7, h5⟩
  obtain ⟨kv, hkv, hl⟩ := List.mem_map.1 ((hkeys l).2 (by omega))
  obtain ⟨i, e, f, hf, g, hg, v, c0, c5, c1, c2, c3, c4⟩ := hfeat kv hkv (by omega)
  have hil : i = l := by omega
  subst hil
  have hget := Dict.get?_of_mem hnd (k := kv.1) (v := kv.2) hkv
  rw [e] at hget
  simp only [hget, c3]
  have G := h2 i hl1 hl2
  exact ⟨f, hf, g, hg, v, c5, c1, c2, rfl, c4, ⟨G.bounds v, G.empty v, G.full v, G.below v, G.close v,
    fun L => G.near hres (cellArea_nonneg h.size)⟩⟩

/-- Water levels and flooded areas of the final state of a network. -/
theorem levels_of_final {lab : Raster Int} {dem : Raster K} {gt : GeoTransform K} {fps : List (Feature K)}
    {ids : List Int} {n : Nat} {cells : Nat → List Cell} {zmin zmax spill : Nat → K} {res : K} (hres : 0 < res)
    (h : IsLevelScene lab dem gt gt fps ids n cells zmin zmax spill) (hlabels : LabelsIn lab.rows lab.cols lab.get n)
    (hid : ∀ (i : Nat) (p : Feature K), fps[i]? = some p → i ≤ n ∧ p.properties.get? "bspot_id" = some (.int i))
    {R : List Net.Node} {nodes final : List (Feature K)} (hR : List.Forall₂ (IsNodeFeature gt fps) R nodes)
    (hperm : ((R.filter fun r => r.nodetype = .pourpoint).map (·.id)).Perm
      ((List.range (n + 1)).map fun (i : Nat) => (i : Int)))
    (hsame : List.Forall₂ (SameBut ["inputv", "v", "spillv", "pctv"]) nodes final) {vs : List K}
    (hv : List.Forall₂ (fun f x => HasNumber f "v" x) final vs) :
    ∃ hyps levels extent depths, ∃ level : Int → K, Hyps.hypsometryIo lab gt dem gt fps res = .ok hyps ∧
      Approx.waterLevelIo final hyps = .ok levels ∧
      Approx.approxBluespotsIo lab levels dem true true 0 = .ok (some depths, some extent) ∧
      (∀ l : Nat, 1 ≤ l → l ≤ n → ∃ f ∈ final, ∃ g ∈ levels, ∃ v,
        f.properties.get? "bspot_id" = some (.int l) ∧ HasNumber f "v" v ∧
        IsLevelFeature (.num (level l)) (.num (level l - zmin l)) f g ∧
        IsApproxLevel (cellArea gt) res ((cells l).map dem.get) (zmin l) (zmax l) (spill l) v (level l)) ∧
      IsFlooded lab dem 0 level extent depths := by
  obtain ⟨hyps, lev, h1, _, h2⟩ := levels_of_finals hres h hlabels hid hR hperm
  obtain ⟨levels, extent, depths, level, h3, h4, h5, h6, _⟩ := h2 hsame hv
  refine ⟨hyps, levels, extent, depths, level, h1, h3, h4, fun l hl hl' => ?_, h6⟩
  obtain ⟨f, hf, g, hg, v, _, c1, c2, _, c3, c4⟩ := h5 l hl hl'
  exact ⟨f, hf, g, hg, v, c1, c2, c3, c4⟩

omit [FloorRing K] in
theorem spill_of_finite {dem : Raster K} {c : Cell} {z : WithTop K}
    (h : IsSpillLevel dem.rows dem.cols (finiteDem dem).get c z) :
    IsSpillLevel dem.rows dem.cols dem.get c (z.untopD 0) := by
  have hhigh : ∀ p x, IsHighest dem.get p x → IsHighest (finiteDem dem).get p (x : WithTop K) := by
    rintro p x ⟨⟨y, hy, hyx⟩, hub⟩
    refine ⟨⟨y, hy, congrArg _ hyx⟩, ?_⟩
    rintro _ ⟨w, hw, rfl⟩
    exact WithTop.coe_le_coe.2 (hub ⟨w, hw, rfl⟩)
  obtain ⟨⟨p, hp, ⟨y, hy, hyz⟩, hub⟩, hlb⟩ := h
  subst hyz
  refine ⟨⟨p, hp, ⟨y, hy, rfl⟩, ?_⟩, ?_⟩
  · rintro _ ⟨w, hw, rfl⟩
    exact WithTop.coe_le_coe.1 (hub ⟨w, hw, rfl⟩)
  · rintro x ⟨q, hq, hx⟩
    exact WithTop.coe_le_coe.1 (hlb ⟨q, hq, hhigh q x hx⟩)

theorem isSpillLevel_unique {dem : Raster K} {c : Cell} {x y : K} (hx : IsSpillLevel dem.rows dem.cols dem.get c x)
    (hy : IsSpillLevel dem.rows dem.cols dem.get c y) : x = y := IsLeast.unique hx hy

theorem hasNumber_unique {K : Type} [Field K] {f : Feature K} {key : String} {x y : K} (h1 : HasNumber f key x)
    (h2 : HasNumber f key y) : x = y := by
  obtain ⟨v, e1, e2⟩ := h1
  obtain ⟨w, e3, e4⟩ := h2
  rw [e1] at e3; cases e3
  rw [e2] at e4; cases e4; rfl

/-- A pour point of the final state carries the attributes of the pour point with its bluespot id. -/
theorem final_pourpoint {gt : GeoTransform K} {fps : List (Feature K)} {n : Nat} {R : List Net.Node}
    {nodes final : List (Feature K)} (hR : List.Forall₂ (IsNodeFeature gt fps) R nodes)
    (hsame : List.Forall₂ (SameBut ["inputv", "v", "spillv", "pctv"]) nodes final)
    (hid : ∀ (i : Nat) (p : Feature K), fps[i]? = some p → i ≤ n ∧ p.properties.get? "bspot_id" = some (.int i))
    {f : Feature K} (hf : f ∈ final) (ht : f.properties.get? "nodetype" = some (.str "pourpoint")) {l : Nat}
    (hl : f.properties.get? "bspot_id" = some (.int l)) :
    ∃ p, fps[l]? = some p ∧ (∀ k ∈ copied, f.properties.get? k = p.properties.get? k) ∧
      f.properties.get? "nodeid" = some (.int l) := by
  obtain ⟨nf, hnf, h2⟩ := forall₂_right hsame hf
  obtain ⟨r, _, h1⟩ := forall₂_right hR hnf
  have hty : f.properties.get? "nodetype" = nf.properties.get? "nodetype" := h2.others _ (by decide)
  have hbs : f.properties.get? "bspot_id" = nf.properties.get? "bspot_id" := h2.others _ (by decide)
  have hp : r.nodetype = .pourpoint := by
    cases hn : r.nodetype with
    | pourpoint => rfl
    | junction =>
      rw [hty, (h1.junction hn).1] at ht
      simp at ht
  obtain ⟨_, i, p, e1, e2, e3⟩ := h1.pourpoint hp
  have hb : f.properties.get? "bspot_id" = some (.int i) := hbs.trans ((e3 _ (by decide)).trans (hid i p e2).2)
  rw [hl] at hb
  have hil : l = i := by simpa using hb
  subst hil
  have hne : ∀ k ∈ copied, k ∉ ["inputv", "v", "spillv", "pctv"] := by decide
  exact ⟨p, e2, fun k hk => (h2.others k (hne k hk)).trans (e3 k hk), by rw [h2.others _ (by decide), h1.nodeid, e1]⟩

/-- Node ids are distinct in the final state. -/
theorem final_nodeid {gt : GeoTransform K} {fps : List (Feature K)} {R : List Net.Node}
    {nodes final : List (Feature K)} (hR : List.Forall₂ (IsNodeFeature gt fps) R nodes)
    (hsame : List.Forall₂ (SameBut ["inputv", "v", "spillv", "pctv"]) nodes final) (hnd : (R.map (·.id)).Nodup)
    {f f' : Feature K} (hf : f ∈ final) (hf' : f' ∈ final) {l : Int} (h : f.properties.get? "nodeid" = some (.int l))
    (h' : f'.properties.get? "nodeid" = some (.int l)) : f = f' := by
  obtain ⟨i, hi⟩ := List.mem_iff_getElem?.1 hf
  obtain ⟨j, hj⟩ := List.mem_iff_getElem?.1 hf'
  obtain ⟨n, hn, s⟩ := forall₂_get hsame.flip hi
  obtain ⟨n', hn', s'⟩ := forall₂_get hsame.flip hj
  obtain ⟨r, hr, t⟩ := forall₂_get hR.flip hn
  obtain ⟨r', hr', t'⟩ := forall₂_get hR.flip hn'
  rw [s.others _ (by decide), t.nodeid] at h
  rw [s'.others _ (by decide), t'.nodeid] at h'
  have e : r.id = r'.id := by
    have := h.trans h'.symm
    simpa using this
  obtain ⟨i1, hr⟩ := List.getElem?_eq_some_iff.1 hr
  obtain ⟨j1, hr'⟩ := List.getElem?_eq_some_iff.1 hr'
  have hij : i = j := (List.Nodup.getElem_inj_iff hnd (hi := by simpa using i1) (hj := by simpa using j1)).1 (by
    rw [List.getElem_map, List.getElem_map, hr, hr', e])
  subst hij
  rw [hi] at hj
  cases hj
  rfl

/-- C67 with the volumes of the full bluespots, the rule that gives the levels and the final state by node. -/
theorem complete_levels_rule {cc : Raster Bool → Raster Int × Nat} (hcc : LabelContract cc) {gt : GeoTransform K}
    (hsq : SquareCells gt) (dem : Raster K) (hr : 2 ≤ dem.rows) (hc : 2 ≤ dem.cols) {short diag k : K} (hs : 0 < short)
    (hd : 0 < diag) (hk : 0 < k) (want : Bool) (f : Bluespots.StatUnits K → Bool) (mm : K) {res : K} (hres : 0 < res)
    (hnn : ∀ c z, dem.Has c → IsSpillLevel dem.rows dem.cols dem.get c z → dem.get c < z → 0 ≤ dem.get c) :
    ∃ out lv depths extent, (Complete.processWithLevels (·.untopD 0) cc (Dem.python exactSub (· * k)) Bluespots.python
        exactSub (exactSafe short diag) gt (finiteDem dem) want (some f) mm res).Yields (.ok (out, lv)) ∧
      (Complete.processAll cc (Dem.python exactSub (· * k)) Bluespots.python
        exactSub (exactSafe short diag) gt (finiteDem dem) want (some f) mm).Yields (.ok out) ∧
      (∀ c, dem.Has c → IsSpillLevel dem.rows dem.cols dem.get c ((out.dem.filled.get c).untopD 0)) ∧
      LabelsIn dem.rows dem.cols out.bluespots.labeled.get out.bluespots.nlabels ∧
      lv.depths = some depths ∧ lv.extent = some extent ∧
      (∃ vs ss, List.Forall₂ (fun f x => HasNumber f "v" x) out.final vs ∧
        List.Forall₂ (fun f x => HasNumber f "spillv" x) (out.final.filter fun f => IsRoot f) ss ∧
        mm / 1000 * ((dem.rows * dem.cols : Nat) * cellArea gt) = vs.sum + ss.sum) ∧
      ∃ level : Int → K,
        (∀ (l : Nat) (cs : List Cell), 1 ≤ l → l ≤ out.bluespots.nlabels →
          CellsOf dem.rows dem.cols out.bluespots.labeled.get l cs →
          ∃ zmin zmax spill, IsMin (cs.map dem.get) zmin ∧ IsMax (cs.map dem.get) zmax ∧
            (∀ c ∈ cs, IsSpillLevel dem.rows dem.cols dem.get c spill) ∧
            ∃ f ∈ out.final, ∃ g ∈ lv.levels, ∃ v, f.properties.get? "nodetype" = some (.str "pourpoint") ∧
              HasNumber f "bspot_vol" (waterVolume (cellArea gt) (cs.map dem.get) spill) ∧
              (0 ≤ mm → 0 ≤ v ∧ v ≤ waterVolume (cellArea gt) (cs.map dem.get) spill) ∧
              f.properties.get? "bspot_id" = some (.int l) ∧ HasNumber f "v" v ∧
              IsLevelFeature (.num (level l)) (.num (level l - zmin)) f g ∧
              IsApproxLevel (cellArea gt) res (cs.map dem.get) zmin zmax spill v (level l) ∧
              LevelGiven (cellArea gt) res (cs.map dem.get) spill v (level l) ∧
              f.properties.get? "nodeid" = some (.int l) ∧
              ∀ f' ∈ out.final, f'.properties.get? "nodeid" = some (.int l) → f' = f) ∧
        IsFlooded out.bluespots.labeled dem 0 level extent depths ∧
        (∀ c z, dem.Has c → out.bluespots.labeled.get c ≠ 0 → IsSpillLevel dem.rows dem.cols dem.get c z →
          depths.get c ≤ z - dem.get c) ∧
        out.bluespots.labeled.rows = dem.rows ∧ out.bluespots.labeled.cols = dem.cols := by
  have h := exact_sound dem hr hc hs hd hk
  obtain ⟨d, hd, _, hdsh, hfsh, hcells, _, ⟨z, _, hdown⟩, hacc, hno⟩ := C62_dem_outputs h want
  obtain ⟨_, hfill, _, hnf, hfd, _, _⟩ := Dem.process_inv hd
  have hfill : Returns (Fill.fillTerrain (finiteDem dem)) (.ok d.filled) := hfill
  have hnf : Returns (Fill.fillTerrainNoFlats _ _ (finiteDem dem)) (.ok d.noFlats) := hnf
  obtain ⟨hnsh, hfin, _⟩ := noFlats_finite h hnf
  obtain ⟨out, h1, rfl, h2, _, hbal, hcap, ⟨choose, hb⟩, ⟨R, hR, hperm, _, hnd⟩, hsame⟩ :=
    chain_conserves (demEngine := Dem.python exactSub (· * k)) (bluespotEngine := Bluespots.python)
    (.inl rfl) rfl hcc hsq ⟨by have := h.rows; omega, by have := h.cols; omega⟩ want f mm hd hdsh hfsh
    (fun c hc => (hcells c hc).2.2.1) hdown hnsh hfin h.drop_pos h.scale_pos (fun hw => by
      obtain ⟨a, h1, h2⟩ := hacc hw
      exact ⟨a, a, h1, h2, rfl, rfl, fun _ _ => rfl⟩) hno
  -- the filled terrain
  have hspill : ∀ c, dem.Has c → IsSpillLevel dem.rows dem.cols dem.get c ((out.dem.filled.get c).untopD 0) :=
    fun c hc => spill_of_finite (hcells c hc).1
  have hdep : ∀ c, dem.Has c → out.dem.depths.get c = (out.dem.filled.get c).untopD 0 - dem.get c :=
    fun c hc => (hcells c hc).2.1
  have hflat : ∀ a b, ConnectedIn (fun c => InGrid out.dem.depths.rows out.dem.depths.cols c ∧ out.dem.depths.get c ≠ 0) a b →
      (out.dem.filled.get a).untopD 0 = (out.dem.filled.get b).untopD 0 := by
    intro a b hab
    have key := (C12_depths (γ := Int) (fun x y : WithTop K => if y < x then 1 else if x = y then 0 else -1)
      (fun x y hxy => by
        rcases hxy.lt_or_eq with e | e
        · simp [e]
        · simp [e])
      (fun x y => by
        rcases lt_trichotomy x y with e | e | e
        · simp [e.ne, not_lt.2 e.le]
        · simp [e]
        · simp [e, e.ne']) (finiteDem dem) out.dem.filled hfill).2.2 a b (hab.mono fun c hc => by
          have hc' : dem.Has c := by have := hc.1; rw [hdsh.1, hdsh.2] at this; exact this
          refine ⟨hc', ?_⟩
          have hlt := (hcells c hc').2.2.2.1 (lt_of_le_of_ne (hcells c hc').2.2.1 (Ne.symm hc.2))
          show 0 < (if (finiteDem dem).get c < out.dem.filled.get c then (1 : Int) else _)
          rw [if_pos hlt]; decide)
    rw [key]
  have hge : ∀ c, dem.Has c → dem.get c ≤ (out.dem.filled.get c).untopD 0 := fun c hc => by
    have := (hcells c hc).2.2.1
    rw [hdep c hc] at this
    linarith
  obtain ⟨zmin, zmax, spill, hscene, hcell⟩ := scene_of_result (fl := fun c => (out.dem.filled.get c).untopD 0) hsq
    ⟨by omega, by omega⟩ hdsh hdep hge hflat (fun c hc hlt => hnn c _ hc (hspill c hc) hlt) hb
  have hrows : out.bluespots.labeled.rows = dem.rows ∧ out.bluespots.labeled.cols = dem.cols :=
    ⟨hb.shape.1.trans hdsh.1, hb.shape.2.1.trans hdsh.2⟩
  obtain ⟨vs, ss, hvs, hss, hsum⟩ := hbal
  have hids : ∀ (i : Nat) (p : Feature K), (out.bluespots.pourpoints.map (·.feature))[i]? = some p →
      i ≤ out.bluespots.nlabels ∧ p.properties.get? "bspot_id" = some (.int i) := fun i p hp => by
      rw [List.getElem?_map, Option.map_eq_some_iff] at hp
      obtain ⟨p, hp, rfl⟩ := hp
      have hlt := (List.getElem?_eq_some_iff.1 hp).1
      obtain ⟨p', hp', hi, _⟩ := hb.points i _ _ (by have := hb.length; omega) (lists_filter _ _ _) (lists_filter _ _ _)
      rw [hp] at hp'; cases hp'
      refine ⟨by have := hb.length; omega, ?_⟩
      show some (Val.int p.bspot_id) = _
      rw [hi.bspot_id]
  obtain ⟨hyps, lev, e1, hlev, hlevels⟩ := levels_of_finals hres hscene (by
      intro c hc
      rw [hb.shape.1, hb.shape.2.1] at hc
      exact hb.labelling.range c hc) hids hR (by
      have := hperm.map (·.1)
      rw [List.map_map, List.map_map] at this
      have e : (((out.bluespots.pourpoints.map fun p => (p.cell_row, p.cell_col)).zipIdx.map
          ((fun x : Int × Cell => x.1) ∘ fun x : Cell × Nat => ((x.2 : Int), x.1)))) =
          (List.range (out.bluespots.nlabels + 1)).map fun (i : Nat) => (i : Int) := by
        rw [← hb.length]
        have hz : ((out.bluespots.pourpoints.map fun p => (p.cell_row, p.cell_col)).zipIdx.map Prod.snd) =
            List.range out.bluespots.pourpoints.length := by
          rw [List.zipIdx_map_snd, List.length_map, List.range_eq_range']
        rw [← hz, List.map_map]; rfl
      rw [e] at this
      exact this)
  obtain ⟨levels, extent, depths, level, e2, e3, e4', e5, _⟩ := hlevels hsame hvs
  have e4 : ∀ l : Nat, 1 ≤ l → l ≤ out.bluespots.nlabels → ∃ f ∈ out.final, ∃ g ∈ levels, ∃ v,
      f.properties.get? "nodetype" = some (.str "pourpoint") ∧
      HasNumber f "bspot_vol" (waterVolume (cellArea gt) (((Raster.cellList dem.rows dem.cols).filter fun c =>
        out.bluespots.labeled.get c = l).map dem.get) (spill l)) ∧
      (0 ≤ mm → 0 ≤ v ∧ v ≤ waterVolume (cellArea gt) (((Raster.cellList dem.rows dem.cols).filter fun c =>
        out.bluespots.labeled.get c = l).map dem.get) (spill l)) ∧
      f.properties.get? "bspot_id" = some (.int l) ∧ HasNumber f "v" v ∧
      IsLevelFeature (.num (level l)) (.num (level l - zmin l)) f g ∧
      IsApproxLevel (cellArea gt) res (((Raster.cellList dem.rows dem.cols).filter fun c =>
        out.bluespots.labeled.get c = l).map dem.get) (zmin l) (zmax l) (spill l) v (level l) ∧
      LevelGiven (cellArea gt) res (((Raster.cellList dem.rows dem.cols).filter fun c =>
        out.bluespots.labeled.get c = l).map dem.get) (spill l) v (level l) ∧
      f.properties.get? "nodeid" = some (.int l) ∧
      ∀ f' ∈ out.final, f'.properties.get? "nodeid" = some (.int l) → f' = f := by
    intro l hl1 hl2
    obtain ⟨f, hf, g, hg, v, c1, c2, c3, c6, c4, c5⟩ := e4' l hl1 hl2
    obtain ⟨p, hp, hpf, hnid⟩ := final_pourpoint hR hsame hids hf c1 c2
    have hvol : HasNumber f "bspot_vol" (waterVolume (cellArea gt) (((Raster.cellList dem.rows dem.cols).filter fun c =>
        out.bluespots.labeled.get c = l).map dem.get) (spill l)) := by
      obtain ⟨x, hx, hx'⟩ := (hscene.bluespot p l hl1 (by
        refine List.mem_iff_getElem?.2 ⟨l, ?_⟩
        rw [List.getElem?_zip_eq_some]
        refine ⟨hp, ?_⟩
        rw [List.getElem?_map, List.getElem?_range (by omega)]
        rfl)).2
      exact ⟨x, (hpf _ (by decide)).trans hx, hx'⟩
    refine ⟨f, hf, g, hg, v, c1, hvol, fun hmm => ?_, c2, c3, c4, c5, c6 ▸ (hlev l hl1 hl2).2 v, hnid, fun f' hf' hn' =>
      final_nodeid hR hsame hnd hf' hf hn' hnid⟩
    obtain ⟨v', _, cap, g1, _, g2, g3, g4, _⟩ := hcap hmm f hf
    rw [hasNumber_unique c3 g1, hasNumber_unique hvol g2]
    exact ⟨g3, g4⟩
  refine ⟨out, ⟨hyps, levels, some depths, some extent⟩, depths, extent, ?_, h1, hspill, fun c hc => hb.labelling.range c (by rw [hdsh.1, hdsh.2]; exact hc),
    rfl, rfl, ⟨vs, ss, hvs, hss, hsum⟩, level,
    fun l cs h1 h2 hcs => ⟨zmin l, zmax l, spill l, ?_⟩, e5, fun c z hc hl hz => ?_, hrows⟩
  · unfold Complete.processWithLevels
    refine Run.yields_bind h1 ?_
    refine Run.yields_bind (Run.yields_ofExcept' e1) ?_
    refine Run.yields_bind (Run.yields_ofExcept' e2) ?_
    refine Run.yields_bind (Run.yields_ofExcept' e3) ?_
    exact Run.yields_pure _
  · obtain rfl := cellsOf_iff.1 hcs
    refine ⟨hscene.min l h1 h2, hscene.max l h1 h2, fun c hc => ?_, e4 l h1 h2⟩
    have hc' := (hcs.2 c).1 hc
    have := hspill c hc'.1
    rw [(hcell c hc'.1 l h1 hc'.2).2.1] at this
    exact this
  · rw [e5.depth c (by rw [hrows.1, hrows.2]; exact hc) hl]
    obtain rfl := isSpillLevel_unique hz (hspill c hc)
    refine max_le (sub_nonneg.2 (hge c hc)) (sub_le_sub_right ?_ _)
    have hrange := hb.labelling.range c (by rw [hdsh.1, hdsh.2]; exact hc)
    have hn : ((out.bluespots.labeled.get c).toNat : Int) = out.bluespots.labeled.get c := by omega
    obtain ⟨_, _, _, _, v, _, _, _, _, _, _, e, _⟩ := e4 (out.bluespots.labeled.get c).toNat (by omega) (by omega)
    rw [hn] at e
    rw [(hcell c hc _ (by omega) hn.symm).2.1]
    exact e.bounds.2

/-- C67 with the volumes of the full bluespots. -/
theorem complete_levels {cc : Raster Bool → Raster Int × Nat} (hcc : LabelContract cc) {gt : GeoTransform K}
    (hsq : SquareCells gt) (dem : Raster K) (hr : 2 ≤ dem.rows) (hc : 2 ≤ dem.cols) {short diag k : K} (hs : 0 < short)
    (hd : 0 < diag) (hk : 0 < k) (want : Bool) (f : Bluespots.StatUnits K → Bool) (mm : K) {res : K} (hres : 0 < res)
    (hnn : ∀ c z, dem.Has c → IsSpillLevel dem.rows dem.cols dem.get c z → dem.get c < z → 0 ≤ dem.get c) :
    ∃ out lv depths extent, (Complete.processWithLevels (·.untopD 0) cc (Dem.python exactSub (· * k)) Bluespots.python
        exactSub (exactSafe short diag) gt (finiteDem dem) want (some f) mm res).Yields (.ok (out, lv)) ∧
      lv.depths = some depths ∧ lv.extent = some extent ∧
      (∃ vs ss, List.Forall₂ (fun f x => HasNumber f "v" x) out.final vs ∧
        List.Forall₂ (fun f x => HasNumber f "spillv" x) (out.final.filter fun f => IsRoot f) ss ∧
        mm / 1000 * ((dem.rows * dem.cols : Nat) * cellArea gt) = vs.sum + ss.sum) ∧
      ∃ level : Int → K,
        (∀ (l : Nat) (cs : List Cell), 1 ≤ l → l ≤ out.bluespots.nlabels →
          CellsOf dem.rows dem.cols out.bluespots.labeled.get l cs →
          ∃ zmin zmax spill, IsMin (cs.map dem.get) zmin ∧ IsMax (cs.map dem.get) zmax ∧
            (∀ c ∈ cs, IsSpillLevel dem.rows dem.cols dem.get c spill) ∧
            ∃ f ∈ out.final, ∃ g ∈ lv.levels, ∃ v, f.properties.get? "nodetype" = some (.str "pourpoint") ∧
              HasNumber f "bspot_vol" (waterVolume (cellArea gt) (cs.map dem.get) spill) ∧
              (0 ≤ mm → 0 ≤ v ∧ v ≤ waterVolume (cellArea gt) (cs.map dem.get) spill) ∧
              f.properties.get? "bspot_id" = some (.int l) ∧ HasNumber f "v" v ∧
              IsLevelFeature (.num (level l)) (.num (level l - zmin)) f g ∧
              IsApproxLevel (cellArea gt) res (cs.map dem.get) zmin zmax spill v (level l)) ∧
        IsFlooded out.bluespots.labeled dem 0 level extent depths ∧
        (∀ c z, dem.Has c → out.bluespots.labeled.get c ≠ 0 → IsSpillLevel dem.rows dem.cols dem.get c z →
          depths.get c ≤ z - dem.get c) ∧
        out.bluespots.labeled.rows = dem.rows ∧ out.bluespots.labeled.cols = dem.cols := by
  obtain ⟨out, lv, depths, extent, h1, _, _, _, h2, h3, h4, level, h5, h6⟩ :=
    complete_levels_rule hcc hsq dem hr hc hs hd hk want f mm hres hnn
  refine ⟨out, lv, depths, extent, h1, h2, h3, h4, level, fun l cs hl1 hl2 hcs => ?_, h6⟩
  obtain ⟨zmin, zmax, spill, a1, a2, a3, f, hf, g, hg, v, b1, b2, b3, b4, b5, b6, b7, _⟩ := h5 l cs hl1 hl2 hcs
  exact ⟨zmin, zmax, spill, a1, a2, a3, f, hf, g, hg, v, b1, b2, b3, b4, b5, b6, b7⟩

/-- C67. The whole `complete` command, in exact arithmetic, on every DEM of at least 2x2 square cells in which no cell
below its spill level has a negative elevation. It succeeds. Each bluespot is given one water level: all its cells have
the same spill level, and the water level is related to the volume the network left in the bluespot, its lowest and
highest ground and its spill level as in C45 and C63. The written extent and depths are those of water standing at these
levels; the water is nowhere deeper than in the full bluespot. The rain is balanced as in C56. -/
theorem C67_complete_levels {cc : Raster Bool → Raster Int × Nat} (hcc : LabelContract cc) {gt : GeoTransform K}
    (hsq : SquareCells gt) (dem : Raster K) (hr : 2 ≤ dem.rows) (hc : 2 ≤ dem.cols) {short diag k : K} (hs : 0 < short)
    (hd : 0 < diag) (hk : 0 < k) (want : Bool) (f : Bluespots.StatUnits K → Bool) (mm : K) {res : K} (hres : 0 < res)
    (hnn : ∀ c z, dem.Has c → IsSpillLevel dem.rows dem.cols dem.get c z → dem.get c < z → 0 ≤ dem.get c) :
    ∃ out lv depths extent, (Complete.processWithLevels (·.untopD 0) cc (Dem.python exactSub (· * k)) Bluespots.python
        exactSub (exactSafe short diag) gt (finiteDem dem) want (some f) mm res).Yields (.ok (out, lv)) ∧
      lv.depths = some depths ∧ lv.extent = some extent ∧
      (∃ vs ss, List.Forall₂ (fun f x => HasNumber f "v" x) out.final vs ∧
        List.Forall₂ (fun f x => HasNumber f "spillv" x) (out.final.filter fun f => IsRoot f) ss ∧
        mm / 1000 * ((dem.rows * dem.cols : Nat) * cellArea gt) = vs.sum + ss.sum) ∧
      ∃ level : Int → K,
        (∀ (l : Nat) (cs : List Cell), 1 ≤ l → l ≤ out.bluespots.nlabels →
          CellsOf dem.rows dem.cols out.bluespots.labeled.get l cs →
          ∃ zmin zmax spill, IsMin (cs.map dem.get) zmin ∧ IsMax (cs.map dem.get) zmax ∧
            (∀ c ∈ cs, IsSpillLevel dem.rows dem.cols dem.get c spill) ∧
            ∃ f ∈ out.final, ∃ g ∈ lv.levels, ∃ v, f.properties.get? "bspot_id" = some (.int l) ∧ HasNumber f "v" v ∧
              IsLevelFeature (.num (level l)) (.num (level l - zmin)) f g ∧
              IsApproxLevel (cellArea gt) res (cs.map dem.get) zmin zmax spill v (level l)) ∧
        IsFlooded out.bluespots.labeled dem 0 level extent depths ∧
        ∀ c z, dem.Has c → out.bluespots.labeled.get c ≠ 0 → IsSpillLevel dem.rows dem.cols dem.get c z →
          depths.get c ≤ z - dem.get c := by
  obtain ⟨out, lv, depths, extent, h1, h2, h3, h4, level, h5, h6, h7, _⟩ :=
    complete_levels hcc hsq dem hr hc hs hd hk want f mm hres hnn
  refine ⟨out, lv, depths, extent, h1, h2, h3, h4, level, fun l cs hl1 hl2 hcs => ?_, h6, h7⟩
  obtain ⟨zmin, zmax, spill, a1, a2, a3, f, hf, g, hg, v, _, _, _, b⟩ := h5 l cs hl1 hl2 hcs
  exact ⟨zmin, zmax, spill, a1, a2, a3, f, hf, g, hg, v, b⟩

/-- The hypotheses are met by the valley of C56. -/
example : ∃ cc, LabelContract cc ∧ SquareCells (⟨0, 2, 0, 0, 0, -2⟩ : GeoTransform Rat) ∧
    2 ≤ demoValley.rows ∧ 2 ≤ demoValley.cols ∧
    ∀ c z, demoValley.Has c → IsSpillLevel demoValley.rows demoValley.cols demoValley.get c z → demoValley.get c < z →
      0 ≤ demoValley.get c := by
  obtain ⟨cc, h⟩ := exists_labelContract
  refine ⟨cc, h, by unfold SquareCells; norm_num, by decide, by decide, fun c z hc _ _ => ?_⟩
  have key : ∀ c ∈ Raster.cellList 4 5, 0 ≤ demoValley.get c := by decide +kernel
  exact key c (Flow.mem_cellList.2 hc)

set_option synthInstance.maxSize 1000 in
/-- The command on this DEM with 0.5 m of rain: the valley gets 12 m³ and is given the level 2.625, so its cell of elevation
3 is dry. -/
example : ((Complete.processWithLevels (·.untopD 0) demoValleyCC (Dem.python exactSub (· * (7/10))) Bluespots.python exactSub
      (exactSafe (1/1000) (14/10000)) ⟨0, 2, 0, 0, 0, -2⟩ (finiteDem demoValley) false (some fun _ => true) (500 : Rat)
        (1/4)).run 40).run.map (fun r => r.toOption.map fun o => (o.2.levels.map fun f =>
          [Dict.get? f.properties "bspot_id", Dict.get? f.properties "v", Dict.get? f.properties "approx_z"],
          o.2.depths.map (·.toRows), o.2.extent.map (·.toRows))) =
    some (some ([[some (.int 0), some (.num 0), some (.num 4)], [some (.int 1), some (.num 12), some (.num (21/8))]],
      some [[0,0,0,0,0],[0,0,5/8,13/8,0],[0,5/8,0,5/8,0],[0,0,0,0,0]],
      some [[0,0,0,0,0],[0,0,1,1,0],[0,1,0,1,0],[0,0,0,0,0]])) := by
  decide +kernel

/-! ### Below zero -/

/-- One bluespot of two cells, at -3.5 and -0.9, that spills at -0.8. -/
def lowLab : Raster Int := Raster.ofRows [[0, 1, 1]]
def lowDem : Raster ℚ := Raster.ofRows [[9, -7/2, -9/10]]
def lowGt : GeoTransform ℚ := ⟨0, 1, 0, 0, 0, -1⟩
def lowPourpoints : List (Feature ℚ) :=
  [⟨none, .none, [("bspot_id", .int 0), ("bspot_dmax", .num 0), ("bspot_vol", .num 0)]⟩,
   ⟨none, .none, [("bspot_id", .int 1), ("bspot_dmax", .num (27/10)), ("bspot_vol", .num (14/5))]⟩]
def lowVolumes (v : ℚ) : List (Feature ℚ) :=
  [⟨none, .none, [("nodetype", .str "pourpoint"), ("bspot_id", .int 1), ("v", .num v)]⟩]

set_option synthInstance.maxSize 1000 in
/-- C45 does not extend to negative elevations. Histogram bins are truncated towards zero, so the bins of this bluespot
start above its lowest cell and end above its spill level -0.8: with 0.14 of 2.8 cubic metres of water the level written
is -0.52, above the spill level, and with ten times as much water it is lower, -0.7. -/
theorem C45_below_zero_false :
    waterVolume (cellArea lowGt) [-7/2, -9/10] (-4/5) = 14/5 ∧
    ∃ hyps out out' g g', Hyps.hypsometryIo lowLab lowGt lowDem lowGt lowPourpoints 1 = .ok hyps ∧
      Approx.waterLevelIo (lowVolumes (14/100)) hyps = .ok out ∧ Approx.waterLevelIo (lowVolumes (14/10)) hyps = .ok out' ∧
      g ∈ out ∧ g' ∈ out' ∧ g.properties.get? "bspot_id" = some (.int 1) ∧ g'.properties.get? "bspot_id" = some (.int 1) ∧
      g.properties.get? "approx_z" = some (.num (-13/25)) ∧ g'.properties.get? "approx_z" = some (.num (-7/10)) := by
  refine ⟨by decide +kernel, ?_⟩
  have h : ((Hyps.hypsometryIo lowLab lowGt lowDem lowGt lowPourpoints 1).bind fun hyps =>
      (Approx.waterLevelIo (lowVolumes (14/100)) hyps).bind fun out =>
      (Approx.waterLevelIo (lowVolumes (14/10)) hyps).map fun out' => (out[0]?, out'[0]?).map
        (fun x => x.map fun g => (g.properties.get? "bspot_id", g.properties.get? "approx_z"))
        (fun x => x.map fun g => (g.properties.get? "bspot_id", g.properties.get? "approx_z"))).toOption =
      some (some (some (.int 1), some (.num (-13/25))), some (some (.int 1), some (.num (-7/10)))) := by decide +kernel
  cases hr : Hyps.hypsometryIo lowLab lowGt lowDem lowGt lowPourpoints 1 with
  | error e => rw [hr] at h; simp [Except.toOption, Except.bind] at h
  | ok hyps =>
    rw [hr] at h
    simp only [Except.bind] at h
    cases ho : Approx.waterLevelIo (lowVolumes (14/100)) hyps with
    | error e => rw [ho] at h; simp [Except.toOption] at h
    | ok out =>
      rw [ho] at h
      simp only at h
      cases ho' : Approx.waterLevelIo (lowVolumes (14/10)) hyps with
      | error e => rw [ho'] at h; simp [Except.toOption, Except.map] at h
      | ok out' =>
        rw [ho'] at h
        simp only [Except.map, Except.toOption, Prod.map, Option.some.injEq, Prod.mk.injEq, Option.map_eq_some_iff] at h
        obtain ⟨⟨g, h1, h2, h3⟩, g', h4, h5, h6⟩ := h
        exact ⟨hyps, out, out', g, g', rfl, ho, ho', List.mem_of_getElem? h1, List.mem_of_getElem? h4, h2, h5, h3, h6⟩

end Malstroem
