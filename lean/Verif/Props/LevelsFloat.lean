/-
Property C124: the `complete` command up to water levels and flooded extents in floating point arithmetic.
-/
import Verif.Proofs.LevelsFloat
import Verif.Props.Levels
import Verif.Props.CompleteFloat
import Verif.Props.ApproxFloat

set_option linter.unusedSectionVars false
set_option exponentiation.threshold 600

namespace Malstroem
open Spec
open Malstroem.Float

section Generic
variable {K : Type} [Field K] [LinearOrder K] [IsStrictOrderedRing K] [FloorRing K]

theorem waterLevelFl_number {fl : K → K} {interp : K → List K → List K → Except PyErr K} {h : Hyps.Stats K} {a : K} {d : WithBot K}
    {mv fv : K} {z : Val K} (e : Approx.waterLevelFl fl interp h a d mv fv = .ok z) : z ≠ .none ∧ ∀ s, z ≠ .str s := by
  unfold Approx.waterLevelFl at e
  split at e
  · split at e <;> cases e <;> simp
  · split at e
    · dsimp only at e
      generalize interp fv _ _ = r at e
      cases r with
      | error _ => cases e
      | ok x => cases e; simp
    · cases e

/-- The tools after the network, for any arithmetic: if the statistics of the labels are known and a level can be computed for each of
them then the levels of all pour points are written. -/
theorem levelsFl_of_final {fl : K → K} {histogram : List K → Int → K → K → Except PyErr (List Int)}
    {interp : K → List K → List K → Except PyErr K} {lab : Raster Int} {dem : Raster K} {gt : GeoTransform K} {fps : List (Feature K)}
    {n : Nat} {res : K} (hres : 0 < res) (hshape : lab.rows = dem.rows ∧ lab.cols = dem.cols)
    (hgt : Hyps.almostEqualFl fl |gt.t5| |gt.t5| = true ∧ Hyps.almostEqualFl fl |gt.t1| |gt.t1| = true)
    (htop : TopLabel lab.rows lab.cols lab.get none n) (hlen : fps.length = n + 1)
    (hid : ∀ (i : Nat) (p : Feature K), fps[i]? = some p → i ≤ n ∧ p.properties.get? "bspot_id" = some (.int i))
    {items : List (Int × Hyps.Stats K)} (hitems : Hyps.hypsometryStatsFl fl histogram lab dem res (some n) 0 = .ok items)
    (hkeys : items.map (·.1) = (List.range (n + 1)).map fun (l : Nat) => (l : Int))
    (hvalid : ∀ x ∈ items, (x.2.zhistogram.counts.length : Int) = x.2.zhistogram.bins.num_bins)
    {st : Nat → Hyps.Stats K} {d : Nat → WithBot K} {vol : Nat → K} {lev : Nat → K → Val K}
    (hst : ∀ l ≤ n, items[l]? = some ((l : Int), st l))
    (hdata : ∀ l p, l ≤ n → fps[l]? = some p → ∃ dv, p.properties.get? "bspot_dmax" = some dv ∧ dv.floatBot = .ok (d l) ∧
      HasNumber p "bspot_vol" (vol l))
    (hlev : ∀ l ≤ n, ∀ v, 0 ≤ v → v ≤ vol l →
      Approx.waterLevelFl fl interp (st l) (cellAreaFl fl gt) (d l) (vol l) v = .ok (lev l v))
    {R : List Net.Node} {nodes final : List (Feature K)} (hR : List.Forall₂ (IsNodeFeature gt fps) R nodes)
    (hperm : ((R.filter fun r => r.nodetype = .pourpoint).map (·.id)).Perm
      ((List.range (n + 1)).map fun (i : Nat) => (i : Int)))
    (hsame : List.Forall₂ (SameBut ["inputv", "v", "spillv", "pctv"]) nodes final)
    (hcap : ∀ f ∈ final, ∃ v cap, HasNumber f "v" v ∧ HasNumber f "bspot_vol" cap ∧ 0 ≤ v ∧ v ≤ cap) :
    ∃ hyps levels, ∃ kvs : Dict Int (Val K), Hyps.hypsometryIoFl fl histogram lab gt dem gt fps res = .ok hyps ∧
      Approx.waterLevelIoFl fl interp final hyps = .ok levels ∧
      List.Forall₂ (fun g (kv : Int × Val K) => g.properties.get? "nodetype" = some (.str "pourpoint") ∧
        g.properties.get? "bspot_id" = some (.int kv.1) ∧ g.properties.get? "approx_z" = some kv.2) levels kvs ∧
      (∀ i : Int, i ∈ kvs.map (·.1) ↔ 0 ≤ i ∧ i ≤ n) ∧ (kvs.map (·.1)).Nodup ∧
      ∀ kv ∈ kvs, ∃ l : Nat, kv.1 = l ∧ l ≤ n ∧ ∃ f ∈ final, ∃ g ∈ levels, ∃ v,
        f.properties.get? "nodetype" = some (.str "pourpoint") ∧ f.properties.get? "bspot_id" = some (.int l) ∧
        HasNumber f "v" v ∧ HasNumber f "bspot_vol" (vol l) ∧ 0 ≤ v ∧ v ≤ vol l ∧ kv.2 = lev l v ∧
        IsLevelFeature (lev l v) (Approx.approxDmaxFl fl (lev l v) (st l).zmin) f g := by
  set ids : List Int := (List.range (n + 1)).map fun (i : Nat) => (i : Int) with hidsdef
  have hget : ∀ {k : Nat} {i : Int}, ids[k]? = some i → i = k ∧ k ≤ n := by
    intro k i hk
    rw [hidsdef, List.getElem?_map, Option.map_eq_some_iff] at hk
    obtain ⟨j, hj, rfl⟩ := hk
    obtain ⟨h1, h2⟩ := List.getElem?_eq_some_iff.1 hj
    rw [List.getElem_range] at h2
    rw [List.length_range] at h1
    omega
  have hids : List.Forall₂ (fun (f : Feature K) (i : Int) => f.properties.get? "bspot_id" = some (.int i)) fps ids := by
    rw [List.forall₂_iff_get]
    refine ⟨by rw [hlen]; simp [hidsdef], fun k h1 h2 => ?_⟩
    have e := (hget (List.getElem?_eq_getElem h2)).1
    rw [List.get_eq_getElem, List.get_eq_getElem, e]
    exact (hid k _ (List.getElem?_eq_getElem h1)).2
  have hnd : ids.Nodup := List.nodup_range.map fun a b h => by simpa using h
  have hall : ∀ i : Int, i ∈ ids ↔ 0 ≤ i ∧ i ≤ n := by
    intro i
    rw [hidsdef, List.mem_map]
    constructor
    · rintro ⟨j, hj, rfl⟩
      have := List.mem_range.1 hj
      omega
    · intro hi
      exact ⟨i.toNat, List.mem_range.2 (by omega), by omega⟩
  obtain ⟨hyps, hh1, hh2⟩ := hypsometryIoFl_ok hres hshape hgt htop hids hnd hall hitems hkeys hvalid
  have hitnd : (items.map (·.1)).Nodup := by rw [hkeys]; exact hnd
  have hhlen : hyps.length = n + 1 := by
    have := hh2.length_eq
    rw [List.length_zip, hlen] at this
    simp [hidsdef] at this
    omega
  -- the hypsometry features
  have hzip : ∀ (i : Int) (g : Feature K), (i, g) ∈ ids.zip hyps → ∃ (l : Nat) (p : Feature K), i = l ∧ l ≤ n ∧ fps[l]? = some p ∧
      IsHypsFeature (cellAreaFl fl gt) (st l) p g := by
    intro i g hg
    obtain ⟨k, hk⟩ := List.mem_iff_getElem?.1 hg
    rw [List.getElem?_zip_eq_some] at hk
    obtain ⟨rfl, hkn⟩ := hget hk.1
    have hkl : k < fps.length := by omega
    have hz : (fps.zip ids)[k]? = some (fps[k], (k : Int)) := by
      rw [List.getElem?_zip_eq_some]
      exact ⟨List.getElem?_eq_getElem hkl, hk.1⟩
    obtain ⟨g', e1, s, e2, e3⟩ := forall₂_get hh2 hz
    rw [hk.2] at e1; cases e1
    have e4 := Dict.get?_of_mem hitnd (List.mem_of_getElem? (hst k hkn))
    rw [e4] at e2; cases e2
    exact ⟨k, _, rfl, hkn, List.getElem?_eq_getElem hkl, e3⟩
  have hhids : List.Forall₂ (fun (g : Feature K) (i : Int) => g.properties.get? "bspot_id" = some (.int i)) hyps ids := by
    rw [List.forall₂_iff_get]
    refine ⟨by rw [hhlen]; simp [hidsdef], fun k h1 h2 => ?_⟩
    obtain ⟨l, p, e1, _, e3, e4⟩ := hzip ids[k] hyps[k] (List.mem_of_getElem? (i := k) (by
      rw [List.getElem?_zip_eq_some]
      exact ⟨List.getElem?_eq_getElem h2, List.getElem?_eq_getElem h1⟩))
    simp only [List.get_eq_getElem]
    rw [e4.others _ (by decide), e1]
    exact (hid l p e3).2
  have hhas : ∀ l : Nat, l ≤ n → ∃ g, ((l : Int), g) ∈ ids.zip hyps := by
    intro l hl
    refine ⟨hyps[l], List.mem_of_getElem? (i := l) ?_⟩
    rw [List.getElem?_zip_eq_some]
    refine ⟨?_, List.getElem?_eq_getElem _⟩
    rw [hidsdef, List.getElem?_map, List.getElem?_range (by omega)]
    rfl
  have hnum : ∀ {f g : Feature K} {s : Hyps.Stats K} {name : String} {x : K}, IsHypsFeature (cellAreaFl fl gt) s f g →
      name ∉ hypsKeys → HasNumber f name x → HasNumber g name x := by
    rintro f g s name x hg hn ⟨y, h1, h2⟩
    exact ⟨y, by rw [hg.others _ hn]; exact h1, h2⟩
  -- the final features
  have hQ : List.Forall₂ (fun (r : Net.Node) (f : Feature K) =>
      (∃ t, f.properties.get? "nodetype" = some t) ∧
      (r.nodetype = .pourpoint ↔ f.properties.get? "nodetype" = some (.str "pourpoint")) ∧
      (r.nodetype = .pourpoint → ∃ i : Nat, r.id = i ∧ i ≤ n ∧ f.properties.get? "bspot_id" = some (.int i))) R final := by
    refine (forall₂_comp hR hsame).imp fun r f ⟨nf, _, h1, h2⟩ => ?_
    have hty : f.properties.get? "nodetype" = nf.properties.get? "nodetype" := h2.others _ (by decide)
    have hbs : f.properties.get? "bspot_id" = nf.properties.get? "bspot_id" := h2.others _ (by decide)
    rw [hty, hbs]
    refine ⟨?_, ?_, fun hp => ?_⟩
    · cases hn : r.nodetype with
      | pourpoint => exact ⟨_, (h1.pourpoint hn).1⟩
      | junction => exact ⟨_, (h1.junction hn).1⟩
    · refine ⟨fun hp => (h1.pourpoint hp).1, fun hp => ?_⟩
      cases hn : r.nodetype with
      | pourpoint => rfl
      | junction =>
        rw [(h1.junction hn).1] at hp
        simp at hp
    · obtain ⟨_, i, p, e1, e2, e3⟩ := h1.pourpoint hp
      have := hid i p e2
      exact ⟨i, e1, this.1, (e3 _ (by decide)).trans this.2⟩
  have hfin : ∀ f ∈ final, f.properties.get? "nodetype" = some (.str "pourpoint") → ∃ (l : Nat) (v : K), l ≤ n ∧
      f.properties.get? "bspot_id" = some (.int l) ∧ HasNumber f "v" v ∧ HasNumber f "bspot_vol" (vol l) ∧ 0 ≤ v ∧ v ≤ vol l := by
    intro f hf ht
    obtain ⟨r, _, _, h3, h4⟩ := forall₂_right hQ hf
    obtain ⟨l, _, hl, hb⟩ := h4 (h3.2 ht)
    obtain ⟨p, hp, hpf, _⟩ := final_pourpoint hR hsame hid hf ht hb
    obtain ⟨v, cap, g1, g2, g3, g4⟩ := hcap f hf
    obtain ⟨dv, _, _, x, hx, hx'⟩ := hdata l p hl hp
    have hvol : HasNumber f "bspot_vol" (vol l) := ⟨x, (hpf _ (by decide)).trans hx, hx'⟩
    rw [hasNumber_unique g2 hvol] at g4
    exact ⟨l, v, hl, hb, g1, hvol, g3, g4⟩
  obtain ⟨levels, ho1, ho2⟩ := waterLevelIoFl_ok (fl := fl) (interp := interp) (finalvols := final) hhids hnd
    (fun f hf => (forall₂_right hQ hf).choose_spec.2.1) (by
    intro f hf ht
    obtain ⟨l, v, hl, hb, g1, _, g3, g4⟩ := hfin f hf ht
    obtain ⟨g, hg⟩ := hhas l hl
    refine ⟨l, v, hb, g1, g, hg, ?_⟩
    obtain ⟨l', p, e1, _, e3, e4⟩ := hzip _ _ hg
    obtain rfl : l = l' := by exact_mod_cast e1
    obtain ⟨dv, c1, c2, c3⟩ := hdata l p hl e3
    exact ⟨st l, cellAreaFl fl gt, dv, d l, vol l, lev l v, e4.stats, e4.area, by rw [e4.others _ (by decide)]; exact c1, c2,
      hnum e4 (by decide) c3, hlev l hl v g3 g4⟩)
  have hmain : List.Forall₂ (fun f g => ∃ (l : Nat) (v : K), l ≤ n ∧ f ∈ final ∧
      f.properties.get? "nodetype" = some (.str "pourpoint") ∧ f.properties.get? "bspot_id" = some (.int l) ∧
        HasNumber f "v" v ∧ HasNumber f "bspot_vol" (vol l) ∧ 0 ≤ v ∧ v ≤ vol l ∧
        IsLevelFeature (lev l v) (Approx.approxDmaxFl fl (lev l v) (st l).zmin) f g)
      (final.filter fun f => f.properties.get? "nodetype" = some (.str "pourpoint")) levels := by
    refine List.Forall₂.imp (fun f g hfg => ?_) ((List.forall₂_and_left _ _).2 ⟨fun f hfm => hfm, ho2⟩)
    obtain ⟨hfm, hfg⟩ := hfg
    rw [List.mem_filter] at hfm
    have ht : f.properties.get? "nodetype" = some (.str "pourpoint") := by simpa using hfm.2
    obtain ⟨l, v, hl, hb, g1, g2, g3, g4⟩ := hfin f hfm.1 ht
    obtain ⟨h, hh⟩ := hhas l hl
    obtain ⟨s, z, r1, r2, r3⟩ := hfg l h hb hh
    obtain ⟨l', p, e1, _, e3, e4⟩ := hzip _ _ hh
    obtain rfl : l = l' := by exact_mod_cast e1
    obtain rfl : s = st l := by
      have := e4.stats; rw [r1] at this; exact Except.ok.inj this
    obtain ⟨dv, c1, c2, c3⟩ := hdata l p hl e3
    have hz := r3 (cellAreaFl fl gt) dv (d l) (vol l) v e4.area (by rw [e4.others _ (by decide)]; exact c1) c2
      (hnum e4 (by decide) c3) g1
    rw [hlev l hl v g3 g4] at hz
    cases hz
    exact ⟨l, v, hl, hfm.1, ht, hb, g1, g2, g3, g4, r2⟩
  have hT := forall₂_comp (List.rel_filter (p := fun r : Net.Node => r.nodetype = .pourpoint)
    (q := fun f : Feature K => f.properties.get? "nodetype" = some (.str "pourpoint"))
    (fun r f hq => by simpa using hq.2.1) hQ) hmain
  have hT' : List.Forall₂ (fun (r : Net.Node) (g : Feature K) => ∃ (l : Nat) (v : K) (f : Feature K), r.id = l ∧ l ≤ n ∧ f ∈ final ∧
      f.properties.get? "nodetype" = some (.str "pourpoint") ∧ f.properties.get? "bspot_id" = some (.int l) ∧
        HasNumber f "v" v ∧ HasNumber f "bspot_vol" (vol l) ∧ 0 ≤ v ∧ v ≤ vol l ∧
        IsLevelFeature (lev l v) (Approx.approxDmaxFl fl (lev l v) (st l).zmin) f g)
      (R.filter fun r => r.nodetype = .pourpoint) levels := by
    refine hT.imp fun r g ⟨f, _, ⟨_, q1, q2⟩, l, v, hl, hf, ht, hb, hrest⟩ => ?_
    obtain ⟨i, e1, _, e3⟩ := q2 (q1.2 ht)
    rw [hb] at e3
    obtain rfl : l = i := by simpa using e3
    exact ⟨l, v, f, e1, hl, hf, ht, hb, hrest⟩
  obtain ⟨kvs, k1, k2, k3⟩ : ∃ kvs : Dict Int (Val K), List.Forall₂ (fun g (kv : Int × Val K) =>
      g.properties.get? "nodetype" = some (.str "pourpoint") ∧
      g.properties.get? "bspot_id" = some (.int kv.1) ∧ g.properties.get? "approx_z" = some kv.2) levels kvs ∧
      kvs.map (·.1) = (R.filter fun r => r.nodetype = .pourpoint).map (·.id) ∧
      ∀ kv ∈ kvs, ∃ l : Nat, kv.1 = l ∧ l ≤ n ∧ ∃ f ∈ final, ∃ g ∈ levels, ∃ v,
        f.properties.get? "nodetype" = some (.str "pourpoint") ∧ f.properties.get? "bspot_id" = some (.int l) ∧
        HasNumber f "v" v ∧ HasNumber f "bspot_vol" (vol l) ∧ 0 ≤ v ∧ v ≤ vol l ∧ kv.2 = lev l v ∧
        IsLevelFeature (lev l v) (Approx.approxDmaxFl fl (lev l v) (st l).zmin) f g := by
    clear hT hmain ho1 ho2
    generalize (R.filter fun r => decide (r.nodetype = .pourpoint)) = R' at hT'
    clear hperm
    induction hT' with
    | nil => exact ⟨[], .nil, rfl, by simp⟩
    | @cons r g R' levels hh _ ih =>
      obtain ⟨kvs, k1, k2, k3⟩ := ih
      obtain ⟨l, v, f, e1, hl, hf, ht, hb, g1, g2, g3, g4, g5⟩ := hh
      refine ⟨((l : Int), lev l v) :: kvs, .cons ⟨(g5.others _ (by decide) (by decide)).trans ht,
        (g5.others _ (by decide) (by decide)).trans hb, g5.level⟩ k1, by rw [List.map_cons, List.map_cons, k2, e1], ?_⟩
      intro kv hkv
      rcases List.mem_cons.1 hkv with rfl | hkv
      · exact ⟨l, rfl, hl, f, hf, g, by simp, v, ht, hb, g1, g2, g3, g4, rfl, g5⟩
      · obtain ⟨l', a1, a2, f', a3, g', a4, v', a5⟩ := k3 kv hkv
        exact ⟨l', a1, a2, f', a3, g', by simp [a4], v', a5⟩
  refine ⟨hyps, levels, kvs, hh1, ho1, k1, fun i => ?_, ?_, k3⟩
  · rw [k2, hperm.mem_iff]
    exact hall i
  · rw [k2, hperm.nodup_iff]
    exact hnd

end Generic

namespace Float
open Malstroem.Network
variable {fl fl32 nextafter : Rat → Rat} {histogram : List Rat → Int → Rat → Rat → Except PyErr (List Int)}
  {interp : Rat → List Rat → List Rat → Except PyErr Rat}

/-- A level is computed for the background as well. -/
theorem background_levelFl (hi : Interpolates fl interp) {zs : List Rat} {s : Hyps.Stats Rat} (h : Hyps.IsBackground zs s) (area vol v : Rat)
    (d : WithBot Rat) (h0 : zs = [] → vol = 0) : ∃ z, Approx.waterLevelFl fl interp s area d vol v = .ok z := by
  unfold Approx.waterLevelFl
  split
  · cases s.zmin <;> cases d <;> exact ⟨_, rfl⟩
  · next hc =>
    obtain ⟨zmin, zmax, h1, h2, _⟩ := h.2.2 fun he => hc (.inl (h0 he))
    rw [h1, h2, h.1]
    show ∃ z, (interp v [0, vol] [zmin, zmax]).map Val.num = .ok z
    obtain ⟨_, _, hi⟩ := hi
    obtain ⟨z, hz, -⟩ := hi v [0, vol] [zmin, zmax] rfl (by simp)
    exact ⟨.num z, by rw [hz]; rfl⟩

/-- The maps written by `approx_bluespots_io`. -/
theorem flooded_io (hfl : IsRounding 53 (-1074) fl) {lab : Raster Int} {dem : Raster Rat} {features : List (Feature Rat)} {background : Int} {m : Nat}
    {kvs : Dict Int (Val Rat)} {level : Int → Rat}
    (ht : ∀ f ∈ features, f.properties.get? "nodetype" = some (.str "pourpoint"))
    (hk : List.Forall₂ (fun f (kv : Int × Val Rat) => f.properties.get? "bspot_id" = some (.int kv.1) ∧
        f.properties.get? "approx_z" = some kv.2) features kvs)
    (hnd : (kvs.map (·.1)).Nodup) (hnum : ∀ kv ∈ kvs, kv.2 ≠ .none ∧ ∀ s, kv.2 ≠ .str s)
    (hl : ∀ kv ∈ kvs, kv.1 ≠ background → kv.2.float = .ok (level kv.1) ∧ IsF64 (level kv.1))
    (hc : Covers kvs background m) (hr : LabelsIn lab.rows lab.cols lab.get m)
    (hd : ∀ c, InGrid lab.rows lab.cols c → IsF64 (dem.get c)) :
    ∃ extent depths exact, Approx.approxBluespotsIoFl fl lab features dem true true background = .ok (some depths, some extent) ∧
      IsFlooded lab dem background level extent exact ∧ depths.rows = exact.rows ∧ depths.cols = exact.cols ∧
      ∀ c, InGrid lab.rows lab.cols c → depths.get c = fl (exact.get c) ∧ (0 < depths.get c ↔ 0 < exact.get c) := by
  obtain ⟨values, h1, h2, h3⟩ := labelvaluedict_ok hc (.num (-999) : Val Rat)
  have hv : ∀ x ∈ values, ∃ y, x.float = .ok y ∧ IsF64 y := by
    intro x hx
    obtain ⟨i, hi⟩ := List.mem_iff_getElem?.1 hx
    have him : i ≤ m := by have := (List.getElem?_eq_some_iff.1 hi).1; omega
    by_cases hb : (i : Int) = background
    · rw [(h3 i him).1 hb] at hi; cases hi
      exact ⟨-999, rfl, ⟨-999, 0, by norm_num, by norm_num, by norm_num⟩⟩
    · rw [(h3 i him).2 hb] at hi
      exact ⟨_, hl _ (Dict.mem_of_get? hi) hb⟩
  obtain ⟨nums, n1, n2⟩ := mapM_exists (fun x hx => (hv x hx).imp fun _ h => h.1)
  have hval : ∀ x ∈ nums, IsF64 x := by
    intro x hx
    obtain ⟨y, hy, e⟩ := forall₂_right n2 hx
    obtain ⟨x', e1, e2⟩ := hv y hy
    rw [e] at e1; cases e1
    exact e2
  obtain ⟨wl, h4, h5⟩ := flood_ok (dem := dem) (background := background) (level := level) (values := nums) hr
    (by rw [← n2.length_eq, h2]) fun i hi => by
      constructor
      · intro hb
        obtain ⟨y, e1, e2⟩ := forall₂_get n2 ((h3 i hi).1 hb)
        rw [e1]; exact congrArg some (Except.ok.inj e2).symm
      · intro hb
        obtain ⟨z, hz⟩ := hc.has i hi hb
        obtain ⟨y, e1, e2⟩ := forall₂_get n2 (((h3 i hi).2 hb).trans hz)
        rw [(hl _ (Dict.mem_of_get? hz) hb).1] at e2
        rw [e1]; exact congrArg some (Except.ok.inj e2).symm
  have hneg : ∀ c, InGrid lab.rows lab.cols c → (fl (wl.get c - dem.get c) < 0 ↔ wl.get c - dem.get c < 0) := fun c hc => by
    rw [fl_sub_neg hfl (by norm_num) (hval _ (setLabel_values hr (by rw [← n2.length_eq, h2]) h4 hc)) (hd c hc), sub_neg]
  have hpos : ∀ c, InGrid lab.rows lab.cols c → (0 < fl (wl.get c - dem.get c) ↔ 0 < wl.get c - dem.get c) := fun c hc => by
    rw [fl_sub_pos hfl (by norm_num) (hval _ (setLabel_values hr (by rw [← n2.length_eq, h2]) h4 hc)) (hd c hc), sub_pos]
  have hext : ∀ c, InGrid lab.rows lab.cols c → (Approx.maskLabels lab (Approx.depthsAndBelowFl fl wl dem).2 background).get c =
      (Approx.maskLabels lab (Approx.depthsAndBelow wl dem).2 background).get c := fun c hc => by
    simp only [Approx.maskLabels, Approx.depthsAndBelowFl, Approx.depthsAndBelow, hneg c hc]
  have hfilter : (features.filter fun f => f.properties.get? "nodetype" = some (.str "pourpoint")) = features :=
    List.filter_eq_self.2 fun f hf => by simpa using ht f hf
  refine ⟨Approx.maskLabels lab (Approx.depthsAndBelowFl fl wl dem).2 background, (Approx.depthsAndBelowFl fl wl dem).1,
    (Approx.depthsAndBelow wl dem).1, ?_, ⟨h5.shape, fun c hc hb => ?_, h5.depth, fun c hc hb => ?_, h5.dry⟩, rfl, rfl, fun c hc => ?_⟩
  · have hfold := fold_levels (f := fun (d : Dict Int (Val Rat)) (x : Feature Rat) => do
        let bsid ← Approx.bspotId x
        let z ← (← x.prop "approx_z").pyFloat
        pure (Dict.set d bsid z)) (d := []) (l := features) (kvs := kvs) (by
      intro x kv hx d
      obtain ⟨e1, e2⟩ := (List.forall₂_iff_zip.1 hk).2 hx
      unfold Approx.bspotId Feature.prop
      have e3 : kv.2.pyFloat = .ok kv.2 := by
        obtain ⟨k1, k2⟩ := hnum kv (List.of_mem_zip hx).2
        revert k1 k2
        cases kv.2 <;> simp [Val.pyFloat]
      simp only [Dict.getItem_ok.2 e1, Dict.getItem_ok.2 e2, bind, Except.bind, Val.toInt, e3]
      rfl) hk.length_eq (by simpa using hnd)
    unfold Approx.approxBluespotsIoFl
    rw [if_neg (by simp), pourpointsOf_ok fun f hf => ⟨_, ht f hf⟩, hfilter]
    simp only [bind, Except.bind, pure, Except.pure] at hfold ⊢
    rw [hfold]
    simp only [List.nil_append, h1, n1, h4, if_true]
  · rw [hext c hc, h5.wet c hc hb]
  · rw [hext c hc, h5.outside c hc hb]
  · simp only [Approx.depthsAndBelowFl, Approx.depthsAndBelow, decide_eq_true_eq, hneg c hc]
    split
    · exact ⟨(fl_zero hfl).symm, Iff.rfl⟩
    · exact ⟨rfl, hpos c hc⟩

/-- Sums of bounded numbers are bounded. -/
theorem sumFl_le (hfl : IsRounding 53 (-1074) fl) {xs : List Rat} {e : Nat} (hx : ∀ x ∈ xs, x ≤ 2 ^ e) (hlen : xs.length ≤ 2 ^ 53) :
    sumFl fl xs ≤ xs.length * 2 ^ e := by
  have key : ∀ (xs : List Rat) (acc : Rat) (k : Nat), (∀ x ∈ xs, x ≤ 2 ^ e) → k + xs.length ≤ 2 ^ 53 → acc ≤ k * 2 ^ e →
      xs.foldl (fun a b => fl (a + b)) acc ≤ (k + xs.length : Nat) * 2 ^ e := by
    intro xs
    induction xs with
    | nil => intro acc k _ _ h; simpa using h
    | cons x xs ih =>
      intro acc k hx hlen hacc
      rw [List.foldl_cons]
      rw [List.length_cons] at hlen
      have h1 : fl (acc + x) ≤ ((k + 1 : Nat) : Rat) * 2 ^ e := by
        have h2 : acc + x ≤ ((k + 1 : Nat) : Rat) * 2 ^ e := by
          have := hx x (by simp)
          push_cast
          linarith
        refine (fl_mono hfl h2).trans (le_of_eq (fl_exact hfl ?_))
        have : 0 < (2 : Nat) ^ 53 := by norm_num
        rcases (show k + 1 < 2 ^ 53 ∨ k + 1 = 2 ^ 53 by omega) with h | h
        · refine ⟨(k + 1 : Nat), e, ?_, by omega, by push_cast; rw [zpow_natCast]⟩
          rw [abs_of_nonneg (by omega)]
          exact_mod_cast h
        · refine ⟨1, 53 + e, by norm_num, by omega, ?_⟩
          rw [h, zpow_add₀ (by norm_num), zpow_natCast]
          push_cast
          norm_num
      have := ih _ (k + 1) (fun y hy => hx y (by simp [hy])) (by omega) h1
      rw [List.length_cons, show k + (xs.length + 1) = k + 1 + xs.length by omega]
      exact this
  have := key xs 0 0 hx (by omega) (by simp)
  simpa [sumFl] using this

/-- The volume of a bluespot with bounded depths is bounded. -/
theorem capacity_le (hfl : IsRounding 53 (-1074) fl) {gt : GeoTransform Rat} (hcell : |gt.t1| ≤ 2 ^ 100 ∧ |gt.t5| ≤ 2 ^ 100) {xs : List Rat}
    (hx : ∀ x ∈ xs, x ≤ 2 ^ 120) (hlen : xs.length ≤ 2 ^ 53) : fl (sumFl fl xs * cellAreaFl fl gt) ≤ 2 ^ 500 := by
  have h1 := sumFl_le hfl hx hlen
  have ha0 : 0 ≤ cellAreaFl fl gt := fl_nonneg hfl (mul_nonneg (abs_nonneg _) (abs_nonneg _))
  have ha : cellAreaFl fl gt ≤ 2 ^ 200 := by
    have h2 : |gt.t1| * |gt.t5| ≤ (2 : Rat) ^ (200 : Int) := by
      have := mul_le_mul hcell.1 hcell.2 (abs_nonneg _) (by norm_num)
      refine this.trans ?_
      norm_num
    have h3 := fl_mono hfl h2
    rw [fl_exact hfl (isFloat_pow (by norm_num) (by norm_num))] at h3
    unfold cellAreaFl
    exact_mod_cast h3
  have hl : (xs.length : Rat) ≤ 2 ^ 53 := by exact_mod_cast hlen
  have h4 : sumFl fl xs * cellAreaFl fl gt ≤ (2 : Rat) ^ (500 : Int) := by
    have h5 : sumFl fl xs * cellAreaFl fl gt ≤ (2 ^ 53 * 2 ^ 120) * cellAreaFl fl gt :=
      mul_le_mul_of_nonneg_right (h1.trans (mul_le_mul_of_nonneg_right hl (by norm_num))) ha0
    have h6 : ((2 : Rat) ^ 53 * 2 ^ 120) * cellAreaFl fl gt ≤ (2 ^ 53 * 2 ^ 120) * 2 ^ 200 :=
      mul_le_mul_of_nonneg_left ha (by norm_num)
    refine (h5.trans h6).trans ?_
    norm_num
  have := fl_mono hfl h4
  rw [fl_exact hfl (isFloat_pow (by norm_num) (by norm_num))] at this
  exact_mod_cast this

theorem almostEqual_refl (hfl : IsRounding 53 (-1074) fl) (x : Rat) : Hyps.almostEqualFl fl x x = true := by
  unfold Hyps.almostEqualFl
  have h1 : (2 : Rat) ^ (-30 : Int) ≤ fl (1 / 10000000) := pow_le_fl hfl (by norm_num) (by norm_num) (by norm_num)
  have h2 : (2 : Rat) ^ (-30 : Int) ≤ fl (3 / 2 * fl (1 / 10000000)) := pow_le_fl hfl (by norm_num) (by norm_num) (by
    have := two_pos (-30)
    linarith)
  rw [sub_self, fl_zero hfl, abs_zero]
  simpa using (two_pos (-30)).trans_le h2

/-- C124. On every float32 DEM without ground below zero in bluespots, of any size, with every filter and every amount of rain, all
tools up to the maps of the flooded areas return when computed in floating point arithmetic. Every bluespot has one final state, with a volume
between 0 and its capacity. Its water level is not below its lowest ground and, up to rounding, not above the level at which it spills; as
long as it is not nearly full the level is, up to rounding, not above its highest ground; if it is full, and in particular if it spills, all its
ground is covered. The extent consists of the cells at or below the level of their bluespot. Each depth is the exact depth of the water, rounded
once, and positive if and only if that is. -/
theorem C124_complete (hfl : IsRounding 53 (-1074) fl) (hfl32 : IsRounding 24 (-149) fl32) (hnext : IsNextAfter nextafter)
    {dem : Raster (WithTop F64)} (hdem : IsDem32 dem) (hsize : dem.rows * dem.cols ≤ 2 ^ 50) {cc : Raster Bool → Raster Int × Nat}
    (hcc : LabelContract cc) {gt : GeoTransform Rat} {mm : Rat} (hsq : SquareCellsFl fl gt) (hg : FloatRain gt mm)
    (hcell : |gt.t1| ≤ 2 ^ 100 ∧ |gt.t5| ≤ 2 ^ 100) (hi : Interpolates fl interp) {conv : Rat → Rat} (hh : HistogramCounts conv histogram)
    {res : Rat} (hres : 2 ^ (-100 : Int) ≤ res ∧ res ≤ 2 ^ 100) (hz : ∀ c, dem.Has c → num (dem.get c) ≤ 2 ^ 20 * res)
    (hnn : ∀ c z, dem.Has c → IsSpillLevel dem.rows dem.cols dem.get c z → dem.get c < z → 0 ≤ num (dem.get c))
    (want : Bool) (f : Bluespots.StatUnits Rat → Bool) :
    ∃ out lv depths extent exact, ∃ level : Int → Rat,
      (Complete.processWithLevelsFl fl histogram interp num cc (Dem.python (fsub fl) fun x => fl (x * (1 / Fill.sqrt2)))
        (Bluespots.pythonFl fl) (fsub fl32) (fsafe hfl nextafter) gt dem want (some f) mm res).Yields (.ok (out, lv)) ∧
      (Complete.processAllFl fl cc (Dem.python (fsub fl) fun x => fl (x * (1 / Fill.sqrt2))) (Bluespots.pythonFl fl) (fsub fl32)
        (fsafe hfl nextafter) gt dem want (some f) mm).Yields (.ok out) ∧
      lv.depths = some depths ∧ lv.extent = some extent ∧
      out.bluespots.labeled.rows = dem.rows ∧ out.bluespots.labeled.cols = dem.cols ∧
      (∀ (l : Nat) (cs : List Cell), 1 ≤ l → l ≤ out.bluespots.nlabels → CellsOf dem.rows dem.cols out.bluespots.labeled.get l cs →
        ∃ zmin zmax spill, IsMin (cs.map fun c => num (dem.get c)) zmin ∧ IsMax (cs.map fun c => num (dem.get c)) zmax ∧
          (∀ c ∈ cs, IsSpillLevel dem.rows dem.cols dem.get c spill) ∧
          ∃ f ∈ out.final, ∃ g ∈ lv.levels, ∃ v s cap, f.properties.get? "nodetype" = some (.str "pourpoint") ∧
            f.properties.get? "bspot_id" = some (.int l) ∧ HasNumber f "v" v ∧ HasNumber f "spillv" s ∧ HasNumber f "bspot_vol" cap ∧
            0 ≤ v ∧ v ≤ cap ∧ (0 < s → v = cap) ∧
            IsLevelFeature (.num (level l)) (.num (fl (level l - zmin))) f g ∧
            zmin ≤ level l ∧ level l ≤ num spill * (1 + 1 / 2 ^ 22) ∧
            (v < cap * (9998 / 10000) → level l ≤ zmax * (1 + 1 / 2 ^ 50)) ∧
            (v = cap → ∀ c ∈ cs, num (dem.get c) ≤ level l ∧ extent.get c = l)) ∧
      IsFlooded out.bluespots.labeled ⟨dem.rows, dem.cols, fun c => num (dem.get c)⟩ 0 level extent exact ∧
      depths.rows = exact.rows ∧ depths.cols = exact.cols ∧
      ∀ c, dem.Has c → depths.get c = fl (exact.get c) ∧ (0 < depths.get c ↔ 0 < exact.get c) := by
  have h := float_sound hfl hfl32 hnext hdem hsize (k := 1 / Fill.sqrt2) (by norm_num [Fill.sqrt2])
  obtain ⟨d, hd, _, hdsh, hfsh, hcells, _, ⟨z, _, hdown⟩, hacc, hno⟩ := C62_dem_outputs h want
  obtain ⟨_, hfill, _, hnf, _, _, _⟩ := Dem.process_inv hd
  have hfill : Returns (Fill.fillTerrain dem) (.ok d.filled) := hfill
  obtain ⟨hnsh, hfin, _⟩ := noFlats_finite h hnf
  obtain ⟨out, h1, rfl, -, hcap, -, ⟨choose, hb⟩, ⟨R, hR, hperm⟩, hsame, -⟩ := chain_balance (bluespotEngine := Bluespots.pythonFl fl) hfl hg hsize
    (.inl rfl) rfl hcc hsq ⟨by have := h.rows; omega, by have := h.cols; omega⟩ want f hd hdsh hfsh
    (fun c hc => ⟨(hcells c hc).2.2.1, by rw [(hcells c hc).2.1]; exact (hfl32 _).1⟩) hdown hnsh hfin h.drop_pos h.scale_pos
    (fun hw => by
      obtain ⟨a, h1, h2⟩ := hacc hw
      exact ⟨a, a, h1, h2, rfl, rfl, fun _ _ => rfl⟩) hno
  set lab := out.bluespots.labeled with hlabdef
  set n := out.bluespots.nlabels with hn
  have hlab := hb.labelling
  have hrows : lab.rows = dem.rows ∧ lab.cols = dem.cols := ⟨hb.shape.1.trans hdsh.1, hb.shape.2.1.trans hdsh.2⟩
  have hgrid : ∀ c, dem.Has c ↔ InGrid out.dem.depths.rows out.dem.depths.cols c := by intro c; rw [hdsh.1, hdsh.2]
  have hgrid' : ∀ c, dem.Has c ↔ InGrid lab.rows lab.cols c := by intro c; rw [hrows.1, hrows.2]
  -- elevations
  have hf32 : ∀ c, dem.Has c → IsF32 (num (dem.get c)) := by
    intro c hc
    obtain ⟨v, e1, e2⟩ := hdem.f32 c hc
    rw [e1]; exact e2
  have hspillcell : ∀ c, dem.Has c → ∃ x, dem.Has x ∧ out.dem.filled.get c = dem.get x := by
    intro c hc
    obtain ⟨⟨p, hp, ⟨x, hx, hxe⟩, _⟩, _⟩ := (hcells c hc).1
    exact ⟨x, hp.inside x hx, hxe.symm⟩
  have hlt : ∀ {a b : Cell}, dem.Has a → dem.Has b → dem.get a < dem.get b → num (dem.get a) < num (dem.get b) := by
    intro a b ha hb' hab
    obtain ⟨v, e1, _⟩ := hdem.f32 a ha
    obtain ⟨w, e2, _⟩ := hdem.f32 b hb'
    rw [e1, e2] at hab ⊢
    have hab : v < w := WithTop.coe_lt_coe.1 hab
    exact hab
  have hdep : ∀ c, dem.Has c → out.dem.depths.get c = fl32 (num (out.dem.filled.get c) - num (dem.get c)) := fun c hc => (hcells c hc).2.1
  have hbelow : ∀ c, dem.Has c → out.dem.depths.get c ≠ 0 → dem.get c < out.dem.filled.get c ∧ 0 ≤ num (dem.get c) := by
    intro c hc h0
    have := (hcells c hc).2.2.2.1 (lt_of_le_of_ne (hcells c hc).2.2.1 (Ne.symm h0))
    exact ⟨this, hnn c _ hc (hcells c hc).1 this⟩
  have hwet : ∀ c, dem.Has c → lab.get c ≠ 0 → out.dem.depths.get c ≠ 0 := by
    intro c hc h0 he
    exact h0 ((hlab.background c ((hgrid c).1 hc)).2 fun hw => hw.1 he)
  have hflat : ∀ a b, ConnectedIn (fun c => InGrid out.dem.depths.rows out.dem.depths.cols c ∧ out.dem.depths.get c ≠ 0) a b →
      out.dem.filled.get a = out.dem.filled.get b := by
    intro a b hab
    exact (C12_depths (γ := Int) (fun x y : WithTop F64 => if y < x then 1 else if x = y then 0 else -1)
      (fun x y hxy => by
        rcases hxy.lt_or_eq with e | e
        · simp [e]
        · simp [e])
      (fun x y => by
        rcases lt_trichotomy x y with e | e | e
        · simp [e.ne, not_lt.2 e.le]
        · simp [e]
        · simp [e, e.ne']) dem out.dem.filled hfill).2.2 a b (hab.mono fun c hc => by
          have hc' : dem.Has c := (hgrid c).2 hc.1
          refine ⟨hc', ?_⟩
          have hlt := (hbelow c hc' hc.2).1
          show 0 < (if dem.get c < out.dem.filled.get c then (1 : Int) else _)
          rw [if_pos hlt]; decide)
  set zr : Raster Rat := ⟨dem.rows, dem.cols, fun c => num (dem.get c)⟩ with hzr
  -- statistics
  have htop : TopLabel lab.rows lab.cols lab.get (some n) n := by
    have := hlab.topLabel' (by rw [hdsh.1]; have := h.rows; omega) (by rw [hdsh.2]; have := h.cols; omega)
    rw [hrows.1, hrows.2, ← hdsh.1, ← hdsh.2]
    exact this
  have htop' : TopLabel lab.rows lab.cols lab.get none n := by
    have := hlab.topLabel (by rw [hdsh.1]; have := h.rows; omega) (by rw [hdsh.2]; have := h.cols; omega)
    rw [hrows.1, hrows.2, ← hdsh.1, ← hdsh.2]
    exact this
  have hrange : LabelsIn lab.rows lab.cols lab.get n := fun c hc => hlab.range c ((hgrid c).1 ((hgrid' c).2 hc))
  have hin : HypsInput lab zr (some n) 0 n := by
    refine ⟨⟨hrows.1.symm, hrows.2.symm⟩, htop, hrange, fun l hl h0 => ?_⟩
    obtain ⟨c, hc, hcl⟩ := hlab.used l (by omega) hl
    exact ⟨c, (hgrid' c).1 ((hgrid c).2 hc), hcl⟩
  have hfit : ElevationsFit lab zr res 0 := by
    refine ⟨hres.1, hres.2, fun c hc h0 => ?_⟩
    have hc' := (hgrid' c).2 hc
    refine ⟨?_, hz c hc'⟩
    have h0 := (hbelow c hc' (hwet c hc' h0)).2
    show num (dem.get c) = 0 ∨ 2 ^ (-149 : Int) ≤ num (dem.get c)
    obtain ⟨k, hk⟩ := OnGrid.of_float (hf32 c hc')
    rw [hk] at h0 ⊢
    rcases h0.eq_or_lt with e | e
    · exact .inl e.symm
    · right
      have : (0 : Rat) < k := pos_of_mul_pos_left e (two_pos _).le
      have : (0 : Int) < k := by exact_mod_cast this
      have : (1 : Rat) ≤ k := by exact_mod_cast this
      have := mul_le_mul_of_nonneg_right this (two_pos (-149)).le
      linarith
  have harea : 0 ≤ cellAreaFl fl gt := fl_nonneg hfl (mul_nonneg (abs_nonneg _) (abs_nonneg _))
  obtain ⟨items, s1, s2⟩ := C123_level hfl hfl32 hi hh hin hfit (fun c hc => hf32 c ((hgrid' c).2 hc)) harea
  obtain ⟨items', t1, t2, t3⟩ := hypsometryStatsFl_ok (fl := fl) (histogram := histogram) (res := res) hin.shape hin.top hin.range hin.used
    (fun zs zmin zmax s => BinsAround res zmin zmax s ∧ Hyps.Counted conv res zs zmax s)
    fun l cs hl hb hcs zmin zmax st g1 g2 g3 g4 => Hyps.labelHypsometryFl_spec hfl hh hb g1 g2 g3 g4 (hfit.cells hcs hb)
  rw [s1] at t1
  obtain rfl := Except.ok.inj t1
  obtain ⟨cells, hcs⟩ : ∃ cells : Nat → List Cell, ∀ l : Nat, CellsOf dem.rows dem.cols lab.get l (cells l) :=
    ⟨fun l => _, fun l => lists_filter _ _ _⟩
  have hmem : ∀ (l : Nat) (c : Cell), c ∈ cells l ↔ dem.Has c ∧ lab.get c = l := fun l c => (hcs l).2 c
  have hcs' : ∀ l : Nat, CellsOf lab.rows lab.cols lab.get l (cells l) := by rw [hrows.1, hrows.2]; exact hcs
  have hst : ∀ l : Nat, ∃ s, l ≤ n → items[l]? = some ((l : Int), s) ∧ (l = 0 → Hyps.IsBackground ((cells l).map zr.get) s) ∧
      (s.zhistogram.counts.length : Int) = s.zhistogram.bins.num_bins := by
    intro l
    by_cases hl : l ≤ n
    · obtain ⟨s, e1, e2, e3⟩ := t3 l (cells l) hl (hcs' l)
      refine ⟨s, fun _ => ⟨e1, fun h => e2 (by omega), ?_⟩⟩
      by_cases h0 : (l : Int) = 0
      · rw [(e2 h0).1]; rfl
      · obtain ⟨_, zmin, zmax, -, m1, m2, -⟩ := s2 l (cells l) hl h0 (hcs' l)
        exact (e3 h0 zmin zmax m1 m2).1.num_bins.symm
    · exact ⟨⟨⟨[], ⟨0, 0, 0, 0⟩⟩, ⊤, ⊥⟩, fun h => absurd h hl⟩
  choose st hst using hst
  -- the pour points
  have hpts : ∀ l : Nat, ∃ p, l ≤ n → out.bluespots.pourpoints[l]? = some p ∧
      ∃ ws, IsPourPointFl fl gt out.dem.depths.get l (cells l) ws p := by
    have : ∀ l : Nat, l ≤ n → ∃ p, out.bluespots.pourpoints[l]? = some p ∧
        ∃ ws, IsPourPointFl fl gt out.dem.depths.get l (cells l) ws p := by
      intro l hl
      obtain ⟨p, e1, e2, -⟩ := hb.points l (cells l) _ hl (by rw [hdsh.1, hdsh.2]; exact hcs l) (lists_filter _ _ _)
      exact ⟨p, e1, _, e2⟩
    intro l
    by_cases hl : l ≤ n
    · obtain ⟨p, hp⟩ := this l hl
      exact ⟨p, fun _ => hp⟩
    · obtain ⟨p, -⟩ := this 0 (by omega)
      exact ⟨p, fun h => absurd h hl⟩
  choose pt hpt using hpts
  have hvol : ∀ l ≤ n, (pt l).bspot_vol ≤ 2 ^ 500 := by
    intro l hl
    obtain ⟨_, ws, hp⟩ := hpt l hl
    rw [hp.vol]
    refine capacity_le hfl hcell (fun x hx => ?_) ?_
    · obtain ⟨c, hc, rfl⟩ := List.mem_map.1 hx
      have hc' := ((hmem l c).1 hc).1
      by_cases h0 : out.dem.depths.get c = 0
      · rw [h0]; norm_num
      · obtain ⟨_, e2⟩ := hbelow c hc' h0
        obtain ⟨x, hx, e3⟩ := hspillcell c hc'
        rw [hdep c hc', e3]
        have e4 : num (dem.get x) - num (dem.get c) ≤ (2 : Rat) ^ (120 : Int) := by
          have := hz x hx
          have h2 : (2 : Rat) ^ 20 * res ≤ 2 ^ 20 * 2 ^ 100 := mul_le_mul_of_nonneg_left hres.2 (by norm_num)
          have h3 : (2 : Rat) ^ 20 * 2 ^ 100 = 2 ^ (120 : Int) := by norm_num
          rw [h3] at h2
          linarith
        have := fl_mono hfl32 e4
        rw [fl_exact hfl32 (isFloat_pow (by norm_num) (by norm_num))] at this
        exact_mod_cast this
    · rw [List.length_map]
      have : (cells l).length ≤ dem.rows * dem.cols := by
        rw [← Flow.length_cellList]
        exact (List.subperm_of_subset ((hcs l).1.imp fun h e => by subst e; simp [Before] at h)
          fun x hx => Flow.mem_cellList.2 ((hmem l x).1 hx).1).length_le
      omega
  -- the bluespots
  have hspot : ∀ l, 1 ≤ l → l ≤ n → ∃ zmin zmax spill, ∃ level : Rat → Rat, IsMin ((cells l).map zr.get) zmin ∧ IsMax ((cells l).map zr.get) zmax ∧
      (∀ c ∈ cells l, IsSpillLevel dem.rows dem.cols dem.get c spill) ∧ (st l).zmin = zmin ∧
      ∀ v, 0 ≤ v → v ≤ (pt l).bspot_vol →
        Approx.waterLevelFl fl interp (st l) (cellAreaFl fl gt) (pt l).bspot_dmax (pt l).bspot_vol v = .ok (.num (level v)) ∧ IsF64 (level v) ∧
        zmin ≤ level v ∧ level v ≤ num spill * (1 + 1 / 2 ^ 22) ∧
        (v < (pt l).bspot_vol * (9998 / 10000) → level v ≤ zmax * (1 + 1 / 2 ^ 50)) ∧
        (v = (pt l).bspot_vol → ∀ z ∈ (cells l).map zr.get, z ≤ level v) := by
    intro l hl1 hl
    have hl0 : (l : Int) ≠ 0 := by omega
    obtain ⟨s, zmin, zmax, e1, m1, m2, e3⟩ := s2 l (cells l) hl hl0 (hcs' l)
    obtain ⟨q1, -, -⟩ := hst l hl
    rw [q1] at e1
    obtain rfl : st l = s := by simpa using e1
    obtain ⟨c0, hc0, hcl0⟩ := hlab.used l hl1 hl
    have hc0 := (hgrid c0).2 hc0
    have hm0 : c0 ∈ cells l := (hmem l c0).2 ⟨hc0, hcl0⟩
    obtain ⟨x, hx, hxe⟩ := hspillcell c0 hc0
    have hsp : ∀ c ∈ cells l, dem.Has c ∧ out.dem.filled.get c = dem.get x ∧ dem.get c < dem.get x := by
      intro c hc
      obtain ⟨hc', hcl⟩ := (hmem l c).1 hc
      have e : out.dem.filled.get c = dem.get x := by
        rw [← hxe]
        exact hflat c c0 ((hb.same c c0 ((hgrid c).1 hc') ((hgrid c0).1 hc0) (by rw [← hlabdef, hcl]; exact hl0)
          (by rw [hcl0]; exact hl0)).1 (by rw [← hlabdef, hcl, hcl0]))
      refine ⟨hc', e, ?_⟩
      rw [← e]
      exact (hbelow c hc' (hwet c hc' (by rw [hcl]; exact hl0))).1
    obtain ⟨_, ws, hp⟩ := hpt l hl
    obtain ⟨⟨c1, hc1, hd1⟩, hd2⟩ := hp.dmax (List.ne_nil_of_mem hm0)
    have hdmax : IsMax (((cells l).map zr.get).map fun z => fl32 (num (dem.get x) - z)) (out.dem.depths.get c1) := by
      have hdd : ∀ c ∈ cells l, out.dem.depths.get c = fl32 (num (dem.get x) - num (dem.get c)) := fun c hc => by
        rw [hdep c (hsp c hc).1, (hsp c hc).2.1]
      refine ⟨?_, fun z hz => ?_⟩
      · rw [List.map_map]
        exact List.mem_map.2 ⟨c1, hc1, (hdd c1 hc1).symm⟩
      · rw [List.map_map] at hz
        obtain ⟨c, hc, rfl⟩ := List.mem_map.1 hz
        have := hd2 ⟨c, hc, rfl⟩
        rw [hd1] at this
        have := WithBot.coe_le_coe.1 this
        rw [hdd c hc] at this
        exact this
    have e0 : (st l).zmin = zmin := by
      obtain ⟨s', f1, f2, f3⟩ := t3 l (cells l) hl (hcs' l)
      rw [q1] at f1
      obtain rfl : st l = s' := by simpa using f1
      exact (f3 hl0 zmin zmax m1 m2).1.zmin_eq
    by_cases hv0 : 0 ≤ (pt l).bspot_vol
    · obtain ⟨level, g1, -⟩ := e3 (num (dem.get x)) _ (hf32 x hx) (fun z hz => by
        obtain ⟨c, hc, rfl⟩ := List.mem_map.1 hz
        exact hlt (hsp c hc).1 hx (hsp c hc).2.2) hdmax (pt l).bspot_vol hv0
      refine ⟨zmin, zmax, dem.get x, level, m1, m2, fun c hc => ?_, e0, fun v v0 v1 => ?_⟩
      · rw [← (hsp c hc).2.1]
        exact (hcells c (hsp c hc).1).1
      · obtain ⟨a1, a2, a3, a4, a5, a6⟩ := g1 v v0 (v1.trans (hvol l hl))
        rw [hd1]
        exact ⟨a1, a2, a3, a4, a6, fun e => a5 e.ge⟩
    · refine ⟨zmin, zmax, dem.get x, fun _ => 0, m1, m2, fun c hc => ?_, e0, fun v v0 v1 => absurd (v0.trans v1) hv0⟩
      rw [← (hsp c hc).2.1]
      exact (hcells c (hsp c hc).1).1
  have hlevs : ∀ (l : Nat) (v : Rat), ∃ z, l ≤ n → 0 ≤ v → v ≤ (pt l).bspot_vol →
      Approx.waterLevelFl fl interp (st l) (cellAreaFl fl gt) (pt l).bspot_dmax (pt l).bspot_vol v = .ok z := by
    intro l v
    by_cases hl : l ≤ n ∧ 0 ≤ v ∧ v ≤ (pt l).bspot_vol
    · rcases Nat.eq_zero_or_pos l with h0 | h0
      · obtain ⟨-, q, -⟩ := hst l hl.1
        obtain ⟨_, ws, hp⟩ := hpt l hl.1
        obtain ⟨z, hz⟩ := background_levelFl (fl := fl) hi (q h0) (cellAreaFl fl gt) (pt l).bspot_vol v (pt l).bspot_dmax (fun he => by
          rw [hp.vol, List.map_eq_nil_iff.1 he]
          simp [sumFl, fl_zero hfl])
        exact ⟨z, fun _ _ _ => hz⟩
      · obtain ⟨_, _, _, level, _, _, _, _, e⟩ := hspot l h0 hl.1
        exact ⟨_, fun _ _ _ => (e v hl.2.1 hl.2.2).1⟩
    · exact ⟨.none, fun h1 h2 h3 => absurd ⟨h1, h2, h3⟩ hl⟩
  choose lev hlev using hlevs
  have hids : ∀ (i : Nat) (p : Feature Rat), (out.bluespots.pourpoints.map (·.feature))[i]? = some p →
      i ≤ n ∧ p.properties.get? "bspot_id" = some (.int i) := fun i p hp => by
    rw [List.getElem?_map, Option.map_eq_some_iff] at hp
    obtain ⟨p, hp, rfl⟩ := hp
    have hlt := (List.getElem?_eq_some_iff.1 hp).1
    obtain ⟨p', hp', hi, _⟩ := hb.points i _ _ (by have := hb.length; omega) (lists_filter _ _ _) (lists_filter _ _ _)
    rw [hp] at hp'; cases hp'
    refine ⟨by have := hb.length; omega, ?_⟩
    show some (Val.int p.bspot_id) = _
    rw [hi.bspot_id]
  have hperm' : ((R.filter fun r => r.nodetype = .pourpoint).map (·.id)).Perm ((List.range (n + 1)).map fun (i : Nat) => (i : Int)) := by
    have := hperm.map (·.1)
    rw [List.map_map, List.map_map] at this
    have e : (((out.bluespots.pourpoints.map fun p => (p.cell_row, p.cell_col)).zipIdx.map
        ((fun x : Int × Cell => x.1) ∘ fun x : Cell × Nat => ((x.2 : Int), x.1)))) =
        (List.range (n + 1)).map fun (i : Nat) => (i : Int) := by
      rw [hn, ← hb.length]
      have hz : ((out.bluespots.pourpoints.map fun p => (p.cell_row, p.cell_col)).zipIdx.map Prod.snd) =
          List.range out.bluespots.pourpoints.length := by
        rw [List.zipIdx_map_snd, List.length_map, List.range_eq_range']
      rw [← hz, List.map_map]; rfl
    rw [e] at this
    exact this
  obtain ⟨hyps, levels, kvs, r1, r2, r3, r4, r5, r6⟩ := levelsFl_of_final (fl := fl) (histogram := histogram) (interp := interp) (lab := lab)
    (dem := zr) (gt := gt) (fps := out.bluespots.pourpoints.map (·.feature)) (n := n) (res := res)
    (lt_of_lt_of_le (two_pos _) hres.1) hrows ⟨almostEqual_refl hfl _, almostEqual_refl hfl _⟩ htop'
    (by rw [List.length_map, hb.length]) hids s1 t2 (fun x hx => by
      obtain ⟨i, hi⟩ := List.mem_iff_getElem?.1 hx
      have hin : i ≤ n := by
        have h1 := (List.getElem?_eq_some_iff.1 hi).1
        have h2 := congrArg List.length t2
        simp at h2
        omega
      obtain ⟨q1, -, q2⟩ := hst i hin
      rw [hi] at q1
      obtain rfl := Option.some.inj q1
      exact q2) (st := st) (d := fun l => (pt l).bspot_dmax) (vol := fun l => (pt l).bspot_vol) (lev := lev) (fun l hl => (hst l hl).1)
    (fun l p hl hp => by
      rw [List.getElem?_map, (hpt l hl).1] at hp
      obtain rfl : (pt l).feature = p := by simpa using hp
      refine ⟨_, rfl, ?_, ⟨_, rfl, rfl⟩⟩
      cases h : (pt l).bspot_dmax using WithBot.recBotCoe with
      | bot => rfl
      | coe x => rfl) (fun l hl v => hlev l v hl) hR hperm' hsame (fun f hf => by
      obtain ⟨v, s, cap, g1, g2, g3, g4, g5, -⟩ := hcap f hf
      exact ⟨v, cap, g1, g3, g4, g5⟩)
  -- the levels
  set level : Int → Rat := fun i => (((kvs.get? i).getD .none).float.toOption).getD 0 with hleveldef
  have hkl : ∀ kv ∈ kvs, kv.1 ≠ 0 → ∃ l : Nat, kv.1 = l ∧ 1 ≤ l ∧ l ≤ n ∧ ∃ f ∈ out.final, ∃ g ∈ levels, ∃ v,
      f.properties.get? "nodetype" = some (.str "pourpoint") ∧ f.properties.get? "bspot_id" = some (.int l) ∧
      HasNumber f "v" v ∧ HasNumber f "bspot_vol" (pt l).bspot_vol ∧ 0 ≤ v ∧ v ≤ (pt l).bspot_vol ∧ kv.2 = .num (level l) ∧
      IsF64 (level l) ∧ ∃ zmin zmax spill, IsMin ((cells l).map zr.get) zmin ∧ IsMax ((cells l).map zr.get) zmax ∧
        (∀ c ∈ cells l, IsSpillLevel dem.rows dem.cols dem.get c spill) ∧
        IsLevelFeature (.num (level l)) (.num (fl (level l - zmin))) f g ∧
        zmin ≤ level l ∧ level l ≤ num spill * (1 + 1 / 2 ^ 22) ∧
        (v < (pt l).bspot_vol * (9998 / 10000) → level l ≤ zmax * (1 + 1 / 2 ^ 50)) ∧
        (v = (pt l).bspot_vol → ∀ z ∈ (cells l).map zr.get, z ≤ level l) := by
    intro kv hkv h0
    obtain ⟨l, e1, hl, f, hf, g, hg', v, c1, c2, c3, c4, c5, c6, c7, c8⟩ := r6 kv hkv
    have hl1 : 1 ≤ l := by omega
    obtain ⟨zmin, zmax, spill, lv, m1, m2, m3, m4, m5⟩ := hspot l hl1 hl
    obtain ⟨a1, a2, a3, a4, a5, a6⟩ := m5 v c5 c6
    have e2 : lev l v = .num (lv v) := by
      have := hlev l v hl c5 c6
      rw [a1] at this
      exact (Except.ok.inj this).symm
    have e3 : level l = lv v := by
      have : kvs.get? (l : Int) = some (.num (lv v)) := by
        rw [← e2, ← c7, ← e1]
        exact Dict.get?_of_mem r5 hkv
      simp only [hleveldef, this]
      rfl
    rw [e2, m4] at c8
    refine ⟨l, e1, hl1, hl, f, hf, g, hg', v, c1, c2, c3, c4, c5, c6, ?_, ?_, zmin, zmax, spill, m1, m2, m3, ?_, ?_⟩
    · rw [c7, e2, e3]
    · rw [e3]; exact a2
    · rw [e3]; exact c8
    · rw [e3]; exact ⟨a3, a4, a5, a6⟩
  have hcov : Covers kvs 0 n := by
    refine ⟨(r4 n).2 ⟨by omega, le_refl _⟩, fun k hk => ((r4 k).1 hk).2, fun l hl _ => ?_⟩
    obtain ⟨kv, hkv, e⟩ := List.mem_map.1 ((r4 l).2 ⟨by omega, by omega⟩)
    exact ⟨kv.2, by rw [← e]; exact Dict.get?_of_mem r5 hkv⟩
  obtain ⟨extent, depths, exact', x1, x2, x3, x4, x5⟩ := flooded_io (lab := lab) (dem := zr) (features := levels) (background := 0) (m := n)
    (kvs := kvs) (level := level) hfl (fun g hg' => by
      obtain ⟨i, hi, rfl⟩ := List.getElem_of_mem hg'
      exact ((List.forall₂_iff_get.1 r3).2 i hi (by rw [← r3.length_eq]; exact hi)).1) (r3.imp fun _ _ h => h.2) r5 (fun kv hkv => by
      obtain ⟨l, _, hl, _, _, _, _, v, _, _, _, _, c5, c6, c7, _⟩ := r6 kv hkv
      rw [c7]
      exact waterLevelFl_number (hlev l v hl c5 c6)) (fun kv hkv h0 => by
      obtain ⟨l, e1, _, _, _, _, _, _, v, _, _, _, _, _, _, e2, e3, _⟩ := hkl kv hkv h0
      rw [e1, e2]
      exact ⟨rfl, e3⟩) hcov hrange (fun c hc => f64_of_f32 (hf32 c ((hgrid' c).2 hc)))
  refine ⟨out, ⟨hyps, levels, some depths, some extent⟩, depths, extent, exact', level, ?_, h1, rfl, rfl, hrows.1, hrows.2,
    fun l cs hl1 hl hcsl => ?_, x2, x3, x4, fun c hc => x5 c ((hgrid' c).1 hc)⟩
  · unfold Complete.processWithLevelsFl
    refine Run.yields_bind h1 ?_
    refine Run.yields_bind (Run.yields_ofExcept' r1) ?_
    refine Run.yields_bind (Run.yields_ofExcept' r2) ?_
    refine Run.yields_bind (Run.yields_ofExcept' x1) ?_
    exact Run.yields_pure _
  · obtain rfl : cs = cells l := (cellsOf_iff.1 hcsl).trans (cellsOf_iff.1 (hcs l)).symm
    obtain ⟨kv, hkv, e⟩ := List.mem_map.1 ((r4 l).2 ⟨by omega, by omega⟩)
    obtain ⟨l', e1, _, _, f, hf, g, hg', v, c1, c2, c3, c4, c5, c6, _, _, zmin, zmax, spill, m1, m2, m3, m4, m5, m6, m7, m8⟩ :=
      hkl kv hkv (by omega)
    obtain rfl : l' = l := by omega
    obtain ⟨v', s, cap, g1, g2, g3, _, _, _, g4⟩ := hcap f hf
    obtain rfl := hasNumber_unique c3 g1
    obtain rfl := hasNumber_unique c4 g3
    refine ⟨zmin, zmax, spill, m1, m2, m3, f, hf, g, hg', v, s, _, c1, c2, c3, g2, c4, c5, c6, g4, m4, m5, m6, m7, fun hv c hc => ?_⟩
    have hle := m8 hv _ (List.mem_map.2 ⟨c, hc, rfl⟩)
    obtain ⟨hc', hcl⟩ := (hmem l' c).1 hc
    refine ⟨hle, ?_⟩
    rw [x2.wet c ((hgrid' c).1 hc') (by rw [hcl]; omega), hcl, if_pos hle]

/-- Non-vacuity for `C124_complete`: a DEM with a pit, cells of 1.6 m, 10 mm of rain and a resolution of 0.1. -/
theorem demo_levels : ∃ fl fl32 next cc w, IsRounding 53 (-1074) fl ∧ IsRounding 24 (-149) fl32 ∧ IsNextAfter next ∧ IsDem32 demo ∧
    demo.rows * demo.cols ≤ 2 ^ 50 ∧ LabelContract cc ∧ w = fl (16 / 10) ∧
    SquareCellsFl fl ⟨0, w, 0, 0, 0, -w⟩ ∧ FloatRain ⟨0, w, 0, 0, 0, -w⟩ 10 ∧ (|w| ≤ 2 ^ 100 ∧ |-w| ≤ 2 ^ 100) ∧
    (Interpolates fl fun x xp fp => interpPairs fl x (xp.zip fp)) ∧ HistogramCounts fl32 (Hyps.exactCounts fl32) ∧
    (2 ^ (-100 : Int) ≤ tenth ∧ tenth ≤ 2 ^ 100) ∧ (∀ c, demo.Has c → num (demo.get c) ≤ 2 ^ 20 * tenth) ∧
    ∀ c z, demo.Has c → IsSpillLevel demo.rows demo.cols demo.get c z → demo.get c < z → 0 ≤ num (demo.get c) := by
  obtain ⟨fl, h1⟩ := exists_rounding 53 (by norm_num) (-1074)
  obtain ⟨fl32, h2⟩ := exists_rounding 24 (by norm_num) (-149)
  obtain ⟨next, h3⟩ := exists_nextAfter
  obtain ⟨cc, h4⟩ := exists_labelContract
  have hw : (2 : Rat) ^ (-300 : Int) ≤ fl (16 / 10) := pow_le_fl h1 (by norm_num) (by norm_num)
    ((two_le.2 (show (-300 : Int) ≤ 0 by norm_num)).trans (by norm_num))
  have hw' : (2 : Rat) ^ (-300 : Int) ≤ |fl (16 / 10)| := hw.trans (le_abs_self _)
  have hu : |fl (16 / 10)| ≤ 2 ^ 100 := by
    rw [abs_of_nonneg ((two_pos _).le.trans hw)]
    have := fl_mono h1 (show (16 / 10 : Rat) ≤ 2 ^ (1 : Int) by norm_num)
    rw [fl_exact h1 (isFloat_pow (by norm_num) (by norm_num))] at this
    exact this.trans (by norm_num)
  refine ⟨fl, fl32, next, cc, _, h1, h2, h3, demo_dem32, by decide, h4, rfl, ?_, ⟨⟨(h1 _).1, hw'⟩, ⟨?_, ?_⟩, ?_⟩, ⟨hu, by rw [abs_neg]; exact hu⟩,
    interp_exists fl, counts32 h2, ?_, ?_, ?_⟩
  · unfold SquareCellsFl
    have hp : (2 : Rat) ^ (-7 : Int) ≤ fl (1 / 100) := pow_le_fl h1 (by norm_num) (by norm_num) (by norm_num)
    have hq : (2 : Rat) ^ (-400 : Int) ≤ fl (1 / 100) * |fl (16 / 10)| := by
      have := mul_le_mul hp hw' (two_pos _).le ((two_pos _).le.trans hp)
      rw [← zpow_add₀ (by norm_num)] at this
      exact (two_le.2 (by norm_num)).trans this
    have hr := (two_pos (-400)).trans_le (pow_le_fl h1 (by norm_num) (by norm_num) hq)
    simp only [abs_neg, sub_self, fl_zero h1, abs_zero]
    exact hr
  · exact isFloat_neg (h1 _).1
  · rw [abs_neg]; exact hw'
  · exact ⟨⟨10, 0, by norm_num, by norm_num, by norm_num⟩, .inr ((two_le.2 (show (-300 : Int) ≤ 0 by norm_num)).trans (by norm_num))⟩
  · unfold tenth; norm_num
  · intro c _
    unfold demo tenth
    simp only
    split_ifs
    · show (1 / 2 : Rat) ≤ _
      norm_num
    · show (10 : Rat) ≤ _
      norm_num
  · intro c z _ _ _
    unfold demo
    simp only
    split_ifs
    · show (0 : Rat) ≤ 1 / 2
      norm_num
    · show (0 : Rat) ≤ 10
      norm_num

end Float
end Malstroem
