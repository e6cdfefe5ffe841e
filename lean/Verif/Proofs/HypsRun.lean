import Verif.Proofs.Level
import Verif.Props.Label

set_option linter.unusedSectionVars false

namespace Malstroem
open Spec

theorem mapM_exists {α β : Type} {f : α → Except PyErr β} : ∀ {l : List α}, (∀ x ∈ l, ∃ y, f x = .ok y) →
    ∃ ys, l.mapM f = .ok ys ∧ List.Forall₂ (fun x y => f x = .ok y) l ys := by
  intro l
  induction l with
  | nil => intro _; exact ⟨[], rfl, .nil⟩
  | cons x l ih =>
    intro h
    obtain ⟨y, hy⟩ := h x (by simp)
    obtain ⟨ys, h1, h2⟩ := ih fun z hz => h z (List.mem_cons_of_mem _ hz)
    exact ⟨y :: ys, by rw [List.mapM_cons, hy, h1]; rfl, .cons hy h2⟩

theorem forall₂_get {α β : Type} {R : α → β → Prop} {l : List α} {m : List β} (h : List.Forall₂ R l m) {i : Nat} {x : α}
    (hx : l[i]? = some x) : ∃ y, m[i]? = some y ∧ R x y := by
  induction h generalizing i with
  | nil => simp at hx
  | cons hab _ ih =>
    cases i with
    | zero => simp at hx; subst hx; exact ⟨_, by simp, hab⟩
    | succ i => simpa using ih (by simpa using hx)

variable {K : Type} [Field K] [LinearOrder K] [IsStrictOrderedRing K] [FloorRing K]

theorem labelHypsometry_ok {res zmin zmax : K} {zs : List K} {background label : Int} {st : Label.Stat K}
    (hres : 0 < res) (hl : label ≠ background) (hmin : IsMin zs zmin) (hmax : IsMax zs zmax) (h1 : st.min = zmin)
    (h2 : st.max = zmax) :
    ∃ s, Hyps.labelHypsometry res background label st zs = .ok s ∧ Hyps.Roughly res zs zmin zmax s ∧
      (0 ≤ zmin → Hyps.Describes res zs zmin zmax s) := by
  have hzz : zmin ≤ zmax := hmin.2 _ hmax.1
  have hlt := histogramBins_lt (zmin := zmin) (zmax := zmax) hres
  obtain ⟨counts, hc1, hc2, hc3⟩ := npHistogram_spec (zs := zs)
    (n := (Hyps.histogramBins zmin zmax res).num_bins) (lo := (Hyps.histogramBins zmin zmax res).lower_bound)
    (histogramBins_pos hres hzz) hres fun z hz => lt_of_le_of_lt (hmax.2 z hz) hlt
  refine ⟨⟨⟨counts, Hyps.histogramBins zmin zmax res⟩, st.min, st.max⟩, ?_, ⟨h1, h2, rfl, hc2.symm, hc3,
    histogramBins_lower hres⟩, fun h0 => ⟨hmin, hmax, h1, h2, rfl, hc2.symm, ⟨hc3, ?_, ?_, ?_⟩, ⟨_, rfl⟩⟩⟩
  · unfold Hyps.labelHypsometry Hyps.labelHypsometryFl
    rw [if_neg hl, h1, h2]
    show (do let counts ← npHistogram zs (Hyps.histogramBins zmin zmax res).num_bins
                (Hyps.histogramBins zmin zmax res).lower_bound (Hyps.histogramBins zmin zmax res).upper_bound
             pure _ : Except PyErr (Hyps.Stats K)) = _
    rw [histogramBins_bounds]
    exact (congrArg (· >>= _) hc1).trans rfl
  · intro z hz
    exact le_trans ((histogramBins_lower hres).2 (.inl h0)) (hmin.2 z hz)
  · exact ⟨zmin, hmin.1, histogramBins_first hres⟩
  · refine ⟨zmax, hmax.1, ?_⟩
    rcases histogramBins_upper (zmin := zmin) (zmax := zmax) hres with h | h
    · exact h.1
    · exact absurd (le_trans h0 hzz) (not_le.2 h)

theorem isMin_of {dem : Raster K} {cs : List Cell} {m : WithTop K} {M : WithBot K}
    (h : IsLeast {x | ∃ c ∈ cs, x = (dem.get c : WithTop K)} m ∧
      IsGreatest {x | ∃ c ∈ cs, x = (dem.get c : WithBot K)} M) :
    ∃ zmin zmax : K, m = zmin ∧ M = zmax ∧ IsMin (cs.map dem.get) zmin ∧ IsMax (cs.map dem.get) zmax := by
  obtain ⟨⟨⟨c, hc, rfl⟩, h1⟩, ⟨d, hd, rfl⟩, h2⟩ := h
  refine ⟨_, _, rfl, rfl, ⟨List.mem_map_of_mem hc, fun z hz => ?_⟩, List.mem_map_of_mem hd, fun z hz => ?_⟩
  · obtain ⟨e, he, rfl⟩ := List.mem_map.1 hz
    exact WithTop.coe_le_coe.1 (h1 ⟨e, he, rfl⟩)
  · obtain ⟨e, he, rfl⟩ := List.mem_map.1 hz
    exact WithBot.coe_le_coe.1 (h2 ⟨e, he, rfl⟩)

theorem minmax_exists (dem : Raster K) {cs : List Cell} (hne : cs ≠ []) :
    ∃ zmin zmax : K, IsMin (cs.map dem.get) zmin ∧ IsMax (cs.map dem.get) zmax := by
  obtain ⟨_, _, f3, f4⟩ := Label.fold_stat dem cs
  rcases f4 with ⟨f4, _⟩ | ⟨⟨c, hc, f4⟩, d, hd, f5⟩
  · exact absurd f4 hne
  · obtain ⟨zmin, zmax, _, _, a, b⟩ := isMin_of (dem := dem) (cs := cs)
      ⟨⟨⟨c, hc, f4⟩, by rintro x ⟨e, he, rfl⟩; exact (f3 e he).1⟩,
        ⟨⟨d, hd, f5⟩, by rintro x ⟨e, he, rfl⟩; exact (f3 e he).2⟩⟩
    exact ⟨zmin, zmax, a, b⟩

theorem isMin_unique {zs : List K} {a b : K} (ha : IsMin zs a) (hb : IsMin zs b) : a = b :=
  le_antisymm (ha.2 _ hb.1) (hb.2 _ ha.1)

theorem isMax_unique {zs : List K} {a b : K} (ha : IsMax zs a) (hb : IsMax zs b) : a = b :=
  le_antisymm (hb.2 _ ha.1) (ha.2 _ hb.1)

theorem labelStatsFl_extremes (fl : K → K) (data : Raster K) {lab : Raster Int} {nl : Option Int} {n : Nat}
    (hs : data.rows = lab.rows ∧ data.cols = lab.cols) (hn : TopLabel lab.rows lab.cols lab.get nl n)
    (hr : LabelsIn lab.rows lab.cols lab.get n) :
    ∃ stats, Label.labelStatsFl fl data lab nl = .ok stats ∧ stats.length = n + 1 ∧
      ∀ (l : Nat) (cs : List Cell), l ≤ n → CellsOf lab.rows lab.cols lab.get l cs →
        ∃ s, stats[l]? = some s ∧ (cs = [] → s.min = ⊤ ∧ s.max = ⊥) ∧
          (cs ≠ [] → IsLeast {x | ∃ c ∈ cs, x = (data.get c : WithTop K)} s.min ∧
            IsGreatest {x | ∃ c ∈ cs, x = (data.get c : WithBot K)} s.max) := by
  obtain ⟨st, h1, h2, h3⟩ := Label.labelStats_ok fl data hs hn hr
  refine ⟨st, h1, h2, fun l cs hl hcs => ?_⟩
  obtain ⟨-, -, f3, f4⟩ := Label.fold_statFl fl data cs
  refine ⟨_, h3 l cs hl hcs, fun he => ?_, fun hne => ?_⟩
  · subst he; exact ⟨rfl, rfl⟩
  · rcases f4 with ⟨f4, _⟩ | ⟨⟨c, hc, f4⟩, d, hd, f5⟩
    · exact absurd f4 hne
    · exact ⟨⟨⟨c, hc, f4⟩, by rintro x ⟨e, he, rfl⟩; exact (f3 e he).1⟩,
        ⟨⟨d, hd, f5⟩, by rintro x ⟨e, he, rfl⟩; exact (f3 e he).2⟩⟩

theorem hypsometryStatsFl_ok {fl : K → K} {histogram : List K → Int → K → K → Except PyErr (List Int)} {lab : Raster Int} {dem : Raster K} {res : K} {labels_max : Option Int} {background : Int}
    {n : Nat} (hshape : dem.rows = lab.rows ∧ dem.cols = lab.cols)
    (hn : TopLabel lab.rows lab.cols lab.get labels_max n) (hr : LabelsIn lab.rows lab.cols lab.get n)
    (hused : ∀ l : Nat, l ≤ n → (l : Int) ≠ background → ∃ c, InGrid lab.rows lab.cols c ∧ lab.get c = l)
    (P : List K → K → K → Hyps.Stats K → Prop)
    (hP : ∀ (l : Nat) (cs : List Cell), l ≤ n → (l : Int) ≠ background → CellsOf lab.rows lab.cols lab.get l cs → ∀ zmin zmax st,
      IsMin (cs.map dem.get) zmin → IsMax (cs.map dem.get) zmax → st.min = ((zmin : K) : WithTop K) → st.max = ((zmax : K) : WithBot K) →
      ∃ s, Hyps.labelHypsometryFl fl histogram res background l st (cs.map dem.get) = .ok s ∧ P (cs.map dem.get) zmin zmax s) :
    ∃ out, Hyps.hypsometryStatsFl fl histogram lab dem res labels_max background = .ok out ∧
      out.map (·.1) = ((List.range (n + 1)).map fun (l : Nat) => (l : Int)) ∧
      ∀ (l : Nat) (cs : List Cell), l ≤ n → CellsOf lab.rows lab.cols lab.get l cs → ∃ s, out[l]? = some ((l : Int), s) ∧
        ((l : Int) = background → Hyps.IsBackground (cs.map dem.get) s) ∧
        ((l : Int) ≠ background → ∀ zmin zmax, IsMin (cs.map dem.get) zmin → IsMax (cs.map dem.get) zmax →
          P (cs.map dem.get) zmin zmax s) := by
  obtain ⟨lm, hlm, hn'⟩ : ∃ lm, (match labels_max with | none => Label.npMax lab | some m => pure m) = .ok lm ∧
      TopLabel lab.rows lab.cols lab.get (some lm) n := by
    cases labels_max with
    | none =>
      rcases hn with ⟨h, _⟩ | ⟨_, hg⟩
      · cases h
      · refine ⟨n, Label.npMax_spec hg, ?_⟩
        by_cases h0 : (n : Int) = 0
        · exact .inr ⟨.inr (by rw [h0]), hg⟩
        · exact .inl ⟨rfl, h0⟩
    | some m => exact ⟨m, rfl, hn⟩
  obtain ⟨stats, hs1, hs2, hs3⟩ := labelStatsFl_extremes fl dem hshape hn' hr
  obtain ⟨lists, hd1, hd2, hd3⟩ := C26_label_data dem lab (some lm) background n hn' hr
  have hstep : ∀ (l : Nat) (cs : List Cell), l ≤ n → CellsOf lab.rows lab.cols lab.get l cs → ∃ data st s,
      lists[l]? = some data ∧ stats[l]? = some st ∧ Hyps.labelHypsometryFl fl histogram res background l st data = .ok s ∧
        ((l : Int) = background → Hyps.IsBackground (cs.map dem.get) s) ∧
        ((l : Int) ≠ background → ∀ zmin zmax, IsMin (cs.map dem.get) zmin → IsMax (cs.map dem.get) zmax →
          P (cs.map dem.get) zmin zmax s) := by
    intro l cs hl hcs
    obtain ⟨st, hst, he, hne⟩ := hs3 l cs hl hcs
    have hdat := hd3 l cs hl hcs
    by_cases hb : (l : Int) = background
    · refine ⟨_, st, ⟨⟨[], ⟨0, 0, 0, -1⟩⟩, st.min, st.max⟩, hdat, hst, ?_, fun _ => ⟨rfl, fun h => ?_, fun h => ?_⟩,
        fun h => absurd hb h⟩
      · unfold Hyps.labelHypsometryFl; rw [if_pos hb]
      · exact he (by simpa using h)
      · obtain ⟨zmin, zmax, a, b, c, d⟩ := isMin_of (hne (by simpa using h))
        exact ⟨zmin, zmax, a, b, c, d⟩
    · have hcne : cs ≠ [] := by
        obtain ⟨c, hc1, hc2⟩ := hused l hl hb
        exact List.ne_nil_of_mem ((hcs.2 c).2 ⟨hc1, hc2⟩)
      obtain ⟨zmin, zmax, a, b, c, d⟩ := isMin_of (hne hcne)
      obtain ⟨s, e1, e2⟩ := hP l cs hl hb hcs zmin zmax st c d a b
      rw [if_neg hb] at hdat
      refine ⟨_, st, s, hdat, hst, e1, fun h => absurd h hb, fun _ zmin' zmax' h1 h2 => ?_⟩
      rw [isMin_unique h1 c, isMax_unique h2 d]
      exact e2
  obtain ⟨out, ho1, ho2⟩ := mapM_exists (l := lists.zipIdx) (f := fun (x : List K × Nat) => do
      let st ← pyGet stats (x.2 : Int)
      let s ← Hyps.labelHypsometryFl fl histogram res background x.2 st x.1
      pure ((x.2 : Int), s)) (by
    rintro ⟨data, l⟩ hx
    have hl : lists[l]? = some data := List.mem_zipIdx_iff_getElem?.1 hx
    have hln : l ≤ n := by
      have := (List.getElem?_eq_some_iff.1 hl).1
      omega
    obtain ⟨data', st, s, h1, h2, h3, _⟩ := hstep l _ hln (lists_filter _ _ _)
    rw [hl] at h1; cases h1
    refine ⟨((l : Int), s), ?_⟩
    simp only [pyGet_of_range h2, bind, Except.bind, h3]; rfl)
  have hget : ∀ l ≤ n, ∃ data st s, lists[l]? = some data ∧ stats[l]? = some st ∧
      Hyps.labelHypsometryFl fl histogram res background l st data = .ok s ∧ out[l]? = some ((l : Int), s) := by
    intro l hl
    obtain ⟨data, st, s, h1, h2, h3, _⟩ := hstep l _ hl (lists_filter _ _ _)
    refine ⟨data, st, s, h1, h2, h3, ?_⟩
    have hz : lists.zipIdx[l]? = some (data, l) := by rw [List.getElem?_zipIdx, h1]; simp
    obtain ⟨y, hy1, hy2⟩ := forall₂_get ho2 hz
    simp only [pyGet_of_range h2, bind, Except.bind, h3, pure, Except.pure] at hy2
    cases hy2
    exact hy1
  refine ⟨out, ?_, ?_, fun l cs hl hcs => ?_⟩
  · unfold Hyps.hypsometryStatsFl
    cases labels_max with
    | none =>
      have hlm : Label.npMax lab = .ok lm := hlm
      simp only [hlm, bind, Except.bind, hs1, hd1]
      exact ho1
    | some m =>
      cases hlm
      simp only [bind, Except.bind, pure, Except.pure, hs1, hd1]
      exact ho1
  · apply List.ext_getElem?
    intro l
    have hlen : out.length = n + 1 := by rw [← ho2.length_eq, List.length_zipIdx, hd2]
    rw [List.getElem?_map, List.getElem?_map]
    by_cases hl : l ≤ n
    · obtain ⟨_, _, s, _, _, _, h⟩ := hget l hl
      rw [h, List.getElem?_range (by omega)]; rfl
    · rw [List.getElem?_eq_none (by omega), List.getElem?_eq_none (by simp; omega)]; rfl
  · obtain ⟨data, st, s, h1, h2, h3, h4, h5⟩ := hstep l cs hl hcs
    obtain ⟨data', st', s', g1, g2, g3, g4⟩ := hget l hl
    rw [h1] at g1; cases g1
    rw [h2] at g2; cases g2
    rw [h3] at g3; cases g3
    exact ⟨s, g4, h4, h5⟩

theorem hypsometryStats_ok {lab : Raster Int} {dem : Raster K} {res : K} {labels_max : Option Int} {background : Int}
    {n : Nat} (hres : 0 < res) (hshape : dem.rows = lab.rows ∧ dem.cols = lab.cols)
    (hn : TopLabel lab.rows lab.cols lab.get labels_max n) (hr : LabelsIn lab.rows lab.cols lab.get n)
    (hused : ∀ l : Nat, l ≤ n → (l : Int) ≠ background → ∃ c, InGrid lab.rows lab.cols c ∧ lab.get c = l) :
    ∃ out, Hyps.hypsometryStats lab dem res labels_max background = .ok out ∧
      out.map (·.1) = ((List.range (n + 1)).map fun (l : Nat) => (l : Int)) ∧
      ∀ (l : Nat) (cs : List Cell), l ≤ n → CellsOf lab.rows lab.cols lab.get l cs → ∃ s, out[l]? = some ((l : Int), s) ∧
        ((l : Int) = background → Hyps.IsBackground (cs.map dem.get) s) ∧
        ((l : Int) ≠ background → ∀ zmin zmax, IsMin (cs.map dem.get) zmin → IsMax (cs.map dem.get) zmax →
          Hyps.Roughly res (cs.map dem.get) zmin zmax s ∧
          (0 ≤ zmin → Hyps.Describes res (cs.map dem.get) zmin zmax s)) := by
  obtain ⟨out, h1, h2, h3⟩ := hypsometryStatsFl_ok (fl := id) (histogram := npHistogram) (background := background) (res := res) hshape hn
    hr hused (fun zs zmin zmax s => Hyps.Roughly res zs zmin zmax s ∧ (0 ≤ zmin → Hyps.Describes res zs zmin zmax s))
    fun l cs hl hb hcs zmin zmax st h1 h2 h3 h4 => labelHypsometry_ok hres hb h1 h2 h3 h4
  exact ⟨out, h1, h2, h3⟩

theorem background_valid {zs : List K} {s : Hyps.Stats K} (h : Hyps.IsBackground zs s) :
    Hyps.assertValid s = .ok () := by
  unfold Hyps.assertValid
  rw [h.1]
  simp [Hyps.almostEqual]

theorem roughly_valid {res zmin zmax : K} {zs : List K} {s : Hyps.Stats K} (hres : 0 < res)
    (h : Hyps.Roughly res zs zmin zmax s) : Hyps.assertValid s = .ok () := by
  unfold Hyps.assertValid
  rw [if_neg (by rw [h.num_bins]; simp), h.resolution, h.num_bins, h.above.upper_eq]
  have h0 : 0 ≤ (s.zhistogram.counts.length : K) * res := by positivity
  rw [if_neg (by simp only [not_not]; linarith)]
  have e : (s.zhistogram.bins.lower_bound + (s.zhistogram.counts.length : K) * res - s.zhistogram.bins.lower_bound) / res
      = (s.zhistogram.counts.length : K) := by rw [add_sub_cancel_left]; field_simp
  simp only [e, Hyps.almostEqual, Int.cast_natCast, sub_self, abs_zero]
  norm_num

end Malstroem
