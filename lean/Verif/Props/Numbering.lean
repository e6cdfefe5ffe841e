/-
Property C111: the numbers of the bluespots do not matter. All arithmetic is exact.
-/
import Verif.Spec.Numbering
import Verif.Props.Direct

set_option linter.unusedSectionVars false

namespace Malstroem
open Spec

/-! ### Labels -/

section Labels
variable {rows cols : Nat} {wet : Cell → Prop} {lab lab' : Cell → Int} {n n' : Nat}

theorem renumbering_le (h : IsLabelling rows cols wet lab n) (h' : IsLabelling rows cols wet lab' n') :
    ∃ σ : Nat → Nat, σ 0 = 0 ∧ (∀ l ≤ n, σ l ≤ n') ∧ (∀ a ≤ n, ∀ b ≤ n, σ a = σ b → a = b) ∧
      ∀ c, InGrid rows cols c → lab' c = σ (lab c).toNat := by
  classical
  have hex : ∀ l : Nat, ∃ c, 1 ≤ l → l ≤ n → InGrid rows cols c ∧ lab c = l := by
    intro l
    by_cases hl : 1 ≤ l ∧ l ≤ n
    · obtain ⟨c, h1⟩ := h.used l hl.1 hl.2
      exact ⟨c, fun _ _ => h1⟩
    · exact ⟨(0, 0), fun h1 h2 => absurd ⟨h1, h2⟩ hl⟩
  choose cell hcell using hex
  have hwet : ∀ l, 1 ≤ l → l ≤ n → wet (cell l) := by
    intro l h1 h2
    obtain ⟨h3, h4⟩ := hcell l h1 h2
    by_contra hw
    have := (h.background _ h3).2 hw
    omega
  have hpos : ∀ l, 1 ≤ l → l ≤ n → 1 ≤ (lab' (cell l)).toNat := by
    intro l h1 h2
    obtain ⟨h3, _⟩ := hcell l h1 h2
    have h4 : lab' (cell l) ≠ 0 := fun e => (h'.background _ h3).1 e (hwet l h1 h2)
    have := (h'.range _ h3).1
    omega
  have hsame : ∀ c, InGrid rows cols c → wet c → lab' c = lab' (cell (lab c).toNat) := by
    intro c hc hw
    have hr := h.range c hc
    have h0 : lab c ≠ 0 := fun e => (h.background c hc).1 e hw
    have hl : 1 ≤ (lab c).toNat ∧ (lab c).toNat ≤ n := by omega
    obtain ⟨h3, h4⟩ := hcell _ hl.1 hl.2
    have hw' := hwet _ hl.1 hl.2
    exact (h'.same _ _ hc h3 hw hw').2 ((h.same _ _ hc h3 hw hw').1 (by omega))
  refine ⟨fun l => if l = 0 then 0 else (lab' (cell l)).toNat, by simp, fun l hl => ?_, fun a ha b hb e => ?_, fun c hc => ?_⟩
  · by_cases h0 : l = 0
    · simp [h0]
    · have := h'.range _ (hcell l (by omega) hl).1
      simp only [h0, if_false]; omega
  · simp only at e
    by_cases ha0 : a = 0 <;> by_cases hb0 : b = 0
    · omega
    · have := hpos b (by omega) hb
      rw [if_pos ha0, if_neg hb0] at e; omega
    · have := hpos a (by omega) ha
      rw [if_neg ha0, if_pos hb0] at e; omega
    · rw [if_neg ha0, if_neg hb0] at e
      obtain ⟨a1, a2⟩ := hcell a (by omega) ha
      obtain ⟨b1, b2⟩ := hcell b (by omega) hb
      have ra := h'.range _ a1
      have rb := h'.range _ b1
      have wa := hwet a (by omega) ha
      have wb := hwet b (by omega) hb
      have := (h.same _ _ a1 b1 wa wb).2 ((h'.same _ _ a1 b1 wa wb).1 (by omega))
      omega
  · by_cases hw : wet c
    · have h0 : lab c ≠ 0 := fun e => (h.background c hc).1 e hw
      have hr := h.range c hc
      have hr' := h'.range c hc
      have : (lab c).toNat ≠ 0 := by omega
      simp only [this, if_false]
      rw [← hsame c hc hw]; omega
    · rw [(h.background c hc).2 hw, (h'.background c hc).2 hw]; rfl

/-- Two labellings of the same set differ by the numbers only. -/
theorem renumbering (h : IsLabelling rows cols wet lab n) (h' : IsLabelling rows cols wet lab' n') :
    n' = n ∧ ∃ σ, IsRenumbering n σ ∧ ∀ c, InGrid rows cols c → lab' c = σ (lab c).toNat := by
  have hle : ∀ {a b : Nat} {σ : Nat → Nat}, (∀ l ≤ a, σ l ≤ b) → (∀ x ≤ a, ∀ y ≤ a, σ x = σ y → x = y) → a ≤ b := by
    intro a b σ h1 h2
    have := Finset.card_le_card_of_injOn (s := Finset.range (a + 1)) (t := Finset.range (b + 1)) σ
      (fun x hx => by simp at hx ⊢; have := h1 x (by omega); omega)
      (fun x hx y hy e => by simp at hx hy; exact h2 x (by omega) y (by omega) e)
    simpa using this
  obtain ⟨σ, s0, s1, s2, s3⟩ := renumbering_le h h'
  obtain ⟨τ, t0, t1, t2, t3⟩ := renumbering_le h' h
  have e : n' = n := le_antisymm (hle t1 t2) (hle s1 s2)
  exact ⟨e, σ, ⟨s0, fun l hl => e ▸ s1 l hl, s2⟩, s3⟩

theorem Spec.IsRenumbering.eq_zero {σ : Nat → Nat} (h : IsRenumbering n σ) {l : Nat} (hl : l ≤ n) : σ l = 0 ↔ l = 0 :=
  ⟨fun e => h.injective l hl 0 (Nat.zero_le _) (e.trans h.zero.symm), fun e => e ▸ h.zero⟩

theorem Spec.IsRenumbering.perm {σ : Nat → Nat} (h : IsRenumbering n σ) : ((List.range (n + 1)).map σ).Perm (List.range (n + 1)) := by
  have hnd : ((List.range (n + 1)).map σ).Nodup := List.Nodup.map_on (fun x hx y hy e => by
    rw [List.mem_range] at hx hy
    exact h.injective x (by omega) y (by omega) e) List.nodup_range
  refine (List.subperm_of_subset hnd fun x hx => ?_).perm_of_length_le (by simp)
  obtain ⟨l, hl, rfl⟩ := List.mem_map.1 hx
  have := h.range l (by rw [List.mem_range] at hl; omega)
  rw [List.mem_range]; omega

end Labels

/-! ### The flow -/

section Flow
variable {rows cols : Nat} {fd : Cell → Nat} {lab lab' : Cell → Int} {n : Nat} {σ : Nat → Nat}

theorem firstLabel_unique {un : Int} {c : Cell} {a b : Int} (h : FirstLabel rows cols fd lab un c a) :
    FirstLabel rows cols fd lab un c b → a = b := by
  induction h with
  | here hc =>
    intro h
    cases h with
    | here _ => rfl
    | next h _ _ => exact absurd h hc
    | out h _ => exact absurd h hc
  | next hc hs _ ih =>
    intro h
    cases h with
    | here h => exact absurd hc h
    | next _ hs' h =>
      have : (_ : Cell) = _ := (Flow.flowsTo_iff.1 hs'.2.2).2.trans (Flow.flowsTo_iff.1 hs.2.2).2.symm
      exact ih (this ▸ h)
    | out _ h => exact absurd hs (h _)
  | out hc hs =>
    intro h
    cases h with
    | here h => exact absurd hc h
    | next _ hs' _ => exact absurd hs' (hs _)
    | out _ _ => rfl

variable (hσ : IsRenumbering n σ) (hr : ∀ c, InGrid rows cols c → 0 ≤ lab c ∧ lab c ≤ n)
  (hl : ∀ c, InGrid rows cols c → lab' c = σ (lab c).toNat)
include hσ hr hl

theorem renumbered_zero {c : Cell} (hc : InGrid rows cols c) : lab' c = 0 ↔ lab c = 0 := by
  have := hr c hc
  rw [hl c hc, Int.natCast_eq_zero, hσ.eq_zero (by omega)]
  omega

theorem renumbered_eq {c d : Cell} (hc : InGrid rows cols c) (hd : InGrid rows cols d) : lab' c = lab' d ↔ lab c = lab d := by
  have h1 := hr c hc
  have h2 := hr d hd
  rw [hl c hc, hl d hd, Int.natCast_inj]
  constructor
  · intro e
    have := hσ.injective _ (by omega) _ (by omega) e
    omega
  · intro e; rw [e]

theorem renumbered_cells {l : Nat} (hln : l ≤ n) {cs : List Cell} (h : CellsOf rows cols lab l cs) :
    CellsOf rows cols lab' (σ l) cs := by
  refine ⟨h.1, fun c => (h.2 c).trans (and_congr_right fun hc => ?_)⟩
  have := hr c hc
  simp only
  rw [hl c hc, Int.natCast_inj]
  constructor
  · intro e; rw [e]; rfl
  · intro e
    have := hσ.injective _ (by omega) _ hln e
    omega

theorem renumbered_first {c : Cell} (hc : InGrid rows cols c) {v : Int} (h : FirstLabel rows cols fd lab 0 c v) :
    FirstLabel rows cols fd lab' 0 c (σ v.toNat) := by
  induction h with
  | @here c h =>
    rw [← hl c hc]
    exact .here fun e => h ((renumbered_zero hσ hr hl hc).1 e)
  | next h hs _ ih => exact .next ((renumbered_zero hσ hr hl hc).2 h) hs (ih hs.2.1)
  | out h hs =>
    rw [show ((σ (0 : Int).toNat : Nat) : Int) = 0 by simp [hσ.zero]]
    exact .out ((renumbered_zero hσ hr hl hc).2 h) hs

theorem renumbered_next {c : Cell} (hc : InGrid rows cols c) {d : Option Int} {g : List Cell}
    (h : NextLabel rows cols fd lab (some 0) c d g) :
    NextLabel rows cols fd lab' (some 0) c (d.map fun x => (σ x.toNat : Int)) g := by
  obtain ⟨l, ht, h⟩ := h
  have hf : ∀ y ∈ l, Foreign lab' (some 0) (lab' c) y ↔ Foreign lab (some 0) (lab c) y := by
    intro y hy
    have hy := ht.inside y hy
    unfold Foreign
    simp only [Ne, Option.some.injEq, renumbered_eq hσ hr hl hy hc, renumbered_zero hσ hr hl hy]
  refine ⟨l, ht, ?_⟩
  rcases h with ⟨pre, x, post, rfl, h1, h2, rfl, h3⟩ | ⟨h1, rfl, h2⟩
  · refine .inl ⟨pre, x, post, rfl, fun y hy => (hf y (by simp [hy])).not.2 (h1 y hy), (hf x (by simp)).2 h2, ?_, h3⟩
    rw [hl x (ht.inside x (by simp))]; rfl
  · exact .inr ⟨fun y hy => (hf y hy).not.2 (h1 y hy), rfl, h2⟩

end Flow

theorem next_facts {rows cols : Nat} {fd : Cell → Nat} {lab : Cell → Int} {γ : Type} [LinearOrder γ] {rank : Cell → γ}
    {pps : List Cell} (h : LowestOutlets rows cols fd lab rank pps) {p : Cell} {l : Int} {g : List Cell}
    (hn : NextLabel rows cols fd lab (some 0) p (some l) g) :
    ∃ x, InGrid rows cols x ∧ lab x = l ∧ ∀ q, pps[l.toNat]? = some q → rank q < rank p := by
  obtain ⟨t, ht, h1⟩ := hn
  rcases h1 with ⟨pre, x, post, rfl, _, h2, h3, -⟩ | ⟨_, h2, _⟩
  · have hx := ht.inside x (by simp)
    cases h3
    refine ⟨x, hx, rfl, fun q hq => ?_⟩
    have hpre : pre ≠ [] := by
      rintro rfl
      have := ht.head
      simp only [List.nil_append, List.head?_cons, Option.some.injEq] at this
      rw [this] at h2
      exact h2.1 rfl
    have hlt : rank x < rank p := Net.lower_target (flowdir := ⟨rows, cols, fd⟩) (labeled := ⟨rows, cols, lab⟩) h
      (g := pre ++ [x]) (List.IsChain.prefix ht.chain ⟨post, by simp⟩) (fun y hy => ht.inside y (by
        rcases List.mem_append.1 hy with hy | hy
        · simp [hy]
        · simp at hy; simp [hy])) (by
        have := ht.head
        cases pre with
        | nil => exact absurd rfl hpre
        | cons a t => simpa using this) (by simp) (by
        have := List.length_pos_of_ne_nil hpre
        simp; omega)
    refine lt_of_le_of_lt ?_ hlt
    exact Net.lowest_le (flowdir := ⟨rows, cols, fd⟩) (labeled := ⟨rows, cols, lab⟩) h hq hx (by
      have := (h.covers x hx).1
      show lab x = _
      omega)
  · cases h2

/-! ### The water -/

section Water
variable {K : Type} [Field K] [LinearOrder K] [IsStrictOrderedRing K]

/-- There is only one final state if the water runs down. -/
theorem finalState_unique {n : Nat} {next : Nat → Option Int} {water cap v v' spill spill' : Nat → K} {γ : Type} [LinearOrder γ]
    (rank : Nat → γ) (hrank : ∀ k ≤ n, ∀ l ≤ n, next k = some (l : Int) → rank l < rank k)
    (h : FinalState n next water cap v spill) (h' : FinalState n next water cap v' spill') :
    ∀ l ≤ n, v' l = v l ∧ spill' l = spill l := by
  classical
  by_contra hbad
  push Not at hbad
  obtain ⟨l0, hl0, hb0⟩ := hbad
  let bad := (Finset.range (n + 1)).filter fun l => ¬ (v' l = v l ∧ spill' l = spill l)
  obtain ⟨l, hl, hmax⟩ := bad.exists_max_image rank ⟨l0, by
    simp only [bad, Finset.mem_filter, Finset.mem_range]
    exact ⟨by omega, fun e => hb0 e.1 e.2⟩⟩
  simp only [bad, Finset.mem_filter, Finset.mem_range] at hl hmax
  apply hl.2
  have hc : comesTo n next water spill' l = comesTo n next water spill l := by
    unfold comesTo
    congr 2
    refine List.map_congr_left fun k hk => ?_
    obtain ⟨h1, h2⟩ := List.mem_filter.1 hk
    rw [List.mem_range] at h1
    by_contra hne
    have := hmax k ⟨h1, fun e => hne e.2⟩
    exact absurd (hrank k (by omega) l (by omega) (by simpa using h2)) (not_lt.2 this)
  obtain ⟨a1, a2⟩ := h l (by omega)
  obtain ⟨b1, b2⟩ := h' l (by omega)
  rw [b1, b2, hc, a1, a2]
  exact ⟨rfl, rfl⟩

theorem finalState_renumbered {n : Nat} {σ : Nat → Nat} (hσ : IsRenumbering n σ) {next next' : Nat → Option Int}
    {water cap water' cap' v spill : Nat → K} (hrange : ∀ k ≤ n, ∀ d, next k = some d → 0 ≤ d ∧ d ≤ n)
    (hnext : ∀ l ≤ n, next' (σ l) = (next l).map fun x => (σ x.toNat : Int))
    (hw : ∀ l ≤ n, water' (σ l) = water l) (hc : ∀ l ≤ n, cap' (σ l) = cap l)
    (h : FinalState n next' water' cap' v spill) :
    FinalState n next water cap (fun l => v (σ l)) fun l => spill (σ l) := by
  intro l hl
  have hin : comesTo n next' water' spill (σ l) = comesTo n next water (fun l => spill (σ l)) l := by
    unfold comesTo
    rw [hw l hl]
    congr 1
    have hp := (hσ.perm.filter fun k => decide (next' k = some (σ l : Int))).map spill
    rw [← hp.sum_eq, List.filter_map, List.map_map]
    congr 2
    refine List.filter_congr fun k hk => ?_
    rw [List.mem_range] at hk
    simp only [Function.comp_apply]
    rw [decide_eq_decide, hnext k (by omega)]
    cases hd : next k with
    | none => simp
    | some d =>
      obtain ⟨h1, h2⟩ := hrange k (by omega) d hd
      simp only [Option.map_some, Option.some.injEq, Int.natCast_inj]
      constructor
      · intro e
        have := hσ.injective _ (by omega) _ hl e
        omega
      · intro e; rw [e]; rfl
  have := h (σ l) (hσ.range l hl)
  rw [hin, hc l hl] at this
  exact this

end Water

/-! ### The chain -/

section Complete
variable {K : Type} [Field K] [LinearOrder K] [IsStrictOrderedRing K] {β : Type} [LinearOrder β] [OrderTop β]
variable {drop : β → β → K} {sub : β → β → K} {scale : K → K} {safe : Raster β → (β → β) × (β → β)}
  {gt : GeoTransform K} {dem : Raster β} {cc cc' : Raster Bool → Raster Int × Nat}

theorem rule_unique (rule : PourPointRule β) {cs : List Cell} {x y : Cell} (hx : rule.Chooses cs x) (hy : rule.Chooses cs y) :
    y = x := by
  cases rule with
  | maxAccum a =>
    have hx : IsFirstMax a.get cs x := hx
    have hy : IsFirstMax a.get cs y := hy
    have e := le_antisymm (hx.2.1 y hy.1) (hy.2.1 x hx.1)
    rcases hx.2.2 y hy.1 e with h | h
    · exact h
    · rcases hy.2.2 x hx.1 e.symm with h' | h'
      · exact h'.symm
      · exact absurd (before_trans h h') (before_irrefl _)
  | minFilled _ nf =>
    have hx : IsFirstMin nf.get cs x := hx
    have hy : IsFirstMin nf.get cs y := hy
    have e := le_antisymm (hy.2.1 x hx.1) (hx.2.1 y hy.1)
    rcases hx.2.2 y hy.1 e with h | h
    · exact h
    · rcases hy.2.2 x hx.1 e.symm with h' | h'
      · exact h'.symm
      · exact absurd (before_trans h h') (before_irrefl _)

/-- Two runs on the same results of DemTool. -/
theorem same_but_numbers {mm : K} {f : Bluespots.StatUnits K → Bool} {d : Dem.Out β K} {rule : PourPointRule β}
    {out out' : Complete.Out β K} {point point' : Nat → Cell} {next next' : Nat → Option Int} {v v' spill spill' : Nat → K}
    (hd : out.dem = d) (hd' : out'.dem = d) (hsh : d.depths.rows = dem.rows ∧ d.depths.cols = dem.cols)
    (h : ReportsState dem.rows dem.cols gt mm out point next v spill)
    (h' : ReportsState dem.rows dem.cols gt mm out' point' next' v' spill')
    (hres : Bluespots.IsResult gt d.depths f d.flowdir rule.Chooses out.bluespots)
    (hres' : Bluespots.IsResult gt d.depths f d.flowdir rule.Chooses out'.bluespots)
    {γ : Type} [LinearOrder γ] {rank : Cell → γ} (hlow : LowestOutlets dem.rows dem.cols d.flowdir.get out.bluespots.labeled.get rank
      (out.bluespots.pourpoints.map fun p => (p.cell_row, p.cell_col))) :
    ∃ σ, SameButNumbers dem.rows dem.cols σ out out' ∧ ∀ l ≤ out.bluespots.nlabels,
      point' (σ l) = point l ∧ next' (σ l) = (next l).map (fun x => (σ x.toNat : Int)) ∧ v' (σ l) = v l ∧ spill' (σ l) = spill l := by
  have hL := hres.labelling
  have hL' := hres'.labelling
  have hW := hres.watershed
  have hW' := hres'.watershed
  have hWr := hres.wlabels.2
  rw [hsh.1, hsh.2] at hL hL' hW hW' hWr
  obtain ⟨hn, σ, hσ, hlab⟩ := renumbering hL hL'
  have hr := hL.range
  have hws : ∀ c, InGrid dem.rows dem.cols c → out'.bluespots.watersheds.get c = σ (out.bluespots.watersheds.get c).toNat :=
    fun c hc => (firstLabel_unique (renumbered_first hσ hr hlab hc (hW c hc).1) (hW' c hc).1).symm
  have hpt : ∀ l ≤ out.bluespots.nlabels, ∃ p q, out.bluespots.pourpoints[l]? = some p ∧
      out'.bluespots.pourpoints[σ l]? = some q ∧
      SamePoint p q ∧ (1 ≤ l → q.bspot_dmax = p.bspot_dmax) ∧ p.bspot_id = l ∧ q.bspot_id = σ l := by
    intro l hl
    have hcs := lists_filter dem.rows dem.cols (fun c => out.bluespots.labeled.get c = l)
    have hcs' := renumbered_cells hσ hr hlab hl hcs
    have hwc := lists_filter dem.rows dem.cols (fun c => out.bluespots.watersheds.get c = l)
    have hwc' := renumbered_cells hσ hWr hws hl hwc
    set cs := (Raster.cellList dem.rows dem.cols).filter (fun c => out.bluespots.labeled.get c = l) with hcsdef
    rw [← hsh.1, ← hsh.2] at hcs hcs' hwc hwc'
    obtain ⟨p, p1, p2, p3, p4⟩ := hres.points l _ _ hl hcs hwc
    obtain ⟨q, q1, q2, q3, q4⟩ := hres'.points (σ l) _ _ (hn ▸ hσ.range l hl) hcs' hwc'
    have hcell : q.cell_row = p.cell_row ∧ q.cell_col = p.cell_col := by
      by_cases he : cs = []
      · have h1 := p4 he
        have h2 := q4 he
        rw [← h1] at h2
        exact ⟨congrArg Prod.fst h2, congrArg Prod.snd h2⟩
      · have h2 := rule_unique rule (p3 he) (q3 he)
        exact ⟨congrArg Prod.fst h2, congrArg Prod.snd h2⟩
    have hvol : q.bspot_vol = p.bspot_vol := q2.vol.trans p2.vol.symm
    have hwa : q.wshed_area = p.wshed_area := q2.wshed_area.trans p2.wshed_area.symm
    refine ⟨p, q, p1, q1, ⟨hcell, q2.area.trans p2.area.symm, hvol, hwa, ?_, ?_⟩, fun h1 => ?_, p2.bspot_id, q2.bspot_id⟩
    · rw [q2.fumm, p2.fumm, hvol, hwa]
    · rw [q2.coordinates, p2.coordinates, hcell.1, hcell.2]
    · have hne : cs ≠ [] := by
        obtain ⟨c, hc, hcl⟩ := hL.used l h1 hl
        exact List.ne_nil_of_mem (List.mem_filter.2 ⟨Flow.mem_cellList.2 hc, by simpa using hcl⟩)
      exact (q2.dmax hne).unique (p2.dmax hne)
  have hpoint : ∀ l ≤ out.bluespots.nlabels, point' (σ l) = point l := by
    intro l hl
    obtain ⟨p, q, hp, hq, hpq, -⟩ := hpt l hl
    obtain ⟨p', hp', e⟩ := h.outlet l hl
    obtain ⟨q', hq', e'⟩ := h'.outlet (σ l) (hn ▸ hσ.range l hl)
    rw [hp] at hp'; cases hp'
    rw [hq] at hq'; cases hq'
    rw [e, e', hpq.cell.1, hpq.cell.2]
  have hgo := h.goes
  have hgo' := h'.goes
  rw [hd] at hgo
  rw [hd', hn] at hgo'
  have hnext : ∀ l ≤ out.bluespots.nlabels, next' (σ l) = (next l).map fun x => (σ x.toNat : Int) := by
    intro l hl
    have h2 := hgo' (σ l) (hσ.range l hl)
    rw [hpoint l hl] at h2
    rcases hgo l hl with ⟨hin, g, hg⟩ | ⟨hin, e⟩
    · rcases h2 with ⟨_, g', hg'⟩ | ⟨hout, _⟩
      · exact (C29_unique _ _ _ _ _ _ _ _ _ _ (renumbered_next hσ hr hlab hin hg) hg').1.symm
      · exact absurd hin hout
    · rcases h2 with ⟨hin', _⟩ | ⟨_, e'⟩
      · exact absurd hin' hin
      · rw [e, e']; rfl
  have hfacts : ∀ k ≤ out.bluespots.nlabels, ∀ e, next k = some e → (0 ≤ e ∧ e ≤ out.bluespots.nlabels) ∧
      rank (point e.toNat) < rank (point k) := by
    intro k hk e he
    rcases hgo k hk with ⟨_, g, hg⟩ | ⟨_, hnone⟩
    · rw [he] at hg
      obtain ⟨x, hx, hxe, hlt⟩ := next_facts hlow hg
      have hrx := hr x hx
      rw [hxe] at hrx
      refine ⟨hrx, hlt _ ?_⟩
      obtain ⟨p, hp, hpe⟩ := h.outlet e.toNat (by omega)
      rw [List.getElem?_map, hp, hpe]; rfl
    · rw [he] at hnone; cases hnone
  obtain ⟨water, cap, hst, hwc⟩ := h.state
  obtain ⟨water', cap', hst', hwc'⟩ := h'.state
  rw [hn] at hst'
  have hnum : ∀ l ≤ out.bluespots.nlabels, water' (σ l) = water l ∧ cap' (σ l) = cap l := by
    intro l hl
    have hcs := lists_filter dem.rows dem.cols (fun c => out.bluespots.labeled.get c = l)
    have hcs' := renumbered_cells hσ hr hlab hl hcs
    have hwl := lists_filter dem.rows dem.cols (fun c => out.bluespots.watersheds.get c = l)
    have hwl' := renumbered_cells hσ hWr hws hl hwl
    obtain ⟨a1, a2⟩ := hwc l hl _ _ hcs hwl
    obtain ⟨b1, b2⟩ := hwc' (σ l) (hn ▸ hσ.range l hl) _ _ hcs' hwl'
    rw [a1, a2, b1, b2, hd, hd']
    exact ⟨rfl, rfl⟩
  have hsame := finalState_unique (fun l => rank (point l)) (fun k hk l hl e => by
      have := (hfacts k hk l e).2
      rwa [Int.toNat_natCast] at this) hst
    (finalState_renumbered hσ (fun k hk e he => (hfacts k hk e he).1) hnext (fun l hl => (hnum l hl).1)
      (fun l hl => (hnum l hl).2) hst')
  exact ⟨σ, ⟨hd'.trans hd.symm, hn, hσ, hlab, hws, hpt⟩, fun l hl => ⟨hpoint l hl, hnext l hl, hsame l hl⟩⟩

/-- C111: the order in which the labelling numbers the bluespots does not matter. With two labelling functions that both
do what they must, the results differ only by a renumbering of the bluespots: labels, watersheds, pour points, where the
water goes, and what each bluespot holds and spills. -/
theorem C111_numbers (h : SoundTerrain drop sub scale safe dem) (hcc : LabelContract cc) (hcc' : LabelContract cc')
    (hsq : SquareCells gt) (want : Bool) (f : Bluespots.StatUnits K → Bool) (mm : K) :
    ∃ out out' σ point point' next next' v v' spill spill',
      (Complete.processAll cc (Dem.python drop scale) Bluespots.python sub safe gt dem want (some f) mm).Yields (.ok out) ∧
      (Complete.processAll cc' (Dem.python drop scale) Bluespots.python sub safe gt dem want (some f) mm).Yields (.ok out') ∧
      ReportsState dem.rows dem.cols gt mm out point next v spill ∧
      ReportsState dem.rows dem.cols gt mm out' point' next' v' spill' ∧
      SameButNumbers dem.rows dem.cols σ out out' ∧ ∀ l ≤ out.bluespots.nlabels,
        point' (σ l) = point l ∧ next' (σ l) = (next l).map (fun x => (σ x.toNat : Int)) ∧ v' (σ l) = v l ∧
        spill' (σ l) = spill l := by
  obtain ⟨d, hd, _, hdsh, hfsh, hcells, _, ⟨z, _, hdown⟩, hacc, hno⟩ := C62_dem_outputs h want
  obtain ⟨_, _, _, hnf, hfd, _, _⟩ := Dem.process_inv hd
  have hnf : Returns (Fill.fillTerrainNoFlats (safe dem).1 (safe dem).2 dem) (.ok d.noFlats) := hnf
  obtain ⟨hnsh, hfin, _⟩ := noFlats_finite h hnf
  have key : ∀ {cc : Raster Bool → Raster Int × Nat}, LabelContract cc → _ := fun hcc => chain_direct (gt := gt)
    (demEngine := Dem.python drop scale) (bluespotEngine := Bluespots.python)
    (.inl rfl) rfl hcc hsq ⟨by have := h.rows; omega, by have := h.cols; omega⟩ want f mm hd hdsh hfsh hdown hnsh hfin
    h.drop_pos h.scale_pos (fun hw => by
      obtain ⟨a, h1, h2⟩ := hacc hw
      exact ⟨a, a, h1, h2, rfl, rfl, fun _ _ => rfl⟩) hno
  obtain ⟨out, point, next, v, spill, a1, a2, a3, a4, γ, _, rank, a5⟩ := key hcc
  obtain ⟨out', point', next', v', spill', b1, b2, b3, b4, -⟩ := key hcc'
  obtain ⟨σ, c1, c2⟩ := same_but_numbers a2 b2 hdsh a3 b3 a4 b4 a5
  exact ⟨out, out', σ, point, point', next, next', v, v', spill, spill', a1, b1, a3, b3, c1, c2⟩

/-- C111 with the compiled functions, for every DEM without exactly three rows or columns. -/
theorem C111_numbers_compiled (junk : Int × Int) (h : SoundTerrain drop sub scale safe dem) (hr3 : dem.rows ≠ 3)
    (hc3 : dem.cols ≠ 3) (hcc : LabelContract cc) (hcc' : LabelContract cc')
    (hsq : SquareCells gt) (want : Bool) (f : Bluespots.StatUnits K → Bool) (mm : K) :
    ∃ out out' σ point point' next next' v v' spill spill',
      (Complete.processAll cc (Dem.compiled junk drop scale) (Bluespots.compiled junk) sub safe gt dem want (some f)
        mm).Yields (.ok out) ∧
      (Complete.processAll cc' (Dem.compiled junk drop scale) (Bluespots.compiled junk) sub safe gt dem want (some f)
        mm).Yields (.ok out') ∧
      ReportsState dem.rows dem.cols gt mm out point next v spill ∧
      ReportsState dem.rows dem.cols gt mm out' point' next' v' spill' ∧
      SameButNumbers dem.rows dem.cols σ out out' ∧ ∀ l ≤ out.bluespots.nlabels,
        point' (σ l) = point l ∧ next' (σ l) = (next l).map (fun x => (σ x.toNat : Int)) ∧ v' (σ l) = v l ∧
        spill' (σ l) = spill l := by
  obtain ⟨d, hd, _, hdsh, hfsh, _, hcells, _, ⟨z, _, hdown⟩, hacc, hno⟩ := C62_dem_outputs_compiled junk h hr3 hc3 want
  obtain ⟨_, _, _, hnf, hfd, _, _⟩ := Dem.process_inv hd
  obtain ⟨nf, hnf', hnr, hnc, _, _, _, hnfin, _⟩ := C11_compiled_noflats_valid (safe dem).1 (safe dem).2 h.mono.1 h.mono.2
    (fun x => (h.ge x).1) (fun x => (h.ge x).2) dem ⟨h.rows, hr3⟩ ⟨h.cols, hc3⟩ h.finite (fun x hx => (h.keep x hx).1)
    (fun x hx => (h.keep x hx).2)
  have heq : Except.ok nf = Except.ok (ε := PyErr) d.noFlats := Returns.unique hnf' hnf
  cases heq
  have key : ∀ {cc : Raster Bool → Raster Int × Nat}, LabelContract cc → _ := fun hcc => chain_direct (gt := gt)
    (demEngine := Dem.compiled junk drop scale) (bluespotEngine := Bluespots.compiled junk) (.inr ⟨junk, rfl⟩) rfl hcc hsq
    ⟨by have := h.rows; omega, by have := h.cols; omega⟩ want f mm hd hdsh hfsh hdown ⟨hnr, hnc⟩ hnfin h.drop_pos h.scale_pos
    hacc hno
  obtain ⟨out, point, next, v, spill, a1, a2, a3, a4, γ, _, rank, a5⟩ := key hcc
  obtain ⟨out', point', next', v', spill', b1, b2, b3, b4, -⟩ := key hcc'
  obtain ⟨σ, c1, c2⟩ := same_but_numbers a2 b2 hdsh a3 b3 a4 b4 a5
  exact ⟨out, out', σ, point, point', next, next', v, v', spill, spill', a1, b1, a3, b3, c1, c2⟩

end Complete

/-! ### The hypotheses can be met -/

example : ∃ cc, LabelContract cc ∧ SquareCells (⟨0, 2, 0, 0, 0, -2⟩ : GeoTransform Rat) ∧
    SoundTerrain (K := Rat) exactSub exactSub (· * (7/10)) (exactSafe (1/1000) (14/10000)) (finiteDem demoMeeting) ∧
    demoMeeting.rows ≠ 3 ∧ demoMeeting.cols ≠ 3 := by
  obtain ⟨cc, h⟩ := exists_labelContract
  exact ⟨cc, h, by unfold SquareCells; norm_num, exact_sound demoMeeting (by decide) (by decide) (by norm_num) (by norm_num)
    (by norm_num), by decide, by decide⟩

/-- Numbering backwards is another labelling that does what it must. -/
theorem backwards_contract {cc : Raster Bool → Raster Int × Nat} (h : LabelContract cc) :
    LabelContract fun r => ({ (cc r).1 with get := fun c => if (cc r).1.get c = 0 then 0 else (cc r).2 + 1 - (cc r).1.get c }, (cc r).2) := by
  intro r
  obtain ⟨h1, h2, h3⟩ := h r
  show _ ∧ _ ∧ IsLabelling _ _ _ _ (cc r).2
  refine ⟨h1, h2, ⟨fun c hc => ?_, fun c hc => ?_, fun l h4 h5 => ?_, fun a b ha hb wa wb => ?_⟩⟩
  · rw [← h3.background c hc]
    have := h3.range c hc
    simp only
    split <;> omega
  · have := h3.range c hc
    simp only
    split <;> omega
  · obtain ⟨c, hc, e⟩ := h3.used ((cc r).2 + 1 - l) (by omega) (by omega)
    refine ⟨c, hc, ?_⟩
    simp only
    split <;> omega
  · rw [← h3.same a b ha hb wa wb]
    have h4 : (cc r).1.get a ≠ 0 := fun e => (h3.background a ha).1 e wa
    have h5 : (cc r).1.get b ≠ 0 := fun e => (h3.background b hb).1 e wb
    simp only [h4, h5, if_false]
    omega

example : ∃ cc cc', LabelContract cc ∧ LabelContract cc' ∧ cc ≠ cc' := by
  obtain ⟨cc, h⟩ := exists_labelContract
  refine ⟨cc, _, h, backwards_contract h, fun e => ?_⟩
  -- two separate cells
  set r : Raster Bool := { rows := 1, cols := 3, get := fun c => c ≠ (0, 1) } with hr
  obtain ⟨_, _, h3⟩ := h r
  have e1 := congrFun e r
  have i0 : InGrid 1 3 (0, 0) := by decide
  have i2 : InGrid 1 3 (0, 2) := by decide
  have hget : ∀ c, (cc r).1.get c = if (cc r).1.get c = 0 then 0 else (cc r).2 + 1 - (cc r).1.get c := fun c =>
    congrArg (fun x : Raster Int × Nat => x.1.get c) e1
  have a0 : (cc r).1.get (0, 0) ≠ 0 := fun e => (h3.background (0, 0) i0).1 e (by decide)
  have a2 : (cc r).1.get (0, 2) ≠ 0 := fun e => (h3.background (0, 2) i2).1 e (by decide)
  have b0 := hget (0, 0)
  have b2 := hget (0, 2)
  rw [if_neg a0] at b0
  rw [if_neg a2] at b2
  have hc := (h3.same (0, 0) (0, 2) i0 i2 (by decide) (by decide)).1 (by omega)
  obtain ⟨p, p1, p2, p3, p4⟩ := hc
  have hall : ∀ p : List Cell, p.head? = some (0, 0) → p.IsChain Adj → (∀ x ∈ p, InGrid 1 3 x ∧ r.get x = true) →
      ∀ x ∈ p, x = (0, 0) := by
    intro p
    induction p with
    | nil => intro _ _ _ x hx; cases hx
    | cons a t ih =>
      intro h1 h2 h3 x hx
      obtain rfl : a = (0, 0) := by simpa using h1
      cases t with
      | nil => simpa using hx
      | cons b t =>
        have hb : b = (0, 0) := by
          obtain ⟨g1, g2⟩ := h3 b (by simp)
          have hadj := (List.isChain_cons_cons.1 h2).1
          obtain ⟨b1, b2⟩ := b
          simp only [hr, ne_eq, decide_not, Bool.not_eq_true', decide_eq_false_iff_not, Prod.mk.injEq] at g2
          unfold InGrid at g1
          unfold Adj at hadj
          simp only [Prod.mk.injEq, ne_eq, abs_le] at g1 hadj ⊢
          omega
        subst hb
        rcases List.mem_cons.1 hx with hx | hx
        · exact hx
        · exact ih rfl (List.isChain_cons_cons.1 h2).2 (fun y hy => h3 y (List.mem_cons_of_mem _ hy)) x hx
  have := hall p p1 p3 p4 _ (List.mem_of_getLast? p2)
  exact absurd this (by decide)

/-- The three bluespots numbered 3, 1, 2 instead of 1, 2, 3: the same water under other numbers (and in another order). -/
example : demoMeetingFinal 3 1 2 =
    some (some [[some (.int 0), some .none, some (.num 0), some (.num 448)],
      [some (.int 2), some .none, some (.num 4), some (.num 412)],
      [some (.int 4), some (.int 2), some (.num 0), some (.num 32)],
      [some (.int 1), some (.int 4), some (.num 16), some (.num 16)],
      [some (.int 3), some (.int 4), some (.num 16), some (.num 16)]]) := by
  decide +kernel

end Malstroem
