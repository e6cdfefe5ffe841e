/-
BluespotTool.process: a complete run.
-/
import Verif.Proofs.Bluespots
import Verif.Props.Flow

set_option linter.unusedSectionVars false

namespace Malstroem
open Spec
namespace Bluespots
variable {K : Type} [Field K] [LinearOrder K] [IsStrictOrderedRing K] {fl : K → K}

/-- One of the two sets of functions. -/
def IsEngineFl {β : Type} [LinearOrder β] [OrderTop β] (fl : K → K) (eng : Engine β K) : Prop :=
  eng = pythonFl fl ∨ ∃ junk, eng = compiledFl fl junk

/-- One of the two sets of functions, with exact arithmetic. -/
abbrev IsEngine {β : Type} [LinearOrder β] [OrderTop β] (eng : Engine β K) : Prop := IsEngineFl id eng

theorem cython_watersheds (junk : Int × Int) (fd : Raster Nat) (un : Int) (n : Nat) : ∀ (cs : List Cell) (lab : Raster Int),
    (FlowCython.watershedsLoop junk fd un n cs lab).map .ok = Flow.watershedsLoop fd un n cs lab
  | [], lab => rfl
  | c :: cs, lab => by
    rw [FlowCython.watershedsLoop, Flow.watershedsLoop, Flow.assignWatershedsUpstream]
    have h := FlowCython.assignLoop_eq junk un n lab [(c, un)] (flowdir := fd)
    rw [h]
    cases FlowCython.assignLoop junk fd un n lab [(c, un)] with
    | none => rfl
    | some lab' => exact cython_watersheds junk fd un n cs lab'

section
variable {β : Type} [LinearOrder β] [OrderTop β] {eng : Engine β K}

theorem IsEngineFl.watersheds (h : IsEngineFl fl eng) : eng.watershedsFromLabels = Flow.watershedsFromLabels := by
  rcases h with rfl | ⟨junk, rfl⟩
  · rfl
  · funext fd lab un n
    exact cython_watersheds junk fd un n _ lab

theorem IsEngineFl.stats (h : IsEngineFl fl eng) {data : Raster K} {lab : Raster Int} {nlabels : Option Int} {n : Nat}
    (hshape : data.rows = lab.rows ∧ data.cols = lab.cols) (hn : TopLabel lab.rows lab.cols lab.get nlabels n)
    (hr : LabelsIn lab.rows lab.cols lab.get n) : eng.labelStats data lab nlabels = Label.labelStatsFl fl data lab nlabels := by
  rcases h with rfl | ⟨junk, rfl⟩
  · rfl
  · exact Label.cython_labelStats fl data hshape hn hr

theorem IsEngineFl.minIndex (h : IsEngineFl fl eng) {data : Raster β} {lab : Raster Int} {nlabels : Option Int} {n : Nat}
    (hshape : data.rows = lab.rows ∧ data.cols = lab.cols) (hn : TopLabel lab.rows lab.cols lab.get nlabels n)
    (hr : LabelsIn lab.rows lab.cols lab.get n) :
    eng.labelMinIndex data lab nlabels = Label.labelMinIndex data lab nlabels := by
  rcases h with rfl | ⟨junk, rfl⟩
  · rfl
  · exact Label.cython_labelMinIndex data hshape hn hr

end

theorem square_assert {gt : GeoTransform K} (h : SquareCellsFl fl gt) :
    ¬ ¬ |fl (|gt.t1| - |gt.t5|)| < fl (fl (1 / 100) * |(|gt.t1|)|) := by
  rw [abs_abs]
  exact not_not.2 h

theorem watershed_labels {rows cols n : Nat} {fd : Cell → Nat} {wet : Cell → Prop} {lab ws : Cell → Int}
    (hL : IsLabelling rows cols wet lab n) (hr : 0 < rows) (hc : 0 < cols)
    (hw : IsWatershed rows cols fd 0 lab ws) (hdown : ∀ c d, InGrid rows cols c → Downstream rows cols fd c d → InGrid rows cols d) :
    TopLabel rows cols ws none n ∧ LabelsIn rows cols ws n := by
  have hin : LabelsIn rows cols ws n := by
    intro c hcg
    obtain ⟨_, _, _, h4⟩ := hw c hcg
    by_cases h0 : ws c = 0
    · omega
    · obtain ⟨d, hd, he⟩ := h4 h0
      rw [← he]; exact hL.range d (hdown c d hcg hd)
  refine ⟨.inr ⟨.inl rfl, ?_, ?_⟩, hin⟩
  · rcases Nat.eq_zero_or_pos n with rfl | hn
    · have h00 : InGrid rows cols (0, 0) := ⟨by omega, by simpa using hr, by omega, by simpa using hc⟩
      have := hin _ h00
      exact ⟨(0, 0), h00, by simp only [Nat.cast_zero] at this ⊢; omega⟩
    · obtain ⟨c, hcg, he⟩ := hL.used n hn le_rfl
      exact ⟨c, hcg, by rw [(hw c hcg).2.1 (by omega), he]⟩
  · rintro l ⟨c, hcg, rfl⟩
    exact (hin c hcg).2

theorem downstream_inGrid {rows cols : Nat} {fd : Cell → Nat} {c d : Cell} (hc : InGrid rows cols c)
    (h : Downstream rows cols fd c d) : InGrid rows cols d := by
  rcases Relation.ReflTransGen.cases_tail h with rfl | ⟨_, _, hs⟩
  · exact hc
  · exact hs.2.1

/-- What a successful run has produced; `rule` says which cell of a label is its pour point. `fl` rounds results. -/
structure IsResultFl (fl : K → K) (gt : GeoTransform K) (depths : Raster K) (f : StatUnits K → Bool) (flowdir : Raster Nat)
    (rule : List Cell → Cell → Prop) (out : Out K) : Prop where
  shape : out.labeled.rows = depths.rows ∧ out.labeled.cols = depths.cols ∧ out.watersheds.rows = depths.rows ∧
    out.watersheds.cols = depths.cols
  labelling : IsLabelling depths.rows depths.cols
    (fun c => depths.get c ≠ 0 ∧ PassesFl fl depths.rows depths.cols depths.get (cellAreaFl fl gt) f c) out.labeled.get out.nlabels
  same : ∀ a b, depths.Has a → depths.Has b → out.labeled.get a ≠ 0 → out.labeled.get b ≠ 0 →
    (out.labeled.get a = out.labeled.get b ↔
      ConnectedIn (fun x => InGrid depths.rows depths.cols x ∧ depths.get x ≠ 0) a b)
  watershed : IsWatershed depths.rows depths.cols flowdir.get 0 out.labeled.get out.watersheds.get
  wlabels : TopLabel depths.rows depths.cols out.watersheds.get none out.nlabels ∧
    LabelsIn depths.rows depths.cols out.watersheds.get out.nlabels
  length : out.pourpoints.length = out.nlabels + 1
  points : ∀ (l : Nat) (cs ws : List Cell), l ≤ out.nlabels →
    CellsOf depths.rows depths.cols out.labeled.get l cs → CellsOf depths.rows depths.cols out.watersheds.get l ws →
    ∃ p, out.pourpoints[l]? = some p ∧ IsPourPointFl fl gt depths.get l cs ws p ∧
      (cs ≠ [] → rule cs (p.cell_row, p.cell_col)) ∧ (cs = [] → (p.cell_row, p.cell_col) = (-1, -1))

theorem points_ok {β : Type} (fl : K → K) (gt : GeoTransform K) (depths : Raster K) {labeled watersheds : Raster Int} {n : Nat}
    {pix : List (Label.Index β)} {st : List (Label.Stat K)} {ct : List Int} {init : Label.Index β}
    {upd : Cell → Label.Index β → Label.Index β} (rule : List Cell → Cell → Prop)
    (hpl : pix.length = n + 1) (hsl : st.length = n + 1) (hcl : ct.length = n + 1)
    (hp : ∀ (l : Nat) (cs : List Cell), l ≤ n → CellsOf depths.rows depths.cols labeled.get l cs →
      pix[l]? = some (cs.foldl (fun r c => upd c r) init))
    (hs : ∀ (l : Nat) (cs : List Cell), l ≤ n → CellsOf depths.rows depths.cols labeled.get l cs →
      st[l]? = some (cs.foldl (fun r c => Label.statUpdFl fl depths c r) Label.Stat.init))
    (hct : ∀ (l : Nat) (cs : List Cell), l ≤ n → CellsOf depths.rows depths.cols watersheds.get l cs →
      ct[l]? = some (cs.length : Int))
    (hinit : init.row = -1 ∧ init.col = -1)
    (hrule : ∀ (l : Nat) (cs : List Cell), l ≤ n → CellsOf depths.rows depths.cols labeled.get l cs → cs ≠ [] →
      rule cs ((cs.foldl (fun r c => upd c r) init).row, (cs.foldl (fun r c => upd c r) init).col)) :
    (assemblePourpointsFl fl gt pix st ct).length = n + 1 ∧
    ∀ (l : Nat) (cs ws : List Cell), l ≤ n →
      CellsOf depths.rows depths.cols labeled.get l cs → CellsOf depths.rows depths.cols watersheds.get l ws →
      ∃ p, (assemblePourpointsFl fl gt pix st ct)[l]? = some p ∧ IsPourPointFl fl gt depths.get l cs ws p ∧
        (cs ≠ [] → rule cs (p.cell_row, p.cell_col)) ∧ (cs = [] → (p.cell_row, p.cell_col) = (-1, -1)) := by
  refine ⟨by simp [assemblePourpointsFl, hpl, hsl, hcl], fun l cs ws hl hcs hws => ?_⟩
  have e1 := hp l cs hl hcs
  have e2 := hs l cs hl hcs
  have e3 := hct l ws hl hws
  have hz : (pix.zip (st.zip ct))[l]? = some (cs.foldl (fun r c => upd c r) init,
      cs.foldl (fun r c => Label.statUpdFl fl depths c r) Label.Stat.init, (ws.length : Int)) := by
    rw [List.getElem?_zip_eq_some]
    refine ⟨e1, ?_⟩
    rw [List.getElem?_zip_eq_some]
    exact ⟨e2, e3⟩
  refine ⟨pourPointFl fl gt (cellAreaFl fl gt) (l : Int) (cs.foldl (fun r c => upd c r) init)
    (cs.foldl (fun r c => Label.statUpdFl fl depths c r) Label.Stat.init) (ws.length : Int), ?_, ?_, ?_, ?_⟩
  · simp [assemblePourpointsFl, List.getElem?_map, List.getElem?_zipIdx, hz, cellAreaFl]
  · obtain ⟨h1, h2, h3, h4⟩ := Label.fold_statFl fl depths cs
    exact {
      id := rfl
      bspot_id := rfl
      dmax := fun hne => (stat_isStats fl depths (cellAreaFl fl gt) hne).max
      area := by simp only [pourPointFl, h1]; norm_cast
      vol := by simp only [pourPointFl]; rw [h2]; rfl
      wshed_area := by simp only [pourPointFl]; norm_cast
      fumm := rfl
      coordinates := rfl }
  · exact fun hne => hrule l cs hl hcs hne
  · rintro rfl
    exact Prod.ext hinit.1 hinit.2

variable {β : Type} [LinearOrder β] [OrderTop β]

theorem filter_ok {cc : Raster Bool → Raster Int × Nat} (hcc : LabelContract cc) {eng : Engine β K} (heng : IsEngineFl fl eng)
    (area : K) (depths : Raster K) (hr : 0 < depths.rows) (hc : 0 < depths.cols) (f : StatUnits K → Bool) :
    ∃ raw keep, eng.labelStats depths (connectedComponents cc depths).1 none = .ok raw ∧
      Label.keepLabels (connectedComponents cc depths).1 (filterbluespotsFl fl f area raw) 0 = .ok keep ∧
      keep.rows = depths.rows ∧ keep.cols = depths.cols ∧
      (∀ c, depths.Has c → (keep.get c = true ↔ depths.get c ≠ 0 ∧ PassesFl fl depths.rows depths.cols depths.get area f c)) ∧
      (∀ a b, depths.Has a → depths.Has b → keep.get a = true → keep.get b = true →
        (ConnectedIn (fun x => InGrid depths.rows depths.cols x ∧ keep.get x = true) a b ↔
          ConnectedIn (fun x => InGrid depths.rows depths.cols x ∧ depths.get x ≠ 0) a b)) := by
  obtain ⟨e1, e2, hL⟩ := hcc { rows := depths.rows, cols := depths.cols, get := fun c => depths.get c ≠ 0 }
  change (connectedComponents cc depths).1.rows = depths.rows at e1
  change (connectedComponents cc depths).1.cols = depths.cols at e2
  change IsLabelling depths.rows depths.cols (fun c => decide (depths.get c ≠ 0) = true)
    (connectedComponents cc depths).1.get (connectedComponents cc depths).2 at hL
  have hL' : IsLabelling (connectedComponents cc depths).1.rows (connectedComponents cc depths).1.cols
      (fun c => decide (depths.get c ≠ 0) = true) (connectedComponents cc depths).1.get
      (connectedComponents cc depths).2 := by rw [e1, e2]; exact hL
  rw [heng.stats ⟨e1.symm, e2.symm⟩ (hL'.topLabel (by omega) (by omega)) hL'.labelsIn]
  exact filter_ok_python hcc fl area depths hr hc f

/-- The steps of `process` up to the pour points. -/
theorem stages {cc : Raster Bool → Raster Int × Nat} (hcc : LabelContract cc) {eng : Engine β K} (heng : IsEngineFl fl eng) (gt : GeoTransform K)
    (depths : Raster K) (hr : 0 < depths.rows) (hc : 0 < depths.cols) (f : StatUnits K → Bool) (flowdir : Raster Nat)
    (hshape : flowdir.rows = depths.rows ∧ flowdir.cols = depths.cols)
    (hd : ∀ c, flowdir.Has c → Drains flowdir.rows flowdir.cols flowdir.get c) :
    ∃ raw keep st ws ct, eng.labelStats depths (connectedComponents cc depths).1 none = .ok raw ∧
      Label.keepLabels (connectedComponents cc depths).1 (filterbluespotsFl fl f (cellAreaFl fl gt) raw) 0 = .ok keep ∧
      eng.labelStats depths (cc keep).1 none = .ok st ∧
      Returns (eng.watershedsFromLabels flowdir (cc keep).1 0) (.ok ws) ∧
      Label.labelCount ws = .ok ct ∧
      ((cc keep).1.rows = depths.rows ∧ (cc keep).1.cols = depths.cols) ∧
      (ws.rows = depths.rows ∧ ws.cols = depths.cols) ∧
      IsLabelling depths.rows depths.cols
        (fun c => depths.get c ≠ 0 ∧ PassesFl fl depths.rows depths.cols depths.get (cellAreaFl fl gt) f c)
        (cc keep).1.get (cc keep).2 ∧
      (∀ a b, depths.Has a → depths.Has b → (cc keep).1.get a ≠ 0 → (cc keep).1.get b ≠ 0 →
        ((cc keep).1.get a = (cc keep).1.get b ↔
          ConnectedIn (fun x => InGrid depths.rows depths.cols x ∧ depths.get x ≠ 0) a b)) ∧
      IsWatershed depths.rows depths.cols flowdir.get 0 (cc keep).1.get ws.get ∧
      (TopLabel depths.rows depths.cols ws.get none (cc keep).2 ∧ LabelsIn depths.rows depths.cols ws.get (cc keep).2) ∧
      st.length = (cc keep).2 + 1 ∧ ct.length = (cc keep).2 + 1 ∧
      (∀ (l : Nat) (cs : List Cell), l ≤ (cc keep).2 → CellsOf depths.rows depths.cols (cc keep).1.get l cs →
        st[l]? = some (cs.foldl (fun r c => Label.statUpdFl fl depths c r) Label.Stat.init)) ∧
      (∀ (l : Nat) (cs : List Cell), l ≤ (cc keep).2 → CellsOf depths.rows depths.cols ws.get l cs →
        ct[l]? = some (cs.length : Int)) := by
  obtain ⟨raw, keep, h1, h2, k1, k2, k3, k4⟩ := filter_ok hcc heng (cellAreaFl fl gt) depths hr hc f
  obtain ⟨l1, l2, hL0⟩ := hcc keep
  rw [k1] at l1 hL0
  rw [k2] at l2 hL0
  have hcongr : ∀ a b, ConnectedIn (fun x => InGrid depths.rows depths.cols x ∧ keep.get x = true) a b ↔
      ConnectedIn (fun x => InGrid depths.rows depths.cols x ∧
        (depths.get x ≠ 0 ∧ PassesFl fl depths.rows depths.cols depths.get (cellAreaFl fl gt) f x)) a b := by
    intro a b
    constructor
    · exact fun h => h.mono fun x hx => ⟨hx.1, (k3 x hx.1).1 hx.2⟩
    · exact fun h => h.mono fun x hx => ⟨hx.1, (k3 x hx.1).2 hx.2⟩
  have hL : IsLabelling depths.rows depths.cols
      (fun c => depths.get c ≠ 0 ∧ PassesFl fl depths.rows depths.cols depths.get (cellAreaFl fl gt) f c)
      (cc keep).1.get (cc keep).2 := {
    background := fun c hcg => by rw [hL0.background c hcg, k3 c hcg]
    range := hL0.range
    used := hL0.used
    same := fun a b ha hb hwa hwb => by
      rw [hL0.same a b ha hb ((k3 a ha).2 hwa) ((k3 b hb).2 hwb), hcongr] }
  have hL' : IsLabelling (cc keep).1.rows (cc keep).1.cols
      (fun c => depths.get c ≠ 0 ∧ PassesFl fl depths.rows depths.cols depths.get (cellAreaFl fl gt) f c)
      (cc keep).1.get (cc keep).2 := by rw [l1, l2]; exact hL
  obtain ⟨st, s1, s2, s3⟩ := Label.labelStats_ok fl depths (lab := (cc keep).1) ⟨l1.symm, l2.symm⟩
    (hL'.topLabel (by omega) (by omega)) hL'.labelsIn
  rw [l1, l2] at s3
  rw [← heng.stats ⟨l1.symm, l2.symm⟩ (hL'.topLabel (by omega) (by omega)) hL'.labelsIn] at s1
  obtain ⟨ws, w1, w2, w3, w4⟩ := C21_watershed_first_label flowdir (by omega) (by omega) hd (cc keep).1 0
  rw [← heng.watersheds] at w1
  rw [hshape.1, hshape.2] at w4
  rw [l1] at w2
  rw [l2] at w3
  have hwl := watershed_labels hL hr hc w4 (fun c d h1 h2 => downstream_inGrid h1 h2)
  obtain ⟨ct, c1, c2, c3⟩ := Label.labelCount_ok (lab := ws) (n := (cc keep).2) (by rw [w2, w3]; exact hwl.1)
    (by rw [w2, w3]; exact hwl.2)
  rw [w2, w3] at c3
  refine ⟨raw, keep, st, ws, ct, h1, h2, s1, w1, c1, ⟨l1, l2⟩, ⟨w2, w3⟩, hL, ?_, w4, hwl, s2, c2, s3, c3⟩
  intro a b ha hb hna hnb
  have hka : keep.get a = true := by
    by_contra h; exact hna ((hL0.background a ha).2 h)
  have hkb : keep.get b = true := by
    by_contra h; exact hnb ((hL0.background b hb).2 h)
  rw [hL0.same a b ha hb hka hkb, k4 a b ha hb hka hkb]

theorem process_accumFl {cc : Raster Bool → Raster Int × Nat} (hcc : LabelContract cc) {eng : Engine β K} (heng : IsEngineFl fl eng)
    (safe : Raster β → (β → β) × (β → β)) (gt : GeoTransform K) (hsq : SquareCellsFl fl gt)
    (depths : Raster K) (hr : 0 < depths.rows) (hc : 0 < depths.cols) (f : StatUnits K → Bool) (flowdir : Raster Nat)
    (hshape : flowdir.rows = depths.rows ∧ flowdir.cols = depths.cols)
    (hd : ∀ c, flowdir.Has c → Drains flowdir.rows flowdir.cols flowdir.get c)
    (accum : Raster Int) (ha : accum.rows = depths.rows ∧ accum.cols = depths.cols) (dem : Option (Raster β)) :
    ∃ out, (processFl fl cc eng safe gt depths (some f) flowdir (some accum) dem).Yields (.ok out) ∧
      IsResultFl fl gt depths f flowdir (IsFirstMax accum.get) out := by
  obtain ⟨raw, keep, st, ws, ct, h1, h2, h3, h4, h5, hl, hw, hL, hsame, hW, hwl, hsl, hcl, hst, hct⟩ :=
    stages hcc heng gt depths hr hc f flowdir hshape hd
  have hL' : IsLabelling (cc keep).1.rows (cc keep).1.cols
      (fun c => depths.get c ≠ 0 ∧ PassesFl fl depths.rows depths.cols depths.get (cellAreaFl fl gt) f c)
      (cc keep).1.get (cc keep).2 := by rw [hl.1, hl.2]; exact hL
  set acc : Raster (WithBot Int) := { rows := accum.rows, cols := accum.cols, get := fun c => (accum.get c : WithBot Int) }
    with hacc
  obtain ⟨pix, p1, p2, p3⟩ := Label.labelMaxIndex_ok acc (lab := (cc keep).1)
    ⟨ha.1.trans hl.1.symm, ha.2.trans hl.2.symm⟩ (hL'.topLabel' (by omega) (by omega)) hL'.labelsIn
  rw [hl.1, hl.2] at p3
  obtain ⟨q1, q2⟩ := points_ok fl gt depths (labeled := (cc keep).1) (watersheds := ws) (IsFirstMax accum.get)
    p2 hsl hcl p3 hst hct ⟨rfl, rfl⟩ (fun l cs hl hcs hne => by
      obtain ⟨⟨a, b, c⟩, _⟩ := Label.fold_max_first acc cs hcs.1 hne (fun c _ => WithBot.bot_lt_coe _)
      exact ⟨a, fun x hx => WithBot.coe_le_coe.1 (b x hx), fun x hx he => c x hx (congrArg (fun z : Int => (z : WithBot Int)) he)⟩)
  refine ⟨⟨(cc keep).1, (cc keep).2, ws, assemblePourpointsFl fl gt pix st ct⟩, ?_,
    ⟨⟨hl.1, hl.2, hw.1, hw.2⟩, hL, hsame, hW, hwl, q1, q2⟩⟩
  unfold processFl
  rw [if_neg (by simp)]
  dsimp only
  rw [if_neg (square_assert hsq)]
  refine Run.yields_bind (Run.yields_ofExcept' h1) ?_
  refine Run.yields_bind (Run.yields_ofExcept' h2) ?_
  refine Run.yields_bind (Run.yields_ofExcept' h3) ?_
  refine Run.yields_bind (Run.yields_ofFuel h4) ?_
  refine Run.yields_bind (Run.yields_ofExcept' h5) ?_
  exact Run.yields_bind (Run.yields_ofExcept' p1) (Run.yields_pure _)

theorem process_demFl {cc : Raster Bool → Raster Int × Nat} (hcc : LabelContract cc) {eng : Engine β K} (heng : IsEngineFl fl eng)
    (safe : Raster β → (β → β) × (β → β)) (gt : GeoTransform K) (hsq : SquareCellsFl fl gt)
    (depths : Raster K) (hr : 0 < depths.rows) (hc : 0 < depths.cols) (f : StatUnits K → Bool) (flowdir : Raster Nat)
    (hshape : flowdir.rows = depths.rows ∧ flowdir.cols = depths.cols)
    (hd : ∀ c, flowdir.Has c → Drains flowdir.rows flowdir.cols flowdir.get c)
    (dem nf : Raster β) (hnf : Returns (eng.fillTerrainNoFlats (safe dem).1 (safe dem).2 dem) (.ok nf))
    (ha : nf.rows = depths.rows ∧ nf.cols = depths.cols) (hfin : ∀ c, nf.Has c → nf.get c < ⊤) :
    ∃ out, (processFl fl cc eng safe gt depths (some f) flowdir none (some dem)).Yields (.ok out) ∧
      IsResultFl fl gt depths f flowdir (IsFirstMin nf.get) out := by
  obtain ⟨raw, keep, st, ws, ct, h1, h2, h3, h4, h5, hl, hw, hL, hsame, hW, hwl, hsl, hcl, hst, hct⟩ :=
    stages hcc heng gt depths hr hc f flowdir hshape hd
  have hL' : IsLabelling (cc keep).1.rows (cc keep).1.cols
      (fun c => depths.get c ≠ 0 ∧ PassesFl fl depths.rows depths.cols depths.get (cellAreaFl fl gt) f c)
      (cc keep).1.get (cc keep).2 := by rw [hl.1, hl.2]; exact hL
  obtain ⟨pix, p1, p2, p3⟩ := Label.labelMinIndex_ok nf (lab := (cc keep).1)
    ⟨ha.1.trans hl.1.symm, ha.2.trans hl.2.symm⟩ (hL'.topLabel' (by omega) (by omega)) hL'.labelsIn
  rw [← heng.minIndex ⟨ha.1.trans hl.1.symm, ha.2.trans hl.2.symm⟩ (hL'.topLabel' (by omega) (by omega)) hL'.labelsIn] at p1
  rw [hl.1, hl.2] at p3
  obtain ⟨q1, q2⟩ := points_ok fl gt depths (labeled := (cc keep).1) (watersheds := ws) (IsFirstMin nf.get)
    p2 hsl hcl p3 hst hct ⟨rfl, rfl⟩ (fun l cs hl hcs hne =>
      (Label.fold_min_first nf cs hcs.1 hne (fun c hcm => hfin c (by
        have := ((hcs.2 c).1 hcm).1
        show InGrid nf.rows nf.cols c
        rw [ha.1, ha.2]; exact this))).1)
  refine ⟨⟨(cc keep).1, (cc keep).2, ws, assemblePourpointsFl fl gt pix st ct⟩, ?_,
    ⟨⟨hl.1, hl.2, hw.1, hw.2⟩, hL, hsame, hW, hwl, q1, q2⟩⟩
  unfold processFl
  rw [if_neg (by simp)]
  dsimp only
  rw [if_neg (square_assert hsq)]
  refine Run.yields_bind (Run.yields_ofExcept' h1) ?_
  refine Run.yields_bind (Run.yields_ofExcept' h2) ?_
  refine Run.yields_bind (Run.yields_ofExcept' h3) ?_
  refine Run.yields_bind (Run.yields_ofFuel h4) ?_
  refine Run.yields_bind (Run.yields_ofExcept' h5) ?_
  refine Run.yields_bind (Run.yields_ofFuel hnf) ?_
  exact Run.yields_bind (Run.yields_ofExcept' p1) (Run.yields_pure _)

/-- Without a filter the tool always fails. -/
theorem process_nofilter {cc : Raster Bool → Raster Int × Nat} (hcc : LabelContract cc) {eng : Engine β K} (heng : IsEngineFl fl eng)
    (safe : Raster β → (β → β) × (β → β)) (gt : GeoTransform K) (hsq : SquareCellsFl fl gt)
    (depths : Raster K) (hr : 0 < depths.rows) (hc : 0 < depths.cols) (flowdir : Raster Nat)
    (accum : Option (Raster Int)) (dem : Option (Raster β)) (hs : accum.isSome ∨ dem.isSome) :
    (processFl fl cc eng safe gt depths none flowdir accum dem).Yields (.error .nameError) := by
  obtain ⟨raw, _, h1, _⟩ := filter_ok hcc heng (cellAreaFl fl gt) depths hr hc (fun _ => true)
  unfold processFl
  rw [if_neg (by cases accum <;> cases dem <;> simp at *)]
  dsimp only
  rw [if_neg (square_assert hsq)]
  exact Run.yields_bind (Run.yields_ofExcept' h1) (Run.yields_fail _)

/-! Exact arithmetic. -/

omit [IsStrictOrderedRing K] in
theorem sumFl_id (l : List K) : sumFl id l = l.sum := by
  rw [List.sum_eq_foldl]; rfl

theorem isStatsFl_id {depth : Cell → K} {area : K} {cs : List Cell} {u : StatUnits K} :
    IsStatsFl id depth area cs u ↔ IsStats depth area cs u := by
  constructor
  · rintro ⟨a, b, c, d, e, f⟩
    rw [sumFl_id] at c e
    exact ⟨a, b, c, d, e, f⟩
  · rintro ⟨a, b, c, d, e, f⟩
    rw [← sumFl_id] at c e
    exact ⟨a, b, c, d, e, f⟩

theorem passesFl_id {rows cols : Nat} {depth : Cell → K} {area : K} {f : StatUnits K → Bool} :
    PassesFl id rows cols depth area f = Passes rows cols depth area f := by
  funext c
  simp only [PassesFl, Passes, isStatsFl_id]

theorem isPourPointFl_id {gt : GeoTransform K} {depth : Cell → K} {l : Nat} {cs ws : List Cell} {p : PourPoint K}
    (h : IsPourPointFl id gt depth l cs ws p) : IsPourPoint gt depth l cs ws p := by
  obtain ⟨a, b, c, d, e, f, g, i⟩ := h
  rw [sumFl_id] at e
  exact ⟨a, b, c, d, e, f, g, i⟩

/-- What a successful run has produced with exact arithmetic. -/
structure IsResult (gt : GeoTransform K) (depths : Raster K) (f : StatUnits K → Bool) (flowdir : Raster Nat)
    (rule : List Cell → Cell → Prop) (out : Out K) : Prop where
  shape : out.labeled.rows = depths.rows ∧ out.labeled.cols = depths.cols ∧ out.watersheds.rows = depths.rows ∧
    out.watersheds.cols = depths.cols
  labelling : IsLabelling depths.rows depths.cols
    (fun c => depths.get c ≠ 0 ∧ Passes depths.rows depths.cols depths.get (cellArea gt) f c) out.labeled.get out.nlabels
  same : ∀ a b, depths.Has a → depths.Has b → out.labeled.get a ≠ 0 → out.labeled.get b ≠ 0 →
    (out.labeled.get a = out.labeled.get b ↔
      ConnectedIn (fun x => InGrid depths.rows depths.cols x ∧ depths.get x ≠ 0) a b)
  watershed : IsWatershed depths.rows depths.cols flowdir.get 0 out.labeled.get out.watersheds.get
  wlabels : TopLabel depths.rows depths.cols out.watersheds.get none out.nlabels ∧
    LabelsIn depths.rows depths.cols out.watersheds.get out.nlabels
  length : out.pourpoints.length = out.nlabels + 1
  points : ∀ (l : Nat) (cs ws : List Cell), l ≤ out.nlabels →
    CellsOf depths.rows depths.cols out.labeled.get l cs → CellsOf depths.rows depths.cols out.watersheds.get l ws →
    ∃ p, out.pourpoints[l]? = some p ∧ IsPourPoint gt depths.get l cs ws p ∧
      (cs ≠ [] → rule cs (p.cell_row, p.cell_col)) ∧ (cs = [] → (p.cell_row, p.cell_col) = (-1, -1))

theorem IsResultFl.exact {gt : GeoTransform K} {depths : Raster K} {f : StatUnits K → Bool} {flowdir : Raster Nat}
    {rule : List Cell → Cell → Prop} {out : Out K} (h : IsResultFl id gt depths f flowdir rule out) :
    IsResult gt depths f flowdir rule out := by
  obtain ⟨a, b, c, d, e, g, i⟩ := h
  rw [passesFl_id] at b
  refine ⟨a, b, c, d, e, g, fun l cs ws hl hcs hws => ?_⟩
  obtain ⟨p, p1, p2, p3⟩ := i l cs ws hl hcs hws
  exact ⟨p, p1, isPourPointFl_id p2, p3⟩

/-- What the network needs to know of a run. -/
structure IsChosen (depths : Raster K) (rule : List Cell → Cell → Prop) (out : Out K) : Prop where
  shape : out.labeled.rows = depths.rows ∧ out.labeled.cols = depths.cols
  range : ∀ c, InGrid depths.rows depths.cols c → 0 ≤ out.labeled.get c ∧ out.labeled.get c ≤ out.nlabels
  used : ∀ l : Nat, 1 ≤ l → l ≤ out.nlabels → ∃ c, InGrid depths.rows depths.cols c ∧ out.labeled.get c = l
  length : out.pourpoints.length = out.nlabels + 1
  points : ∀ (l : Nat) (cs : List Cell), l ≤ out.nlabels → CellsOf depths.rows depths.cols out.labeled.get l cs →
    ∃ p, out.pourpoints[l]? = some p ∧ p.bspot_id = l ∧
      (cs ≠ [] → rule cs (p.cell_row, p.cell_col)) ∧ (cs = [] → (p.cell_row, p.cell_col) = (-1, -1))

theorem IsResultFl.chosen {gt : GeoTransform K} {depths : Raster K} {f : StatUnits K → Bool} {flowdir : Raster Nat}
    {rule : List Cell → Cell → Prop} {out : Out K} (h : IsResultFl fl gt depths f flowdir rule out) : IsChosen depths rule out where
  shape := ⟨h.shape.1, h.shape.2.1⟩
  range := h.labelling.range
  used := h.labelling.used
  length := h.length
  points := fun l cs hl hcs => by
    obtain ⟨p, p1, p2, p3⟩ := h.points l cs _ hl hcs (lists_filter _ _ _)
    exact ⟨p, p1, p2.bspot_id, p3⟩

theorem IsResult.chosen {gt : GeoTransform K} {depths : Raster K} {f : StatUnits K → Bool} {flowdir : Raster Nat}
    {rule : List Cell → Cell → Prop} {out : Out K} (h : IsResult gt depths f flowdir rule out) : IsChosen depths rule out where
  shape := ⟨h.shape.1, h.shape.2.1⟩
  range := h.labelling.range
  used := h.labelling.used
  length := h.length
  points := fun l cs hl hcs => by
    obtain ⟨p, p1, p2, p3⟩ := h.points l cs _ hl hcs (lists_filter _ _ _)
    exact ⟨p, p1, p2.bspot_id, p3⟩

theorem process_accum {cc : Raster Bool → Raster Int × Nat} (hcc : LabelContract cc) {eng : Engine β K} (heng : IsEngine eng)
    (safe : Raster β → (β → β) × (β → β)) (gt : GeoTransform K) (hsq : SquareCells gt)
    (depths : Raster K) (hr : 0 < depths.rows) (hc : 0 < depths.cols) (f : StatUnits K → Bool) (flowdir : Raster Nat)
    (hshape : flowdir.rows = depths.rows ∧ flowdir.cols = depths.cols)
    (hd : ∀ c, flowdir.Has c → Drains flowdir.rows flowdir.cols flowdir.get c)
    (accum : Raster Int) (ha : accum.rows = depths.rows ∧ accum.cols = depths.cols) (dem : Option (Raster β)) :
    ∃ out, (process cc eng safe gt depths (some f) flowdir (some accum) dem).Yields (.ok out) ∧
      IsResult gt depths f flowdir (IsFirstMax accum.get) out := by
  obtain ⟨out, h1, h2⟩ := process_accumFl hcc heng safe gt hsq depths hr hc f flowdir hshape hd accum ha dem
  exact ⟨out, h1, h2.exact⟩

theorem process_dem {cc : Raster Bool → Raster Int × Nat} (hcc : LabelContract cc) {eng : Engine β K} (heng : IsEngine eng)
    (safe : Raster β → (β → β) × (β → β)) (gt : GeoTransform K) (hsq : SquareCells gt)
    (depths : Raster K) (hr : 0 < depths.rows) (hc : 0 < depths.cols) (f : StatUnits K → Bool) (flowdir : Raster Nat)
    (hshape : flowdir.rows = depths.rows ∧ flowdir.cols = depths.cols)
    (hd : ∀ c, flowdir.Has c → Drains flowdir.rows flowdir.cols flowdir.get c)
    (dem nf : Raster β) (hnf : Returns (eng.fillTerrainNoFlats (safe dem).1 (safe dem).2 dem) (.ok nf))
    (ha : nf.rows = depths.rows ∧ nf.cols = depths.cols) (hfin : ∀ c, nf.Has c → nf.get c < ⊤) :
    ∃ out, (process cc eng safe gt depths (some f) flowdir none (some dem)).Yields (.ok out) ∧
      IsResult gt depths f flowdir (IsFirstMin nf.get) out := by
  obtain ⟨out, h1, h2⟩ := process_demFl hcc heng safe gt hsq depths hr hc f flowdir hshape hd dem nf hnf ha hfin
  exact ⟨out, h1, h2.exact⟩

end Bluespots
end Malstroem
