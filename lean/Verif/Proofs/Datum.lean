/-
A strictly increasing change of all elevations commutes with every step of the tools: the runs are the same step by step.
-/
import Verif.Model.Complete
import Mathlib.Control.Basic
import Mathlib.Order.Monotone.Basic
import Mathlib.Order.Hom.Basic

set_option linter.unusedSectionVars false

namespace Malstroem

/-- The raster of `g` applied to every value. -/
def Raster.map {α β : Type*} (g : α → β) (a : Raster α) : Raster β := ⟨a.rows, a.cols, fun c => g (a.get c)⟩

@[simp] theorem Raster.map_rows {α β : Type*} (g : α → β) (a : Raster α) : (a.map g).rows = a.rows := rfl
@[simp] theorem Raster.map_cols {α β : Type*} (g : α → β) (a : Raster α) : (a.map g).cols = a.cols := rfl
@[simp] theorem Raster.map_get {α β : Type*} (g : α → β) (a : Raster α) (c : Cell) : (a.map g).get c = g (a.get c) := rfl

theorem Raster.map_set {α β : Type*} (g : α → β) (a : Raster α) (c : Cell) (v : α) :
    (a.set c v).map g = (a.map g).set c (g v) := by
  unfold Raster.set Raster.map
  congr 1
  funext x
  by_cases hx : x = c
  · subst hx; simp
  · simp [Function.update_of_ne hx]

theorem doWhile_map {σ τ : Type*} {body : σ → σ × Bool} {body' : τ → τ × Bool} (m : σ → τ)
    (h : ∀ s, body' (m s) = (m (body s).1, (body s).2)) (n : Nat) (s : σ) :
    doWhile body' n (m s) = (doWhile body n s).map m := by
  induction n generalizing s with
  | zero => rfl
  | succ n ih =>
    simp only [doWhile, h]
    cases (body s).2 <;> simp [ih]

namespace Fill
variable {β β' : Type*} [LinearOrder β] [OrderTop β] [LinearOrder β'] [OrderTop β'] {g : β → β'}

theorem fillCell_map (hg : StrictMono g) (dtm filled : Raster β) (rc : Cell) :
    fillCell (dtm.map g) (filled.map g) rc = ((fillCell dtm filled rc).1.map g, (fillCell dtm filled rc).2) := by
  unfold fillCell
  simp only [Raster.map_get, hg.le_iff_le, ← hg.monotone.map_min, ← hg.monotone.map_max, hg.injective.eq_iff]
  split_ifs <;> simp [Raster.map_set]

theorem fillCellNoFlats_map (hg : StrictMono g) {short diag : β → β} {short' diag' : β' → β'}
    (hs : ∀ x, short' (g x) = g (short x)) (hd : ∀ x, diag' (g x) = g (diag x)) (dtm filled : Raster β) (rc : Cell) :
    fillCellNoFlats short' diag' (dtm.map g) (filled.map g) rc =
      ((fillCellNoFlats short diag dtm filled rc).1.map g, (fillCellNoFlats short diag dtm filled rc).2) := by
  unfold fillCellNoFlats
  simp only [Raster.map_get, hg.le_iff_le, ← hg.monotone.map_min, ← hg.monotone.map_max, hg.injective.eq_iff, hs, hd]
  split_ifs <;> simp [Raster.map_set]

theorem sweepWith_map {cell : Raster β → Cell → Raster β × Bool} {cell' : Raster β' → Cell → Raster β' × Bool}
    (h : ∀ f c, cell' (f.map g) c = ((cell f c).1.map g, (cell f c).2)) (cs : List Cell) (filled : Raster β) :
    sweepWith cell' cs (filled.map g) = ((sweepWith cell cs filled).1.map g, (sweepWith cell cs filled).2) := by
  unfold sweepWith
  generalize false = b
  induction cs generalizing filled b with
  | nil => rfl
  | cons c cs ih =>
    simp only [List.foldl_cons, h]
    exact ih _ _

/-- `if keep_going and sweep(...)`. -/
def andSweep (sweep : Raster β → Int → Int → Int → Int → Raster β × Bool) (p : Raster β × Bool) (a b c d : Int) :
    Raster β × Bool := if p.2 then sweep p.1 a b c d else (p.1, false)

theorem iteration_eq (sweep : Raster β → Int → Int → Int → Int → Raster β × Bool) (dtm filled : Raster β) :
    iteration sweep dtm filled =
      andSweep sweep (andSweep sweep (andSweep sweep (sweep filled 1 (dtm.rows - 2) 1 (dtm.cols - 2))
        (dtm.rows - 2) 1 (dtm.cols - 2) 1) 1 (dtm.rows - 2) (dtm.cols - 2) 1) (dtm.rows - 2) 1 1 (dtm.cols - 2) := rfl

theorem iteration_map {sweep : Raster β → Int → Int → Int → Int → Raster β × Bool}
    {sweep' : Raster β' → Int → Int → Int → Int → Raster β' × Bool}
    (h : ∀ f a b c d, sweep' (f.map g) a b c d = ((sweep f a b c d).1.map g, (sweep f a b c d).2)) (dtm filled : Raster β) :
    iteration sweep' (dtm.map g) (filled.map g) =
      ((iteration sweep dtm filled).1.map g, (iteration sweep dtm filled).2) := by
  have key : ∀ (p : Raster β × Bool) (a b c d : Int),
      andSweep sweep' (p.1.map g, p.2) a b c d = ((andSweep sweep p a b c d).1.map g, (andSweep sweep p a b c d).2) := by
    intro p a b c d
    unfold andSweep
    cases p.2 <;> simp [h]
  rw [iteration_eq, iteration_eq]
  simp only [Raster.map_rows, Raster.map_cols, h, key]

theorem initializeFilled_map (ht : g ⊤ = ⊤) (dtm : Raster β) : initializeFilled (dtm.map g) = (initializeFilled dtm).map g := by
  unfold initializeFilled Raster.map
  congr 1
  funext c
  simp only [apply_ite g, ht]

theorem fillTerrain_map (hg : StrictMono g) (ht : g ⊤ = ⊤) (dtm : Raster β) (n : Nat) :
    fillTerrain (dtm.map g) n = (fillTerrain dtm n).map (Except.map (Raster.map g)) := by
  unfold fillTerrain fillTerrainLoop
  by_cases hsz : dtm.rows < 2 ∨ dtm.cols < 2
  · rw [if_pos hsz, if_pos (show (dtm.map g).rows < 2 ∨ (dtm.map g).cols < 2 from hsz)]
    rfl
  · rw [if_neg hsz, if_neg (show ¬ ((dtm.map g).rows < 2 ∨ (dtm.map g).cols < 2) from hsz)]
    rw [initializeFilled_map ht, doWhile_map (Raster.map g) fun s => iteration_map (fun f a b c d =>
      sweepWith_map (fun f c => fillCell_map hg dtm f c) _ f) dtm s]
    rw [Option.map_map, Option.map_map]
    rfl

theorem fillTerrainNoFlats_map (hg : StrictMono g) (ht : g ⊤ = ⊤) {short diag : β → β} {short' diag' : β' → β'}
    (hs : ∀ x, short' (g x) = g (short x)) (hd : ∀ x, diag' (g x) = g (diag x)) (dtm : Raster β) (n : Nat) :
    fillTerrainNoFlats short' diag' (dtm.map g) n = (fillTerrainNoFlats short diag dtm n).map (Except.map (Raster.map g)) := by
  unfold fillTerrainNoFlats fillTerrainNoFlatsLoop
  by_cases hsz : dtm.rows < 2 ∨ dtm.cols < 2
  · rw [if_pos hsz, if_pos (show (dtm.map g).rows < 2 ∨ (dtm.map g).cols < 2 from hsz)]
    rfl
  · rw [if_neg hsz, if_neg (show ¬ ((dtm.map g).rows < 2 ∨ (dtm.map g).cols < 2) from hsz)]
    rw [initializeFilled_map ht, doWhile_map (Raster.map g) fun s => iteration_map (fun f a b c d =>
      sweepWith_map (fun f c => fillCellNoFlats_map hg hs hd dtm f c) _ f) dtm s]
    rw [Option.map_map, Option.map_map]
    rfl

end Fill

namespace FillCython
variable {β β' : Type*} [LinearOrder β] [OrderTop β] [LinearOrder β'] [OrderTop β'] {g : β → β'}

theorem fillCell_map (hg : StrictMono g) (dtm filled : Raster β) (rc : Cell) :
    fillCell (dtm.map g) (filled.map g) rc = ((fillCell dtm filled rc).1.map g, (fillCell dtm filled rc).2) := by
  unfold fillCell
  simp only [Raster.map_get, gt_iff_lt, hg.lt_iff_lt, ← hg.monotone.map_min, ← hg.monotone.map_max, ne_eq, hg.injective.eq_iff]
  split_ifs <;> simp [Raster.map_set]

theorem fillCellNoFlats_map (hg : StrictMono g) {short diag : β → β} {short' diag' : β' → β'}
    (hs : ∀ x, short' (g x) = g (short x)) (hd : ∀ x, diag' (g x) = g (diag x)) (dtm filled : Raster β) (rc : Cell) :
    fillCellNoFlats short' diag' (dtm.map g) (filled.map g) rc =
      ((fillCellNoFlats short diag dtm filled rc).1.map g, (fillCellNoFlats short diag dtm filled rc).2) := by
  unfold fillCellNoFlats
  simp only [Raster.map_get, gt_iff_lt, hg.lt_iff_lt, ← hg.monotone.map_min, ← hg.monotone.map_max, ne_eq,
    hg.injective.eq_iff, hs, hd]
  split_ifs <;> simp [Raster.map_set]

theorem fillTerrain_map (hg : StrictMono g) (ht : g ⊤ = ⊤) (dtm : Raster β) (n : Nat) :
    fillTerrain (dtm.map g) n = (fillTerrain dtm n).map (Except.map (Raster.map g)) := by
  unfold fillTerrain
  simp only [Raster.map_rows, Raster.map_cols]
  split
  · rfl
  · rw [Fill.initializeFilled_map ht, doWhile_map (Raster.map g) fun s => Fill.iteration_map (fun f a b c d =>
      Fill.sweepWith_map (fun f c => fillCell_map hg dtm f c) _ f) dtm s]
    rw [Option.map_map, Option.map_map]
    rfl

theorem fillTerrainNoFlats_map (hg : StrictMono g) (ht : g ⊤ = ⊤) {short diag : β → β} {short' diag' : β' → β'}
    (hs : ∀ x, short' (g x) = g (short x)) (hd : ∀ x, diag' (g x) = g (diag x)) (dtm : Raster β) (n : Nat) :
    fillTerrainNoFlats short' diag' (dtm.map g) n = (fillTerrainNoFlats short diag dtm n).map (Except.map (Raster.map g)) := by
  unfold fillTerrainNoFlats
  simp only [Raster.map_rows, Raster.map_cols]
  split
  · rfl
  · rw [Fill.initializeFilled_map ht, doWhile_map (Raster.map g) fun s => Fill.iteration_map (fun f a b c d =>
      Fill.sweepWith_map (fun f c => fillCellNoFlats_map hg hs hd dtm f c) _ f) dtm s]
    rw [Option.map_map, Option.map_map]
    rfl

end FillCython

namespace Flow
variable {β β' γ γ' : Type*} [LinearOrder γ] [Zero γ] [LinearOrder γ'] [Zero γ'] {g : β → β'} {h : γ → γ'}

/-- `cellFlow` as a fold over the eight drops. -/
theorem cellFlow_fold (sub : β → β → γ) (scale : γ → γ) (terrain : Raster β) (r c : Int) :
    cellFlow sub scale terrain r c =
      (List.foldl (fun (st p : Nat × γ) => if p.2 > st.2 then p else st) (8, 0)
       [(0, sub (terrain.get (r, c)) (terrain.get (r - 1, c))),
        (1, scale (sub (terrain.get (r, c)) (terrain.get (r - 1, c + 1)))),
        (2, sub (terrain.get (r, c)) (terrain.get (r, c + 1))),
        (3, scale (sub (terrain.get (r, c)) (terrain.get (r + 1, c + 1)))),
        (4, sub (terrain.get (r, c)) (terrain.get (r + 1, c))),
        (5, scale (sub (terrain.get (r, c)) (terrain.get (r + 1, c - 1)))),
        (6, sub (terrain.get (r, c)) (terrain.get (r, c - 1))),
        (7, scale (sub (terrain.get (r, c)) (terrain.get (r - 1, c - 1))))]).1 := rfl

theorem pick_map (hh : StrictMono h) (l : List (Nat × γ)) (st : Nat × γ) :
    (l.map fun p => (p.1, h p.2)).foldl (fun st p => if p.2 > st.2 then p else st) (st.1, h st.2) =
      ((l.foldl (fun st p => if p.2 > st.2 then p else st) st).1,
        h (l.foldl (fun st p => if p.2 > st.2 then p else st) st).2) := by
  induction l generalizing st with
  | nil => rfl
  | cons p l ih =>
    simp only [List.map_cons, List.foldl_cons, gt_iff_lt, hh.lt_iff_lt]
    by_cases hp : st.2 < p.2
    · simp only [hp, if_true]; exact ih p
    · simp only [hp, if_false]; exact ih st

theorem cellFlow_map (hh : StrictMono h) (h0 : h 0 = 0) {sub : β → β → γ} {sub' : β' → β' → γ'} {scale : γ → γ}
    {scale' : γ' → γ'} (hsub : ∀ a b, sub' (g a) (g b) = h (sub a b)) (hscale : ∀ x, scale' (h x) = h (scale x))
    (terrain : Raster β) (r c : Int) : cellFlow sub' scale' (terrain.map g) r c = cellFlow sub scale terrain r c := by
  rw [cellFlow_fold, cellFlow_fold]
  have := congrArg Prod.fst (pick_map hh
      [(0, sub (terrain.get (r, c)) (terrain.get (r - 1, c))),
        (1, scale (sub (terrain.get (r, c)) (terrain.get (r - 1, c + 1)))),
        (2, sub (terrain.get (r, c)) (terrain.get (r, c + 1))),
        (3, scale (sub (terrain.get (r, c)) (terrain.get (r + 1, c + 1)))),
        (4, sub (terrain.get (r, c)) (terrain.get (r + 1, c))),
        (5, scale (sub (terrain.get (r, c)) (terrain.get (r + 1, c - 1)))),
        (6, sub (terrain.get (r, c)) (terrain.get (r, c - 1))),
        (7, scale (sub (terrain.get (r, c)) (terrain.get (r - 1, c - 1))))] (8, 0))
  simp only [Raster.map_get, hsub, hscale]
  rw [← this]
  simp only [List.map_cons, List.map_nil, h0]

theorem terrainFlowdirection_map (hh : StrictMono h) (h0 : h 0 = 0) {sub : β → β → γ} {sub' : β' → β' → γ'} {scale : γ → γ}
    {scale' : γ' → γ'} (hsub : ∀ a b, sub' (g a) (g b) = h (sub a b)) (hscale : ∀ x, scale' (h x) = h (scale x))
    (terrain : Raster β) (outward : Bool) :
    terrainFlowdirection sub' scale' (terrain.map g) outward = terrainFlowdirection sub scale terrain outward := by
  have : terrainFlow sub' scale' (terrain.map g) = terrainFlow sub scale terrain := by
    unfold terrainFlow
    simp only [cellFlow_map hh h0 hsub hscale, Raster.map_rows, Raster.map_cols]
  unfold terrainFlowdirection
  rw [this]

end Flow

namespace Dem
variable {β β' γ γ' : Type*} [LinearOrder β] [OrderTop β] [LinearOrder β'] [OrderTop β'] [LinearOrder γ] [Zero γ]
  [LinearOrder γ'] [Zero γ']

/-- What becomes of the results of DemTool when elevations are changed by `g` and differences of elevations by `h`. -/
def Out.map (g : β → β') (h : γ → γ') (o : Out β γ) : Out β' γ' :=
  { filled := o.filled.map g, depths := o.depths.map h, noFlats := o.noFlats.map g, flowdir := o.flowdir, accum := o.accum }

/-- The functions `eng'` do to changed elevations what `eng` does to the original ones. -/
structure Engine.Commutes (g : β → β') (h : γ → γ') (eng : Engine β γ) (eng' : Engine β' γ') : Prop where
  fill : ∀ dem n, eng'.fillTerrain (dem.map g) n = (eng.fillTerrain dem n).map (Except.map (Raster.map g))
  noFlats : ∀ {short diag : β → β} {short' diag' : β' → β'}, (∀ x, short' (g x) = g (short x)) →
    (∀ x, diag' (g x) = g (diag x)) → ∀ dem n, eng'.fillTerrainNoFlats short' diag' (dem.map g) n =
      (eng.fillTerrainNoFlats short diag dem n).map (Except.map (Raster.map g))
  drop : ∀ a b, eng'.drop (g a) (g b) = h (eng.drop a b)
  scale : ∀ x, eng'.scale (h x) = h (eng.scale x)
  accum : eng'.accumulatedFlow = eng.accumulatedFlow

theorem python_commutes {g : β → β'} {h : γ → γ'} (hg : StrictMono g) (ht : g ⊤ = ⊤) {drop : β → β → γ} {drop' : β' → β' → γ'}
    {scale : γ → γ} {scale' : γ' → γ'} (hdrop : ∀ a b, drop' (g a) (g b) = h (drop a b))
    (hscale : ∀ x, scale' (h x) = h (scale x)) : (python drop scale).Commutes g h (python drop' scale') where
  fill := Fill.fillTerrain_map hg ht
  noFlats := fun hs hd dem n => Fill.fillTerrainNoFlats_map hg ht hs hd dem n
  drop := hdrop
  scale := hscale
  accum := rfl

theorem compiled_commutes {g : β → β'} {h : γ → γ'} (hg : StrictMono g) (ht : g ⊤ = ⊤) {drop : β → β → γ}
    {drop' : β' → β' → γ'} {scale : γ → γ} {scale' : γ' → γ'} (junk : Int × Int)
    (hdrop : ∀ a b, drop' (g a) (g b) = h (drop a b)) (hscale : ∀ x, scale' (h x) = h (scale x)) :
    (compiled junk drop scale).Commutes g h (compiled junk drop' scale') where
  fill := FillCython.fillTerrain_map hg ht
  noFlats := fun hs hd dem n => FillCython.fillTerrainNoFlats_map hg ht hs hd dem n
  drop := hdrop
  scale := hscale
  accum := rfl

theorem process_map {g : β → β'} {h : γ → γ'} (hh : StrictMono h) (h0 : h 0 = 0) {eng : Engine β γ} {eng' : Engine β' γ'}
    (he : eng.Commutes g h eng') {sub : β → β → γ} {sub' : β' → β' → γ'} (hsub : ∀ a b, sub' (g a) (g b) = h (sub a b))
    {safe : Raster β → (β → β) × (β → β)} {safe' : Raster β' → (β' → β') × (β' → β')} (dem : Raster β)
    (hs : ∀ x, (safe' (dem.map g)).1 (g x) = g ((safe dem).1 x)) (hd : ∀ x, (safe' (dem.map g)).2 (g x) = g ((safe dem).2 x))
    (square want : Bool) (n : Nat) :
    process eng' sub' safe' square want (dem.map g) n =
      (process eng sub safe square want dem n).map (Except.map (Out.map g h)) := by
  have hdep : ∀ f : Raster β, depths sub' (f.map g) (dem.map g) = (depths sub f dem).map h := by
    intro f
    unfold depths Raster.map
    simp only [hsub]
  unfold process
  by_cases hsq : square = true
  · simp only [hsq, not_true_eq_false, if_false, he.fill]
    rcases eng.fillTerrain dem n with _ | _ | f
    · rfl
    · rfl
    · simp only [Option.map_some, Except.map, he.noFlats hs hd]
      rcases eng.fillTerrainNoFlats (safe dem).1 (safe dem).2 dem n with _ | _ | nf
      · rfl
      · rfl
      · simp only [Option.map_some, Except.map, hdep, Flow.terrainFlowdirection_map hh h0 he.drop he.scale, he.accum]
        split
        · rcases eng.accumulatedFlow (Flow.terrainFlowdirection eng.drop eng.scale nf true) n with _ | _ | a <;> rfl
        · rfl
  · simp only [hsq]
    rfl

end Dem

theorem Run.ofFuel_map {α α' : Type} {x : Nat → Option (Except PyErr α)} {x' : Nat → Option (Except PyErr α')} {f : α → α'}
    (h : ∀ n, x' n = (x n).map (Except.map f)) : Run.ofFuel x' = f <$> Run.ofFuel x := by
  funext n
  show x' n = (ExceptT.map f (x n) : ExceptT PyErr Option α')
  rw [h]
  rcases x n with _ | _ | a <;> rfl

theorem Run.ofExcept_map {α α' : Type} {x : Except PyErr α} {x' : Except PyErr α'} {f : α → α'}
    (h : x' = Except.map f x) : Run.ofExcept x' = f <$> Run.ofExcept x := by
  subst h
  funext n
  rcases x with _ | a <;> rfl

namespace Label
variable {β β' : Type} [LinearOrder β] [OrderTop β] [LinearOrder β'] [OrderTop β']

/-- The record with its value changed. -/
def Index.map (g : β → β') (i : Index β) : Index β' := ⟨g i.value, i.row, i.col⟩

theorem minUpd_map {g : β → β'} (hg : StrictMono g) (data : Raster β) (rc : Cell) (r : Index β) :
    minUpd (data.map g) rc (r.map g) = (minUpd data rc r).map g := by
  unfold minUpd Index.map
  simp only [Raster.map_get, hg.lt_iff_lt]
  split_ifs <;> rfl

theorem scan_map {ρ ρ' : Type} (m : ρ → ρ') {upd : Cell → ρ → ρ} {upd' : Cell → ρ' → ρ'}
    (h : ∀ c r, upd' c (m r) = m (upd c r)) (labelled : Raster Int) (cs : List Cell) (st : List ρ) :
    scan upd' labelled cs (st.map m) = Except.map (List.map m) (scan upd labelled cs st) := by
  induction cs generalizing st with
  | nil => rfl
  | cons c cs ih =>
    simp only [scan, List.length_map]
    rcases pyIdx st.length (labelled.get c) with _ | i
    · rfl
    · simp only
      rw [← ih]
      congr 1
      apply List.ext_getElem? 
      intro j
      simp only [List.getElem?_map, List.getElem?_modify]
      rcases st[j]? with _ | x
      · simp
      · by_cases hij : i = j <;> simp [hij, h]

theorem labelMinIndex_map {g : β → β'} (hg : StrictMono g) (ht : g ⊤ = ⊤) (data : Raster β) (labelled : Raster Int)
    (nlabels : Option Int) :
    labelMinIndex (data.map g) labelled nlabels = Except.map (List.map (Index.map g)) (labelMinIndex data labelled nlabels) := by
  unfold labelMinIndex
  rcases resolve labelled nlabels with e | n
  · rfl
  · show (table n _ >>= _) = Except.map _ (table n _ >>= _)
    unfold table
    split_ifs
    · rfl
    · show scan _ _ _ _ = Except.map _ (scan _ _ _ _)
      rw [← scan_map (Index.map g) (fun c r => minUpd_map hg data c r)]
      simp [Index.map, ht, Raster.cells]

end Label

namespace LabelCython
open Label (Index)
variable {β β' : Type} [LinearOrder β] [OrderTop β] [LinearOrder β'] [OrderTop β']

theorem minUpd_map {g : β → β'} (hg : StrictMono g) (data : Raster β) (rc : Cell) (r : Index β) :
    minUpd (data.map g) rc (r.map g) = (minUpd data rc r).map g := Label.minUpd_map hg data rc r

theorem scan_map {ρ ρ' : Type} (m : ρ → ρ') {upd : Cell → ρ → ρ} {upd' : Cell → ρ' → ρ'}
    (h : ∀ c r, upd' c (m r) = m (upd c r)) (labelled : Raster Int) (cs : List Cell) (st : List ρ) :
    scan upd' labelled cs (st.map m) = Except.map (List.map m) (scan upd labelled cs st) := by
  induction cs generalizing st with
  | nil => rfl
  | cons c cs ih =>
    simp only [scan, List.length_map]
    rcases pyIdx st.length (labelled.get c) with _ | i
    · rfl
    · simp only [List.getElem?_map]
      rcases st[i]? with _ | x
      · rfl
      · simp only [Option.map_some, h]
        rw [← ih, List.map_set]

theorem labelMinIndex_map {g : β → β'} (hg : StrictMono g) (ht : g ⊤ = ⊤) (data : Raster β) (labelled : Raster Int)
    (nlabels : Option Int) :
    labelMinIndex (data.map g) labelled nlabels = Except.map (List.map (Index.map g)) (labelMinIndex data labelled nlabels) := by
  unfold labelMinIndex
  rcases Label.resolve labelled nlabels with e | n
  · rfl
  · show (Label.table n _ >>= _) = Except.map _ (Label.table n _ >>= _)
    unfold Label.table
    split_ifs
    · rfl
    · show scan _ _ _ _ = Except.map _ (scan _ _ _ _)
      rw [← scan_map (Index.map g) (fun c r => minUpd_map hg data c r)]
      simp [Index.map, ht, Raster.cells]

end LabelCython

namespace Bluespots
variable {K : Type} [Field K] [LinearOrder K] {β β' : Type} [LinearOrder β] [OrderTop β] [LinearOrder β'] [OrderTop β']

/-- The functions `eng'` do to changed elevations what `eng` does to the original ones. -/
structure Engine.Commutes (g : β → β') (eng : Engine β K) (eng' : Engine β' K) : Prop where
  noFlats : ∀ {short diag : β → β} {short' diag' : β' → β'}, (∀ x, short' (g x) = g (short x)) →
    (∀ x, diag' (g x) = g (diag x)) → ∀ dem n, eng'.fillTerrainNoFlats short' diag' (dem.map g) n =
      (eng.fillTerrainNoFlats short diag dem n).map (Except.map (Raster.map g))
  watersheds : eng'.watershedsFromLabels = eng.watershedsFromLabels
  stats : eng'.labelStats = eng.labelStats
  minIndex : ∀ data labelled nlabels, eng'.labelMinIndex (data.map g) labelled nlabels =
    Except.map (List.map (Label.Index.map g)) (eng.labelMinIndex data labelled nlabels)

theorem python_commutes {g : β → β'} (hg : StrictMono g) (ht : g ⊤ = ⊤) (fl : K → K) :
    (pythonFl fl : Engine β K).Commutes g (pythonFl fl) where
  noFlats := fun hs hd dem n => Fill.fillTerrainNoFlats_map hg ht hs hd dem n
  watersheds := rfl
  stats := rfl
  minIndex := Label.labelMinIndex_map hg ht

theorem compiled_commutes {g : β → β'} (hg : StrictMono g) (ht : g ⊤ = ⊤) (fl : K → K) (junk : Int × Int) :
    (compiledFl fl junk : Engine β K).Commutes g (compiledFl fl junk) where
  noFlats := fun hs hd dem n => FillCython.fillTerrainNoFlats_map hg ht hs hd dem n
  watersheds := rfl
  stats := rfl
  minIndex := LabelCython.labelMinIndex_map hg ht

theorem assemble_map (g : β → β') (fl : K → K) (t : GeoTransform K) (pp : List (Label.Index β))
    (bs : List (Label.Stat K)) (ws : List Int) :
    assemblePourpointsFl fl t (pp.map (Label.Index.map g)) bs ws = assemblePourpointsFl fl t pp bs ws := by
  unfold assemblePourpointsFl
  simp only [List.zip_map_left, List.zipIdx_map, List.map_map]
  rfl

theorem process_map {g : β → β'} {eng : Engine β K} {eng' : Engine β' K} (he : eng.Commutes g eng') (fl : K → K)
    (cc : Raster Bool → Raster Int × Nat)
    {safe : Raster β → (β → β) × (β → β)} {safe' : Raster β' → (β' → β') × (β' → β')} (dem : Raster β)
    (hs : ∀ x, (safe' (dem.map g)).1 (g x) = g ((safe dem).1 x)) (hd : ∀ x, (safe' (dem.map g)).2 (g x) = g ((safe dem).2 x))
    (t : GeoTransform K) (depths : Raster K) (filter : Option (StatUnits K → Bool)) (flowdir : Raster Nat)
    (accum : Option (Raster Int)) :
    processFl fl cc eng' safe' t depths filter flowdir accum (some (dem.map g)) =
      processFl fl cc eng safe t depths filter flowdir accum (some dem) := by
  unfold processFl
  have h1 : Run.ofFuel (eng'.fillTerrainNoFlats (safe' (dem.map g)).1 (safe' (dem.map g)).2 (dem.map g)) =
      Raster.map g <$> Run.ofFuel (eng.fillTerrainNoFlats (safe dem).1 (safe dem).2 dem) :=
    Run.ofFuel_map (he.noFlats hs hd dem)
  have h2 : ∀ (f : Raster β) lab n, Run.ofExcept (eng'.labelMinIndex (f.map g) lab n) =
      List.map (Label.Index.map g) <$> Run.ofExcept (eng.labelMinIndex f lab n) := fun f lab n =>
    Run.ofExcept_map (he.minIndex f lab n)
  cases accum with
  | none => simp only [h1, h2, he.stats, he.watersheds, bind_map_left, assemble_map, Option.isNone_some]
  | some a => simp only [he.stats, he.watersheds, Option.isNone_some]

end Bluespots

namespace Complete
variable {K : Type} [Field K] [LinearOrder K] {β β' : Type} [LinearOrder β] [OrderTop β] [LinearOrder β'] [OrderTop β']

/-- The results of the command with the elevations in them changed by `g`. -/
def Out.map (g : β → β') (o : Out β K) : Out β' K :=
  { dem := o.dem.map g id, bluespots := o.bluespots, nodes := o.nodes, streams := o.streams, volumes := o.volumes,
    final := o.final }

theorem processAll_map {g : β → β'} {de : Dem.Engine β K} {de' : Dem.Engine β' K} (hde : de.Commutes g id de')
    {be : Bluespots.Engine β K} {be' : Bluespots.Engine β' K} (hbe : be.Commutes g be') (fl : K → K)
    (cc : Raster Bool → Raster Int × Nat) {sub : β → β → K} {sub' : β' → β' → K} (hsub : ∀ a b, sub' (g a) (g b) = sub a b)
    {safe : Raster β → (β → β) × (β → β)} {safe' : Raster β' → (β' → β') × (β' → β')} (dem : Raster β)
    (hs : ∀ x, (safe' (dem.map g)).1 (g x) = g ((safe dem).1 x)) (hd : ∀ x, (safe' (dem.map g)).2 (g x) = g ((safe dem).2 x))
    (t : GeoTransform K) (accum : Bool) (filter : Option (Bluespots.StatUnits K → Bool)) (mm : K) :
    processAllFl fl cc de' be' sub' safe' t (dem.map g) accum filter mm =
      Out.map g <$> processAllFl fl cc de be sub safe t dem accum filter mm := by
  unfold processAllFl
  have h1 : Run.ofFuel (Dem.process de' sub' safe' (squareCellsFl fl t) accum (dem.map g)) =
      Dem.Out.map g id <$> Run.ofFuel (Dem.process de sub safe (squareCellsFl fl t) accum dem) :=
    Run.ofFuel_map (Dem.process_map strictMono_id rfl hde hsub dem hs hd (squareCellsFl fl t) accum)
  simp only [h1, bind_map_left, Bluespots.process_map hbe fl cc dem hs hd, map_bind, map_pure]
  rfl

end Complete
end Malstroem
