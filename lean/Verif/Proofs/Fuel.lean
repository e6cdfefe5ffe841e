/-
More fuel does not change a result: what a fuelled function returns with some amount of fuel it returns with every larger
one. So one run that ends settles what the function `Returns`.
-/
import Verif.Model.Complete
import Verif.Props.Fill

set_option linter.unusedSectionVars false

namespace Malstroem
namespace Fuel

/-- `y` is the result `x`, if `x` has one. -/
def Le {ρ : Type*} (x y : Option ρ) : Prop := ∀ r, x = some r → y = some r

/-- More fuel does not change the result. -/
def Mono {ρ : Type*} (f : Nat → Option ρ) : Prop := ∀ n m, n ≤ m → Le (f n) (f m)

theorem Le.refl {ρ : Type*} (x : Option ρ) : Le x x := fun _ h => h

theorem Le.none {ρ : Type*} (x : Option ρ) : Le Option.none x := fun _ h => nomatch h

theorem Mono.const {ρ : Type*} (x : Option ρ) : Mono fun _ => x := fun _ _ _ => .refl x

theorem Mono.returns {ρ : Type*} {f : Nat → Option ρ} (h : Mono f) {n : Nat} {r : ρ} (e : f n = some r) : Returns f r :=
  ⟨n, fun m hm => h n m hm r e⟩

theorem Le.map {ρ σ : Type*} {x y : Option ρ} (h : Le x y) (g : ρ → σ) : Le (x.map g) (y.map g) := by
  intro r e
  obtain ⟨a, ha, rfl⟩ := Option.map_eq_some_iff.1 e
  rw [h a ha]; rfl

/-- The same for computations that may fail. -/
abbrev CLe {α : Type} (x y : Net.Comp α) : Prop := Le (ρ := Except PyErr α) x y

/-- The same for computations that may fail. -/
abbrev CMono {α : Type} (f : Nat → Net.Comp α) : Prop := Mono (ρ := Except PyErr α) f

/-- The same for runs. -/
abbrev RMono {α : Type} (x : Run α) : Prop := Mono (ρ := Except PyErr α) x

/-- Computations one after the other. -/
theorem Le.bind {α β : Type} {x y : Net.Comp α} {f g : α → Net.Comp β} (h : CLe x y)
    (hf : ∀ a, CLe (f a) (g a)) : CLe (x >>= f) (y >>= g) := by
  have key : ∀ x' : Option (Except PyErr α), x = x' → CLe (x >>= f) (y >>= g) := by
    intro x' e
    cases x' with
    | none => subst e; exact .none _
    | some r =>
      have e' : y = (some r : Option (Except PyErr α)) := h r e
      subst e e'
      cases r with
      | error e => exact .refl _
      | ok a => exact hf a
  exact key x rfl

theorem Le.mapM {α β : Type} {f g : α → Net.Comp β} (hf : ∀ a, CLe (f a) (g a)) (l : List α) :
    CLe (l.mapM f) (l.mapM g) := by
  induction l with
  | nil => exact .refl _
  | cons a l ih =>
    rw [List.mapM_cons, List.mapM_cons]
    exact (hf a).bind fun b => ih.bind fun bs => .refl _

theorem Le.foldlM {α β : Type} {f g : β → α → Net.Comp β} (hf : ∀ b a, CLe (f b a) (g b a))
    (l : List α) (b : β) : CLe (l.foldlM f b) (l.foldlM g b) := by
  induction l generalizing b with
  | nil => exact .refl _
  | cons a l ih =>
    rw [List.foldlM_cons, List.foldlM_cons]
    exact (hf b a).bind fun b => ih b

/-! Loops. -/

theorem doWhile_mono' {σ : Type*} (body : σ → σ × Bool) (s : σ) : Mono fun n => doWhile body n s :=
  fun _ _ h _ e => doWhile_mono e h

theorem fillTerrain {β : Type*} [LinearOrder β] [OrderTop β] (dtm : Raster β) : Mono (Fill.fillTerrain dtm) := by
  intro n m h
  unfold Fill.fillTerrain
  split
  · exact .refl _
  · exact (doWhile_mono' _ _ n m h).map _

theorem fillTerrainNoFlats {β : Type*} [LinearOrder β] [OrderTop β] (short diag : β → β) (dtm : Raster β) :
    Mono (Fill.fillTerrainNoFlats short diag dtm) := by
  intro n m h
  unfold Fill.fillTerrainNoFlats
  split
  · exact .refl _
  · exact (doWhile_mono' _ _ n m h).map _

theorem cythonFillTerrain {β : Type*} [LinearOrder β] [OrderTop β] (dtm : Raster β) : Mono (FillCython.fillTerrain dtm) := by
  intro n m h
  unfold FillCython.fillTerrain
  split
  · exact .refl _
  · exact (doWhile_mono' _ _ n m h).map _

theorem cythonFillTerrainNoFlats {β : Type*} [LinearOrder β] [OrderTop β] (short diag : β → β) (dtm : Raster β) :
    Mono (FillCython.fillTerrainNoFlats short diag dtm) := by
  intro n m h
  unfold FillCython.fillTerrainNoFlats
  split
  · exact .refl _
  · exact (doWhile_mono' _ _ n m h).map _

theorem traceAccumulatedFlow (flowdir : Raster Nat) (n m : Nat) (h : n ≤ m) (accum : Raster Int) (c : Cell) :
    Le (Flow.traceAccumulatedFlow flowdir n accum c) (Flow.traceAccumulatedFlow flowdir m accum c) := by
  induction n generalizing m accum c with
  | zero => exact .none _
  | succ n ih =>
    obtain ⟨m, rfl⟩ : ∃ k, m = k + 1 := ⟨m - 1, by omega⟩
    unfold Flow.traceAccumulatedFlow
    split
    · split
      · exact .refl _
      · rename_i cells _
        dsimp only
        generalize (if cells ≠ [] then Flow.sumCells cells accum.get 0 else 0) = s
        split
        · exact .refl _
        · split
          · exact .refl _
          · exact ih m (by omega) _ _
    · exact .refl _

theorem accumulatedFlow (flowdir : Raster Nat) : Mono (Flow.accumulatedFlow flowdir) := by
  intro n m h
  unfold Flow.accumulatedFlow
  generalize Flow.zeros flowdir.rows flowdir.cols = accum
  induction Raster.cellList flowdir.rows flowdir.cols generalizing accum with
  | nil => exact .refl _
  | cons c cs ih =>
    unfold Flow.accumulatedFlowLoop
    split
    · exact .refl _
    · split
      · have := traceAccumulatedFlow flowdir n m h accum c
        rcases e : Flow.traceAccumulatedFlow flowdir n accum c with _ | _ | a
        · exact .none _
        · rw [this _ e]; exact .refl _
        · rw [this _ e]; exact ih a
      · exact ih accum

theorem cythonTrace (junk : Int × Int) (flowdir : Raster Nat) (n m : Nat) (h : n ≤ m) (accum : Raster Int) (c : Cell) :
    Le (FlowCython.traceAccumulatedFlow junk flowdir n accum c) (FlowCython.traceAccumulatedFlow junk flowdir m accum c) := by
  induction n generalizing m accum c with
  | zero => exact .none _
  | succ n ih =>
    obtain ⟨m, rfl⟩ : ∃ k, m = k + 1 := ⟨m - 1, by omega⟩
    unfold FlowCython.traceAccumulatedFlow
    split
    · split
      · exact .refl _
      · exact ih m (by omega) _ _
    · exact .refl _

theorem cythonAccumulatedFlow (junk : Int × Int) (flowdir : Raster Nat) : Mono (FlowCython.accumulatedFlow junk flowdir) := by
  intro n m h
  unfold FlowCython.accumulatedFlow
  generalize Flow.zeros flowdir.rows flowdir.cols = accum
  induction Raster.cellList flowdir.rows flowdir.cols generalizing accum with
  | nil => exact .refl _
  | cons c cs ih =>
    unfold FlowCython.accumulatedFlowLoop
    have := cythonTrace junk flowdir n m h accum c
    rcases e : FlowCython.traceAccumulatedFlow junk flowdir n accum c with _ | a
    · exact .none _
    · rw [this _ e]; exact ih a

theorem assignLoop {L : Type*} [DecidableEq L] (flowdir : Raster Nat) (unassigned : L) (n m : Nat) (h : n ≤ m)
    (labelled : Raster L) (stack : List (Cell × L)) :
    Le (Flow.assignLoop flowdir unassigned n labelled stack) (Flow.assignLoop flowdir unassigned m labelled stack) := by
  induction n generalizing m labelled stack with
  | zero =>
    rcases stack with _ | ⟨x, stack⟩
    · cases m <;> exact .refl _
    · exact .none _
  | succ n ih =>
    obtain ⟨m, rfl⟩ : ∃ k, m = k + 1 := ⟨m - 1, by omega⟩
    rcases stack with _ | ⟨x, stack⟩
    · exact .refl _
    · unfold Flow.assignLoop
      dsimp only
      split
      · exact .refl _
      · exact ih m (by omega) _ _

theorem watershedsFromLabels {L : Type*} [DecidableEq L] (flowdir : Raster Nat) (labelled : Raster L) (unassigned : L) :
    Mono (Flow.watershedsFromLabels flowdir labelled unassigned) := by
  intro n m h
  unfold Flow.watershedsFromLabels
  induction Flow.edgeCellIndexes flowdir.rows flowdir.cols generalizing labelled with
  | nil => exact .refl _
  | cons c cs ih =>
    unfold Flow.watershedsLoop Flow.assignWatershedsUpstream
    have := assignLoop flowdir unassigned n m h labelled [(c, unassigned)]
    rcases e : Flow.assignLoop flowdir unassigned n labelled [(c, unassigned)] with _ | _ | a
    · exact .none _
    · rw [this _ e]; exact .refl _
    · rw [this _ e]; exact ih a

theorem cythonAssignLoop {L : Type*} [DecidableEq L] (junk : Int × Int) (flowdir : Raster Nat) (unassigned : L) (n m : Nat)
    (h : n ≤ m) (labelled : Raster L) (stack : List (Cell × L)) :
    Le (FlowCython.assignLoop junk flowdir unassigned n labelled stack)
      (FlowCython.assignLoop junk flowdir unassigned m labelled stack) := by
  induction n generalizing m labelled stack with
  | zero =>
    rcases stack with _ | ⟨x, stack⟩
    · cases m <;> exact .refl _
    · exact .none _
  | succ n ih =>
    obtain ⟨m, rfl⟩ : ∃ k, m = k + 1 := ⟨m - 1, by omega⟩
    rcases stack with _ | ⟨x, stack⟩
    · exact .refl _
    · unfold FlowCython.assignLoop
      exact ih m (by omega) _ _

theorem cythonWatershedsFromLabels {L : Type*} [DecidableEq L] (junk : Int × Int) (flowdir : Raster Nat) (labelled : Raster L)
    (unassigned : L) : Mono (FlowCython.watershedsFromLabels junk flowdir labelled unassigned) := by
  intro n m h
  unfold FlowCython.watershedsFromLabels
  induction Flow.edgeCellIndexes flowdir.rows flowdir.cols generalizing labelled with
  | nil => exact .refl _
  | cons c cs ih =>
    unfold FlowCython.watershedsLoop
    have := cythonAssignLoop junk flowdir unassigned n m h labelled [(c, unassigned)]
    rcases e : FlowCython.assignLoop junk flowdir unassigned n labelled [(c, unassigned)] with _ | a
    · exact .none _
    · rw [this _ e]; exact ih a

/-! The network. -/

theorem downstreamLoop (flowdir : Raster Nat) (labeled : Raster Int) (src : Int) (bg : Option Int) (g : Bool) (n m : Nat)
    (h : n ≤ m) (c : Cell) (geom : List Cell) :
    CLe (Net.downstreamLoop flowdir labeled src bg g n c geom)
      (Net.downstreamLoop flowdir labeled src bg g m c geom) := by
  induction n generalizing m c geom with
  | zero => exact .none _
  | succ n ih =>
    obtain ⟨m, rfl⟩ : ∃ k, m = k + 1 := ⟨m - 1, by omega⟩
    unfold Net.downstreamLoop
    split
    · dsimp only
      split
      · exact .refl _
      · split
        · exact .refl _
        · exact .refl _
        · exact ih m (by omega) _ _
    · exact .refl _

theorem nextDownstreamLabel (flowdir : Raster Nat) (labeled : Raster Int) (c : Cell) (bg : Option Int) (g : Bool) :
    CMono (Net.nextDownstreamLabel flowdir labeled c bg g) := fun n m h =>
  (Le.refl _).bind fun _ => downstreamLoop flowdir labeled _ bg g n m h c []

theorem pourpointNetwork (flowdir : Raster Nat) (labeled : Raster Int) (pps : List Net.PourPointArg) (bg : Option Int) :
    CMono (Net.pourpointNetwork flowdir labeled pps bg) := by
  intro n m h
  unfold Net.pourpointNetwork
  exact Le.mapM (fun x : Int × Cell => (nextDownstreamLabel flowdir labeled x.2 bg false n m h).bind fun _ => .refl _) _

theorem splitLoop (n m : Nat) (h : n ≤ m) (nodes : List Net.Node) (groups : List (List Net.Node)) :
    CLe (Net.splitLoop n nodes groups) (Net.splitLoop m nodes groups) := by
  induction n generalizing m nodes groups with
  | zero =>
    rcases nodes with _ | ⟨x, nodes⟩
    · cases m <;> exact .refl _
    · exact .none _
  | succ n ih =>
    obtain ⟨m, rfl⟩ : ∃ k, m = k + 1 := ⟨m - 1, by omega⟩
    rcases nodes with _ | ⟨x, nodes⟩
    · exact .refl _
    · unfold Net.splitLoop
      exact ih m (by omega) _ _

theorem splitIntoCommonFlowGroups (nodes : List Net.Node) :
    CMono (Net.splitIntoCommonFlowGroups nodes) := by
  intro n m h
  unfold Net.splitIntoCommonFlowGroups
  split
  · exact .refl _
  · exact splitLoop n m h _ _

theorem pruneLoop (n m : Nat) (h : n ≤ m) (geoms : List (List Cell)) (path : List Cell) :
    CLe (Net.pruneLoop n geoms path) (Net.pruneLoop m geoms path) := by
  induction n generalizing m geoms path with
  | zero => exact .none _
  | succ n ih =>
    obtain ⟨m, rfl⟩ : ∃ k, m = k + 1 := ⟨m - 1, by omega⟩
    unfold Net.pruneLoop
    refine (Le.refl _).bind fun b => ?_
    split
    · exact (Le.refl _).bind fun x => ih m (by omega) _ _
    · exact .refl _

theorem pruneCommonFlow (nodes : List Net.Node) (l : Int) : CMono (Net.pruneCommonFlow nodes l) := by
  intro n m h
  unfold Net.pruneCommonFlow
  split
  · exact .refl _
  · dsimp only
    split
    · exact .refl _
    · refine (Le.refl _).bind fun b => ?_
      split
      · exact .refl _
      · exact (pruneLoop n m h _ _).bind fun r => .refl _

theorem forGroups {prune prune' : List Net.Node → Int → Net.Comp (List Net.Node × Net.Node)}
    {rec rec' : List Net.Node → Int → Net.Comp (List (Net.Node × Int))}
    (hp : ∀ g l, CLe (prune g l) (prune' g l))
    (hr : ∀ g l, CLe (rec g l) (rec' g l)) (groups : List (List Net.Node)) (l : Int) :
    CLe (Net.forGroups prune rec groups l) (Net.forGroups prune' rec' groups l) := by
  induction groups generalizing l with
  | nil => exact .refl _
  | cons g groups ih =>
    unfold Net.forGroups
    split
    · exact (hp _ _).bind fun r => (hr _ _).bind fun inner => (ih _).bind fun outer => .refl _
    · split
      · exact .refl _
      · exact (ih _).bind fun outer => .refl _

theorem untangle (n m : Nat) (h : n ≤ m) (nodes : List Net.Node) (l : Int) :
    CLe (Net.untangle n nodes l) (Net.untangle m nodes l) := by
  induction n generalizing m nodes l with
  | zero => exact .none _
  | succ n ih =>
    obtain ⟨m, rfl⟩ : ∃ k, m = k + 1 := ⟨m - 1, by omega⟩
    unfold Net.untangle
    exact (splitIntoCommonFlowGroups nodes n m (by omega)).bind fun groups =>
      forGroups (fun g l => pruneCommonFlow g l n m (by omega)) (fun g l => ih m (by omega) g l) groups l

theorem groupByDownstream (flowdir : Raster Nat) (labeled : Raster Int) (bg : Option Int) (n m : Nat) (h : n ≤ m)
    (pps : List (Int × Cell)) (up : List (Option Int × List Net.Node)) :
    CLe (Net.groupByDownstream flowdir labeled bg n pps up)
      (Net.groupByDownstream flowdir labeled bg m pps up) := by
  induction pps generalizing up with
  | nil => exact .refl _
  | cons p pps ih =>
    obtain ⟨pid, pp⟩ := p
    unfold Net.groupByDownstream
    exact (nextDownstreamLabel flowdir labeled pp bg true n m h).bind fun r => ih _

theorem untangleAll (n m : Nat) (h : n ≤ m) (up : List (Option Int × List Net.Node)) (l : Int) (final : List Net.Node) :
    CLe (Net.untangleAll n up l final) (Net.untangleAll m up l final) := by
  induction up generalizing l final with
  | nil => exact .refl _
  | cons p up ih =>
    obtain ⟨k, us⟩ := p
    unfold Net.untangleAll
    exact (untangle n m h us l).bind fun ys => ih _ _

theorem geometricPourpointNetwork (flowdir : Raster Nat) (labeled : Raster Int) (pps : List Net.PourPointArg) (bg : Option Int) :
    CMono (Net.geometricPourpointNetwork flowdir labeled pps bg) := fun n m h =>
  (groupByDownstream flowdir labeled bg n m h _ _).bind fun _ => (Le.refl _).bind fun _ => untangleAll n m h _ _ _

section
variable {K : Type} [Field K] [LinearOrder K]

theorem streams (gt : GeoTransform K) (flowdir : Raster Nat) (labeled : Raster Int) (pps : List (Feature K)) (out : Bool) :
    CMono (Streams.process gt flowdir labeled pps out) := by
  intro n m h
  unfold Streams.process
  refine (Le.refl _).bind fun pix => ?_
  cases out
  · exact (pourpointNetwork flowdir labeled pix (some 0) n m h).bind fun nodes => .refl _
  · exact (geometricPourpointNetwork flowdir labeled pix (some 0) n m h).bind fun nodes => .refl _

theorem treeLoop (up : Val K → List (Val K)) (n m : Nat) (h : n ≤ m) (nodes tree : List (Val K)) :
    Le (Network.treeLoop up n nodes tree) (Network.treeLoop up m nodes tree) := by
  induction n generalizing m nodes tree with
  | zero =>
    rcases nodes with _ | ⟨x, nodes⟩
    · cases m <;> exact .refl _
    · exact .none _
  | succ n ih =>
    obtain ⟨m, rfl⟩ : ∃ k, m = k + 1 := ⟨m - 1, by omega⟩
    rcases nodes with _ | ⟨x, nodes⟩
    · exact .refl _
    · unfold Network.treeLoop
      exact ih m (by omega) _ _

theorem finalState (fl : K → K) (features : List (Feature K)) (attr : String) :
    CMono (Network.finalStateFl fl features attr) := by
  intro n m h
  unfold Network.finalStateFl
  refine (Le.refl _).bind fun idx => (Le.refl _).bind fun net => Le.bind ?_ fun ev => .refl _
  unfold Network.rainEventFl
  refine (Le.foldlM (fun values root => ?_) _ _).bind fun _ => .refl _
  unfold Network.calcStreamTreeFl
  exact Le.bind ((treeLoop _ n m h _ _).map _) fun _ => .refl _

end

/-! The chain. -/

/-- The functions DemTool and BluespotTool use. -/
structure Engines {β K : Type} [Field K] [LinearOrder K] (d : Dem.Engine β K) (b : Bluespots.Engine β K) : Prop where
  fill : ∀ z, Mono (d.fillTerrain z)
  noFlats : ∀ s g z, Mono (d.fillTerrainNoFlats s g z)
  accum : ∀ fd, Mono (d.accumulatedFlow fd)
  noFlats' : ∀ s g z, Mono (b.fillTerrainNoFlats s g z)
  watersheds : ∀ fd lab u, Mono (b.watershedsFromLabels fd lab u)

section
variable {β K : Type} [Field K] [LinearOrder K] [LinearOrder β] [OrderTop β]

theorem python (drop : β → β → K) (scale : K → K) (fl : K → K) : Engines (Dem.python drop scale) (Bluespots.pythonFl fl) :=
  ⟨fillTerrain, fillTerrainNoFlats, accumulatedFlow, fillTerrainNoFlats, watershedsFromLabels⟩

theorem compiled (junk : Int × Int) (drop : β → β → K) (scale : K → K) (fl : K → K) :
    Engines (Dem.compiled junk drop scale) (Bluespots.compiledFl fl junk) :=
  ⟨cythonFillTerrain, cythonFillTerrainNoFlats, fun fd n m h => (cythonAccumulatedFlow junk fd n m h).map _,
    cythonFillTerrainNoFlats, fun fd lab u n m h => (cythonWatershedsFromLabels junk fd lab u n m h).map _⟩

variable {d : Dem.Engine β K} {b : Bluespots.Engine β K}

theorem demProcess (h : Engines d b) (sub : β → β → K) (safe : Raster β → (β → β) × (β → β)) (sq want : Bool) (dem : Raster β) :
    Mono (Dem.process d sub safe sq want dem) := by
  intro n m hnm
  unfold Dem.process
  split
  · exact .refl _
  · have h1 := h.fill dem n m hnm
    rcases e1 : d.fillTerrain dem n with _ | _ | x
    · exact .none _
    · rw [h1 _ e1]; exact .refl _
    · rw [h1 _ e1]
      dsimp only
      have h2 := h.noFlats (safe dem).1 (safe dem).2 dem n m hnm
      rcases e2 : d.fillTerrainNoFlats (safe dem).1 (safe dem).2 dem n with _ | _ | y
      · exact .none _
      · rw [h2 _ e2]; exact .refl _
      · rw [h2 _ e2]
        dsimp only
        split
        · have h3 := h.accum (Flow.terrainFlowdirection d.drop d.scale y true) n m hnm
          rcases e3 : d.accumulatedFlow (Flow.terrainFlowdirection d.drop d.scale y true) n with _ | _ | z
          · exact .none _
          · rw [h3 _ e3]; exact .refl _
          · rw [h3 _ e3]; exact .refl _
        · exact .refl _

/-- Runs one after the other. -/
theorem Mono.bind {α γ : Type} {x : Run α} {f : α → Run γ} (hx : RMono x)
    (hf : ∀ a, RMono (f a)) : RMono (x >>= f) := fun n m h =>
  Le.bind (hx n m h) fun a => hf a n m h

theorem bluespotsProcess (fl : K → K) (cc : Raster Bool → Raster Int × Nat) (h : Engines d b)
    (safe : Raster β → (β → β) × (β → β)) (gt : GeoTransform K) (depths : Raster K)
    (f : Option (Bluespots.StatUnits K → Bool)) (flowdir : Raster Nat) (accum : Option (Raster Int)) (dem : Option (Raster β)) :
    RMono (Bluespots.processFl fl cc b safe gt depths f flowdir accum dem) := by
  unfold Bluespots.processFl
  split
  · exact .const _
  · dsimp only
    split
    · exact .const _
    · refine Mono.bind (.const _) fun st => ?_
      cases f with
      | none => exact .const _
      | some f =>
        refine Mono.bind (.const _) fun nc => Mono.bind (.const _) fun bs =>
          Mono.bind (h.watersheds _ _ _) fun ws => Mono.bind (.const _) fun wst => ?_
        cases accum with
        | some a => exact Mono.bind (.const _) fun _ => .const _
        | none =>
          cases dem with
          | none => exact .const _
          | some dem => exact Mono.bind (h.noFlats' _ _ _) fun _ => Mono.bind (.const _) fun _ => .const _

/-- The whole chain. -/
theorem processAll (fl : K → K) (cc : Raster Bool → Raster Int × Nat) (h : Engines d b) (sub : β → β → K)
    (safe : Raster β → (β → β) × (β → β)) (gt : GeoTransform K) (dem : Raster β) (accum : Bool)
    (f : Option (Bluespots.StatUnits K → Bool)) (mm : K) :
    RMono (Complete.processAllFl fl cc d b sub safe gt dem accum f mm) := by
  unfold Complete.processAllFl
  exact Mono.bind (demProcess h sub safe _ accum dem) fun _ => Mono.bind (bluespotsProcess fl cc h safe gt _ f _ _ _) fun _ =>
    Mono.bind (streams gt _ _ _ true) fun _ => Mono.bind (.const _) fun _ => Mono.bind (finalState fl _ _) fun _ => .const _

/-- What the chain is computed to report in one run is what it `Yields`. -/
theorem yields_of_run {γ : Type} {cc : Raster Bool → Raster Int × Nat} (h : Engines d b) {sub : β → β → K}
    {safe : Raster β → (β → β) × (β → β)} {gt : GeoTransform K} {dem : Raster β} {accum : Bool}
    {f : Option (Bluespots.StatUnits K → Bool)} {mm : K} {g : Complete.Out β K → γ} {v : γ} (n : Nat)
    (e : ((Complete.processAll cc d b sub safe gt dem accum f mm).run n).run.map (fun r => r.toOption.map g) = some (some v)) :
    ∃ out, (Complete.processAll cc d b sub safe gt dem accum f mm).Yields (.ok out) ∧ g out = v := by
  obtain ⟨r, hr, e2⟩ := Option.map_eq_some_iff.1 e
  obtain ⟨out, ho, e3⟩ := Option.map_eq_some_iff.1 e2
  cases r with
  | error x => exact nomatch ho
  | ok o =>
    obtain rfl : o = out := Option.some.inj ho
    exact ⟨o, (processAll id cc h sub safe gt dem accum f mm).returns hr, e3⟩

end
end Fuel
end Malstroem
