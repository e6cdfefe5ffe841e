/-
Property C115: the same terrain in smaller cells.
-/
import Verif.Spec.Resolution
import Verif.Props.Tiles
import Verif.Props.Numbering

set_option linter.unusedSectionVars false

namespace Malstroem
open Spec

namespace Resolution
variable {k : Nat}

theorem ediv_iff (hk : 1 ≤ k) {x y : Int} : x / (k : Int) = y ↔ k * y ≤ x ∧ x < k * y + k := by
  have hk' : (0 : Int) < k := by omega
  constructor
  · rintro rfl
    have h1 := Int.mul_ediv_add_emod x k
    have h2 := Int.emod_nonneg x hk'.ne'
    have h3 := Int.emod_lt_of_pos x hk'
    constructor <;> linarith
  · rintro ⟨h1, h2⟩
    refine le_antisymm ?_ ?_
    · have : x / (k : Int) < y + 1 := Int.ediv_lt_of_lt_mul hk' (by linarith)
      omega
    · exact (Int.le_ediv_iff_mul_le hk').2 (by linarith)

theorem ingrid_iff (hk : 1 ≤ k) {rows cols : Nat} {c : Cell} : InGrid (k * rows) (k * cols) c ↔ InGrid rows cols (block k c) := by
  have hk' : (0 : Int) < k := by omega
  have key : ∀ (x : Int) (n : Nat), (0 ≤ x ∧ x < ((k * n : Nat) : Int)) ↔ (0 ≤ x / (k : Int) ∧ x / (k : Int) < n) := by
    intro x n
    rw [Int.ediv_nonneg_iff_of_pos hk', Int.ediv_lt_iff_lt_mul hk', Nat.cast_mul, mul_comm (k : Int)]
  unfold InGrid block
  have h1 := key c.1 rows
  have h2 := key c.2 cols
  tauto

theorem edge_block (hk : 1 ≤ k) {rows cols : Nat} {c : Cell} (h : OnEdge (k * rows) (k * cols) c) :
    OnEdge rows cols (block k c) := by
  have hk' : (0 : Int) < k := by omega
  refine ⟨(ingrid_iff hk).1 h.1, ?_⟩
  have last : ∀ n : Nat, ((k * n : Nat) : Int) - 1 = c.1 ∨ ((k * n : Nat) : Int) - 1 = c.2 → (((k * n : Nat) : Int) - 1) / (k : Int) = n - 1 := by
    intro n _
    rw [ediv_iff hk]
    push_cast
    constructor <;> nlinarith
  rcases h.2 with e | e | e | e
  · left; show c.1 / (k : Int) = 0; rw [e]; simp
  · right; left; show c.1 / (k : Int) = _; rw [e]; exact last rows (.inl e.symm)
  · right; right; left; show c.2 / (k : Int) = 0; rw [e]; simp
  · right; right; right; show c.2 / (k : Int) = _; rw [e]; exact last cols (.inr e.symm)

/-- Every edge cell contains an edge cell of the finer raster. -/
theorem block_edge (hk : 1 ≤ k) {rows cols : Nat} {e : Cell} (h : OnEdge rows cols e) :
    ∃ c, OnEdge (k * rows) (k * cols) c ∧ block k c = e := by
  have hk' : (1 : Int) ≤ k := by omega
  have key : ∀ i j : Int, 0 ≤ i → i < k → 0 ≤ j → j < k → block k ((k : Int) * e.1 + i, (k : Int) * e.2 + j) = e := by
    intro i j h1 h2 h3 h4
    unfold block
    ext
    · exact (ediv_iff hk).2 ⟨by linarith, by linarith⟩
    · exact (ediv_iff hk).2 ⟨by linarith, by linarith⟩
  rcases h.2 with he | he | he | he
  · refine ⟨_, ⟨?_, .inl ?_⟩, key 0 0 le_rfl (by omega) le_rfl (by omega)⟩
    · rw [ingrid_iff hk, key 0 0 le_rfl (by omega) le_rfl (by omega)]; exact h.1
    · simp [he]
  · refine ⟨_, ⟨?_, .inr (.inl ?_)⟩, key (k - 1) 0 (by omega) (by omega) le_rfl (by omega)⟩
    · rw [ingrid_iff hk, key _ 0 (by omega) (by omega) le_rfl (by omega)]; exact h.1
    · simp only [he]; push_cast; ring
  · refine ⟨_, ⟨?_, .inr (.inr (.inl ?_))⟩, key 0 0 le_rfl (by omega) le_rfl (by omega)⟩
    · rw [ingrid_iff hk, key 0 0 le_rfl (by omega) le_rfl (by omega)]; exact h.1
    · simp [he]
  · refine ⟨_, ⟨?_, .inr (.inr (.inr ?_))⟩, key 0 (k - 1) le_rfl (by omega) (by omega) (by omega)⟩
    · rw [ingrid_iff hk, key 0 _ le_rfl (by omega) (by omega) (by omega)]; exact h.1
    · simp only [he]; push_cast; ring

theorem adj_block (hk : 1 ≤ k) {a b : Cell} (h : Adj a b) : block k a = block k b ∨ Adj (block k a) (block k b) := by
  have hk' : (1 : Int) ≤ k := by omega
  by_cases e : block k a = block k b
  · exact .inl e
  · right
    have key : ∀ x y : Int, |x - y| ≤ 1 → |x / (k : Int) - y / (k : Int)| ≤ 1 := by
      intro x y h
      obtain ⟨h1, h2⟩ := abs_le.1 h
      obtain ⟨x1, x2⟩ := (ediv_iff hk (x := x)).1 rfl
      obtain ⟨y1, y2⟩ := (ediv_iff hk (x := y)).1 rfl
      rw [abs_le]
      constructor
      · by_contra hlt
        have : x / (k : Int) + 2 ≤ y / (k : Int) := by omega
        nlinarith
      · by_contra hlt
        have : y / (k : Int) + 2 ≤ x / (k : Int) := by omega
        nlinarith
    exact ⟨e, key _ _ h.2.1, key _ _ h.2.2⟩

/-- The cells of one block hang together. -/
theorem block_connected (hk : 1 ≤ k) {a b : Cell} (h : block k a = block k b) :
    ConnectedIn (fun x => block k x = block k a) a b := by
  have rows : ∀ (n : Nat) (r s : Int), (r + n) / (k : Int) = r / (k : Int) →
      ConnectedIn (fun x => block k x = block k (r, s)) (r, s) (r + n, s) := by
    intro n
    induction n with
    | zero => intro r s _; simpa using ConnectedIn.refl (S := fun x => block k x = block k (r, s)) rfl
    | succ n ih =>
      intro r s e
      obtain ⟨h1, h2⟩ := (ediv_iff hk).1 e
      obtain ⟨h3, h4⟩ := (ediv_iff hk (x := r)).1 rfl
      have e' : (r + n) / (k : Int) = r / (k : Int) := (ediv_iff hk).2 ⟨by push_cast at *; linarith, by push_cast at *; linarith⟩
      refine (ih r s e').trans (.step ⟨by simp, by push_cast; simp, by simp⟩ ?_ ?_)
      · show ((r + (n : Int)) / (k : Int), s / (k : Int)) = _; rw [e']; rfl
      · show ((r + ((n + 1 : Nat) : Int)) / (k : Int), s / (k : Int)) = _; rw [e]; rfl
  have cols : ∀ (n : Nat) (r s : Int), (s + n) / (k : Int) = s / (k : Int) →
      ConnectedIn (fun x => block k x = block k (r, s)) (r, s) (r, s + n) := by
    intro n
    induction n with
    | zero => intro r s _; simpa using ConnectedIn.refl (S := fun x => block k x = block k (r, s)) rfl
    | succ n ih =>
      intro r s e
      obtain ⟨h1, h2⟩ := (ediv_iff hk).1 e
      obtain ⟨h3, h4⟩ := (ediv_iff hk (x := s)).1 rfl
      have e' : (s + n) / (k : Int) = s / (k : Int) := (ediv_iff hk).2 ⟨by push_cast at *; linarith, by push_cast at *; linarith⟩
      refine (ih r s e').trans (.step ⟨by simp, by simp, by push_cast; simp⟩ ?_ ?_)
      · show (r / (k : Int), (s + (n : Int)) / (k : Int)) = _; rw [e']; rfl
      · show (r / (k : Int), (s + ((n + 1 : Nat) : Int)) / (k : Int)) = _; rw [e]; rfl
  obtain ⟨a1, a2⟩ := a
  obtain ⟨b1, b2⟩ := b
  have e1 : a1 / (k : Int) = b1 / (k : Int) := congrArg Prod.fst h
  have e2 : a2 / (k : Int) = b2 / (k : Int) := congrArg Prod.snd h
  have hr : ConnectedIn (fun x => block k x = block k (a1, a2)) (a1, a2) (b1, a2) := by
    rcases le_total a1 b1 with hle | hle
    · obtain ⟨n, hn⟩ := Int.le.dest hle
      rw [← hn] at e1 ⊢
      exact rows n a1 a2 e1.symm
    · obtain ⟨n, hn⟩ := Int.le.dest hle
      have := rows n b1 a2 (by rw [hn]; exact e1)
      rw [hn] at this
      have hb : block k (b1, a2) = block k (a1, a2) := by unfold block; simp only [e1]
      rw [hb] at this
      exact this.symm
  refine hr.trans ?_
  have hb : block k (b1, a2) = block k (a1, a2) := by unfold block; simp only [e1]
  rcases le_total a2 b2 with hle | hle
  · obtain ⟨n, hn⟩ := Int.le.dest hle
    have := cols n b1 a2 (by rw [hn]; exact e2.symm)
    rw [hn, hb] at this
    exact this
  · obtain ⟨n, hn⟩ := Int.le.dest hle
    have := cols n b1 b2 (by rw [hn]; exact e2)
    rw [hn] at this
    have hb' : block k (b1, b2) = block k (a1, a2) := by unfold block; simp only [e1, e2]
    rw [hb'] at this
    exact this.symm

/-- Neighbouring blocks contain neighbouring cells. -/
theorem blocks_meet (hk : 1 ≤ k) {a b : Cell} (h : Adj a b) : ∃ u v, block k u = a ∧ block k v = b ∧ Adj u v := by
  have hk' : (1 : Int) ≤ k := by omega
  have key : ∀ x y : Int, |x - y| ≤ 1 → ∃ p q : Int, p / (k : Int) = x ∧ q / (k : Int) = y ∧ |p - q| ≤ 1 := by
    intro x y h
    obtain ⟨h1, h2⟩ := abs_le.1 h
    rcases (by omega : x = y ∨ y = x + 1 ∨ x = y + 1) with rfl | rfl | rfl
    · exact ⟨k * x, k * x, (ediv_iff hk).2 ⟨by linarith, by linarith⟩, (ediv_iff hk).2 ⟨by linarith, by linarith⟩, by simp⟩
    · exact ⟨k * x + k - 1, k * (x + 1), (ediv_iff hk).2 ⟨by linarith, by linarith⟩, (ediv_iff hk).2 ⟨by linarith, by linarith⟩,
        by rw [abs_le]; constructor <;> nlinarith⟩
    · exact ⟨k * (y + 1), k * y + k - 1, (ediv_iff hk).2 ⟨by linarith, by linarith⟩, (ediv_iff hk).2 ⟨by linarith, by linarith⟩,
        by rw [abs_le]; constructor <;> nlinarith⟩
  obtain ⟨p1, q1, e1, e2, e3⟩ := key _ _ h.2.1
  obtain ⟨p2, q2, e4, e5, e6⟩ := key _ _ h.2.2
  have hu : block k (p1, p2) = a := by unfold block; simp only [e1, e4]
  have hv : block k (q1, q2) = b := by unfold block; simp only [e2, e5]
  exact ⟨(p1, p2), (q1, q2), hu, hv, fun e => h.1 (by rw [← hu, ← hv, e]), e3, e6⟩

/-- Cutting the cells keeps what hangs together. -/
theorem connected_iff (hk : 1 ≤ k) {S : Cell → Prop} {a b : Cell} :
    ConnectedIn (fun x => S (block k x)) a b ↔ ConnectedIn S (block k a) (block k b) := by
  constructor
  · intro h
    obtain ⟨h1, h2⟩ := connectedIn_iff.1 h
    clear h
    refine connectedIn_iff.2 ⟨h1, ?_⟩
    induction h2 with
    | refl => exact .refl
    | tail _ hbc ih =>
      rcases adj_block hk hbc.1 with e | h
      · rw [← e]; exact ih
      · exact ih.tail ⟨h, hbc.2.1, hbc.2.2⟩
  · intro h
    obtain ⟨h1, h2⟩ := connectedIn_iff.1 h
    clear h
    have inner : ∀ {x y : Cell}, S (block k x) → block k x = block k y → ConnectedIn (fun x => S (block k x)) x y :=
      fun hx e => (block_connected hk e).mono fun w hw => by rw [hw]; exact hx
    have key : ∀ y, Relation.ReflTransGen (fun x y => Adj x y ∧ S x ∧ S y) (block k a) y → ∀ b, block k b = y →
        ConnectedIn (fun x => S (block k x)) a b := by
      intro y hy
      induction hy with
      | refl => exact fun b hb => inner h1 hb.symm
      | tail _ hbc ih =>
        intro b hb
        obtain ⟨u, v, hu, hv, huv⟩ := blocks_meet hk hbc.1
        exact ((ih u hu).trans (.step huv (by rw [hu]; exact hbc.2.1) (by rw [hv]; exact hbc.2.2))).trans
          (inner (by rw [hv]; exact hbc.2.2) (hv.trans hb.symm))
    exact key _ h2 b rfl

section Fill
variable {β : Type*} [LinearOrder β] [OrderTop β]

/-- The water in a cell stands no higher than `z` if it can leave over ground that is no higher. -/
theorem level_le {dem r : Raster β} (h : Returns (Fill.fillTerrain dem) (.ok r)) {c : Cell} (hc : dem.Has c) {z : β} :
    r.get c ≤ z ↔ ∃ e, OnEdge dem.rows dem.cols e ∧ ConnectedIn (fun x => dem.Has x ∧ dem.get x ≤ z) c e := by
  constructor
  · intro hz
    obtain ⟨p, hp, hh⟩ := (Fill.fill_spill h hc).1
    obtain ⟨e, he, hedge⟩ := hp.exit
    exact ⟨e, hedge, p, hp.head, he, hp.chain, fun x hx => ⟨hp.inside x hx, (hh.2 ⟨x, hx, rfl⟩).trans hz⟩⟩
  · rintro ⟨e, he, p, h1, h2, h3, h4⟩
    have hne : p ≠ [] := by rintro rfl; simp at h1
    have hh := Fill.isHighest_climb dem.get hne
    refine ((Fill.fill_spill h hc).2 ⟨p, ⟨h1, h3, fun x hx => (h4 x hx).1, e, h2, he⟩, hh⟩).trans ?_
    obtain ⟨x, hx, ex⟩ := hh.1
    rw [← ex]
    exact (h4 x hx).2

/-- C115, filling: the surface is the same. -/
theorem C115_surface (hk : 1 ≤ k) {dem fine r r' : Raster β} (href : IsRefined k dem fine)
    (h : Returns (Fill.fillTerrain dem) (.ok r)) (h' : Returns (Fill.fillTerrain fine) (.ok r')) :
    ∀ c, fine.Has c → r'.get c = r.get (block k c) := by
  have hin : ∀ c, fine.Has c ↔ dem.Has (block k c) := fun c => by
    unfold Raster.Has; rw [href.rows, href.cols]; exact ingrid_iff hk
  intro c hc
  have key : ∀ z, r'.get c ≤ z ↔ r.get (block k c) ≤ z := by
    intro z
    rw [level_le h' hc, level_le h ((hin c).1 hc)]
    have hS : (fun x => fine.Has x ∧ fine.get x ≤ z) = fun x => dem.Has (block k x) ∧ dem.get (block k x) ≤ z := by
      funext x
      refine propext ⟨fun ⟨h1, h2⟩ => ⟨(hin x).1 h1, by rwa [← href.get x h1]⟩, fun ⟨h1, h2⟩ => ⟨(hin x).2 h1, ?_⟩⟩
      rwa [href.get x ((hin x).2 h1)]
    rw [hS]
    constructor
    · rintro ⟨e, he, hcon⟩
      rw [href.rows, href.cols] at he
      exact ⟨_, edge_block hk he, (connected_iff hk (S := fun x => dem.Has x ∧ dem.get x ≤ z)).1 hcon⟩
    · rintro ⟨e, he, hcon⟩
      obtain ⟨e', he', rfl⟩ := block_edge hk he
      rw [href.rows, href.cols]
      exact ⟨e', he', (connected_iff hk (S := fun x => dem.Has x ∧ dem.get x ≤ z)).2 hcon⟩
  exact le_antisymm ((key _).2 le_rfl) ((key _).1 le_rfl)

end Fill

section Lists
variable {K : Type} [Field K] [LinearOrder K] [IsStrictOrderedRing K]

/-- The cells of a block. -/
def cellsIn (k : Nat) (c : Cell) : List Cell := (Raster.cellList k k).map fun o => ((k : Int) * c.1 + o.1, (k : Int) * c.2 + o.2)

theorem mem_cellsIn (hk : 1 ≤ k) {c x : Cell} : x ∈ cellsIn k c ↔ block k x = c := by
  unfold cellsIn block
  rw [List.mem_map]
  constructor
  · rintro ⟨o, ho, rfl⟩
    obtain ⟨h1, h2, h3, h4⟩ := Flow.mem_cellList.1 ho
    ext
    · exact (ediv_iff hk).2 ⟨by linarith, by linarith⟩
    · exact (ediv_iff hk).2 ⟨by linarith, by linarith⟩
  · rintro rfl
    obtain ⟨x1, x2⟩ := (ediv_iff hk (x := x.1)).1 rfl
    obtain ⟨y1, y2⟩ := (ediv_iff hk (x := x.2)).1 rfl
    refine ⟨(x.1 - k * (x.1 / (k : Int)), x.2 - k * (x.2 / (k : Int))), Flow.mem_cellList.2 ⟨?_, ?_, ?_, ?_⟩, ?_⟩ <;> simp only
    · linarith
    · linarith
    · linarith
    · linarith
    · ext <;> simp

theorem nodup_cellsIn (c : Cell) : (cellsIn k c).Nodup := by
  refine List.Nodup.map (fun a b e => ?_) (Flow.nodup_cellList k k)
  have h1 := congrArg Prod.fst e
  have h2 := congrArg Prod.snd e
  simp only [add_right_inj] at h1 h2
  exact Prod.ext h1 h2

theorem length_cellsIn (c : Cell) : (cellsIn k c).length = k * k := by
  unfold cellsIn Raster.cellList
  simp [List.length_flatMap]

/-- The listed cells of the finer raster are those of the blocks of the listed cells. -/
theorem fine_perm (hk : 1 ≤ k) {rows cols : Nat} {P : Cell → Prop} {cs fs : List Cell} (h : Lists rows cols P cs)
    (h' : Lists (k * rows) (k * cols) (fun x => P (block k x)) fs) : fs.Perm (cs.flatMap (cellsIn k)) := by
  have nd : ∀ {n m : Nat} {Q : Cell → Prop} {l : List Cell}, Lists n m Q l → l.Nodup := fun h =>
    List.Pairwise.imp (S := (· ≠ ·)) (fun {a b} hab e => by
      subst e
      unfold Before at hab
      omega) h.1
  refine (List.perm_ext_iff_of_nodup (nd h') ?_).2 fun x => ?_
  · rw [List.nodup_flatMap]
    refine ⟨fun c _ => nodup_cellsIn c, (nd h).imp fun {a b} hne => ?_⟩
    intro x ha hb
    exact hne (((mem_cellsIn hk).1 ha).symm.trans ((mem_cellsIn hk).1 hb))
  · rw [h'.2, List.mem_flatMap, ingrid_iff hk]
    constructor
    · intro hx
      exact ⟨block k x, (h.2 _).2 hx, (mem_cellsIn hk).2 rfl⟩
    · rintro ⟨c, hc, hx⟩
      obtain rfl := (mem_cellsIn hk).1 hx
      exact (h.2 _).1 hc

theorem fine_sums (hk : 1 ≤ k) {rows cols : Nat} {P : Cell → Prop} {cs fs : List Cell} (h : Lists rows cols P cs)
    (h' : Lists (k * rows) (k * cols) (fun x => P (block k x)) fs) (g g' : Cell → K) (hg : ∀ x ∈ fs, g' x = g (block k x)) :
    (fs.length : K) = (k : K) ^ 2 * cs.length ∧ (fs.map g').sum = (k : K) ^ 2 * (cs.map g).sum ∧
    ∀ {A : Type} (q : K → A), {y | ∃ c ∈ fs, y = q (g' c)} = {y | ∃ c ∈ cs, y = q (g c)} := by
  have hp := fine_perm hk h h'
  refine ⟨?_, ?_, fun q => ?_⟩
  · rw [hp.length_eq, List.length_flatMap, List.map_congr_left (g := fun _ => k * k) fun c _ => length_cellsIn c]
    simp only [List.map_const', List.sum_replicate, smul_eq_mul]
    push_cast; ring
  · rw [List.map_congr_left hg, (hp.map _).sum_eq]
    clear h h' hp hg
    induction cs with
    | nil => simp
    | cons c cs ih =>
      rw [List.flatMap_cons, List.map_append, List.sum_append, ih, List.map_cons, List.sum_cons, mul_add]
      congr 1
      rw [List.map_congr_left (g := fun _ => g c) fun x hx => by rw [(mem_cellsIn hk).1 hx], List.map_const', List.sum_replicate,
        length_cellsIn, nsmul_eq_mul]
      push_cast; ring
  · ext y
    constructor
    · rintro ⟨x, hx, rfl⟩
      have := (h'.2 x).1 hx
      exact ⟨block k x, (h.2 _).2 ⟨(ingrid_iff hk).1 this.1, this.2⟩, by rw [hg x hx]⟩
    · rintro ⟨c, hc, rfl⟩
      have hx : block k ((k : Int) * c.1, (k : Int) * c.2) = c := by
        unfold block
        ext
        · exact (ediv_iff hk).2 ⟨by linarith, by linarith⟩
        · exact (ediv_iff hk).2 ⟨by linarith, by linarith⟩
      have hm : ((k : Int) * c.1, (k : Int) * c.2) ∈ fs := (h'.2 _).2 ((h.2 c).1 hc |>.imp
        (fun h => (ingrid_iff hk).2 (by rw [hx]; exact h)) fun h => by
          show P (block k _)
          rw [hx]; exact h)
      exact ⟨_, hm, by rw [hg _ hm, hx]⟩

end Lists

section Tools
variable {K : Type} [Field K] [LinearOrder K] [IsStrictOrderedRing K] {β : Type} [LinearOrder β] [OrderTop β]
  {cc cc' : Raster Bool → Raster Int × Nat} {drop sub : β → β → K} {scale : K → K}
  {safe : Raster β → (β → β) × (β → β)}

/-- C115. DemTool and BluespotTool on a DEM and on the same DEM with each cell cut into `k` × `k` cells. The filled terrain
and the depths are the same everywhere. The bluespots are the same up to their numbers, and have the same greatest
depth, area and volume, if the filter does not look at the number of cells. -/
theorem C115_resolution (hcc : LabelContract cc) (hcc' : LabelContract cc') {k : Nat} (hk : 1 ≤ k) {gt gt' : GeoTransform K}
    (hsq : SquareCells gt) (hsq' : SquareCells gt') (harea : cellArea gt = (k : K) ^ 2 * cellArea gt') {dem fine : Raster β}
    (href : IsRefined k dem fine) (h : SoundTerrain drop sub scale safe dem) (h' : SoundTerrain drop sub scale safe fine)
    (want want' : Bool) (f : Bluespots.StatUnits K → Bool) (hf : UnitsOnly f) :
    ∃ (d : Dem.Out β K) (b : Bluespots.Out K) (d' : Dem.Out β K) (b' : Bluespots.Out K) (σ : Nat → Nat),
      Returns (Dem.process (Dem.python drop scale) sub safe true want dem) (.ok d) ∧
      (Bluespots.process cc Bluespots.python safe gt d.depths (some f) d.flowdir d.accum (some dem)).Yields (.ok b) ∧
      Returns (Dem.process (Dem.python drop scale) sub safe true want' fine) (.ok d') ∧
      (Bluespots.process cc' Bluespots.python safe gt' d'.depths (some f) d'.flowdir d'.accum (some fine)).Yields (.ok b') ∧
      (∀ c, fine.Has c → d'.filled.get c = d.filled.get (block k c) ∧ d'.depths.get c = d.depths.get (block k c)) ∧
      b'.nlabels = b.nlabels ∧ IsRenumbering b.nlabels σ ∧
      (∀ c, fine.Has c → b'.labeled.get c = σ (b.labeled.get (block k c)).toNat) ∧
      ∀ l ≤ b.nlabels, ∃ p p', b.pourpoints[l]? = some p ∧ b'.pourpoints[σ l]? = some p' ∧
        p'.bspot_area = p.bspot_area ∧ p'.bspot_vol = p.bspot_vol ∧ (1 ≤ l → p'.bspot_dmax = p.bspot_dmax) := by
  have hsqf : ∀ {g : GeoTransform K}, SquareCells g → SquareCellsFl id g := fun h => h
  obtain ⟨d, b, choose, hd, hbrun, hfill, hdsh, hcells, hb⟩ := dem_bluespots (fl := id) hcc (hsqf hsq) h want f
  obtain ⟨d', b', choose', hd', hbrun', hfill', hdsh', hcells', hb'⟩ := dem_bluespots (fl := id) hcc' (hsqf hsq') h' want' f
  replace hb := hb.exact
  replace hb' := hb'.exact
  have hin : ∀ c, fine.Has c ↔ dem.Has (block k c) := fun c => by
    unfold Raster.Has; rw [href.rows, href.cols]; exact ingrid_iff hk
  have hhas : ∀ c, d.depths.Has c ↔ dem.Has c := fun c => by unfold Raster.Has; rw [hdsh.1, hdsh.2]
  have hhas' : ∀ c, d'.depths.Has c ↔ fine.Has c := fun c => by unfold Raster.Has; rw [hdsh'.1, hdsh'.2]
  have hsurf : ∀ c, fine.Has c → d'.filled.get c = d.filled.get (block k c) ∧ d'.depths.get c = d.depths.get (block k c) := by
    intro c hc
    have e := C115_surface hk href hfill hfill' c hc
    exact ⟨e, by rw [(hcells' c hc).1, (hcells _ ((hin c).1 hc)).1, e, href.get c hc]⟩
  have hrows : d'.depths.rows = k * d.depths.rows := by rw [hdsh'.1, hdsh.1, href.rows]
  have hcols : d'.depths.cols = k * d.depths.cols := by rw [hdsh'.2, hdsh.2, href.cols]
  have hwet : ∀ c, (InGrid d'.depths.rows d'.depths.cols c ∧ d'.depths.get c ≠ 0) ↔
      (InGrid d.depths.rows d.depths.cols (block k c) ∧ d.depths.get (block k c) ≠ 0) := by
    intro c
    rw [hrows, hcols, ingrid_iff hk]
    refine and_congr_right fun hc => ?_
    rw [(hsurf c ((hin c).2 ((hhas _).1 hc))).2]
  have hconn : ∀ a x, ConnectedIn (fun y => InGrid d'.depths.rows d'.depths.cols y ∧ d'.depths.get y ≠ 0) a x ↔
      ConnectedIn (fun y => InGrid d.depths.rows d.depths.cols y ∧ d.depths.get y ≠ 0) (block k a) (block k x) := by
    intro a x
    rw [← connected_iff hk, show (fun y => InGrid d'.depths.rows d'.depths.cols y ∧ d'.depths.get y ≠ 0) =
      fun y => InGrid d.depths.rows d.depths.cols (block k y) ∧ d.depths.get (block k y) ≠ 0 from funext fun y => propext (hwet y)]
  classical
  -- the statistics of a set of cells
  have hsums : ∀ {P : Cell → Prop} {cs fs : List Cell}, Lists d.depths.rows d.depths.cols P cs →
      Lists d'.depths.rows d'.depths.cols (fun x => P (block k x)) fs →
      (fs.length : K) = (k : K) ^ 2 * cs.length ∧ (fs.map d'.depths.get).sum = (k : K) ^ 2 * (cs.map d.depths.get).sum ∧
      ∀ {A : Type} (q : K → A), {y | ∃ c ∈ fs, y = q (d'.depths.get c)} = {y | ∃ c ∈ cs, y = q (d.depths.get c)} := by
    intro P cs fs hcs hfs
    refine fine_sums hk hcs (by rwa [hrows, hcols] at hfs) _ _ fun x hx => ?_
    exact (hsurf x ((hhas' x).1 ((hfs.2 x).1 hx).1)).2
  have hpass : ∀ c, InGrid d'.depths.rows d'.depths.cols c → d'.depths.get c ≠ 0 →
      (Passes d'.depths.rows d'.depths.cols d'.depths.get (cellArea gt') f c ↔
        Passes d.depths.rows d.depths.cols d.depths.get (cellArea gt) f (block k c)) := by
    intro c hc hw
    obtain ⟨cs, hcs⟩ : ∃ cs, Lists d.depths.rows d.depths.cols (fun x => ConnectedIn
      (fun y => InGrid d.depths.rows d.depths.cols y ∧ d.depths.get y ≠ 0) (block k c) x) cs := ⟨_, lists_filter _ _ _⟩
    obtain ⟨fs, hfs⟩ : ∃ fs, Lists d'.depths.rows d'.depths.cols (fun x => ConnectedIn
      (fun y => InGrid d'.depths.rows d'.depths.cols y ∧ d'.depths.get y ≠ 0) c x) fs := ⟨_, lists_filter _ _ _⟩
    obtain ⟨s1, s2, s3⟩ := hsums hcs (by simpa only [hconn] using hfs)
    have huni : ∀ {u u' : Bluespots.StatUnits K}, IsStats d.depths.get (cellArea gt) cs u →
        IsStats d'.depths.get (cellArea gt') fs u' → f u' = f u := by
      intro u u' hu hu'
      refine hf u u' ?_ ?_ ?_ ?_
      · have := hu'.min; rw [s3] at this; exact this.unique hu.min
      · have := hu'.max; rw [s3] at this; exact this.unique hu.max
      · rw [hu'.volume, hu.volume, s2, harea]; ring
      · rw [hu'.area, hu.area, s1, harea]; ring
    have hcw := (hwet c).1 ⟨hc, hw⟩
    have hm := (hcs.2 _).2 ⟨hcw.1, .refl hcw⟩
    have hm' := (hfs.2 c).2 ⟨hc, .refl ⟨hc, hw⟩⟩
    have hst := Bluespots.isStatsFl_id.1 (Bluespots.stat_isStats id d.depths (cellArea gt) (List.ne_nil_of_mem hm))
    have hst' := Bluespots.isStatsFl_id.1 (Bluespots.stat_isStats id d'.depths (cellArea gt') (List.ne_nil_of_mem hm'))
    constructor
    · rintro ⟨cs', u', h1, h2, h3⟩
      cases lists_unique h1 hfs
      exact ⟨_, _, hcs, hst, by rw [← huni hst h2]; exact h3⟩
    · rintro ⟨cs', u, h1, h2, h3⟩
      cases lists_unique h1 hcs
      exact ⟨_, _, hfs, hst', by rw [huni h2 hst']; exact h3⟩
  have hwet2 : ∀ c, InGrid d'.depths.rows d'.depths.cols c →
      ((d'.depths.get c ≠ 0 ∧ Passes d'.depths.rows d'.depths.cols d'.depths.get (cellArea gt') f c) ↔
       (d.depths.get (block k c) ≠ 0 ∧ Passes d.depths.rows d.depths.cols d.depths.get (cellArea gt) f (block k c))) := by
    intro c hc
    rw [(hsurf c ((hhas' c).1 hc)).2]
    exact and_congr_right fun hw => hpass c hc (by rw [(hsurf c ((hhas' c).1 hc)).2]; exact hw)
  have hblock : ∀ c, InGrid d'.depths.rows d'.depths.cols c → InGrid d.depths.rows d.depths.cols (block k c) := fun c hc => by
    rw [hrows, hcols] at hc; exact (ingrid_iff hk).1 hc
  have hlab : IsLabelling d'.depths.rows d'.depths.cols (fun c => d'.depths.get c ≠ 0 ∧
      Passes d'.depths.rows d'.depths.cols d'.depths.get (cellArea gt') f c) (fun c => b.labeled.get (block k c)) b.nlabels := by
    refine ⟨fun c hc => ?_, fun c hc => hb.labelling.range _ (hblock c hc), fun l h1 h2 => ?_, fun x y hx hy wx wy => ?_⟩
    · rw [hwet2 c hc]; exact hb.labelling.background _ (hblock c hc)
    · obtain ⟨c, hc, e⟩ := hb.labelling.used l h1 h2
      obtain ⟨x, hx⟩ : ∃ x, block k x = c := by
        have hne : cellsIn k c ≠ [] := by
          intro e
          have := length_cellsIn (k := k) c
          rw [e] at this
          simp at this; omega
        obtain ⟨x, hx⟩ := List.exists_mem_of_ne_nil _ hne
        exact ⟨x, (mem_cellsIn hk).1 hx⟩
      refine ⟨x, ?_, by rw [hx]; exact e⟩
      rw [hrows, hcols, ingrid_iff hk, hx]; exact hc
    · rw [hb.labelling.same _ _ (hblock x hx) (hblock y hy) ((hwet2 x hx).1 wx) ((hwet2 y hy).1 wy), ← connected_iff hk]
      have : (fun c => InGrid d.depths.rows d.depths.cols (block k c) ∧ d.depths.get (block k c) ≠ 0 ∧
          Passes d.depths.rows d.depths.cols d.depths.get (cellArea gt) f (block k c)) =
        fun c => InGrid d'.depths.rows d'.depths.cols c ∧ d'.depths.get c ≠ 0 ∧
          Passes d'.depths.rows d'.depths.cols d'.depths.get (cellArea gt') f c := by
        funext c
        refine propext ⟨fun ⟨h1, h2⟩ => ?_, fun ⟨h1, h2⟩ => ⟨hblock c h1, (hwet2 c h1).1 h2⟩⟩
        have hc : InGrid d'.depths.rows d'.depths.cols c := by rw [hrows, hcols]; exact (ingrid_iff hk).2 h1
        exact ⟨hc, (hwet2 c hc).2 h2⟩
      rw [this]
  obtain ⟨hn, σ, hσ, hσl⟩ := renumbering hlab hb'.labelling
  refine ⟨d, b, d', b', σ, hd, hbrun, hd', hbrun', hsurf, hn, hσ, fun c hc => hσl c ((hhas' c).2 hc), fun l hl => ?_⟩
  have hcs := lists_filter d.depths.rows d.depths.cols fun x => b.labeled.get x = l
  have hfs := lists_filter d'.depths.rows d'.depths.cols fun x => b'.labeled.get x = ((σ l : Nat) : Int)
  have hfs2 : Lists d'.depths.rows d'.depths.cols (fun x => b.labeled.get (block k x) = l)
      ((Raster.cellList d'.depths.rows d'.depths.cols).filter fun x => b'.labeled.get x = ((σ l : Nat) : Int)) := by
    refine ⟨hfs.1, fun x => (hfs.2 x).trans (and_congr_right fun hx => ?_)⟩
    show b'.labeled.get x = _ ↔ b.labeled.get (block k x) = _
    rw [hσl x hx]
    have hr := hb.labelling.range _ (hblock x hx)
    constructor
    · intro e
      have := hσ.injective (b.labeled.get (block k x)).toNat (by omega) l hl (by exact_mod_cast e)
      omega
    · intro e; simp only [e, Int.toNat_natCast]
  obtain ⟨s1, s2, s3⟩ := hsums hcs hfs2
  obtain ⟨p, hp1, hp2, -⟩ := hb.points l _ _ hl hcs (lists_filter _ _ _)
  obtain ⟨p', hp1', hp2', -⟩ := hb'.points (σ l) _ _ (hn ▸ hσ.range l hl) hfs (lists_filter _ _ _)
  refine ⟨p, p', hp1, hp1', ?_, ?_, fun h1 => ?_⟩
  · rw [hp2.area, hp2'.area, s1, harea]; ring
  · rw [hp2.vol, hp2'.vol, s2, harea]; ring
  · obtain ⟨c, hc, e⟩ := hb.labelling.used l h1 hl
    have m := hp2.dmax (List.ne_nil_of_mem ((hcs.2 c).2 ⟨hc, e⟩))
    have hpos : 1 ≤ σ l := by
      have := hσ.eq_zero hl
      omega
    obtain ⟨c', hc', e'⟩ := hb'.labelling.used (σ l) hpos (hn ▸ hσ.range l hl)
    have m' := hp2'.dmax (List.ne_nil_of_mem ((hfs.2 c').2 ⟨hc', e'⟩))
    rw [s3] at m'
    exact m'.unique m

end Tools

/-! ### A concrete case -/

/-- Two pits; the smaller one drains to the corner in the south east. -/
def demoCoarse : Raster Rat := .ofRows [[9,9,9,9,9],[9,1,8,2,9],[9,9,9,3,9],[9,9,9,4,0]]

/-- The same in cells of half the size. -/
def demoFine : Raster Rat := ⟨8, 10, fun c => demoCoarse.get (block 2 c)⟩

/-- A labelling that is right for both: one bluespot on the left, one on the right. -/
def demoCC (m : Raster Bool) : Raster Int × Nat :=
  (⟨m.rows, m.cols, fun c => if m.get c then (if c.2 * 5 < 2 * m.cols then 1 else 2) else 0⟩, 2)

/-- The hypotheses of `C115_resolution` hold, with a filter on the volume and the greatest depth. -/
example : ∃ cc, LabelContract cc ∧ SquareCells (⟨0, 2, 0, 0, 0, -2⟩ : GeoTransform Rat) ∧
    SquareCells (⟨0, 1, 0, 0, 0, -1⟩ : GeoTransform Rat) ∧
    cellArea (⟨0, 2, 0, 0, 0, -2⟩ : GeoTransform Rat) = ((2 : Nat) : Rat) ^ 2 * cellArea ⟨0, 1, 0, 0, 0, -1⟩ ∧
    IsRefined 2 (finiteDem demoCoarse) (finiteDem demoFine) ∧
    SoundTerrain exactSub exactSub (· * (7/10)) (exactSafe (1/1000) (14/10000)) (finiteDem demoCoarse) ∧
    SoundTerrain exactSub exactSub (· * (7/10)) (exactSafe (1/1000) (14/10000)) (finiteDem demoFine) ∧
    UnitsOnly (fun u : Bluespots.StatUnits Rat => decide (2 < u.volume) && decide (u.max > 0)) := by
  obtain ⟨cc, h⟩ := exists_labelContract
  refine ⟨cc, h, by unfold SquareCells; norm_num, by unfold SquareCells; norm_num, by unfold cellArea; norm_num,
    ⟨rfl, rfl, fun _ _ => rfl⟩,
    exact_sound demoCoarse (by decide) (by decide) (by norm_num) (by norm_num) (by norm_num),
    exact_sound demoFine (by decide) (by decide) (by norm_num) (by norm_num) (by norm_num), ?_⟩
  intro u u' _ h2 h3 _
  simp only [h2, h3]

set_option synthInstance.maxSize 1000 in
/-- Greatest depth, area and volume of the bluespots, and the area of their watersheds, in cells of 2 by 2. -/
example : ((Complete.processAll demoCC (Dem.python exactSub (· * (7/10))) Bluespots.python exactSub
      (exactSafe (1/1000) (14/10000)) ⟨0, 2, 0, 0, 0, -2⟩ (finiteDem demoCoarse) false (some fun _ => true) (10 : Rat)).run 80).run.map
        (fun r => r.toOption.map fun o => (o.bluespots.labeled.toRows,
          o.bluespots.pourpoints.map fun p => [p.bspot_dmax.unbotD 0, p.bspot_area, p.bspot_vol, p.wshed_area])) =
    some (some ([[0,0,0,0,0],[0,1,0,2,0],[0,0,0,0,0],[0,0,0,0,0]],
      [[0, 72, 0, 64], [7, 4, 28, 8], [1, 4, 4, 8]])) := by decide +kernel

set_option synthInstance.maxSize 1000 in
/-- The same in cells of 1 by 1. The areas of the watersheds are not the same: the theorem does not claim it. -/
example : ((Complete.processAll demoCC (Dem.python exactSub (· * (7/10))) Bluespots.python exactSub
      (exactSafe (1/1000) (14/10000)) ⟨0, 1, 0, 0, 0, -1⟩ (finiteDem demoFine) false (some fun _ => true) (10 : Rat)).run 80).run.map
        (fun r => r.toOption.map fun o => (o.bluespots.labeled.toRows,
          o.bluespots.pourpoints.map fun p => [p.bspot_dmax.unbotD 0, p.bspot_area, p.bspot_vol, p.wshed_area])) =
    some (some ([[0,0,0,0,0,0,0,0,0,0],[0,0,0,0,0,0,0,0,0,0],[0,0,1,1,0,0,2,2,0,0],[0,0,1,1,0,0,2,2,0,0],
        [0,0,0,0,0,0,0,0,0,0],[0,0,0,0,0,0,0,0,0,0],[0,0,0,0,0,0,0,0,0,0],[0,0,0,0,0,0,0,0,0,0]],
      [[0, 72, 0, 48], [7, 4, 28, 15], [1, 4, 4, 17]])) := by decide +kernel

end Resolution
end Malstroem
