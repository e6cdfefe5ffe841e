/-
Property C108: single subcommands on files that may come from anywhere.
-/
import Verif.Spec.OwnFiles
import Verif.Proofs.Sequence
import Verif.Props.Polygons
import Verif.Props.Network
import Verif.Props.Rain
import Verif.Props.Approx
import Verif.Props.Sequence

set_option linter.unusedSectionVars false

namespace Malstroem
namespace Command
open Spec Scripts
variable {K : Type} [Field K] [LinearOrder K] [FloorRing K] {β : Type} [LinearOrder β] [OrderTop β]

theorem leaves_of_does {x : Cmd β K Unit} {fs fs' : FileSystem β K} {N : Nat} (h : ∀ n, N ≤ n → Does x fs n () fs') :
    x.Leaves fs (.ok ()) fs' := ⟨N, fun n hn => ⟨fs', h n hn, rfl, fun _ => rfl⟩⟩

theorem rasterWritten_put (before : FileSystem β K) (out : Path) (values : Values β K) (georef : Georef K) :
    RasterWritten before out values georef (before.put out (.raster values georef)) :=
  ⟨rfl, get_put_self _ _ _, fun _ hp => get_put_ne _ (Ne.symm hp) _⟩

theorem RoomForLayer.package {before : FileSystem β K} {out : Path} {name : String} (h : RoomForLayer before out name)
    (ogr : Ogr K) : ∃ layers polygons, packageAt before out layers polygons ∧ ∀ features,
      LayerWritten ogr before out name features (before.put out (.geopackage (withLayer ogr layers name features) polygons)) := by
  have key : ∀ layers polygons, packageAt before out layers polygons → layers.get? name = none → ∀ features,
      LayerWritten ogr before out name features (before.put out (.geopackage (withLayer ogr layers name features) polygons)) := by
    intro layers polygons hp hn features
    refine ⟨rfl, ⟨_, _, get_put_self _ _ _, read_withLayer ogr hn features⟩, fun other ho => ?_, fun other => ?_,
      fun p hp => get_put_ne _ (Ne.symm hp) _⟩
    · unfold layerAt
      rw [get_put_self]
      simp only [get_withLayer ogr layers (Ne.symm ho)]
      rcases hp with hp | ⟨hp, rfl, _⟩
      · rw [hp]
      · rw [hp]; rfl
    · unfold polygonsAt
      rw [get_put_self]
      rcases hp with hp | ⟨hp, _, rfl⟩
      · rw [hp]
      · rw [hp]; rfl
  rcases h.2 with h0 | ⟨layers, polygons, h1, h2⟩
  · exact ⟨[], [], .inr ⟨h0, rfl, rfl⟩, key _ _ (.inr ⟨h0, rfl, rfl⟩) rfl⟩
  · exact ⟨layers, polygons, .inl h1, key _ _ (.inl h1) h2⟩

theorem read_get (file : ElevFile β) (subst : β) (c : Cell) : (file.read (some subst)).get c = elevationIn file subst c := by
  unfold ElevFile.read elevationIn
  cases file.nodata <;> rfl

theorem read_rows (file : ElevFile β) (subst : Option β) : (file.read subst).rows = file.data.rows := by
  unfold ElevFile.read
  cases file.nodata <;> cases subst <;> rfl

theorem read_cols (file : ElevFile β) (subst : Option β) : (file.read subst).cols = file.data.cols := by
  unfold ElevFile.read
  cases file.nodata <;> cases subst <;> rfl

/-! ### The terrain -/

/-- C108, `filled`: for every elevation file of at least 2x2 cells the file written holds the spill level of each cell, with the
georeference of the elevations; -999 is the elevation of cells with nodata. -/
theorem C108_filled (ogr : Ogr K) (s : Setting β K) {drop : β → β → K} {scale : K → K}
    (heng : s.demEngine = Dem.python drop scale) {before : FileSystem β K} {dem out : Path} {file : ElevFile β} {georef : Georef K}
    (hdem : before.files.get? dem = some (.raster (.elevations file) georef)) (hout : out.1 ∈ before.directories)
    (hr : 2 ≤ file.data.rows) (hc : 2 ≤ file.data.cols) :
    ∃ filled after, (runSub ogr s (.filled dem out)).Leaves before (.ok ()) after ∧
      RasterWritten before out (.elevations ⟨filled, some s.near⟩) georef after ∧
      filled.rows = file.data.rows ∧ filled.cols = file.data.cols ∧
      ∀ c, file.data.Has c →
        IsSpillLevel file.data.rows file.data.cols (elevationIn file s.subst) c (filled.get c) := by
  obtain ⟨r, h1, h2, h3⟩ := (C01_fill_returns (file.read (some s.subst))).1 (by rwa [read_rows]) (by rwa [read_cols])
  have hsp := C04_fill_eq_spill_level _ _ h1
  obtain ⟨N, hN⟩ := h1
  refine ⟨r, _, leaves_of_does (N := N) fun n hn => filled_does ogr s hout hdem ?_, rasterWritten_put _ _ _ _,
    h2.trans (read_rows _ _), h3.trans (read_cols _ _), fun c hc => ?_⟩
  · simp only [Scripts.filled, Run.bind_ok, Run.ofFuel_ok, Run.pure_ok]
    refine ⟨r, ?_, rfl⟩
    rw [heng]
    exact hN n hn
  · have := hsp c (by show InGrid _ _ c; rw [read_rows, read_cols]; exact hc)
    rw [read_rows, read_cols] at this
    rwa [funext (read_get file s.subst)] at this

/-- C108, `depths` after `filled`: for every elevation file of at least 2x2 cells the depth of a cell is the difference of its
spill level and its elevation. (`near` marks the values taken for nodata in the filled terrain; -999 alone.) -/
theorem C108_depths (ogr : Ogr K) (s : Setting β K) {drop : β → β → K} {scale : K → K}
    (heng : s.demEngine = Dem.python drop scale) (hnear : ∀ z, s.near z = true → z = s.subst)
    {before : FileSystem β K} {dem filled out : Path} {file : ElevFile β} {georef : Georef K}
    (hdem : before.files.get? dem = some (.raster (.elevations file) georef)) (hne : dem ≠ filled)
    (hout : filled.1 ∈ before.directories ∧ out.1 ∈ before.directories)
    (hr : 2 ≤ file.data.rows) (hc : 2 ≤ file.data.cols) :
    ∃ depths after, (script ogr s [.filled dem filled, .depths dem filled out]).Leaves before (.ok ()) after ∧
      after.directories = before.directories ∧ after.files.get? out = some (.raster (.numbers depths) georef) ∧
      (∀ p, p ≠ filled → p ≠ out → after.files.get? p = before.files.get? p) ∧
      depths.rows = file.data.rows ∧ depths.cols = file.data.cols ∧
      ∀ c z, file.data.Has c → IsSpillLevel file.data.rows file.data.cols (elevationIn file s.subst) c z →
        depths.get c = s.sub z (elevationIn file s.subst c) := by
  obtain ⟨r, h1, h2, h3⟩ := (C01_fill_returns (file.read (some s.subst))).1 (by rwa [read_rows]) (by rwa [read_cols])
  have hsp := C04_fill_eq_spill_level _ _ h1
  obtain ⟨N, hN⟩ := h1
  refine ⟨Scripts.depths s.sub s.subst file ⟨r, some s.near⟩, _, leaves_of_does (N := N) fun n hn =>
    script_cons (filled_does ogr s hout.1 hdem ?_) (script_cons (depths_does ogr s (fs := before.put _ _) hout.2
      (by rw [get_put_ne _ (Ne.symm hne), hdem]) (get_put_self _ _ _)) (Does.pure _ _ _)), rfl, get_put_self _ _ _,
    fun p h1 h2 => by rw [get_put_ne _ (Ne.symm h2), get_put_ne _ (Ne.symm h1)], ?_, ?_, fun c z hc hz => ?_⟩
  · simp only [Scripts.filled, Run.bind_ok, Run.ofFuel_ok, Run.pure_ok]
    refine ⟨r, ?_, rfl⟩
    rw [heng]
    exact hN n hn
  · exact h2.trans (read_rows _ _)
  · exact h3.trans (read_cols _ _)
  · have h := hsp c (by show InGrid _ _ c; rw [read_rows, read_cols]; exact hc)
    rw [read_rows, read_cols, funext (read_get file s.subst)] at h
    have he := h.unique hz
    show s.sub ((ElevFile.read ⟨r, some s.near⟩ (some s.subst)).get c) ((file.read (some s.subst)).get c) = _
    rw [read_get, read_get]
    congr 1
    unfold elevationIn
    simp only
    split
    · rename_i hn
      rw [← hnear _ hn, he]
    · exact he

/-- C108, `accum`: for every raster of flow directions 0 to 7, draining or not, the file written holds the number of cells
whose flow passes each cell, 0 where the flow of a cycle passes. -/
theorem C108_accum (ogr : Ogr K) (s : Setting β K) {drop : β → β → K} {scale : K → K} {junk : Int × Int}
    (heng : s.demEngine = Dem.python drop scale ∨ s.demEngine = Dem.compiled junk drop scale)
    {before : FileSystem β K} {flowdir out : Path} {fd : Raster Nat} {georef : Georef K}
    (hfd : before.files.get? flowdir = some (.raster (.directions fd) georef)) (hout : out.1 ∈ before.directories)
    (hcodes : ∀ c, fd.Has c → fd.get c < 8) :
    ∃ accum after, (runSub ogr s (.accum flowdir out)).Leaves before (.ok ()) after ∧
      RasterWritten before out (.counts accum) georef after ∧ accum.rows = fd.rows ∧ accum.cols = fd.cols ∧
      ∀ c, fd.Has c →
        ((∀ a, Downstream fd.rows fd.cols fd.get a c → ¬ OnCycle fd.rows fd.cols fd.get a) →
          accum.get c = upstreamCount fd.rows fd.cols fd.get c) ∧
        ((∃ a, Downstream fd.rows fd.cols fd.get a c ∧ OnCycle fd.rows fd.cols fd.get a) → accum.get c = 0) := by
  rcases heng with heng | heng
  · obtain ⟨A, ⟨N, hN⟩, h2, h3, h4⟩ := C18_accum_counts_any fd hcodes
    refine ⟨A, _, leaves_of_does (N := N) fun n hn => accum_does ogr s hout hfd ?_, rasterWritten_put _ _ _ _, h2, h3, h4⟩
    simp only [Scripts.accum, Run.ofFuel_ok]
    rw [heng]
    exact hN n hn
  · obtain ⟨A, B, hA, ⟨N, hN⟩, hs⟩ := C20_compiled_accum_eq_python junk fd hcodes
    obtain ⟨A', hA', h2, h3, h4⟩ := C18_accum_counts_any fd hcodes
    cases Returns.unique hA hA'
    refine ⟨B, _, leaves_of_does (N := N) fun n hn => accum_does ogr s hout hfd ?_, rasterWritten_put _ _ _ _, hs.1.symm.trans h2,
      hs.2.1.symm.trans h3, fun c hc => ?_⟩
    · simp only [Scripts.accum, Run.ofFuel_ok]
      rw [heng]
      show (FlowCython.accumulatedFlow junk fd n).map (fun x => (Except.ok x : Except PyErr _)) = _
      rw [hN n hn]; rfl
    · rw [← hs.2.2 c (by show InGrid _ _ c; rw [h2, h3]; exact hc)]
      exact h4 c hc

/-- Every wet cell belongs to a bluespot, which has statistics. -/
theorem exists_stats {K : Type} [Field K] [LinearOrder K] {rows cols : Nat} (depth : Cell → K) (area : K) {c : Cell}
    (hc : InGrid rows cols c) (hwet : depth c ≠ 0) :
    ∃ cs u, Lists rows cols (fun x => ConnectedIn (fun y => InGrid rows cols y ∧ depth y ≠ 0) c x) cs ∧ IsStats depth area cs u := by
  classical
  have hl := lists_filter rows cols (fun x => ConnectedIn (fun y => InGrid rows cols y ∧ depth y ≠ 0) c x)
  generalize (Raster.cellList rows cols).filter _ = cs at hl
  refine ⟨cs, ?_⟩
  have hne : cs.toFinset.Nonempty := ⟨c, List.mem_toFinset.2 ((hl.2 c).2 ⟨hc, .refl ⟨hc, hwet⟩⟩)⟩
  obtain ⟨a, ha, hmin⟩ := cs.toFinset.exists_min_image depth hne
  obtain ⟨b, hb, hmax⟩ := cs.toFinset.exists_max_image depth hne
  exact ⟨⟨depth a, depth b, (cs.map depth).sum, cs.length, (cs.map depth).sum * area, cs.length * area⟩, hl,
    ⟨⟨a, List.mem_toFinset.1 ha, rfl⟩, by rintro _ ⟨x, hx, rfl⟩; exact WithTop.coe_le_coe.2 (hmin x (List.mem_toFinset.2 hx))⟩,
    ⟨⟨b, List.mem_toFinset.1 hb, rfl⟩, by rintro _ ⟨x, hx, rfl⟩; exact WithBot.coe_le_coe.2 (hmax x (List.mem_toFinset.2 hx))⟩,
    rfl, rfl, rfl, rfl⟩

/-- The elevations of a file as numbers. -/
def substituted (data : Raster K) (nodata : Option (WithTop K → Bool)) : Raster K where
  rows := data.rows
  cols := data.cols
  get c := match nodata with
    | some isNodata => if isNodata (data.get c : WithTop K) then -999 else data.get c
    | none => data.get c

/-- C108, `flowdir`, exact arithmetic: for every file of at least 2x2 elevations the directions written lead from every cell off
the raster, down a surface that is nowhere below the filled terrain. -/
theorem C108_flowdir {K : Type} [Field K] [LinearOrder K] [IsStrictOrderedRing K] [FloorRing K] (ogr : Ogr K)
    (cc : Raster Bool → Raster Int × Nat) (near : WithTop K → Bool) (evalFilter : List Char → Bluespots.StatUnits K → Bool)
    {short diag k : K} (hs : 0 < short) (hd : 0 < diag) (hk : 0 < k)
    {before : FileSystem (WithTop K) K} {dem out : Path} {data : Raster K} {nodata : Option (WithTop K → Bool)} {georef : Georef K}
    (hdem : before.files.get? dem = some (.raster (.elevations ⟨finiteDem data, nodata⟩) georef))
    (hout : out.1 ∈ before.directories) (hr : 2 ≤ data.rows) (hc : 2 ≤ data.cols) :
    ∃ flowdir after surface,
      (runSub ogr (exactSetting cc short diag k near evalFilter) (.flowdir dem out)).Leaves before (.ok ()) after ∧
      RasterWritten before out (.directions flowdir) georef after ∧ flowdir.rows = data.rows ∧ flowdir.cols = data.cols ∧
      DrainsDownhill data.rows data.cols surface flowdir ∧
      ∀ c z, data.Has c → IsSpillLevel data.rows data.cols
        (elevationIn ⟨finiteDem data, nodata⟩ ((-999 : K) : WithTop K)) c z → z ≤ surface c := by
  have hread : ElevFile.read ⟨finiteDem data, nodata⟩ (some ((-999 : K) : WithTop K)) = finiteDem (substituted data nodata) := by
    unfold ElevFile.read finiteDem substituted
    cases nodata with
    | none => rfl
    | some m =>
      simp only [Raster.mk.injEq, true_and]
      funext c
      split <;> rfl
  have hgo := exact_sound (substituted data nodata) hr hc hs hd hk
  obtain ⟨o, h1, ⟨h2, h2'⟩, _, ⟨h3, h3'⟩, h4, _, ⟨surface, h5, h6⟩, _⟩ := C62_dem_outputs hgo false
  obtain ⟨_, _, _, ⟨N, hN⟩, hfd, _, _⟩ := Dem.process_inv h1
  refine ⟨o.flowdir, _, surface, leaves_of_does (N := N) fun n hn => flowdir_does ogr _ hout hdem ?_, rasterWritten_put _ _ _ _, h3,
    h3', h6, fun c z hc hz => ?_⟩
  · simp only [Scripts.flowdir, Run.bind_ok, Run.ofFuel_ok, Run.pure_ok]
    refine ⟨o.noFlats, ?_, ?_⟩
    · rw [show (exactSetting cc short diag k near evalFilter).subst = ((-999 : K) : WithTop K) from rfl, hread]
      exact hN n hn
    · rw [hfd]; rfl
  · have := (h4 c hc).1
    rw [← hread] at this
    rw [funext (read_get _ _), read_rows, read_cols] at this
    rw [← IsLeast.unique this hz]
    exact h5 c hc

section
variable {K : Type} [Field K] [LinearOrder K] [IsStrictOrderedRing K] [FloorRing K] {β : Type} [LinearOrder β] [OrderTop β]

/-- C108, `bspots`: for every raster of depths, of square cells or not, the file written numbers the connected sets of wet cells
that pass the filter, and is 0 elsewhere. -/
theorem C108_bspots (ogr : Ogr K) (s : Setting β K) (hcc : LabelContract s.cc) (hco : CellsOnly s.cc)
    (heng : Bluespots.IsEngine s.bluespotEngine) {before : FileSystem β K} {depths out : Path} {data : Raster K} {georef : Georef K}
    (hdep : before.files.get? depths = some (.raster (.numbers data) georef)) (hout : out.1 ∈ before.directories)
    (hr : 0 < data.rows) (hc : 0 < data.cols) {filter text : Option (List Char)} (hf : Filter.parseFilter filter = .ok text) :
    ∃ labels after, ∃ n : Nat, (runSub ogr s (.bspots depths out filter)).Leaves before (.ok ()) after ∧
      RasterWritten before out (.labels labels (some 0)) georef after ∧ labels.rows = data.rows ∧ labels.cols = data.cols ∧
      IsLabelling data.rows data.cols (fun c => data.get c ≠ 0 ∧ ∀ t, text = some t →
        Passes data.rows data.cols data.get (|georef.transform.t1| * |georef.transform.t5|) (s.evalFilter t) c) labels.get n := by
  let f : Bluespots.StatUnits K → Bool := (text.map s.evalFilter).getD fun _ => true
  obtain ⟨raw, keep, h1, h2, k1, k2, k3, k4⟩ := Bluespots.filter_ok hcc heng (|georef.transform.t1| * |georef.transform.t5|) data
    hr hc f
  obtain ⟨l1, l2, hL⟩ := hcc keep
  rw [k1, k2] at hL
  have hwet : ∀ c, InGrid data.rows data.cols c → (keep.get c = true ↔ (data.get c ≠ 0 ∧ ∀ t, text = some t →
        Passes data.rows data.cols data.get (|georef.transform.t1| * |georef.transform.t5|) (s.evalFilter t) c)) := by
    intro c hcg
    rw [k3 c hcg, Bluespots.passesFl_id]
    refine and_congr_right fun hne => ?_
    cases ht : text with
    | some t =>
      simp only [f, ht, Option.map_some, Option.getD_some, Option.some.injEq, forall_eq']
    | none =>
      refine ⟨fun _ t h => (nomatch h), fun _ => ?_⟩
      simp only [f, ht, Option.map_none, Option.getD_none]
      obtain ⟨cs, u, hcs, hu⟩ := exists_stats data.get (|georef.transform.t1| * |georef.transform.t5|) hcg hne
      exact ⟨cs, u, hcs, hu, rfl⟩
  refine ⟨(s.cc keep).1, _, (s.cc keep).2, leaves_of_does (N := 0) fun n _ => bspots_does ogr s hout hdep hf
    ((bspots_iff hcc hco heng hr hc).2 ⟨raw, keep, h1, h2, rfl⟩), rasterWritten_put _ _ _ _, l1.trans k1, l2.trans k2, ?_⟩
  exact {
    background := fun c hcg => by rw [hL.background c hcg, hwet c hcg]
    range := hL.range
    used := hL.used
    same := fun a b ha hb hwa hwb => by
      rw [hL.same a b ha hb ((hwet a ha).2 hwa) ((hwet b hb).2 hwb)]
      constructor
      · exact fun h => h.mono fun x hx => ⟨hx.1, (hwet x hx.1).1 hx.2⟩
      · exact fun h => h.mono fun x hx => ⟨hx.1, (hwet x hx.1).2 hx.2⟩ }

/-- C108, `wsheds`: for every raster of flow directions that lead off the raster, and every raster of labels, the file written
holds for each cell the first label its flow reaches. The georeference is that of the labels. -/
theorem C108_wsheds (ogr : Ogr K) (s : Setting β K) (heng : Bluespots.IsEngine s.bluespotEngine) {before : FileSystem β K}
    {bluespots flowdir out : Path} {labels : Raster Int} {nodata : Option Int} {fd : Raster Nat} {georef g1 : Georef K}
    (hlab : before.files.get? bluespots = some (.raster (.labels labels nodata) georef))
    (hfd : before.files.get? flowdir = some (.raster (.directions fd) g1)) (hout : out.1 ∈ before.directories)
    (hr : 0 < fd.rows) (hc : 0 < fd.cols) (hd : ∀ c, fd.Has c → Drains fd.rows fd.cols fd.get c) :
    ∃ watersheds after, (runSub ogr s (.wsheds bluespots flowdir out)).Leaves before (.ok ()) after ∧
      RasterWritten before out (.labels watersheds (some 0)) georef after ∧
      watersheds.rows = labels.rows ∧ watersheds.cols = labels.cols ∧
      IsWatershed fd.rows fd.cols fd.get 0 labels.get watersheds.get := by
  obtain ⟨ws, ⟨N, hN⟩, w2, w3, w4⟩ := C21_watershed_first_label fd hr hc hd labels 0
  refine ⟨ws, _, leaves_of_does (N := N) fun n hn => wsheds_does ogr s hout hlab hfd ?_, rasterWritten_put _ _ _ _, w2, w3, w4⟩
  simp only [Scripts.wsheds, Run.ofFuel_ok]
  rw [heng.watersheds]
  exact hN n hn

/-- C108, `pourpts` with accumulated flow: for any rasters of one shape, labels and watersheds having the same highest value, the
layer written has one feature per label with depth, area and volume of its cells and the area of its watershed; the pour
point is the cell of most flow. -/
theorem C108_pourpts_accum (ogr : Ogr K) (s : Setting β K) (heng : Bluespots.IsEngine s.bluespotEngine) {before : FileSystem β K}
    {bluespots depths watersheds accum out : Path} {dem : Option Path} {labels ws acc : Raster Int} {n1 n2 : Option Int}
    {data : Raster K} {georef g1 g2 g3 : Georef K} {name : String}
    (hdem : ∀ p, dem = some p → (before.files.get? p).isSome)
    (hlab : before.files.get? bluespots = some (.raster (.labels labels n1) g1))
    (hdep : before.files.get? depths = some (.raster (.numbers data) georef))
    (hws : before.files.get? watersheds = some (.raster (.labels ws n2) g2))
    (hacc : before.files.get? accum = some (.raster (.counts acc) g3)) (hout : RoomForLayer before out name)
    (hshape : (labels.rows = data.rows ∧ labels.cols = data.cols) ∧ (ws.rows = data.rows ∧ ws.cols = data.cols) ∧
      (acc.rows = data.rows ∧ acc.cols = data.cols)) {n : Nat}
    (hn : TopLabel data.rows data.cols labels.get none n ∧ LabelsIn data.rows data.cols labels.get n)
    (hw : TopLabel data.rows data.cols ws.get none n ∧ LabelsIn data.rows data.cols ws.get n) :
    ∃ points : List (Bluespots.PourPoint K), ∃ after,
      (runSub ogr s (.pourpts bluespots depths watersheds dem (some accum) out name)).Leaves before (.ok ()) after ∧
      LayerWritten ogr before out name (points.map (·.feature)) after ∧ points.length = n + 1 ∧
      ∀ (l : Nat) (cs cs' : List Cell), l ≤ n → CellsOf data.rows data.cols labels.get l cs →
        CellsOf data.rows data.cols ws.get l cs' →
        ∃ p, points[l]? = some p ∧ IsPourPoint georef.transform data.get l cs cs' p ∧
          (cs ≠ [] → IsFirstMax acc.get cs (p.cell_row, p.cell_col)) ∧ (cs = [] → (p.cell_row, p.cell_col) = (-1, -1)) := by
  obtain ⟨⟨a1, a2⟩, ⟨b1, b2⟩, c1, c2⟩ := hshape
  have hn1 : TopLabel labels.rows labels.cols labels.get none n := by rw [a1, a2]; exact hn.1
  have hn2 : LabelsIn labels.rows labels.cols labels.get n := by rw [a1, a2]; exact hn.2
  obtain ⟨st, s1, s2, s3⟩ := Label.labelStats_ok id data (lab := labels) ⟨a1.symm, a2.symm⟩ hn1 hn2
  rw [← heng.stats ⟨a1.symm, a2.symm⟩ hn1 hn2] at s1
  rw [a1, a2] at s3
  let accb : Raster (WithBot Int) := { rows := acc.rows, cols := acc.cols, get := fun c => (acc.get c : WithBot Int) }
  obtain ⟨pix, p1, p2, p3⟩ := Label.labelMaxIndex_ok accb (lab := labels) ⟨c1.trans a1.symm, c2.trans a2.symm⟩ hn1 hn2
  rw [a1, a2] at p3
  obtain ⟨ct, t1, t2, t3⟩ := Label.labelCount_ok (lab := ws) (n := n) (by rw [b1, b2]; exact hw.1) (by rw [b1, b2]; exact hw.2)
  rw [b1, b2] at t3
  obtain ⟨q1, q2⟩ := Bluespots.points_ok id georef.transform data (labeled := labels) (watersheds := ws) (IsFirstMax acc.get)
    p2 s2 t2 p3 s3 t3 ⟨rfl, rfl⟩ (fun l cs hl hcs hne => by
      obtain ⟨⟨a, b, c⟩, _⟩ := Label.fold_max_first accb cs hcs.1 hne (fun c _ => WithBot.bot_lt_coe _)
      exact ⟨a, fun x hx => WithBot.coe_le_coe.1 (b x hx), fun x hx he => c x hx (congrArg (fun z : Int => (z : WithBot Int)) he)⟩)
  obtain ⟨layers, polygons, hp, hwr⟩ := hout.package ogr
  refine ⟨_, _, leaves_of_does (N := 0) fun m _ => (Does.mustExist m ?_).bind ((Does.readLabels hlab m).bind
    ((Does.readNumbers hdep m).bind ((Does.readLabels hws m).bind (Does.bind (a := (none, some acc))
    ((Does.readCounts hacc m).bind (Does.pure _ _ _)) ((Does.run (a := Bluespots.assemblePourpoints georef.transform pix st ct) ?_
      before).bind (Does.writeLayer ogr hout.1 hp _ _ m)))))), hwr _, q1, fun l cs cs' hl hcs hcs' => ?_⟩
  · cases dem with
    | none => simp [hlab, hdep, hws, hacc]
    | some p => simp [hlab, hdep, hws, hacc, hdem p rfl]
  · unfold Scripts.pourpts
    rw [if_neg (by simp)]
    simp only [Run.bind_ok, Run.ofExcept_ok, Run.pure_ok]
    exact ⟨st, s1, pix, p1, ct, t1, rfl⟩
  · obtain ⟨p, e1, e2, e3⟩ := q2 l cs cs' hl hcs hcs'
    exact ⟨p, e1, Bluespots.isPourPointFl_id e2, e3⟩

end

section
variable {K : Type} [Field K] [LinearOrder K] [FloorRing K] {β : Type} [LinearOrder β] [OrderTop β]

theorem leaves_of_raises {x : Cmd β K Unit} {fs fs' : FileSystem β K} {N : Nat} {e : PyErr}
    (h : ∀ n, N ≤ n → Raises x fs n e fs') : x.Leaves fs (.error e) fs' := ⟨N, fun n hn => ⟨fs', h n hn, rfl, fun _ => rfl⟩⟩

theorem Raises.fail {α : Type} (e : PyErr) (fs : FileSystem β K) (n : Nat) : Raises (Cmd.fail e : Cmd β K α) fs n e fs := rfl

theorem LayerHolds.does {ogr : Ogr K} {fs : FileSystem β K} {path : Path} {name : String} {features : List (Feature K)}
    (h : LayerHolds ogr fs path name features) (n : Nat) : Does (Command.readLayer ogr path name) fs n features fs := by
  obtain ⟨layers, polygons, h1, h2⟩ := h
  exact Does.readLayer ogr h1 h2 n

/-! ### Rain -/

/-- C108, `initvolumes -mm`: for every layer of nodes with watershed areas, whether or not bluespots are given too, the layer
written has the same features in the same order, each with the amount of rain on its watershed. -/
theorem C108_rain_mm (ogr : Ogr K) (s : Setting β K) {before : FileSystem β K} {nodes out : Path} {nl ol att : String} {mm : K}
    {unit : Rain.Unit} {bluespots : Option Path} {features : List (Feature K)} {areas : List K} (hmm : mm ≠ 0)
    (hb : ∀ p, bluespots = some p → (before.files.get? p).isSome) (hin : LayerHolds ogr before nodes nl features)
    (hout : RoomForLayer before out ol) (ha : List.Forall₂ (fun f a => HasNumber f "wshed_area" a) features areas) :
    ∃ volumes after,
      (runSub ogr s (.initvolumes nodes nl (some mm) none unit bluespots out ol att)).Leaves before (.ok ()) after ∧
      LayerWritten ogr before out ol volumes after ∧ volumes.length = features.length ∧
      ∀ (i : Nat) f a, features[i]? = some f → areas[i]? = some a →
        ∃ g, volumes[i]? = some g ∧ WithNumber att (a * mm / 1000) f g := by
  obtain ⟨volumes, h1, h2, h3⟩ := C39_simple_volumes (attr := att) (mm := mm) ha
  obtain ⟨layers, polygons, hp, hwr⟩ := hout.package ogr
  refine ⟨volumes, _, leaves_of_does (N := 0) fun n _ => (Does.mustExist n ?_).bind ?_, hwr _, h2, h3⟩
  · cases bluespots with
    | none => simp
    | some p => simp [hb p rfl]
  · have hm : (some mm).filter (· ≠ 0) = some mm := by simp [hmm]
    rw [hm, if_neg (by simp), if_neg (by simp)]
    refine (hin.does n).bind (Does.bind (Does.pure _ _ _) ((Does.run (a := volumes) ?_ before).bind
      (Does.writeLayer ogr hout.1 hp _ _ n)))
    unfold Scripts.initvolumes
    rw [hm]
    show some (Rain.simpleVolumes features att mm) = _
    rw [h1]

theorem ValuesOf.does {elev : β → K} {fs : FileSystem β K} {path : Path} {rain : Raster K} (h : ValuesOf elev fs path rain) (n : Nat) :
    Does (readPrecipitation elev path) fs n rain fs := by
  obtain ⟨georef, h | ⟨file, h, rfl⟩⟩ := h
  · exact (Does.openRaster h n).bind (Does.pure _ _ _)
  · refine (Does.openRaster h n).bind ?_
    have : file.read none = file.data := by unfold ElevFile.read; cases file.nodata <;> rfl
    show Does (pure (numbers elev (file.read none))) _ _ _ _
    rw [this]
    exact Does.pure _ _ _

theorem ValuesOf.exists {elev : β → K} {fs : FileSystem β K} {path : Path} {rain : Raster K} (h : ValuesOf elev fs path rain) :
    (fs.files.get? path).isSome := by
  obtain ⟨georef, h | ⟨file, h, rfl⟩⟩ := h <;> simp [h]

/-- C108, `initvolumes -pr`: for every raster of rain of the shape of the bluespots, the layer written has the features of the
nodes in the same order, each with the rain that falls on the cells labelled with its id, and otherwise unchanged. The size of
the cells is that of the bluespots. -/
theorem C108_rain_raster [IsStrictOrderedRing K] (ogr : Ogr K) (s : Setting β K) {before : FileSystem β K}
    {nodes pr bluespots out : Path} {nl ol att : String} {mm : Option K} {unit : Rain.Unit} {features : List (Feature K)}
    {rain : Raster K} {labels : Raster Int} {nodata : Option Int} {georef : Georef K} (hmm : mm = none ∨ mm = some 0)
    (hin : LayerHolds ogr before nodes nl features) (hpr : ValuesOf s.elev before pr rain)
    (hlab : before.files.get? bluespots = some (.raster (.labels labels nodata) georef)) (hout : RoomForLayer before out ol)
    (hshape : labels.rows = rain.rows ∧ labels.cols = rain.cols) {n : Nat} {factor : K}
    (hn : TopLabel labels.rows labels.cols labels.get none n) (hr : LabelsIn labels.rows labels.cols labels.get n)
    (hu : unitFactor (cellArea georef.transform) unit = some factor) {ids : List Int}
    (hf : List.Forall₂ (fun f (i : Int) => f.properties.get? "nodeid" = some (.int i) ∧ 0 ≤ i) features ids) :
    ∃ volumes after,
      (runSub ogr s (.initvolumes nodes nl mm (some pr) unit (some bluespots) out ol att)).Leaves before (.ok ()) after ∧
      LayerWritten ogr before out ol volumes after ∧ volumes.length = features.length ∧
      ∀ (k : Nat) f (id : Int), features[k]? = some f → ids[k]? = some id →
        ∃ g x, volumes[k]? = some g ∧ WithNumber att x f g ∧
          (∀ cs, CellsOf labels.rows labels.cols labels.get id cs → id ≤ n → x = (cs.map rain.get).sum * factor) ∧
          ((n : Int) < id → x = 0) := by
  obtain ⟨volumes, h1, h2, h3⟩ := C40_raster_volumes (attr := att) hshape hn hr hu hf
  obtain ⟨layers, polygons, hp, hwr⟩ := hout.package ogr
  have hm : mm.filter (· ≠ 0) = none := by rcases hmm with rfl | rfl <;> simp
  refine ⟨volumes, _, leaves_of_does (N := 0) fun n _ => (Does.mustExist n (by simp [hpr.exists, hlab])).bind ?_, hwr _, h2, h3⟩
  rw [hm, if_neg (by simp), if_neg (by simp)]
  refine (hin.does n).bind (Does.bind (a := (some rain, some (labels, georef.transform))) ((hpr.does n).bind
    ((Does.readLabels hlab n).bind (Does.pure _ _ _))) ((Does.run (a := volumes) ?_ before).bind
    (Does.writeLayer ogr hout.1 hp _ _ n)))
  unfold Scripts.initvolumes
  rw [hm]
  show some (Rain.rasterVolumes features georef.transform labels rain unit att) = _
  rw [h1]

/-- C108, `initvolumes`: rain in millimetres together with a raster, neither of them (0 mm counts as none), and a raster without
bluespots are usage errors. Nothing is written. -/
theorem C108_rain_refused (ogr : Ogr K) (s : Setting β K) {before : FileSystem β K} {nodes out : Path} {nl ol att : String}
    {mm : Option K} {unit : Rain.Unit} {pr bluespots : Option Path} {features : List (Feature K)}
    (hin : LayerHolds ogr before nodes nl features)
    (hex : ∀ p, pr = some p ∨ bluespots = some p → (before.files.get? p).isSome)
    (h : ((∃ x, mm = some x ∧ x ≠ 0) ∧ pr.isSome) ∨ ((mm = none ∨ mm = some 0) ∧ pr = none) ∨
      ((mm = none ∨ mm = some 0) ∧ pr.isSome ∧ bluespots = none)) :
    (runSub ogr s (.initvolumes nodes nl mm pr unit bluespots out ol att)).Leaves before (.error .usageError) before := by
  refine leaves_of_raises (N := 0) fun n _ => (Does.mustExist n ?_).raises ?_
  · intro p hp
    rcases List.mem_append.1 hp with hp | hp
    · exact hex p (.inl (by simpa using hp))
    · exact hex p (.inr (by simpa using hp))
  · rcases h with ⟨⟨x, rfl, hx⟩, hp⟩ | ⟨hm, rfl⟩ | ⟨hm, hp, rfl⟩
    · rw [if_pos ⟨by simp [hx], hp⟩]
      exact Raises.fail _ _ _
    · have hm : mm.filter (· ≠ 0) = none := by rcases hm with rfl | rfl <;> simp
      rw [hm, if_neg (by simp), if_pos (by simp)]
      exact Raises.fail _ _ _
    · have hm : mm.filter (· ≠ 0) = none := by rcases hm with rfl | rfl <;> simp
      obtain ⟨p, rfl⟩ := Option.isSome_iff_exists.1 hp
      rw [hm, if_neg (by simp), if_neg (by simp)]
      exact (hin.does n).raises (Raises.bind _ (Raises.fail _ _ _))

/-! ### Final state -/

/-- C108, `finalvolumes`: for every layer of nodes with rain and volumes, of any structure, water is balanced on every node that
leads to a root; other nodes are written as they are. For nodes with one id the last counts. -/
theorem C108_finalvolumes [IsStrictOrderedRing K] (ogr : Ogr K) (s : Setting β K) {before : FileSystem β K} {input out : Path}
    {il ol attr : String} {features : List (Feature K)} (hin : LayerHolds ogr before input il features)
    (hout : RoomForLayer before out ol) (hattr : attr ≠ "nodeid") (hfs : ∀ f ∈ features, ∃ n, Carries attr f.properties n) :
    ∃ (final : List (Feature K)) (after : FileSystem β K) (rows : List (Feature K × RainNode K × Feature K)) (v spill : Int → K),
      (runSub ogr s (.finalvolumes input il attr out ol)).Leaves before (.ok ()) after ∧
      LayerWritten ogr before out ol final after ∧ rows.map (·.2.2) = final ∧ LastPerId features (rows.map (·.1)) ∧
      ∀ r ∈ rows, Carries attr r.1.properties r.2.1 ∧
        (LeadsToRoot (rows.map (·.2.1)) r.2.1 →
          Balanced (rows.map (·.2.1)) v spill r.2.1 ∧ Finished r.1 r.2.2 r.2.1 v spill) ∧
        (¬ LeadsToRoot (rows.map (·.2.1)) r.2.1 → r.2.2 = r.1) := by
  obtain ⟨final, rows, v, spill, ⟨N, h1⟩, h2, h3, h4⟩ := C55_final_state hattr hfs
  obtain ⟨layers, polygons, hp, hwr⟩ := hout.package ogr
  refine ⟨final, _, rows, v, spill, leaves_of_does (N := N) fun n hn => (hin.does n).bind ((Does.run (a := final) (h1 n hn)
    before).bind (Does.writeLayer ogr hout.1 hp _ _ n)), hwr _, h2, h3, h4⟩

/-- C108, `finalbluespots`: for all labels, elevations and water levels, of which every label has one, the files asked for, one
or both, hold the depths and the extent of the water. Their georeference is that of the bluespots. -/
theorem C108_finalbluespots [IsStrictOrderedRing K] (ogr : Ogr K) (s : Setting β K) {before : FileSystem β K}
    {bluespots dem input : Path} {il : String} {outDepths outExtent : Option Path} {labels : Raster Int} {nodata : Option Int}
    {file : ElevFile β} {georef g1 : Georef K} {features : List (Feature K)}
    (hlab : before.files.get? bluespots = some (.raster (.labels labels nodata) georef))
    (hdem : before.files.get? dem = some (.raster (.elevations file) g1)) (hin : LayerHolds ogr before input il features)
    (hout : ∀ p, outDepths = some p ∨ outExtent = some p → p.1 ∈ before.directories)
    (hsome : outDepths.isSome ∨ outExtent.isSome) (hne : outDepths = outExtent → outDepths = none)
    {m : Nat} {kvs : Dict Int (Val K)} {level : Int → K}
    (ht : ∀ f ∈ features, ∃ t, f.properties.get? "nodetype" = some t)
    (hk : List.Forall₂ (fun f (kv : Int × Val K) => f.properties.get? "bspot_id" = some (.int kv.1) ∧
        f.properties.get? "approx_z" = some kv.2)
      (features.filter fun f => f.properties.get? "nodetype" = some (.str "pourpoint")) kvs)
    (hnd : (kvs.map (·.1)).Nodup) (hnum : ∀ kv ∈ kvs, kv.2 ≠ .none ∧ ∀ s, kv.2 ≠ .str s)
    (hl : ∀ kv ∈ kvs, kv.1 ≠ 0 → kv.2.float = .ok (level kv.1))
    (hc : Covers kvs 0 m) (hr : LabelsIn labels.rows labels.cols labels.get m) :
    ∃ extent depths after,
      (runSub ogr s (.finalbluespots bluespots dem input il outDepths outExtent)).Leaves before (.ok ()) after ∧
      after.directories = before.directories ∧
      (∀ p, outDepths = some p → after.files.get? p = some (.raster (.numbers depths) georef)) ∧
      (∀ p, outExtent = some p → after.files.get? p = some (.raster (.labels extent (some 0)) georef)) ∧
      (∀ p, outDepths ≠ some p → outExtent ≠ some p → after.files.get? p = before.files.get? p) ∧
      IsFlooded labels ⟨file.data.rows, file.data.cols, fun c => s.elev (elevationIn file s.subst c)⟩ 0 level extent depths := by
  have hd : numbers s.elev (file.read (some s.subst)) =
      ⟨file.data.rows, file.data.cols, fun c => s.elev (elevationIn file s.subst c)⟩ := by
    unfold numbers
    simp only [read_rows, read_cols, read_get]
  obtain ⟨extent, depths, h1, h2⟩ := C46_flooded_io (want_depths := outDepths.isSome) (want_labels := outExtent.isSome)
    (dem := ⟨file.data.rows, file.data.cols, fun c => s.elev (elevationIn file s.subst c)⟩) hsome ht hk hnd hnum hl hc hr
  have hrun : ∀ n, Scripts.finalbluespots s.elev s.subst labels file features outDepths.isSome outExtent.isSome n =
      some (.ok (if outDepths.isSome then some depths else none, if outExtent.isSome then some extent else none)) := by
    intro n
    unfold Scripts.finalbluespots
    rw [if_neg (by rcases hsome with h | h <;> rw [h] <;> simp), hd, h1]
    rfl
  have hex : ∀ p ∈ [bluespots, dem], (before.files.get? p).isSome := by simp [hlab, hdem]
  rcases outDepths with _ | pd <;> rcases outExtent with _ | pe
  · simp at hsome
  · refine ⟨extent, depths, _, leaves_of_does (N := 0) fun n _ => (Does.mustExist n hex).bind ((Does.readLabels hlab n).bind
      ((Does.openElevations hdem n).bind ((hin.does n).bind ((Does.run (hrun n) before).bind
      (Does.writeRaster (hout pe (.inr rfl)) _ _ n))))), rfl, by simp, ?_, ?_, h2⟩
    · rintro p ⟨⟩; exact get_put_self _ _ _
    · intro p _ hp; exact get_put_ne _ (fun h => hp (by rw [h])) _
  · refine ⟨extent, depths, _, leaves_of_does (N := 0) fun n _ => (Does.mustExist n hex).bind ((Does.readLabels hlab n).bind
      ((Does.openElevations hdem n).bind ((hin.does n).bind ((Does.run (hrun n) before).bind
      ((Does.writeRaster (hout pd (.inl rfl)) _ _ n).bind (Does.pure _ _ _)))))), rfl, ?_, by simp, ?_, h2⟩
    · rintro p ⟨⟩; exact get_put_self _ _ _
    · intro p hp _; exact get_put_ne _ (fun h => hp (by rw [h])) _
  · have hpe : pe ≠ pd := fun h => by simpa using hne (by rw [h])
    refine ⟨extent, depths, _, leaves_of_does (N := 0) fun n _ => (Does.mustExist n hex).bind ((Does.readLabels hlab n).bind
      ((Does.openElevations hdem n).bind ((hin.does n).bind ((Does.run (hrun n) before).bind
      ((Does.writeRaster (hout pd (.inl rfl)) _ _ n).bind
      (Does.writeRaster (fs := before.put _ _) (hout pe (.inr rfl)) _ _ n)))))), rfl, ?_, ?_, ?_, h2⟩
    · rintro p ⟨⟩
      rw [get_put_ne _ hpe, get_put_self]
    · rintro p ⟨⟩; exact get_put_self _ _ _
    · intro p hp hp'
      rw [get_put_ne _ (fun h => hp' (by rw [h])), get_put_ne _ (fun h => hp (by rw [h]))]

/-! ### Polygons -/

/-- C108, `polys`: for every raster of labels 1, …, n, each on a connected set of cells, with nodata 0, the new layer has one
polygon per label. -/
theorem C108_polys (ogr : Ogr K) (hp : PolygonizeContract ogr.polygonize) (s : Setting β K) {before : FileSystem β K}
    {raster out : Path} {name : String} {labels : Raster Int} {georef : Georef K}
    (hlab : before.files.get? raster = some (.raster (.labels labels (some 0)) georef)) (hout : RoomForPolygons before out name)
    {n : Nat} (hr : LabelsIn labels.rows labels.cols labels.get n)
    (hused : ∀ l : Nat, 1 ≤ l → l ≤ n → ∃ c, labels.Has c ∧ labels.get c = l)
    (hconn : ∀ v : Int, v ≠ 0 → ∀ a b, labels.Has a → labels.Has b → labels.get a = v → labels.get b = v →
      ConnectedIn (fun x => InGrid labels.rows labels.cols x ∧ labels.get x = v) a b) :
    ∃ polygons after, (runSub ogr s (.polys raster out name)).Leaves before (.ok ()) after ∧
      PolygonsWritten before out name polygons after ∧
      OnePerLabel labels.rows labels.cols labels.get n "bspot_id" polygons := by
  obtain ⟨layers, polygons, hpk, h1, h2⟩ : ∃ layers polygons, packageAt before out layers polygons ∧ layers.get? name = none ∧
      polygons.get? name = none := by
    rcases hout.1.2 with h0 | ⟨layers, polygons, h1, h2⟩
    · exact ⟨[], [], .inr ⟨h0, rfl, rfl⟩, rfl, rfl⟩
    · refine ⟨layers, polygons, .inl h1, h2, ?_⟩
      have := hout.2
      unfold polygonsAt at this
      rwa [h1] at this
  refine ⟨_, before.put out (.geopackage layers (polygons.set name
      (Polygons.vectorizeLabelsFile ogr.polygonize (some 0) labels "bspot_id"))),
    leaves_of_does (N := 0) fun n _ => (Does.mustExist n (by simp [hlab])).bind ((Does.readLabels hlab n).bind
    ((Does.openForUpdate hpk n).bind ?_)), ⟨rfl, ?_, fun other ho => ?_, fun other => ?_, fun p hp => get_put_ne _ (Ne.symm hp) _⟩,
    onePerLabel hp hr hused hconn "bspot_id"⟩
  · simp only [h1, h2]
    rw [if_neg (by simp)]
    exact Does.put hout.1.1 _ n
  · unfold polygonsAt
    rw [get_put_self]
    simp [Dict.get?_set]
  · unfold polygonsAt
    rw [get_put_self]
    simp only [Dict.get?_set, if_neg (Ne.symm ho)]
    rcases hpk with hp | ⟨hp, _, rfl⟩
    · rw [hp]
    · rw [hp]; rfl
  · unfold layerAt
    rw [get_put_self]
    rcases hpk with hp | ⟨hp, rfl, _⟩
    · rw [hp]
    · rw [hp]; rfl

/-- C108, `polys`: with the name of a layer that exists the command fails and leaves the disk as it is. -/
theorem C108_polys_refused (ogr : Ogr K) (s : Setting β K) {before : FileSystem β K} {raster out : Path} {name : String}
    {labels : Raster Int} {nodata : Option Int} {georef : Georef K}
    (hlab : before.files.get? raster = some (.raster (.labels labels nodata) georef))
    (h : (layerAt before out name).isSome ∨ (polygonsAt before out name).isSome) :
    (runSub ogr s (.polys raster out name)).Leaves before (.error .attributeError) before := by
  obtain ⟨layers, polygons, hpk, h⟩ : ∃ layers polygons, packageAt before out layers polygons ∧
      ((layers.get? name).isSome ∨ (polygons.get? name).isSome) := by
    unfold layerAt polygonsAt at h
    split at h
    · rename_i layers polygons he
      exact ⟨layers, polygons, .inl he, h⟩
    · rename_i he
      rcases h with h | h
      · simp at h
      · simp at h
  refine leaves_of_raises (N := 0) fun n _ => (Does.mustExist n (by simp [hlab])).raises ((Does.readLabels hlab n).raises
    ((Does.openForUpdate hpk n).raises ?_))
  dsimp only
  rw [if_pos h]
  exact Raises.fail _ _ _

end

/-! ### The hypotheses are met -/

def ownGeoref : Georef Rat := ⟨⟨0, 2, 0, 0, 0, -2⟩, "EPSG:25832"⟩

/-- Nodata is -9999. -/
def ownNodata : WithTop Rat → Bool := fun z => z = ((-9999 : Rat) : WithTop Rat)

/-- Elevations with a cell of nodata. -/
def ownDem : Raster Rat := Raster.ofRows [[9, 9, 9], [9, 2, 9], [9, -9999, 9]]

/-- Rain in millimetres with a cell of nodata. -/
def ownRain : Raster Rat := Raster.ofRows [[1, 10], [-9999, 5]]

/-- Nodes drawn by hand. -/
def ownNodes : List (Feature Rat) := rainNodes

/-- Rain and volumes of nodes: two spill into a third, two are a cycle. -/
def ownVolumes : List (Feature Rat) := demoList.map fun p => ⟨none, .none, p⟩

/-- Water levels. -/
def ownLevels : List (Feature Rat) :=
  [⟨none, .none, [("nodetype", .str "pourpoint"), ("bspot_id", .int 0), ("approx_z", .num 0)]⟩,
   ⟨none, .none, [("nodetype", .str "pourpoint"), ("bspot_id", .int 1), ("approx_z", .num 5)]⟩]

/-- Bluespots drawn by hand. -/
def ownLab : Raster Int := Raster.ofRows [[0, 1, 0, 2], [0, 1, 0, 2], [0, 0, 0, 0]]

/-- A disk with files that were made by other programs. -/
def ownFs : FileSystem (WithTop Rat) Rat :=
  ⟨["d"], [(("d", "dem.tif"), .raster (.elevations ⟨finiteDem ownDem, some ownNodata⟩) ownGeoref),
    (("d", "rain.tif"), .raster (.elevations ⟨finiteDem ownRain, some ownNodata⟩) ownGeoref),
    (("d", "dry.tif"), .raster (.numbers rainWater) ownGeoref),
    (("d", "labels.tif"), .raster (.labels rainLab none) ownGeoref),
    (("d", "polygons.tif"), .raster (.labels rainLab (some 0)) ownGeoref),
    (("d", "depths.tif"), .raster (.numbers demoDepths) ownGeoref),
    (("d", "flowdir.tif"), .raster (.directions demoFlow) ownGeoref),
    (("d", "accum.tif"), .raster (.counts demoAccum) ownGeoref),
    (("d", "bluespots.tif"), .raster (.labels ownLab none) ownGeoref),
    (("d", "nodes.gpkg"), .geopackage (withLayer demoOgr [] "nodes" ownNodes) []),
    (("d", "volumes.gpkg"), .geopackage (withLayer demoOgr [] "volumes" ownVolumes) []),
    (("d", "levels.gpkg"), .geopackage (withLayer demoOgr [] "levels" ownLevels) [])]⟩

theorem own_holds : LayerHolds demoOgr ownFs ("d", "nodes.gpkg") "nodes" (back demoOgr "nodes" ownNodes) ∧
    LayerHolds demoOgr ownFs ("d", "volumes.gpkg") "volumes" (back demoOgr "volumes" ownVolumes) ∧
    LayerHolds demoOgr ownFs ("d", "levels.gpkg") "levels" (back demoOgr "levels" ownLevels) :=
  ⟨⟨_, _, rfl, read_withLayer demoOgr rfl ownNodes⟩, ⟨_, _, rfl, read_withLayer demoOgr rfl ownVolumes⟩,
    ⟨_, _, rfl, read_withLayer demoOgr rfl ownLevels⟩⟩

/-- There is room in a new file, and for another layer in the GeoPackage. -/
theorem own_room : RoomForLayer ownFs ("d", "new.gpkg") "volumes" ∧ RoomForLayer ownFs ("d", "nodes.gpkg") "volumes" ∧
    RoomForPolygons ownFs ("d", "nodes.gpkg") "volumes" := by
  refine ⟨⟨by decide, .inl rfl⟩, ⟨by decide, .inr ⟨_, _, rfl, ?_⟩⟩, ⟨by decide, .inr ⟨_, _, rfl, ?_⟩⟩, rfl⟩ <;> rfl

/-- C108 for the terrain, the bluespots and the watersheds: for any labelling of connected sets the commands do what is said. -/
example (cc : Raster Bool → Raster Int × Nat) (hcc : LabelContract cc) (hco : CellsOnly cc) :
    let s := exactSetting cc (1/1000) (14/10000 : Rat) (7/10) (fun _ => false) fun _ _ => true
    (∃ filled after, (runSub demoOgr s (.filled ("d", "dem.tif") ("d", "filled.tif"))).Leaves ownFs (.ok ()) after ∧
      after.files.get? ("d", "filled.tif") = some (.raster (.elevations filled) ownGeoref)) ∧
    (∃ flowdir after, (runSub demoOgr s (.flowdir ("d", "dem.tif") ("d", "fd.tif"))).Leaves ownFs (.ok ()) after ∧
      after.files.get? ("d", "fd.tif") = some (.raster (.directions flowdir) ownGeoref)) ∧
    (∃ accum after, (runSub demoOgr s (.accum ("d", "flowdir.tif") ("d", "acc.tif"))).Leaves ownFs (.ok ()) after ∧
      after.files.get? ("d", "acc.tif") = some (.raster (.counts accum) ownGeoref)) ∧
    (∃ labels after, (runSub demoOgr s (.bspots ("d", "depths.tif") ("d", "bs.tif") none)).Leaves ownFs (.ok ()) after ∧
      after.files.get? ("d", "bs.tif") = some (.raster (.labels labels (some 0)) ownGeoref)) ∧
    (∃ labels after, (runSub demoOgr s (.wsheds ("d", "bluespots.tif") ("d", "flowdir.tif") ("d", "ws.tif"))).Leaves ownFs (.ok ())
      after ∧ after.files.get? ("d", "ws.tif") = some (.raster (.labels labels (some 0)) ownGeoref)) ∧
    (∃ points after, (runSub demoOgr s (.pourpts ("d", "bluespots.tif") ("d", "depths.tif") ("d", "bluespots.tif") none
      (some ("d", "accum.tif")) ("d", "nodes.gpkg") "pourpoints")).Leaves ownFs (.ok ()) after ∧
      LayerWritten demoOgr ownFs ("d", "nodes.gpkg") "pourpoints" points after ∧ points.length = 3) := by
  intro s
  have key : ∀ c ∈ Raster.cellList 3 4, 0 ≤ ownLab.get c ∧ ownLab.get c ≤ 2 := by decide +kernel
  have hL : LabelsIn demoDepths.rows demoDepths.cols ownLab.get ((2 : Nat) : Int) := fun c hc => key c (Flow.mem_cellList.2 hc)
  have hT : TopLabel demoDepths.rows demoDepths.cols ownLab.get none ((2 : Nat) : Int) := by
    refine .inr ⟨.inl rfl, ⟨(0, 3), by decide, by decide⟩, ?_⟩
    rintro l ⟨c, hc, rfl⟩
    exact (hL c hc).2
  refine ⟨?_, ?_, ?_, ?_, ?_, ?_⟩
  · obtain ⟨_, after, h, h', _⟩ := C108_filled demoOgr s (β := WithTop Rat) (drop := exactSub) (scale := (· * (7/10))) rfl
      (before := ownFs) (dem := ("d", "dem.tif")) (out := ("d", "filled.tif")) rfl (by decide) (by decide) (by decide)
    exact ⟨_, after, h, h'.2.1⟩
  · obtain ⟨_, after, _, h, h', _⟩ := C108_flowdir demoOgr cc (fun _ => false) (fun _ _ => true) (short := 1/1000)
      (diag := (14/10000 : Rat)) (k := 7/10) (by norm_num) (by norm_num) (by norm_num) (before := ownFs) (dem := ("d", "dem.tif"))
      (out := ("d", "fd.tif")) (data := ownDem) rfl (by decide) (by decide) (by decide)
    exact ⟨_, after, h, h'.2.1⟩
  · obtain ⟨_, after, h, h', _⟩ := C108_accum demoOgr s (drop := exactSub) (scale := (· * (7/10))) (junk := (0, 0)) (.inl rfl)
      (before := ownFs) (flowdir := ("d", "flowdir.tif")) (out := ("d", "acc.tif")) rfl (by decide)
      (fun c hc => (by decide : ∀ c ∈ Raster.cellList demoFlow.rows demoFlow.cols, demoFlow.get c < 8) c (Flow.mem_cellList.2 hc))
    exact ⟨_, after, h, h'.2.1⟩
  · obtain ⟨_, after, _, h, h', _⟩ := C108_bspots demoOgr s hcc hco (.inl rfl) (before := ownFs) (depths := ("d", "depths.tif"))
      (out := ("d", "bs.tif")) (filter := none) rfl (by decide) (by decide) (by decide) rfl
    exact ⟨_, after, h, h'.2.1⟩
  · obtain ⟨_, after, h, h', _⟩ := C108_wsheds demoOgr s (.inl rfl) (before := ownFs) (bluespots := ("d", "bluespots.tif"))
      (flowdir := ("d", "flowdir.tif")) (out := ("d", "ws.tif")) rfl rfl (by decide) (by decide) (by decide) demoFlow_drains
    exact ⟨_, after, h, h'.2.1⟩
  · obtain ⟨_, after, h, h', hl, _⟩ := C108_pourpts_accum demoOgr s (.inl rfl) (before := ownFs) (bluespots := ("d", "bluespots.tif"))
      (depths := ("d", "depths.tif")) (watersheds := ("d", "bluespots.tif")) (accum := ("d", "accum.tif")) (dem := none)
      (out := ("d", "nodes.gpkg")) (name := "pourpoints") (n := 2) (by simp) rfl rfl rfl rfl
      ⟨by decide, .inr ⟨_, _, rfl, rfl⟩⟩ (by decide) ⟨hT, hL⟩ ⟨hT, hL⟩
    exact ⟨_, after, h, h', by rw [List.length_map, hl]⟩

/-- C108 for rain in millimetres. -/
example : List.Forall₂ (fun f a => HasNumber f "wshed_area" a) (back demoOgr "nodes" ownNodes) [30, 12, 0] :=
  .cons ⟨_, rfl, rfl⟩ (.cons ⟨_, rfl, rfl⟩ (.cons ⟨_, rfl, rfl⟩ .nil))

/-- C108 for depths: no elevation counts as nodata of the filled terrain, or only -999 does. -/
example : (∀ z, demoSetting.near z = true → z = demoSetting.subst) ∧
    ∀ z : WithTop Rat, decide (z = demoSetting.subst) = true → z = demoSetting.subst :=
  ⟨fun _ h => (nomatch h), fun _ h => of_decide_eq_true h⟩

/-- C108 for a raster of rain; the file without nodata and the one with. -/
theorem own_rain : ValuesOf demoSetting.elev ownFs ("d", "dry.tif") rainWater ∧
    ValuesOf demoSetting.elev ownFs ("d", "rain.tif") ownRain ∧
    unitFactor (cellArea ownGeoref.transform) .mm = some (4 / 1000) ∧
    List.Forall₂ (fun f (i : Int) => f.properties.get? "nodeid" = some (.int i) ∧ 0 ≤ i) (back demoOgr "nodes" ownNodes)
      [0, 1, 2] ∧ TopLabel rainLab.rows rainLab.cols rainLab.get none ((1 : Nat) : Int) ∧
    LabelsIn rainLab.rows rainLab.cols rainLab.get ((1 : Nat) : Int) := by
  have h : ∀ c ∈ Raster.cellList rainLab.rows rainLab.cols, 0 ≤ rainLab.get c ∧ rainLab.get c ≤ 1 := by decide +kernel
  refine ⟨⟨_, .inl rfl⟩, ⟨_, .inr ⟨_, rfl, rfl⟩⟩, by decide +kernel,
    .cons ⟨rfl, by decide⟩ (.cons ⟨rfl, by decide⟩ (.cons ⟨rfl, by decide⟩ .nil)), .inr ⟨.inl rfl, ⟨(0, 1), by decide, by decide⟩, ?_⟩,
    fun c hc => h c (Flow.mem_cellList.2 hc)⟩
  rintro l ⟨c, hc, rfl⟩
  exact (h c (Flow.mem_cellList.2 hc)).2

/-- C108 for refused rain: 0 mm and no raster; 20 mm and a raster; a raster without bluespots. -/
example : (∀ p, some ("d", "dry.tif") = some p ∨ (none : Option Path) = some p → (ownFs.files.get? p).isSome) ∧
    ∃ x : Rat, some 20 = some x ∧ x ≠ 0 := by
  refine ⟨?_, 20, rfl, by norm_num⟩
  rintro p (h | h)
  · rw [← Option.some.inj h]; rfl
  · cases h

/-- C108 for the final state. -/
example : (∀ f ∈ back demoOgr "volumes" ownVolumes, ∃ n, Carries "inputv" f.properties n) ∧
    (∀ f ∈ back demoOgr "levels" ownLevels, ∃ t, f.properties.get? "nodetype" = some t) ∧
    List.Forall₂ (fun f (kv : Int × Val Rat) => f.properties.get? "bspot_id" = some (.int kv.1) ∧
        f.properties.get? "approx_z" = some kv.2)
      ((back demoOgr "levels" ownLevels).filter fun f => f.properties.get? "nodetype" = some (.str "pourpoint"))
      [(0, .num 0), (1, .num 5)] ∧ Covers ([(0, .num 0), (1, .num 5)] : Dict Int (Val Rat)) 0 1 := by
  refine ⟨?_, ?_, ?_, by decide, by decide, fun l hl hb => ?_⟩
  · have h : List.Forall₂ (fun f n => Carries "inputv" f.properties n) (back demoOgr "volumes" ownVolumes) demoNodes :=
      .cons ⟨rfl, rfl, ⟨_, _, rfl, rfl⟩, ⟨_, rfl, rfl⟩, ⟨_, rfl, rfl⟩⟩ (.cons ⟨rfl, rfl, ⟨_, _, rfl, rfl⟩, ⟨_, rfl, rfl⟩, ⟨_, rfl, rfl⟩⟩
      (.cons ⟨rfl, rfl, ⟨_, _, rfl, rfl⟩, ⟨_, rfl, rfl⟩, ⟨_, rfl, rfl⟩⟩ (.cons ⟨rfl, rfl, ⟨_, _, rfl, rfl⟩, ⟨_, rfl, rfl⟩, ⟨_, rfl, rfl⟩⟩
      (.cons ⟨rfl, rfl, ⟨_, _, rfl, rfl⟩, ⟨_, rfl, rfl⟩, ⟨_, rfl, rfl⟩⟩ .nil))))
    intro f hf
    obtain ⟨i, hi, rfl⟩ := List.getElem_of_mem hf
    exact ⟨_, (List.forall₂_iff_get.1 h).2 i hi (by rw [← h.length_eq]; exact hi)⟩
  · have h : ∀ f ∈ back demoOgr "levels" ownLevels, (f.properties.get? "nodetype").isSome := by decide +kernel
    exact fun f hf => Option.isSome_iff_exists.1 (h f hf)
  · exact .cons ⟨rfl, rfl⟩ (.cons ⟨rfl, rfl⟩ .nil)
  · have : l = 1 := by omega
    subst this; exact ⟨.num 5, rfl⟩

/-! ### C109: nodata of the raster of rain -/

/-- C109 for rasters of rain in which no cell has the nodata value. -/
theorem C109_rain_nodata_partial {K : Type} [Field K] [LinearOrder K] [FloorRing K] {β : Type} [LinearOrder β] [OrderTop β]
    [IsStrictOrderedRing K] (ogr : Ogr K) (s : Setting β K) {before : FileSystem β K}
    {nodes pr bluespots out : Path} {nl ol att : String} {mm : Option K} {unit : Rain.Unit} {features : List (Feature K)}
    {file : ElevFile β} {labels : Raster Int} {nodata : Option Int} {georef g1 : Georef K} (hmm : mm = none ∨ mm = some 0)
    (hin : LayerHolds ogr before nodes nl features) (hpr : before.files.get? pr = some (.raster (.elevations file) g1))
    (hno : ∀ c, file.data.Has c → ¬ file.IsNodata c)
    (hlab : before.files.get? bluespots = some (.raster (.labels labels nodata) georef)) (hout : RoomForLayer before out ol)
    (hshape : labels.rows = file.data.rows ∧ labels.cols = file.data.cols) {n : Nat} {factor : K}
    (hn : TopLabel labels.rows labels.cols labels.get none n) (hr : LabelsIn labels.rows labels.cols labels.get n)
    (hu : unitFactor (cellArea georef.transform) unit = some factor) {ids : List Int}
    (hf : List.Forall₂ (fun f (i : Int) => f.properties.get? "nodeid" = some (.int i) ∧ 0 ≤ i) features ids) :
    ∃ volumes after,
      (runSub ogr s (.initvolumes nodes nl mm (some pr) unit (some bluespots) out ol att)).Leaves before (.ok ()) after ∧
      LayerWritten ogr before out ol volumes after ∧ CountsRain s.elev file labels ids n factor att features volumes := by
  obtain ⟨volumes, after, h1, h2, h3, h4⟩ := C108_rain_raster ogr s (att := att) (unit := unit) hmm hin
    (⟨g1, .inr ⟨file, hpr, rfl⟩⟩ : ValuesOf s.elev before pr _) hlab hout hshape hn hr hu hf
  refine ⟨volumes, after, h1, h2, fun k f id hk hid hle => ?_⟩
  obtain ⟨g, x, e1, e2, e3, _⟩ := h4 k f id hk hid
  refine ⟨g, x, e1, e2, fun cs hcs => ?_⟩
  rw [e3 cs hcs hle]
  congr 2
  refine List.map_congr_left fun c hc => ?_
  have hg : file.data.Has c := by
    have := ((hcs.2 c).1 hc).1
    rw [hshape.1, hshape.2] at this
    exact this
  unfold rainOn
  split
  · rename_i m hm
    rw [if_neg fun h => hno c hg ⟨m, hm, h⟩]
  · rfl

/-- C109 is false of the code: -9999 in cells with nodata counts as rain of -9999 mm. The bluespot on which 10 mm fell in the one
cell for which the rain is known gets -9989 mm on 4 square metres. -/
theorem C109_rain_nodata_false : ∃ volumes after,
    (runSub demoOgr demoSetting (.initvolumes ("d", "nodes.gpkg") "nodes" none (some ("d", "rain.tif")) .mm
      (some ("d", "labels.tif")) ("d", "nodes.gpkg") "volumes" "inputv")).Leaves ownFs (.ok ()) after ∧
    LayerWritten demoOgr ownFs ("d", "nodes.gpkg") "volumes" volumes after ∧
    (∃ g, volumes[1]? = some g ∧ HasNumber g "inputv" (-9989 * (4 / 1000) : Rat)) ∧
    ¬ CountsRain demoSetting.elev ⟨finiteDem ownRain, some ownNodata⟩ rainLab [0, 1, 2] 1 (4 / 1000) "inputv"
      (back demoOgr "nodes" ownNodes) volumes := by
  obtain ⟨_, hpr, hu, hf, hT, hL⟩ := own_rain
  obtain ⟨volumes, after, h1, h2, h3, h4⟩ := C108_rain_raster demoOgr demoSetting (att := "inputv") (unit := .mm) (.inl rfl)
    own_holds.1 hpr (bluespots := ("d", "labels.tif")) (out := ("d", "nodes.gpkg")) (ol := "volumes") (labels := rainLab) rfl
    own_room.2.1 (by decide) hT hL hu hf
  have hcs : CellsOf rainLab.rows rainLab.cols rainLab.get 1 [(0, 1), (1, 0)] := cellsOf_iff.2 (by decide +kernel)
  obtain ⟨g, x, e1, e2, e3, _⟩ := h4 1 _ 1 rfl rfl
  have hx : x = -9989 * (4 / 1000) := (e3 _ hcs (by decide)).trans (by decide +kernel)
  refine ⟨volumes, after, h1, h2, ⟨g, e1, hx ▸ e2.value⟩, fun hc => ?_⟩
  obtain ⟨g', y, f1, f2, f3⟩ := hc 1 _ 1 rfl rfl (by decide)
  have hy := f3 _ hcs
  rw [e1] at f1
  cases f1
  obtain ⟨v, v1, v2⟩ := e2.value
  obtain ⟨w, w1, w2⟩ := f2.value
  rw [v1] at w1
  cases w1
  rw [v2] at w2
  cases w2
  rw [hx] at hy
  revert hy
  decide +kernel

/-- The hypothesis of `C109_rain_nodata_partial`: the file has a nodata value, and no cell has it. -/
example : ∀ c, rainLab.Has c → ¬ (⟨finiteDem rainWater, some ownNodata⟩ : ElevFile (WithTop Rat)).IsNodata c := by
  intro c hc
  have : ∀ c ∈ Raster.cellList 2 2, ownNodata ((finiteDem rainWater).get c) = false := by decide +kernel
  rintro ⟨m, hm, h⟩
  cases hm
  rw [this c (Flow.mem_cellList.2 hc)] at h
  cases h

end Command
end Malstroem
