/-
Property C107: the documented sequence of subcommands with its files.
-/
import Verif.Proofs.Sequence
import Verif.Props.Subcommands

set_option linter.unusedSectionVars false

namespace Malstroem
open Spec Scripts

namespace Command
variable {K : Type} [Field K] [LinearOrder K] [FloorRing K] {β : Type} [LinearOrder β] [OrderTop β]

/-- The files to be written. One vector file is used for all layers. -/
structure Outputs where
  filled : Path
  depths : Path
  flowdir : Path
  accum : Path
  bluespots : Path
  watersheds : Path
  vector : Path
  finaldepths : Path
  finalbluespots : Path

def Outputs.all (o : Outputs) : List Path :=
  [o.filled, o.depths, o.flowdir, o.accum, o.bluespots, o.watersheds, o.vector, o.finaldepths, o.finalbluespots]

/-- The subcommands in the order of docs/cli.rst, with the default names of layers and attributes. -/
def documented (dem : Path) (o : Outputs) (with_accum : Bool) (filter : Option (List Char)) (mm zresolution : K) : List (Sub K) :=
  [.filled dem o.filled, .depths dem o.filled o.depths, .flowdir dem o.flowdir] ++
  (if with_accum then [.accum o.flowdir o.accum] else []) ++
  [.bspots o.depths o.bluespots filter, .wsheds o.bluespots o.flowdir o.watersheds,
   .pourpts o.bluespots o.depths o.watersheds (some dem) (if with_accum then some o.accum else none) o.vector "pourpoints",
   .network o.bluespots o.flowdir o.vector "pourpoints" o.vector "nodes" "streams",
   .hyps o.bluespots dem o.vector "pourpoints" zresolution o.vector "hyps",
   .initvolumes o.vector "nodes" (some mm) none .mm none o.vector "initvolumes" "inputv",
   .finalvolumes o.vector "initvolumes" "inputv" o.vector "finalvolumes",
   .finallevels o.vector "finalvolumes" o.vector "hyps" o.vector "finallevels",
   .finalbluespots o.bluespots dem o.vector "finallevels" (some o.finaldepths) (some o.finalbluespots)]

/-- The layers they write. -/
def documentedLayers (files : Files β K) : Dict String (List (Feature K)) :=
  [("pourpoints", files.pourpoints), ("nodes", files.nodes), ("streams", files.streams), ("hyps", files.hyps),
   ("initvolumes", files.initvolumes), ("finalvolumes", files.finalvolumes), ("finallevels", files.finallevels)]

/-- The rasters they write, with the georeference of the DEM. -/
def documentedRasters (near : β → Bool) (georef : Georef K) (o : Outputs) (files : Files β K) (finaldepths : Raster K)
    (finalbluespots : Raster Int) : Dict Path (Content β K) :=
  [(o.filled, .raster (.elevations ⟨files.filled, some near⟩) georef),
   (o.depths, .raster (.numbers files.depths) georef),
   (o.flowdir, .raster (.directions files.flowdir) georef)] ++
  (match files.accum with
    | some accum => [(o.accum, .raster (.counts accum) georef)]
    | none => []) ++
  [(o.bluespots, .raster (.labels files.bluespots (some 0)) georef),
   (o.watersheds, .raster (.labels files.watersheds (some 0)) georef),
   (o.finaldepths, .raster (.numbers finaldepths) georef),
   (o.finalbluespots, .raster (.labels finalbluespots (some 0)) georef)]

/-- The layers `old` of a GeoPackage, and after them exactly the given ones, from which is read what a file gives back of the
features (C70). -/
structure AddedLayers (ogr : Ogr K) (old : Vector.Datasource K) (added : Dict String (List (Feature K)))
    (new : Vector.Datasource K) : Prop where
  names : new.map (·.1) = old.map (·.1) ++ added.map (·.1)
  kept : ∀ name, name ∉ added.map (·.1) → new.get? name = old.get? name
  features : ∀ name fs, (name, fs) ∈ added →
    Vector.readGeojsonFeatures ogr.fid ogr.shape new name = .ok (layerBack ogr.text ogr.fid ogr.shape (fun _ => []) name fs)

theorem AddedLayers.nil (ogr : Ogr K) (old : Vector.Datasource K) : AddedLayers ogr old [] old :=
  ⟨by simp, fun _ _ => rfl, by simp⟩

theorem AddedLayers.add {ogr : Ogr K} {old new : Vector.Datasource K} {added : Dict String (List (Feature K))}
    (h : AddedLayers ogr old added new) {name : String} (hn : name ∉ added.map (·.1)) (ho : old.get? name = none)
    (features : List (Feature K)) :
    AddedLayers ogr old (added ++ [(name, features)]) (withLayer ogr new name features) where
  names := by rw [keys_withLayer ogr ((h.kept name hn).trans ho), h.names, List.map_append, List.append_assoc]; rfl
  kept k hk := by
    rw [List.map_append, List.mem_append, not_or] at hk
    rw [get_withLayer ogr _ (by rintro rfl; exact hk.2 (by simp)), h.kept k hk.1]
  features k fs hk := by
    rcases List.mem_append.1 hk with hk | hk
    · rw [read_other ogr _ (by rintro rfl; exact hn (List.mem_map.2 ⟨_, hk, rfl⟩))]
      exact h.features k fs hk
    · simp only [List.mem_singleton, Prod.mk.injEq] at hk
      obtain ⟨rfl, rfl⟩ := hk
      exact read_withLayer ogr ((h.kept _ hn).trans ho) _

theorem get_put_self (fs : FileSystem β K) (path : Path) (content : Content β K) :
    (fs.put path content).files.get? path = some content := by rw [get_put, if_pos rfl]

theorem get_put_ne (fs : FileSystem β K) {path path' : Path} (h : path ≠ path') (content : Content β K) :
    (fs.put path content).files.get? path' = fs.files.get? path' := by rw [get_put, if_neg h]

/-- The files after the rasters of the terrain. -/
def afterTerrain (near : β → Bool) (georef : Georef K) (o : Outputs) (files : Files β K) (fs : FileSystem β K) :
    FileSystem β K :=
  let fs := ((fs.put o.filled (.raster (.elevations ⟨files.filled, some near⟩) georef)).put o.depths
    (.raster (.numbers files.depths) georef)).put o.flowdir (.raster (.directions files.flowdir) georef)
  let fs := match files.accum with
    | some accum => fs.put o.accum (.raster (.counts accum) georef)
    | none => fs
  (fs.put o.bluespots (.raster (.labels files.bluespots (some 0)) georef)).put o.watersheds
    (.raster (.labels files.watersheds (some 0)) georef)

theorem afterTerrain_directories (near : β → Bool) (georef : Georef K) (o : Outputs) (files : Files β K) (fs : FileSystem β K) :
    (afterTerrain near georef o files fs).directories = fs.directories := by
  unfold afterTerrain
  cases files.accum <;> rfl

theorem script_cons {ogr : Ogr K} {s : Setting β K} {c : Sub K} {rest : List (Sub K)} {fs fs1 fs2 : FileSystem β K} {n : Nat}
    (h : Does (runSub ogr s c) fs n () fs1) (h' : Does (script ogr s rest) fs1 n () fs2) :
    Does (script ogr s (c :: rest)) fs n () fs2 := Does.bind h h'

theorem script_app {ogr : Ogr K} {s : Setting β K} {l rest : List (Sub K)} {fs fs1 fs2 : FileSystem β K} {n : Nat}
    (h : Does (script ogr s l) fs n () fs1) (h' : Does (script ogr s rest) fs1 n () fs2) :
    Does (script ogr s (l ++ rest)) fs n () fs2 := by
  rw [script_append]; exact Does.bind h h'

set_option hygiene false in
/-- Look up files, given that the paths are different. -/
local macro "distinct" : tactic => `(tactic| simp only [get_put, if_true, if_false, hdem,
    a1, a2, a3, a4, a5, a6, a7, a8, a9, b2, b3, b4, b5, b6, b7, b8, b9, c3, c4, c5, c6, c7, c8, c9, e4, e5, e6, e7, e8,
    e9, f5, f6, f7, f8, f9, g6, g7, g8, g9, i7, i8, i9, j8, j9, k9, Ne.symm a1, Ne.symm a2, Ne.symm a3, Ne.symm a4,
    Ne.symm a5, Ne.symm a6, Ne.symm a7, Ne.symm a8, Ne.symm a9, Ne.symm b2, Ne.symm b3, Ne.symm b4, Ne.symm b5,
    Ne.symm b6, Ne.symm b7, Ne.symm b8, Ne.symm b9, Ne.symm c3, Ne.symm c4, Ne.symm c5, Ne.symm c6, Ne.symm c7,
    Ne.symm c8, Ne.symm c9, Ne.symm e4, Ne.symm e5, Ne.symm e6, Ne.symm e7, Ne.symm e8, Ne.symm e9, Ne.symm f5,
    Ne.symm f6, Ne.symm f7, Ne.symm f8, Ne.symm f9, Ne.symm g6, Ne.symm g7, Ne.symm g8, Ne.symm g9, Ne.symm i7,
    Ne.symm i8, Ne.symm i9, Ne.symm j8, Ne.symm j9, Ne.symm k9])

set_option hygiene false in
/-- The paths are different. -/
local macro "paths" : tactic => `(tactic| (
  simp only [Outputs.all, List.nodup_cons, List.mem_cons, List.not_mem_nil, or_false, not_or] at hnd
  obtain ⟨⟨a1, a2, a3, a4, a5, a6, a7, a8, a9⟩, ⟨b2, b3, b4, b5, b6, b7, b8, b9⟩, ⟨c3, c4, c5, c6, c7, c8, c9⟩,
    ⟨e4, e5, e6, e7, e8, e9⟩, ⟨f5, f6, f7, f8, f9⟩, ⟨g6, g7, g8, g9⟩, ⟨i7, i8, i9⟩, ⟨j8, j9⟩, k9, -⟩ := hnd))

theorem afterTerrain_get {before : FileSystem β K} {dem : Path} {o : Outputs} {file : ElevFile β} {georef : Georef K}
    (hdem : before.files.get? dem = some (.raster (.elevations file) georef)) (hnd : (dem :: o.all).Nodup) (near : β → Bool)
    (files : Files β K) :
    (afterTerrain near georef o files before).files.get? dem = some (.raster (.elevations file) georef) ∧
    (afterTerrain near georef o files before).files.get? o.depths = some (.raster (.numbers files.depths) georef) ∧
    (afterTerrain near georef o files before).files.get? o.flowdir = some (.raster (.directions files.flowdir) georef) ∧
    (afterTerrain near georef o files before).files.get? o.bluespots = some (.raster (.labels files.bluespots (some 0)) georef) ∧
    (afterTerrain near georef o files before).files.get? o.watersheds = some (.raster (.labels files.watersheds (some 0)) georef) ∧
    (afterTerrain near georef o files before).files.get? o.vector = before.files.get? o.vector ∧
    (∀ a, files.accum = some a →
      (afterTerrain near georef o files before).files.get? o.accum = some (.raster (.counts a) georef)) := by
  paths
  unfold afterTerrain
  rcases hacc : files.accum with _ | acc
  · distinct
    simp
  · distinct
    simp

/-- The GeoPackage after all subcommands. -/
def allLayers (ogr : Ogr K) (layers : Vector.Datasource K) (files : Files β K) : Vector.Datasource K :=
  withLayer ogr (withLayer ogr (withLayer ogr (withLayer ogr (withLayer ogr (withLayer ogr (withLayer ogr layers
    "pourpoints" files.pourpoints) "nodes" files.nodes) "streams" files.streams) "hyps" files.hyps)
    "initvolumes" files.initvolumes) "finalvolumes" files.finalvolumes) "finallevels" files.finallevels

theorem final_get {before : FileSystem β K} {dem : Path} {o : Outputs} {georef : Georef K} (hnd : (dem :: o.all).Nodup)
    (near : β → Bool) (files : Files β K) (finaldepths : Raster K) (finalbluespots : Raster Int) (c : Content β K) (p : Path) :
    ((((afterTerrain near georef o files before).put o.vector c).put o.finaldepths (.raster (.numbers finaldepths) georef)).put
      o.finalbluespots (.raster (.labels finalbluespots (some 0)) georef)).files.get? p =
      (Dict.get? (documentedRasters near georef o files finaldepths finalbluespots ++ [(o.vector, c)]) p).or
        (before.files.get? p) := by
  have hdem := hnd
  paths
  unfold afterTerrain documentedRasters
  rcases files.accum with _ | acc
  · simp only [List.cons_append, List.nil_append, Dict.get?, get_put]
    by_cases q1 : o.filled = p
    · subst q1; distinct; rfl
    by_cases q2 : o.depths = p
    · subst q2; distinct; rfl
    by_cases q3 : o.flowdir = p
    · subst q3; distinct; rfl
    by_cases q5 : o.bluespots = p
    · subst q5; distinct; rfl
    by_cases q6 : o.watersheds = p
    · subst q6; distinct; rfl
    by_cases q7 : o.vector = p
    · subst q7; distinct; rfl
    by_cases q8 : o.finaldepths = p
    · subst q8; distinct; rfl
    by_cases q9 : o.finalbluespots = p
    · subst q9; distinct; rfl
    simp only [q1, q2, q3, q5, q6, q7, q8, q9, if_false]
    rfl
  · simp only [List.cons_append, List.nil_append, Dict.get?, get_put]
    by_cases q1 : o.filled = p
    · subst q1; distinct; rfl
    by_cases q2 : o.depths = p
    · subst q2; distinct; rfl
    by_cases q3 : o.flowdir = p
    · subst q3; distinct; rfl
    by_cases q4 : o.accum = p
    · subst q4; distinct; rfl
    by_cases q5 : o.bluespots = p
    · subst q5; distinct; rfl
    by_cases q6 : o.watersheds = p
    · subst q6; distinct; rfl
    by_cases q7 : o.vector = p
    · subst q7; distinct; rfl
    by_cases q8 : o.finaldepths = p
    · subst q8; distinct; rfl
    by_cases q9 : o.finalbluespots = p
    · subst q9; distinct; rfl
    simp only [q1, q2, q3, q4, q5, q6, q7, q8, q9, if_false]
    rfl

theorem documented_does (ogr : Ogr K) (s : Setting β K) {before : FileSystem β K} {dem : Path} {o : Outputs}
    {with_accum : Bool} {filter text : Option (List Char)} {mm zresolution : K} {file : ElevFile β} {georef : Georef K}
    (hdem : before.files.get? dem = some (.raster (.elevations file) georef)) (hnd : (dem :: o.all).Nodup)
    (hdir : ∀ p ∈ o.all, p.1 ∈ before.directories) {layers : Vector.Datasource K}
    {polygons : Dict String (List (PolygonFeature K))} (hpkg : packageAt before o.vector layers polygons)
    {files : Files β K} (hnew : ∀ name ∈ (documentedLayers files).map (·.1), layers.get? name = none)
    (hfilter : Filter.parseFilter filter = .ok text) {finaldepths : Raster K} {finalbluespots : Raster Int}
    (h1 : files.finaldepths = some finaldepths) (h2 : files.finalbluespots = some finalbluespots) {n : Nat}
    (h : sequenceVia (back ogr) s.elev s.cc s.demEngine s.bluespotEngine s.sub s.safe s.subst s.near georef.transform file
      with_accum (text.map s.evalFilter) mm zresolution n = some (.ok files)) :
    ∃ after, after.directories = before.directories ∧ (∀ p, after.files.get? p =
      (Dict.get? (documentedRasters s.near georef o files finaldepths finalbluespots ++
        [(o.vector, .geopackage (allLayers ogr layers files) polygons)]) p).or (before.files.get? p)) ∧
      Does (script ogr s (documented dem o with_accum filter mm zresolution)) before n () after := by
  have hdirs : ∀ p, p ∈ o.all → p.1 ∈ before.directories := hdir
  simp only [Outputs.all, List.forall_mem_cons] at hdirs
  obtain ⟨d1, d2, d3, d4, d5, d6, d7, d8, d9, -⟩ := hdirs
  simp only [sequenceVia, Run.bind_ok, Run.pure_ok] at h
  obtain ⟨fl, hfl, fd, hfd, acc, hacc, bs, hbs, ws, hws, pts, hpts, net, hnet, hy, hhy, vol, hvol, fin, hfin, lev, hlev, out, hout,
    rfl⟩ := h
  obtain ⟨fdata, fnear⟩ := fl
  have hflEq : fnear = some s.near := by
    unfold Scripts.filled at hfl
    rw [Run.bind_ok] at hfl
    obtain ⟨x, _, hx⟩ := hfl
    rw [Run.pure_ok] at hx
    exact (congrArg ElevFile.nodata hx).symm
  subst hflEq
  obtain ⟨o1, o2⟩ := out
  simp only at h1 h2
  subst h1 h2
  have hacc' : (if with_accum then some o.accum else none) = acc.map fun _ => o.accum := by
    cases with_accum with
    | false =>
      rw [if_neg (by simp), Run.pure_ok] at hacc
      rw [← hacc]; rfl
    | true =>
      rw [if_pos rfl, Run.map_ok] at hacc
      obtain ⟨a, _, rfl⟩ := hacc
      rfl
  let A : Files β K := ⟨fdata, Scripts.depths s.sub s.subst file ⟨fdata, some s.near⟩, fd, acc, bs, ws, pts.map (·.feature), net.1,
    net.2, vol, fin, hy, lev, some finaldepths, some finalbluespots⟩
  -- the rasters of the terrain
  let F5 := afterTerrain s.near georef o A before
  obtain ⟨t1, t2, t3, t4, t5, t6, t7⟩ := afterTerrain_get hdem hnd s.near A
  have t0 := afterTerrain_directories s.near georef o A before
  have hnd' := hnd
  paths
  have hdo5 : Does (script ogr s ([.filled dem o.filled, .depths dem o.filled o.depths, .flowdir dem o.flowdir] ++
      (if with_accum then [.accum o.flowdir o.accum] else []) ++
      [.bspots o.depths o.bluespots filter, .wsheds o.bluespots o.flowdir o.watersheds])) before n () F5 := by
    cases with_accum with
    | false =>
      rw [if_neg (by simp), Run.pure_ok] at hacc
      subst hacc
      refine script_cons (filled_does ogr s d1 hdem hfl) (script_cons (depths_does ogr s (georef := georef) (g1 := georef) d2 ?_ ?_)
        (script_cons (flowdir_does ogr s (georef := georef) d3 ?_ hfd) (script_cons (bspots_does ogr s (georef := georef) d5 ?_
          hfilter hbs) (script_cons (wsheds_does ogr s (georef := georef) (g1 := georef) (nodata := some 0) d6 ?_ ?_ hws) (Does.pure _ _ _)))))
      all_goals distinct
    | true =>
      rw [if_pos rfl, Run.map_ok] at hacc
      obtain ⟨a, ha, rfl⟩ := hacc
      refine script_cons (filled_does ogr s d1 hdem hfl) (script_cons (depths_does ogr s (georef := georef) (g1 := georef) d2 ?_ ?_)
        (script_cons (flowdir_does ogr s (georef := georef) d3 ?_ hfd) (script_cons (accum_does ogr s (georef := georef) d4 ?_ ha)
          (script_cons (bspots_does ogr s (georef := georef) d5 ?_
          hfilter hbs) (script_cons (wsheds_does ogr s (georef := georef) (g1 := georef) (nodata := some 0) d6 ?_ ?_ hws) (Does.pure _ _ _))))))
      all_goals distinct
  -- the layers
  have hlayers : documented dem o with_accum filter mm zresolution = ([.filled dem o.filled, .depths dem o.filled o.depths,
      .flowdir dem o.flowdir] ++ (if with_accum then [.accum o.flowdir o.accum] else []) ++
      [.bspots o.depths o.bluespots filter, .wsheds o.bluespots o.flowdir o.watersheds]) ++
      [.pourpts o.bluespots o.depths o.watersheds (some dem) (acc.map fun _ => o.accum) o.vector "pourpoints",
       .network o.bluespots o.flowdir o.vector "pourpoints" o.vector "nodes" "streams",
       .hyps o.bluespots dem o.vector "pourpoints" zresolution o.vector "hyps",
       .initvolumes o.vector "nodes" (some mm) none .mm none o.vector "initvolumes" "inputv",
       .finalvolumes o.vector "initvolumes" "inputv" o.vector "finalvolumes",
       .finallevels o.vector "finalvolumes" o.vector "hyps" o.vector "finallevels",
       .finalbluespots o.bluespots dem o.vector "finallevels" (some o.finaldepths) (some o.finalbluespots)] := by
    rw [← hacc']
    simp [documented]
  have hp0 : packageAt F5 o.vector layers polygons := by
    unfold packageAt
    rw [t6]
    exact hpkg
  have keep : ∀ {p : Path} {c : Content β K} {r : Option (Content β K)} {fs : FileSystem β K}, o.vector ≠ p →
      fs.files.get? p = r → (fs.put o.vector c).files.get? p = r := fun hne h => by rw [get_put_ne _ hne, h]
  have ql : ∀ name, name ∈ ["pourpoints", "nodes", "streams", "hyps", "initvolumes", "finalvolumes", "finallevels"] →
      layers.get? name = none := hnew
  have l1 := (AddedLayers.nil ogr layers).add (name := "pourpoints") (by simp) (ql _ (by simp)) A.pourpoints
  have l2 := l1.add (name := "nodes") (by simp) (ql _ (by simp)) A.nodes
  have l3 := l2.add (name := "streams") (by simp) (ql _ (by simp)) A.streams
  have l4 := l3.add (name := "hyps") (by simp) (ql _ (by simp)) A.hyps
  have l5 := l4.add (name := "initvolumes") (by simp) (ql _ (by simp)) A.initvolumes
  have l6 := l5.add (name := "finalvolumes") (by simp) (ql _ (by simp)) A.finalvolumes
  have l7 := l6.add (name := "finallevels") (by simp) (ql _ (by simp)) A.finallevels
  have dv : o.vector.1 ∈ F5.directories := by rw [t0]; exact d7
  have df : o.finaldepths.1 ∈ F5.directories := by rw [t0]; exact d8
  have dg : o.finalbluespots.1 ∈ F5.directories := by rw [t0]; exact d9
  have n1 := Ne.symm a7
  have n2 := Ne.symm g7
  have n3 := Ne.symm e7
  let V1 := F5.put o.vector (.geopackage (withLayer ogr layers "pourpoints" A.pourpoints) polygons)
  let V2 := V1.put o.vector (.geopackage (withLayer ogr (withLayer ogr layers "pourpoints" A.pourpoints) "nodes" A.nodes) polygons)
  let V3 := V2.put o.vector (.geopackage (withLayer ogr (withLayer ogr (withLayer ogr layers "pourpoints" A.pourpoints) "nodes"
    A.nodes) "streams" A.streams) polygons)
  let V4 := V3.put o.vector (.geopackage (withLayer ogr (withLayer ogr (withLayer ogr (withLayer ogr layers "pourpoints"
    A.pourpoints) "nodes" A.nodes) "streams" A.streams) "hyps" A.hyps) polygons)
  let V5 := V4.put o.vector (.geopackage (withLayer ogr (withLayer ogr (withLayer ogr (withLayer ogr (withLayer ogr layers
    "pourpoints" A.pourpoints) "nodes" A.nodes) "streams" A.streams) "hyps" A.hyps) "initvolumes" A.initvolumes) polygons)
  let V6 := V5.put o.vector (.geopackage (withLayer ogr (withLayer ogr (withLayer ogr (withLayer ogr (withLayer ogr
    (withLayer ogr layers "pourpoints" A.pourpoints) "nodes" A.nodes) "streams" A.streams) "hyps" A.hyps) "initvolumes"
    A.initvolumes) "finalvolumes" A.finalvolumes) polygons)
  let V7 := V6.put o.vector (.geopackage (allLayers ogr layers A) polygons)
  let W := (V7.put o.finaldepths (.raster (.numbers finaldepths) georef)).put o.finalbluespots
    (.raster (.labels finalbluespots (some 0)) georef)
  have u1 : Does _ F5 n () V1 := pourpts_does ogr s dv t4 t2 t5 t1 t7 hp0 (layer := "pourpoints") hpts
  have u2 : Does _ V1 n () V3 := network_does ogr s (fs := V1) dv (keep n2 t4) (keep n3 t3) (get_put_self _ _ _)
    (l1.features "pourpoints" A.pourpoints (by simp)) (.inl (get_put_self _ _ _)) (nl := "nodes") (sl := "streams") hnet
  have u3 : Does _ V3 n () V4 := hyps_does ogr s (fs := V3) dv (keep n2 (keep n2 (keep n2 t4))) (keep n1 (keep n1 (keep n1 t1)))
    (get_put_self _ _ _) (l3.features "pourpoints" A.pourpoints (by simp)) (.inl (get_put_self _ _ _)) (hl := "hyps") hhy
  have u4 : Does _ V4 n () V5 := initvolumes_does ogr s (fs := V4) dv (get_put_self _ _ _) (l4.features "nodes" A.nodes (by simp))
    (.inl (get_put_self _ _ _)) (ol := "initvolumes") (Run.ofExcept_ok.1 hvol)
  have u5 : Does _ V5 n () V6 := finalvolumes_does ogr s (fs := V5) dv (get_put_self _ _ _)
    (l5.features "initvolumes" A.initvolumes (by simp)) (.inl (get_put_self _ _ _)) (ol := "finalvolumes") hfin
  have u6 : Does _ V6 n () V7 := finallevels_does ogr s (fs := V6) dv (get_put_self _ _ _)
    (l6.features "finalvolumes" A.finalvolumes (by simp)) (get_put_self _ _ _)
    (l6.features "hyps" A.hyps (by simp)) (.inl (get_put_self _ _ _)) (ol := "finallevels") hlev
  have u7 : Does _ V7 n () W := finalbluespots_does ogr s (fs := V7) df dg
    (keep n2 (keep n2 (keep n2 (keep n2 (keep n2 (keep n2 (keep n2 t4)))))))
    (keep n1 (keep n1 (keep n1 (keep n1 (keep n1 (keep n1 (keep n1 t1))))))) (get_put_self _ _ _)
    (l7.features "finallevels" A.finallevels (by simp)) hout
  refine ⟨W, t0, fun p => ?_, ?_⟩
  · rw [← final_get hnd' s.near A finaldepths finalbluespots _ p]
    have hV : ∀ q, V7.files.get? q = (F5.put o.vector (.geopackage (allLayers ogr layers A) polygons)).files.get? q := by
      intro q
      by_cases e : o.vector = q
      · rw [← e, get_put_self, get_put_self]
      · simp only [V7, V6, V5, V4, V3, V2, V1, get_put_ne _ e]
    have hput : ∀ X Y : FileSystem β K, (∀ q, X.files.get? q = Y.files.get? q) → ∀ a b c d,
        ((X.put a c).put b d).files.get? p = ((Y.put a c).put b d).files.get? p := by
      intro X Y h a b c d
      rw [get_put, get_put, get_put, get_put, h]
    exact hput V7 _ hV _ _ _ _
  · rw [hlayers]
    exact script_app hdo5 (script_cons u1 (script_cons u2 (script_cons u3 (script_cons u4 (script_cons u5 (script_cons u6
      (script_cons u7 (Does.pure _ _ _))))))))

theorem sequence_final {ogr : Ogr K} {s : Setting β K} {with_accum : Bool} {text : Option (List Char)} {mm zresolution : K}
    {file : ElevFile β} {tr : GeoTransform K} {files : Files β K} {n : Nat}
    (h : sequenceVia (back ogr) s.elev s.cc s.demEngine s.bluespotEngine s.sub s.safe s.subst s.near tr file
      with_accum (text.map s.evalFilter) mm zresolution n = some (.ok files)) :
    ∃ a b, files.finaldepths = some a ∧ files.finalbluespots = some b := by
  simp only [sequenceVia, Run.bind_ok, Run.pure_ok] at h
  obtain ⟨fl, hfl, fd, hfd, acc, hacc, bs, hbs, ws, hws, pts, hpts, net, hnet, hy, hhy, vol, hvol, fin, hfin, lev, hlev, out,
    hout, rfl⟩ := h
  have := approxBluespotsIo_some (Option.some.inj hout)
  obtain ⟨o1, o2⟩ := out
  cases o1 with
  | none => simp at this
  | some a => cases o2 with
    | none => simp at this
    | some b => exact ⟨a, b, rfl, rfl⟩

/-- The disk after the documented subcommands: everything as before but for the named files, which are the rasters, and a
GeoPackage with the layers and polygons it had and the new layers. -/
structure WroteDocumented (ogr : Ogr K) (near : β → Bool) (before : FileSystem β K) (georef : Georef K) (o : Outputs)
    (files : Files β K) (layers : Vector.Datasource K) (polygons : Dict String (List (PolygonFeature K)))
    (after : FileSystem β K) : Prop where
  directories : after.directories = before.directories
  contents : ∃ finaldepths finalbluespots ds, files.finaldepths = some finaldepths ∧
    files.finalbluespots = some finalbluespots ∧ AddedLayers ogr layers (documentedLayers files) ds ∧
    ∀ p, after.files.get? p = (Dict.get? (documentedRasters near georef o files finaldepths finalbluespots ++
      [(o.vector, .geopackage ds polygons)]) p).or (before.files.get? p)

/-- C107: if the computations of the subcommands end well, so do the documented subcommands, and they leave exactly the computed
files with the georeference of the DEM, whatever other files there are. The rasters may have existed before; the vector file may
be new, or a GeoPackage that has none of the layers yet. -/
theorem C107_files (ogr : Ogr K) (s : Setting β K) {before : FileSystem β K} {dem : Path} {o : Outputs} {with_accum : Bool}
    {filter text : Option (List Char)} {mm zresolution : K} {file : ElevFile β} {georef : Georef K}
    (hdem : before.files.get? dem = some (.raster (.elevations file) georef)) (hnd : (dem :: o.all).Nodup)
    (hdir : ∀ p ∈ o.all, p.1 ∈ before.directories) {layers : Vector.Datasource K}
    {polygons : Dict String (List (PolygonFeature K))} (hpkg : packageAt before o.vector layers polygons)
    (hnew : ∀ name ∈ ["pourpoints", "nodes", "streams", "hyps", "initvolumes", "finalvolumes", "finallevels"],
      layers.get? name = none)
    (hfilter : Filter.parseFilter filter = .ok text) {files : Files β K}
    (h : (sequenceVia (layerBack ogr.text ogr.fid ogr.shape fun _ => []) s.elev s.cc s.demEngine s.bluespotEngine s.sub s.safe
      s.subst s.near georef.transform file with_accum (text.map s.evalFilter) mm zresolution).Yields (.ok files)) :
    ∃ after, (script ogr s (documented dem o with_accum filter mm zresolution)).Leaves before (.ok ()) after ∧
      WroteDocumented ogr s.near before georef o files layers polygons after := by
  obtain ⟨N, hN⟩ := h
  obtain ⟨a, b, h1, h2⟩ := sequence_final (hN N le_rfl)
  have l1 := (AddedLayers.nil ogr layers).add (name := "pourpoints") (by simp) (hnew _ (by simp)) files.pourpoints
  have l2 := l1.add (name := "nodes") (by simp) (hnew _ (by simp)) files.nodes
  have l3 := l2.add (name := "streams") (by simp) (hnew _ (by simp)) files.streams
  have l4 := l3.add (name := "hyps") (by simp) (hnew _ (by simp)) files.hyps
  have l5 := l4.add (name := "initvolumes") (by simp) (hnew _ (by simp)) files.initvolumes
  have l6 := l5.add (name := "finalvolumes") (by simp) (hnew _ (by simp)) files.finalvolumes
  have l7 := l6.add (name := "finallevels") (by simp) (hnew _ (by simp)) files.finallevels
  have key : ∀ n, N ≤ n → ∃ after, after.directories = before.directories ∧ (∀ p, after.files.get? p =
      (Dict.get? (documentedRasters s.near georef o files a b ++
        [(o.vector, .geopackage (allLayers ogr layers files) polygons)]) p).or (before.files.get? p)) ∧
      Does (script ogr s (documented dem o with_accum filter mm zresolution)) before n () after := fun n hn =>
    documented_does ogr s hdem hnd hdir hpkg hnew hfilter h1 h2 (hN n hn)
  obtain ⟨after, k1, k2, _⟩ := key N le_rfl
  refine ⟨after, ⟨N, fun n hn => ?_⟩, k1, a, b, _, h1, h2, l7, k2⟩
  obtain ⟨after', e1, e2, e3⟩ := key n hn
  exact ⟨after', e3, e1.trans k1.symm, fun p => (e2 p).trans (k2 p).symm⟩

/-- C107, any order: the same for every script that differs from the documented one only by changes of places between
independent subcommands (C106). -/
theorem C107_any_order (ogr : Ogr K) (s : Setting β K) {before : FileSystem β K} {dem : Path} {o : Outputs} {with_accum : Bool}
    {filter text : Option (List Char)} {mm zresolution : K} {file : ElevFile β} {georef : Georef K}
    (hdem : before.files.get? dem = some (.raster (.elevations file) georef)) (hnd : (dem :: o.all).Nodup)
    (hdir : ∀ p ∈ o.all, p.1 ∈ before.directories) {layers : Vector.Datasource K}
    {polygons : Dict String (List (PolygonFeature K))} (hpkg : packageAt before o.vector layers polygons)
    (hnew : ∀ name ∈ ["pourpoints", "nodes", "streams", "hyps", "initvolumes", "finalvolumes", "finallevels"],
      layers.get? name = none)
    (hfilter : Filter.parseFilter filter = .ok text) {files : Files β K}
    (h : (sequenceVia (layerBack ogr.text ogr.fid ogr.shape fun _ => []) s.elev s.cc s.demEngine s.bluespotEngine s.sub s.safe
      s.subst s.near georef.transform file with_accum (text.map s.evalFilter) mm zresolution).Yields (.ok files))
    {cmds : List (Sub K)} (hcmds : Reordered (documented dem o with_accum filter mm zresolution) cmds) :
    ∃ after, (script ogr s cmds).Leaves before (.ok ()) after ∧
      WroteDocumented ogr s.near before georef o files layers polygons after := by
  obtain ⟨after, h1, h2⟩ := C107_files ogr s hdem hnd hdir hpkg hnew hfilter h
  exact ⟨after, (C106_order ogr s hcmds before after).1 h1, h2⟩

section
variable {K : Type} [Field K] [LinearOrder K] [IsStrictOrderedRing K] [FloorRing K]

/-- C107 in exact arithmetic: for every DEM of at least 2x2 cells without nodata and with square cells the documented
subcommands and `complete` both come to an end. The rasters they leave are the same, and the features up to the conversions of
storing: both are the `files` of the computations handed on in memory. -/
theorem C107_exact (ogr : Ogr K) {cc : Raster Bool → Raster Int × Nat} (hcc : LabelContract cc) (hco : CellsOnly cc)
    (evalFilter : List Char → Bluespots.StatUnits K → Bool) {georef : Georef K} (hsq : SquareCells georef.transform)
    (data : Raster K) (hr : 2 ≤ data.rows) (hc : 2 ≤ data.cols) {short diag k : K} (hs : 0 < short) (hd : 0 < diag) (hk : 0 < k)
    (with_accum vector : Bool) {mm : K} (hmm : mm ≠ 0) {zresolution : K} (hres : 0 < zresolution)
    (hnn : ∀ c z, data.Has c → IsSpillLevel data.rows data.cols data.get c z → data.get c < z → 0 ≤ data.get c)
    {before : FileSystem (WithTop K) K} {dem : Path} {outdir : String} (hempty : IsEmptyDir before outdir)
    (hdem : before.files.get? dem = some (.raster (.elevations ⟨finiteDem data, none⟩) georef))
    {o : Outputs} (hnd : (dem :: o.all).Nodup) (hdir : ∀ p ∈ o.all, p.1 ∈ before.directories) {layers : Vector.Datasource K}
    {polygons : Dict String (List (PolygonFeature K))} (hpkg : packageAt before o.vector layers polygons)
    (hnew : ∀ name ∈ ["pourpoints", "nodes", "streams", "hyps", "initvolumes", "finalvolumes", "finallevels"],
      layers.get? name = none)
    {filter text : Option (List Char)} (hfilter : Filter.parseFilter filter = .ok text) :
    ∃ files files₁ files₂ finaldepths finalbluespots after₁ after₂, SameFiles files files₁ ∧ SameFiles files files₂ ∧
      files.finaldepths = some finaldepths ∧ files.finalbluespots = some finalbluespots ∧
      (complete ogr (exactSetting cc short diag k (· = ((-999 : K) : WithTop K)) evalFilter) dem outdir with_accum vector filter mm
        zresolution).Ends before (.ok none) after₁ ∧
      Wrote ogr before outdir (terrainFiles (· = ((-999 : K) : WithTop K)) georef files₁ ++
          waterFiles georef finaldepths finalbluespots) (networkLayers files₁ ++ waterLayers files₁)
        (bluespotPolygons ogr vector files₁ ++ [("finalbluespots", polygonsOf ogr finalbluespots)]) after₁ ∧
      (script ogr (exactSetting cc short diag k (· = ((-999 : K) : WithTop K)) evalFilter)
        (documented dem o with_accum filter mm zresolution)).Leaves before (.ok ()) after₂ ∧
      WroteDocumented ogr (· = ((-999 : K) : WithTop K)) before georef o files₂ layers polygons after₂ := by
  obtain ⟨files, files₁, a, b, after₁, h1, h2, h3, h4, h5, h6⟩ := C87_exact ogr hcc (· = ((-999 : K) : WithTop K)) evalFilter hsq
    data hr hc hs hd hk with_accum vector mm hres hnn hempty hdem hfilter
  have hseq := (C68_sequence_is_complete_partial (·.untopD 0) hcc hco (Dem.python exactSub (· * k)) (.inl rfl) exactSub
    (exactSafe short diag) ((-999 : K) : WithTop K) (· = ((-999 : K) : WithTop K)) hsq ⟨finiteDem data, none⟩ with_accum (.inr rfl)
    (text.map evalFilter) hmm zresolution (fun n r _ c hc => of_decide_eq_true hc) files).1 h1
  obtain ⟨files₂, h7, h8⟩ := C71_sequence (fun name fs => layerBack_same ogr.text ogr.fid ogr.shape (ds := fun _ => [])
    (fun _ => rfl) Stored.ids name fs) hseq
  obtain ⟨after₂, h9, h10⟩ := C107_files ogr (exactSetting cc short diag k (· = ((-999 : K) : WithTop K)) evalFilter) hdem hnd hdir
    hpkg hnew hfilter h7
  exact ⟨files, files₁, files₂, a, b, after₁, after₂, h2, h8, h2.finaldepths.symm.trans h3, h2.finalbluespots.symm.trans h4, h5, h6,
    h9, h10⟩

end

/-! ### A concrete run -/

def demoOutputs : Outputs where
  filled := ("out", "filled.tif")
  depths := ("out", "bs_depths.tif")
  flowdir := ("out", "flowdir.tif")
  accum := ("out", "accum.tif")
  bluespots := ("out", "bluespots.tif")
  watersheds := ("out", "watersheds.tif")
  vector := ("out", "results.gpkg")
  finaldepths := ("out", "finaldepths.tif")
  finalbluespots := ("out", "finalbluespots.tif")

/-- The hypotheses of C107 about the disk are met. -/
example : demoFs.files.get? ("in", "dem.tif") =
      some (.raster (.elevations ⟨finiteDem demoValley, none⟩) ⟨⟨0, 2, 0, 0, 0, -2⟩, "EPSG:25832"⟩) ∧
    (("in", "dem.tif") :: demoOutputs.all).Nodup ∧ (∀ p ∈ demoOutputs.all, p.1 ∈ demoFs.directories) ∧
    packageAt demoFs demoOutputs.vector [] [] ∧ IsEmptyDir demoFs "out" ∧ ∃ cc, LabelContract cc ∧ CellsOnly cc :=
  ⟨rfl, by decide, by decide, .inr ⟨by decide, rfl, rfl⟩, (isEmptyDir_iff _ _).2 (by decide +kernel),
    exists_labelContract_cellsOnly⟩

/-- The names of the files and layers after a script, and whether it ended well. -/
def scriptListing (r : Option (Except PyErr Unit × FileSystem (WithTop Rat) Rat)) : Option (Bool × List Path × List String) :=
  r.map fun (r, fs) => (match r with | .ok _ => true | .error _ => false, fs.files.map (·.1),
    match fs.files.get? ("out", "results.gpkg") with
    | some (.geopackage layers _) => layers.map (·.1)
    | _ => [])

/-- The subcommands on the valley. -/
example : scriptListing (script demoOgr demoSetting (documented ("in", "dem.tif") demoOutputs true (some "volume > 1.5".toList)
      500 (1/4)) demoFs 40) = some (true,
    [("in", "dem.tif"), ("out", "filled.tif"), ("out", "bs_depths.tif"), ("out", "flowdir.tif"), ("out", "accum.tif"),
     ("out", "bluespots.tif"), ("out", "watersheds.tif"), ("out", "results.gpkg"), ("out", "finaldepths.tif"),
     ("out", "finalbluespots.tif")],
    ["pourpoints", "nodes", "streams", "hyps", "initvolumes", "finalvolumes", "finallevels"]) := by
  decide +kernel

/-- `flowdir` and `filled` do not depend on each other, nor does `accum` on `depths`; `depths` uses what `filled` writes. -/
example : Independent (.filled ("in", "dem.tif") demoOutputs.filled : Sub Rat) (.flowdir ("in", "dem.tif") demoOutputs.flowdir) ∧
    Independent (.depths ("in", "dem.tif") demoOutputs.filled demoOutputs.depths : Sub Rat)
      (.accum demoOutputs.flowdir demoOutputs.accum) ∧
    ¬ Independent (.filled ("in", "dem.tif") demoOutputs.filled : Sub Rat)
      (.depths ("in", "dem.tif") demoOutputs.filled demoOutputs.depths) := by
  unfold Independent
  exact ⟨by decide, by decide, by decide⟩

/-- The flow directions first. -/
example : Reordered (documented ("in", "dem.tif") demoOutputs false none 500 (1/4) : List (Sub Rat))
    (.flowdir ("in", "dem.tif") demoOutputs.flowdir :: .filled ("in", "dem.tif") demoOutputs.filled ::
      .depths ("in", "dem.tif") demoOutputs.filled demoOutputs.depths ::
      (documented ("in", "dem.tif") demoOutputs false none 500 (1/4)).drop 3) := by
  refine .trans (.swap [.filled ("in", "dem.tif") demoOutputs.filled] _ (a := .depths _ _ _) (b := .flowdir _ _) ?_)
    (.swap [] _ (a := .filled _ _) (b := .flowdir _ _) ?_)
  · unfold Independent; decide
  · unfold Independent; decide

/-- C106: a subcommand that fails. The directory of one of the outputs of `finalbluespots` does not exist; the other one has
been written. -/
theorem C106_failed_false : ∃ (c : Sub Rat) (before : FileSystem (WithTop Rat) Rat) (e : PyErr) (after : FileSystem (WithTop Rat) Rat),
    (runSub demoOgr demoSetting c).Ends before (.error e) after ∧ ¬ SameDisk after before := by
  let georef : Georef Rat := ⟨⟨0, 2, 0, 0, 0, -2⟩, "EPSG:25832"⟩
  let labels : Raster Int := ⟨1, 1, fun _ => 1⟩
  let before : FileSystem (WithTop Rat) Rat := ⟨["in"], [(("in", "dem.tif"), .raster (.elevations ⟨⟨1, 1, fun _ => 3⟩, none⟩) georef),
    (("in", "bluespots.tif"), .raster (.labels labels (some 0)) georef), (("in", "a.gpkg"), .geopackage [("finallevels",
      ⟨[⟨"nodetype", .text⟩, ⟨"bspot_id", .integer⟩, ⟨"approx_z", .real⟩],
        [⟨.point (1, -1), [("nodetype", .str "pourpoint"), ("bspot_id", .int 1), ("approx_z", .num 4)]⟩]⟩)] [])]⟩
  let c : Sub Rat := .finalbluespots ("in", "bluespots.tif") ("in", "dem.tif") ("in", "a.gpkg") "finallevels"
    (some ("in", "depths.tif")) (some ("missing", "extent.tif"))
  have hn : ∀ n, runSub demoOgr demoSetting c before n = runSub demoOgr demoSetting c before 0 := fun n => rfl
  have h0 : ((runSub demoOgr demoSetting c before 0).map fun x => (match x.1 with
      | .ok _ => false
      | .error _ => true, (x.2.files.get? ("in", "depths.tif")).isSome)) = some (true, true) := by decide +kernel
  rcases hx : runSub demoOgr demoSetting c before 0 with _ | ⟨r, after⟩
  · rw [hx] at h0; cases h0
  · rw [hx] at h0
    simp only [Option.map_some, Option.some.injEq, Prod.mk.injEq] at h0
    cases r with
    | ok _ => exact absurd h0.1 (by simp)
    | error e =>
      refine ⟨c, before, e, after, ⟨0, fun m _ => (hn m).trans hx⟩, fun hs => ?_⟩
      rw [hs.2] at h0
      exact absurd h0.2 (by decide)

end Command
end Malstroem
