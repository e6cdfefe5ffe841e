/-
Properties C87 and C88: what the complete command does to files.
-/
import Verif.Proofs.Command
import Verif.Props.Levels

set_option linter.unusedSectionVars false

namespace Malstroem
open Spec Scripts

namespace Command
variable {K : Type} [Field K] [LinearOrder K] {β : Type} [LinearOrder β] [OrderTop β]

/-- The files of the tools up to the final state, besides the GeoPackage. -/
def terrainFiles (near : β → Bool) (georef : Georef K) (files : Files β K) : Dict String (Content β K) :=
  [("filled.tif", .raster (.elevations ⟨files.filled, some near⟩) georef),
   ("bs_depths.tif", .raster (.numbers files.depths) georef),
   ("flowdir.tif", .raster (.directions files.flowdir) georef)] ++
  (match files.accum with
    | some accum => [("accum.tif", .raster (.counts accum) georef)]
    | none => []) ++
  [("bluespots.tif", .raster (.labels files.bluespots (some 0)) georef),
   ("watersheds.tif", .raster (.labels files.watersheds (some 0)) georef)]

/-- The rasters of the water. -/
def waterFiles (georef : Georef K) (finaldepths : Raster K) (finalbluespots : Raster Int) : Dict String (Content β K) :=
  [("finaldepths.tif", .raster (.numbers finaldepths) georef),
   ("finalbluespots.tif", .raster (.labels finalbluespots (some 0)) georef)]

/-- The layers of the GeoPackage up to the final state. -/
def networkLayers (files : Files β K) : Dict String (List (Feature K)) :=
  [("pourpoints", files.pourpoints), ("nodes", files.nodes), ("streams", files.streams), ("initvolumes", files.initvolumes),
   ("finalstate", files.finalvolumes)]

/-- The layers written after the final state. -/
def waterLayers (files : Files β K) : Dict String (List (Feature K)) :=
  [("hypsometry", files.hyps), ("finallevels", files.finallevels)]

/-- The polygons of the labels in a raster with nodata value 0, each with its label (C73). -/
def polygonsOf (ogr : Ogr K) (data : Raster Int) : List (PolygonFeature K) :=
  Polygons.vectorizeLabelsFile ogr.polygonize (some 0) data "bspot_id"

/-- The polygon layers of BluespotTool. -/
def bluespotPolygons (ogr : Ogr K) (vector : Bool) (files : Files β K) : Dict String (List (PolygonFeature K)) :=
  if vector then [("bluespots", polygonsOf ogr files.bluespots), ("watersheds", polygonsOf ogr files.watersheds)] else []

/-- The GeoPackage has exactly the given layers, in that order, and what is read from each is what a file gives back of the
features (C70). -/
structure HasLayers (ogr : Ogr K) (layers : Vector.Datasource K) (expected : Dict String (List (Feature K))) : Prop where
  names : layers.map (·.1) = expected.map (·.1)
  features : ∀ name fs, (name, fs) ∈ expected →
    Vector.readGeojsonFeatures ogr.fid ogr.shape layers name =
      .ok (layerBack ogr.text ogr.fid ogr.shape (fun _ => []) name fs)

/-- The files are those before, but for the contents of one directory: the given files, and a GeoPackage with the given
layers and polygon layers. -/
structure Wrote (ogr : Ogr K) (before : FileSystem β K) (outdir : String) (files : Dict String (Content β K))
    (layers : Dict String (List (Feature K))) (polygons : Dict String (List (PolygonFeature K)))
    (after : FileSystem β K) : Prop where
  directories : after.directories = before.directories
  elsewhere : ∀ path : Path, path.1 ≠ outdir → after.files.get? path = before.files.get? path
  inside : ∃ ds, HasLayers ogr ds layers ∧ ∀ name, after.files.get? (outdir, name) =
    Dict.get? (files ++ [("malstroem.gpkg", Content.geopackage ds polygons)]) name

/-- There is an empty directory of that name. -/
def IsEmptyDir (fs : FileSystem β K) (outdir : String) : Prop :=
  outdir ∈ fs.directories ∧ ∀ path content, fs.files.get? path = some content → path.1 ≠ outdir

theorem isEmptyDir_iff (fs : FileSystem β K) (outdir : String) :
    IsEmptyDir fs outdir ↔ ¬ (outdir ∉ fs.directories ∨ fs.files.any (fun f => f.1.1 = outdir)) := by
  simp only [IsEmptyDir, not_or, not_not, List.any_eq_true, decide_eq_true_eq, not_exists, not_and]
  refine and_congr_right fun _ => ⟨fun h f hf e => ?_, fun h path content hp e => ?_⟩
  · rcases hg : fs.files.get? f.1 with _ | c
    · exact Dict.get?_eq_none.1 hg (List.mem_map.2 ⟨f, hf, rfl⟩)
    · exact h f.1 c hg e
  · have : path ∈ fs.files.map (·.1) := by
      by_contra hn
      rw [Dict.get?_eq_none.2 hn] at hp
      cases hp
    obtain ⟨f, hf, rfl⟩ := List.mem_map.1 this
    exact h f hf e

theorem hasLayers_nil (ogr : Ogr K) : HasLayers ogr [] [] := ⟨rfl, by simp⟩

theorem HasLayers.get {ogr : Ogr K} {ds : Vector.Datasource K} {expected : Dict String (List (Feature K))}
    (h : HasLayers ogr ds expected) {name : String} (hn : name ∉ expected.map (·.1)) : ds.get? name = none := by
  rw [Dict.get?_eq_none, h.names]; exact hn

theorem HasLayers.add {ogr : Ogr K} {ds : Vector.Datasource K} {expected : Dict String (List (Feature K))}
    (h : HasLayers ogr ds expected) {name : String} (hn : name ∉ expected.map (·.1)) (features : List (Feature K)) :
    HasLayers ogr (withLayer ogr ds name features) (expected ++ [(name, features)]) where
  names := by rw [keys_withLayer ogr (h.get hn), h.names, List.map_append]; rfl
  features k fs hk := by
    rcases List.mem_append.1 hk with hk | hk
    · rw [read_other ogr _ (by rintro rfl; exact hn (List.mem_map.2 ⟨_, hk, rfl⟩))]
      exact h.features k fs hk
    · simp only [List.mem_singleton, Prod.mk.injEq] at hk
      obtain ⟨rfl, rfl⟩ := hk
      exact read_withLayer ogr (h.get hn) _

theorem hasLayers5 (ogr : Ogr K) (files : Files β K) : HasLayers ogr
    (layers5 ogr files.pourpoints files.nodes files.streams files.initvolumes files.finalvolumes) (networkLayers files) :=
  (((((hasLayers_nil ogr).add (by simp) files.pourpoints).add (by simp) files.nodes).add (by simp) files.streams).add (by simp)
    files.initvolumes).add (by simp) files.finalvolumes

theorem upd_get {m : String → Option (Content β K)} {d : Dict String (Content β K)} (h : ∀ name, m name = d.get? name)
    {key : String} (hk : d.get? key = none) (content : Content β K) (name : String) :
    upd m key content name = Dict.get? (d ++ [(key, content)]) name := by
  have happ : ∀ (d : Dict String (Content β K)), Dict.get? (d ++ [(key, content)]) name =
      (d.get? name).or (if key = name then some content else none) := by
    intro d
    induction d with
    | nil => simp [Dict.get?]
    | cons a d ih =>
      obtain ⟨k, v⟩ := a
      by_cases e : k = name
      · simp [Dict.get?, e]
      · simp only [List.cons_append, Dict.get?, if_neg e]; exact ih
  rw [happ]
  unfold upd
  by_cases e : key = name
  · rw [if_pos e, if_pos e, ← e, hk]; rfl
  · rw [if_neg e, if_neg e, h name, Option.or_none]

/-- The rasters up to the final state. -/
theorem contents4_get (near : β → Bool) (georef : Georef K) (files : Files β K) (name : String) :
    upd (upd (withAccum georef files.accum (upd (upd (upd (fun _ => none) "filled.tif"
        (.raster (.elevations ⟨files.filled, some near⟩) georef)) "bs_depths.tif" (.raster (.numbers files.depths) georef))
        "flowdir.tif" (.raster (.directions files.flowdir) georef))) "bluespots.tif"
        (.raster (.labels files.bluespots (some 0)) georef)) "watersheds.tif"
        (.raster (.labels files.watersheds (some 0)) georef) name =
      Dict.get? (terrainFiles near georef files) name := by
  unfold terrainFiles
  have h1 := upd_get (β := β) (K := K) (m := fun _ => none) (d := []) (fun _ => rfl) (key := "filled.tif") rfl
    (.raster (.elevations ⟨files.filled, some near⟩) georef)
  have h2 := upd_get h1 (key := "bs_depths.tif") rfl (.raster (.numbers files.depths) georef)
  have h3 := upd_get h2 (key := "flowdir.tif") rfl (.raster (.directions files.flowdir) georef)
  cases files.accum with
  | none =>
    have h4 := upd_get h3 (key := "bluespots.tif") rfl (.raster (.labels files.bluespots (some 0)) georef)
    exact upd_get h4 (key := "watersheds.tif") rfl (.raster (.labels files.watersheds (some 0)) georef) name
  | some a =>
    have h3 := upd_get h3 (key := "accum.tif") rfl (.raster (.counts a) georef)
    have h4 := upd_get h3 (key := "bluespots.tif") rfl (.raster (.labels files.bluespots (some 0)) georef)
    exact upd_get h4 (key := "watersheds.tif") rfl (.raster (.labels files.watersheds (some 0)) georef) name

theorem terrain_names (near : β → Bool) (georef : Georef K) (files : Files β K) {name : String}
    (h : name ∉ ["filled.tif", "bs_depths.tif", "flowdir.tif", "accum.tif", "bluespots.tif", "watersheds.tif"]) :
    Dict.get? (terrainFiles near georef files) name = none := by
  rw [Dict.get?_eq_none]
  unfold terrainFiles
  intro hn
  apply h
  cases hacc : files.accum with
  | none => rw [hacc] at hn; simp at hn ⊢; tauto
  | some a => rw [hacc] at hn; simp at hn ⊢; tauto

theorem contents5_get (near : β → Bool) (georef : Georef K) (files : Files β K) (package : Content β K) (name : String) :
    contents5 near georef files.filled files.depths files.flowdir files.accum files.bluespots files.watersheds package name =
      Dict.get? (terrainFiles near georef files ++ [("malstroem.gpkg", package)]) name :=
  upd_get (contents4_get near georef files) (terrain_names near georef files (by decide)) package name

theorem contents7_get (near : β → Bool) (georef : Georef K) (files : Files β K) (depths : Raster K) (extent : Raster Int)
    (old package : Content β K) (name : String) :
    contents7 (contents5 near georef files.filled files.depths files.flowdir files.accum files.bluespots files.watersheds old)
      georef depths extent package name =
      Dict.get? ((terrainFiles near georef files ++ waterFiles georef depths extent) ++ [("malstroem.gpkg", package)]) name := by
  have h1 := upd_get (contents4_get near georef files) (key := "finaldepths.tif") (terrain_names near georef files (by decide))
    (.raster (.numbers depths) georef)
  have hnone : ∀ key, key ∉ ["filled.tif", "bs_depths.tif", "flowdir.tif", "accum.tif", "bluespots.tif", "watersheds.tif"] →
      key ∉ ["finaldepths.tif"] → Dict.get? (terrainFiles near georef files ++
        [("finaldepths.tif", (.raster (.numbers depths) georef : Content β K))]) key = none := by
    intro key h1 h2
    rw [Dict.get?_eq_none, List.map_append, List.mem_append, not_or]
    exact ⟨Dict.get?_eq_none.1 (terrain_names near georef files h1), h2⟩
  have h2 := upd_get h1 (key := "finalbluespots.tif") (hnone _ (by decide) (by decide)) (.raster (.labels extent (some 0)) georef)
  have h3 := upd_get h2 (key := "malstroem.gpkg") (by
    rw [Dict.get?_eq_none, List.map_append, List.mem_append, not_or]
    exact ⟨Dict.get?_eq_none.1 (hnone _ (by decide) (by decide)), by simp⟩) package name
  rw [show terrainFiles near georef files ++ waterFiles georef depths extent = (terrainFiles near georef files ++
      [("finaldepths.tif", .raster (.numbers depths) georef)]) ++ [("finalbluespots.tif", .raster (.labels extent (some 0)) georef)]
    by simp [waterFiles], ← h3]
  unfold contents7 contents5
  by_cases hg : "malstroem.gpkg" = name
  · unfold upd; rw [if_pos hg, if_pos hg]
  · have : ∀ (m : String → Option (Content β K)) (c : Content β K), upd m "malstroem.gpkg" c name = m name := fun m c => if_neg hg
    rw [this, this]
    by_cases h5 : "finalbluespots.tif" = name
    · unfold upd; rw [if_pos h5, if_pos h5]
    · have h5' : ∀ (m : String → Option (Content β K)) (c : Content β K), upd m "finalbluespots.tif" c name = m name := fun m c => if_neg h5
      rw [h5', h5']
      by_cases h6 : "finaldepths.tif" = name
      · unfold upd; rw [if_pos h6, if_pos h6]
      · have h6' : ∀ (m : String → Option (Content β K)) (c : Content β K), upd m "finaldepths.tif" c name = m name := fun m c => if_neg h6
        rw [h6', h6', this]

theorem vectorized_eq (ogr : Ogr K) (vector : Bool) (files : Files β K) :
    vectorized ogr vector files.bluespots files.watersheds = bluespotPolygons ogr vector files := by
  cases vector <;> rfl

theorem withPolygons_eq (ogr : Ogr K) (vector : Bool) (files : Files β K) (data : Raster Int) :
    withPolygons ogr (bluespotPolygons ogr vector files) "finalbluespots" data =
      bluespotPolygons ogr vector files ++ [("finalbluespots", polygonsOf ogr data)] := by
  cases vector <;> rfl

theorem approx_isSome [FloorRing K] {labels : Raster Int} {levels : List (Feature K)} {dem : Raster K} {out : Option (Raster K) × Option (Raster Int)}
    (h : Approx.approxBluespotsIo labels levels dem true true 0 = .ok out) : ∃ a b, out = (some a, some b) := by
  simp only [Approx.approxBluespotsIo, bind, Except.bind, pure, Except.pure] at h
  split at h
  · cases h
  · split at h
    · cases h
    · split at h
      · cases h
      · split at h
        · cases h
        · split at h
          · cases h
          · split at h
            · cases h
            · cases h
              exact ⟨_, _, rfl⟩

section
variable [FloorRing K]

/-- The fuelled run of the tools, given that of the computations. -/
theorem complete_does (ogr : Ogr K) (s : Setting β K) {before : FileSystem β K} {dem : Path} {outdir : String}
    {accum vector : Bool} {filter : Option (List Char)} {mm zresolution : K} {file : ElevFile β} {georef : Georef K}
    (hempty : IsEmptyDir before outdir) (hdem : before.files.get? dem = some (.raster (.elevations file) georef))
    {text : Option (List Char)} (hfilter : Filter.parseFilter filter = .ok text) {files : Files β K} {n0 : Nat}
    (h : completeVia (back ogr) s.elev s.cc s.demEngine s.bluespotEngine s.sub s.safe s.subst georef.transform file accum
      (text.map s.evalFilter) mm zresolution n0 = some (.ok files)) :
    ∃ mid finaldepths finalbluespots after, files.finaldepths = some finaldepths ∧ files.finalbluespots = some finalbluespots ∧
      Wrote ogr before outdir (terrainFiles s.near georef files) (networkLayers files) (bluespotPolygons ogr vector files) mid ∧
      Wrote ogr before outdir (terrainFiles s.near georef files ++ waterFiles georef finaldepths finalbluespots)
        (networkLayers files ++ waterLayers files)
        (bluespotPolygons ogr vector files ++ [("finalbluespots", polygonsOf ogr finalbluespots)]) after ∧
      ∀ n, completeVia (back ogr) s.elev s.cc s.demEngine s.bluespotEngine s.sub s.safe s.subst georef.transform file accum
        (text.map s.evalFilter) mm zresolution n = some (.ok files) →
        Does (complete ogr s dem outdir accum vector filter mm zresolution) before n none after ∧
        ∀ res', ¬ 0 < res' → complete ogr s dem outdir accum vector filter mm res' before n =
          some (.error .assertionError, mid) := by
  have hout := hempty.2 dem _ hdem
  have hdir := hempty.1
  have hcond := (isEmptyDir_iff before outdir).1 hempty
  have h0 : Holds before outdir before fun _ => none := ⟨rfl, fun _ _ => rfl, fun name => by
    rcases hg : before.files.get? (outdir, name) with _ | c
    · rfl
    · exact absurd rfl (hempty.2 _ c hg)⟩
  let filter_function : Bluespots.StatUnits K → Bool := (text.map s.evalFilter).getD fun _ => true
  have hinv := h
  simp only [completeVia, Run.bind_ok, Run.pure_ok, Run.ofExcept_ok, Run.ofFuel_ok] at hinv
  obtain ⟨d, hd, b, hb, st, hst, vol, hvol, fin, hfin, hy, hhy, lev, hlev, fl, hfl, hfiles⟩ := hinv
  obtain ⟨a7, b7, rfl⟩ := approx_isSome hfl
  have hs : files.accum.isSome = accum := by rw [← hfiles]; exact accum_isSome hd
  obtain ⟨mid, w1, h1⟩ := untilFinalState_does ogr s (vector := vector) (filter_function := filter_function) (mm := mm)
    files.filled files.depths files.flowdir hs files.bluespots files.watersheds
    files.pourpoints files.nodes files.streams files.initvolumes files.finalvolumes hdir h0 hout hdem
  have hl5 := hasLayers5 ogr files
  have hpp := hl5.features "pourpoints" files.pourpoints (by simp [networkLayers])
  have hff := hl5.features "finalstate" files.finalvolumes (by simp [networkLayers])
  have hn1 := hl5.get (name := "hypsometry") (by simp [networkLayers])
  have hn2 := hl5.get (name := "finallevels") (by simp [networkLayers])
  obtain ⟨after, w2, h2⟩ := afterFinalState_does ogr s (zresolution := zresolution) files.bluespots (georef := georef) files.hyps files.finallevels a7 b7 hdir
    h1 hout hdem rfl rfl hpp hff hn1 hn2
  have hl7 : HasLayers ogr _ (networkLayers files ++ waterLayers files) :=
    ((hl5.add (name := "hypsometry") (by simp [networkLayers]) files.hyps).add (name := "finallevels")
      (by simp [networkLayers]) files.finallevels)
  refine ⟨mid, a7, b7, after, by rw [← hfiles], by rw [← hfiles],
    ⟨h1.directories, h1.elsewhere, _, hl5, fun name => (h1.inside name).trans ?_⟩,
    ⟨h2.directories, h2.elsewhere, _, hl7, fun name => (h2.inside name).trans ?_⟩, ?_⟩
  · rw [contents5_get, vectorized_eq]
  · rw [contents7_get, vectorized_eq, withPolygons_eq]
  · intro n hn
    simp only [completeVia, Run.bind_ok, Run.pure_ok, Run.ofExcept_ok, Run.ofFuel_ok] at hn
    obtain ⟨d', hd', b', hb', st', hst', vol', hvol', fin', hfin', hy', hhy', lev', hlev', fl', hfl', hfiles'⟩ := hn
    have huntil : Does (untilFinalState ogr s dem outdir accum vector filter_function mm georef) before n () mid := by
      subst hfiles'
      exact w1 n d' b' hd' rfl rfl rfl rfl hb' rfl rfl rfl hst' hvol' hfin'
    constructor
    · refine (Does.files before n).bind ?_
      rw [if_neg hcond]
      refine Does.bind (a := text) (Does.run (congrArg some hfilter) _) ?_
      refine Does.bind (a := (_, _)) (Does.openRaster hdem n) ?_
      have hff : ∀ g : Bluespots.StatUnits K → Bool, g = filter_function →
          untilFinalState ogr s dem outdir accum vector g mm georef =
            untilFinalState ogr s dem outdir accum vector filter_function mm georef := fun g hg => by rw [hg]
      dsimp only
      rw [hff _ (by cases text <;> rfl)]
      refine huntil.bind (Does.bind (a := ()) (fs1 := after) ?_ (Does.pure _ _ _))
      have e1 : fl'.1 = some a7 := (congrArg Files.finaldepths hfiles').trans (congrArg Files.finaldepths hfiles).symm
      have e2 : fl'.2 = some b7 := (congrArg Files.finalbluespots hfiles').trans (congrArg Files.finalbluespots hfiles).symm
      rw [show fl' = (some a7, some b7) from Prod.ext e1 e2] at hfl'
      clear w1 h1 h2 hfiles hfl hl5 hl7
      subst hfiles'
      exact w2 n hhy' hlev' hfl'
    · intro res' hres'
      refine (Does.files before n).raises ?_
      rw [if_neg hcond]
      refine Does.raises (a := text) (Does.run (congrArg some hfilter) _) ?_
      refine Does.raises (a := (_, _)) (Does.openRaster hdem n) ?_
      have hff : ∀ g : Bluespots.StatUnits K → Bool, g = filter_function →
          untilFinalState ogr s dem outdir accum vector g mm georef =
            untilFinalState ogr s dem outdir accum vector filter_function mm georef := fun g hg => by rw [hg]
      dsimp only
      rw [hff _ (by cases text <;> rfl)]
      refine huntil.raises (Raises.bind _ (Raises.bind _ ?_))
      exact hypsometryTool_raises ogr h1 hout hdem rfl rfl hpp hres' n

/-- C87, refused runs: if the output directory does not exist or has anything in it, `complete` returns 1 and changes nothing,
whatever the other arguments. -/
theorem C87_refused (ogr : Ogr K) (s : Setting β K) {before : FileSystem β K} (dem : Path) {outdir : String}
    (accum vector : Bool) (filter : Option (List Char)) (mm zresolution : K) (h : ¬ IsEmptyDir before outdir) :
    (complete ogr s dem outdir accum vector filter mm zresolution).Ends before (.ok (some 1)) before := by
  have hcond := not_not.1 (mt (isEmptyDir_iff before outdir).2 h)
  refine ⟨0, fun n _ => ?_⟩
  show Does (complete ogr s dem outdir accum vector filter mm zresolution) before n (some 1) before
  refine (Does.files before n).bind ?_
  rw [if_pos hcond]
  exact Does.pure _ _ _

/-- C87, no file is lost: whatever the arguments and however the command ends, normally or with an exception, every file that
existed before is there with the same content, nothing outside the output directory has been created, and no directory
created or removed. -/
theorem C87_nothing_lost (ogr : Ogr K) (s : Setting β K) {before after : FileSystem β K} {dem : Path} {outdir : String}
    {accum vector : Bool} {filter : Option (List Char)} {mm zresolution : K} {n : Nat} {r : Except PyErr (Option Nat)}
    (h : complete ogr s dem outdir accum vector filter mm zresolution before n = some (r, after)) :
    (∀ path content, before.files.get? path = some content → after.files.get? path = some content) ∧
      (∀ path content, before.files.get? path = none → after.files.get? path = some content → path.1 = outdir) ∧
      after.directories = before.directories := by
  obtain ⟨h1, h2⟩ := Keeps.complete ogr s _ _ _ _ h
  refine ⟨fun path content hp => ?_, fun path content hb ha => ?_, h1⟩
  · by_cases he : IsEmptyDir before outdir
    · rw [h2 path (he.2 path content hp), hp]
    · obtain ⟨N, hN⟩ := C87_refused ogr s dem accum vector filter mm zresolution he
      have hrun : Does (complete ogr s dem outdir accum vector filter mm zresolution) before n (some 1) before := by
        refine (Does.files before n).bind ?_
        rw [if_pos (not_not.1 (mt (isEmptyDir_iff before outdir).2 he))]
        exact Does.pure _ _ _
      unfold Does at hrun
      rw [hrun] at h
      simp only [Option.some.injEq, Prod.mk.injEq] at h
      rw [← h.2, hp]
  · by_contra hne
    rw [h2 path hne, hb] at ha
    cases ha

/-- C87. With an empty output directory, a readable DEM and a filter that is accepted, a run whose computations succeed writes
exactly these files into the directory, and changes nothing else: the rasters filled, bs_depths, flowdir, bluespots,
watersheds, finaldepths, finalbluespots, and accum if asked for, all with the transform and the crs of the DEM, and a
GeoPackage with the layers pourpoints, nodes, streams, initvolumes, finalstate, hypsometry and finallevels, and the polygons
of finalbluespots and, if asked for, of bluespots and watersheds. -/
theorem C87_files (ogr : Ogr K) (s : Setting β K) {before : FileSystem β K} {dem : Path} {outdir : String}
    {accum : Bool} (vector : Bool) {filter : Option (List Char)} {mm zresolution : K} {file : ElevFile β} {georef : Georef K}
    (hempty : IsEmptyDir before outdir) (hdem : before.files.get? dem = some (.raster (.elevations file) georef))
    {text : Option (List Char)} (hfilter : Filter.parseFilter filter = .ok text) {files : Files β K}
    (h : (completeVia (layerBack ogr.text ogr.fid ogr.shape fun _ => []) s.elev s.cc s.demEngine s.bluespotEngine s.sub s.safe
      s.subst georef.transform file accum (text.map s.evalFilter) mm zresolution).Yields (.ok files)) :
    ∃ finaldepths finalbluespots after, files.finaldepths = some finaldepths ∧ files.finalbluespots = some finalbluespots ∧
      (complete ogr s dem outdir accum vector filter mm zresolution).Ends before (.ok none) after ∧
      Wrote ogr before outdir (terrainFiles s.near georef files ++ waterFiles georef finaldepths finalbluespots)
        (networkLayers files ++ waterLayers files)
        (bluespotPolygons ogr vector files ++ [("finalbluespots", polygonsOf ogr finalbluespots)]) after := by
  obtain ⟨N, hN⟩ := h
  obtain ⟨_, a, b, after, h1, h2, _, h4, h5⟩ := complete_does ogr s (vector := vector) hempty hdem hfilter (hN N le_rfl)
  exact ⟨a, b, after, h1, h2, ⟨N, fun n hn => (h5 n (hN n hn)).1⟩, h4⟩

/-- What a run has written keeps `complete` from running again in the same directory. -/
theorem Wrote.not_empty {ogr : Ogr K} {before after : FileSystem β K} {outdir : String} {files : Dict String (Content β K)}
    {layers : Dict String (List (Feature K))} {polygons : Dict String (List (PolygonFeature K))}
    (h : Wrote ogr before outdir files layers polygons after) : ¬ IsEmptyDir after outdir := by
  intro he
  obtain ⟨ds, _, hi⟩ := h.inside
  rcases hg : after.files.get? (outdir, "malstroem.gpkg") with _ | c
  · rw [hi, Dict.get?_eq_none] at hg
    exact hg (by simp)
  · exact he.2 _ c hg rfl

/-- C87, a second run in the same directory, with any arguments, changes nothing. -/
theorem C87_second_run (ogr : Ogr K) (s : Setting β K) {before : FileSystem β K} {dem : Path} {outdir : String}
    {accum : Bool} (vector : Bool) {filter : Option (List Char)} {mm zresolution : K} {file : ElevFile β} {georef : Georef K}
    (hempty : IsEmptyDir before outdir) (hdem : before.files.get? dem = some (.raster (.elevations file) georef))
    {text : Option (List Char)} (hfilter : Filter.parseFilter filter = .ok text) {files : Files β K}
    (h : (completeVia (layerBack ogr.text ogr.fid ogr.shape fun _ => []) s.elev s.cc s.demEngine s.bluespotEngine s.sub s.safe
      s.subst georef.transform file accum (text.map s.evalFilter) mm zresolution).Yields (.ok files)) :
    ∃ after, (complete ogr s dem outdir accum vector filter mm zresolution).Ends before (.ok none) after ∧
      ∀ dem' accum' vector' filter' mm' zresolution',
        (complete ogr s dem' outdir accum' vector' filter' mm' zresolution').Ends after (.ok (some 1)) after := by
  obtain ⟨_, _, after, _, _, h3, h4⟩ := C87_files ogr s vector hempty hdem hfilter h
  exact ⟨after, h3, fun dem' accum' vector' filter' mm' zresolution' =>
    C87_refused ogr s dem' accum' vector' filter' mm' zresolution' h4.not_empty⟩

/-- C88, what holds: with a filter that is not accepted the command raises an exception, its exit status is 1 and nothing has
been written, so that it can be repeated with another filter. -/
theorem C88_filter_partial (ogr : Ogr K) (s : Setting β K) {before : FileSystem β K} (dem : Path) {outdir : String}
    (accum vector : Bool) {filter : Option (List Char)} (mm zresolution : K) (h : IsEmptyDir before outdir) {e : PyErr}
    (hfilter : Filter.parseFilter filter = .error e) :
    (complete ogr s dem outdir accum vector filter mm zresolution).Ends before (.error e) before ∧
      exitStatus (.error e) = 1 := by
  have hcond := (isEmptyDir_iff before outdir).1 h
  refine ⟨⟨0, fun n _ => ?_⟩, rfl⟩
  show Raises (complete ogr s dem outdir accum vector filter mm zresolution) before n e before
  refine (Does.files before n).raises ?_
  rw [if_neg hcond]
  exact Raises.bind _ (Raises.run (congrArg some hfilter) _)

/-- C88, what holds: the same with a DEM that is no raster. -/
theorem C88_dem_partial (ogr : Ogr K) (s : Setting β K) {before : FileSystem β K} {dem : Path} {outdir : String}
    (accum vector : Bool) {filter : Option (List Char)} (mm zresolution : K) (h : IsEmptyDir before outdir)
    {text : Option (List Char)} (hfilter : Filter.parseFilter filter = .ok text)
    (hdem : ∀ values georef, before.files.get? dem ≠ some (.raster values georef)) :
    ∃ e, (complete ogr s dem outdir accum vector filter mm zresolution).Ends before (.error e) before ∧
      exitStatus (.error e) = 1 := by
  have hcond := (isEmptyDir_iff before outdir).1 h
  refine ⟨.attributeError, ⟨0, fun n _ => ?_⟩, rfl⟩
  show Raises (complete ogr s dem outdir accum vector filter mm zresolution) before n .attributeError before
  refine (Does.files before n).raises ?_
  rw [if_neg hcond]
  refine Does.raises (a := text) (Does.run (congrArg some hfilter) _) (Raises.bind _ ?_)
  refine (Does.files before n).raises ?_
  split
  · rename_i values georef hv
    exact absurd hv (hdem _ _)
  · rfl

/-- C88 is false for an output directory that is not empty: the command writes nothing at all, and exits with status 0. -/
theorem C88_refused_false (ogr : Ogr K) (s : Setting β K) {before : FileSystem β K} (dem : Path) {outdir : String}
    (accum vector : Bool) (filter : Option (List Char)) (mm zresolution : K) (h : ¬ IsEmptyDir before outdir) :
    ∃ r, (complete ogr s dem outdir accum vector filter mm zresolution).Ends before r before ∧ exitStatus r = 0 :=
  ⟨_, C87_refused ogr s dem accum vector filter mm zresolution h, rfl⟩

/-- C88 is false for a resolution that is not positive: whenever the computations succeed with some resolution, the command
with resolution 0 or less raises an exception only after it has written the terrain, the bluespots and the network; these
files stay, and a repeated run with a good resolution is refused (and exits with status 0). -/
theorem C88_zresolution_false (ogr : Ogr K) (s : Setting β K) {before : FileSystem β K} {dem : Path} {outdir : String}
    {accum : Bool} (vector : Bool) {filter : Option (List Char)} {mm good : K} {file : ElevFile β} {georef : Georef K}
    (hempty : IsEmptyDir before outdir) (hdem : before.files.get? dem = some (.raster (.elevations file) georef))
    {text : Option (List Char)} (hfilter : Filter.parseFilter filter = .ok text) {files : Files β K}
    (h : (completeVia (layerBack ogr.text ogr.fid ogr.shape fun _ => []) s.elev s.cc s.demEngine s.bluespotEngine s.sub s.safe
      s.subst georef.transform file accum (text.map s.evalFilter) mm good).Yields (.ok files))
    {zresolution : K} (hz : zresolution ≤ 0) :
    ∃ after, (complete ogr s dem outdir accum vector filter mm zresolution).Ends before (.error .assertionError) after ∧
      Wrote ogr before outdir (terrainFiles s.near georef files) (networkLayers files) (bluespotPolygons ogr vector files) after ∧
      (complete ogr s dem outdir accum vector filter mm good).Ends after (.ok (some 1)) after := by
  obtain ⟨N, hN⟩ := h
  obtain ⟨mid, _, _, _, _, _, h3, _, h5⟩ := complete_does ogr s (vector := vector) hempty hdem hfilter (hN N le_rfl)
  exact ⟨mid, ⟨N, fun n hn => (h5 n (hN n hn)).2 _ hz.not_gt⟩, h3,
    C87_refused ogr s dem accum vector filter mm good h3.not_empty⟩

end

section
variable [IsStrictOrderedRing K] [FloorRing K]

/-- The setting of exact arithmetic with the functions in Python. -/
def exactSetting (cc : Raster Bool → Raster Int × Nat) (short diag k : K) (near : WithTop K → Bool)
    (evalFilter : List Char → Bluespots.StatUnits K → Bool) : Setting (WithTop K) K where
  elev := (·.untopD 0)
  cc := cc
  demEngine := Dem.python exactSub (· * k)
  bluespotEngine := Bluespots.python
  sub := exactSub
  safe := exactSafe short diag
  subst := ((-999 : K) : WithTop K)
  near := near
  evalFilter := evalFilter

/-- C87 in exact arithmetic: for every DEM of at least 2x2 cells without nodata and with square cells, and every positive
resolution, the command comes to an end and writes the files of C87, with the values of C71. -/
theorem C87_exact (ogr : Ogr K) {cc : Raster Bool → Raster Int × Nat} (hcc : LabelContract cc) (near : WithTop K → Bool)
    (evalFilter : List Char → Bluespots.StatUnits K → Bool) {georef : Georef K} (hsq : SquareCells georef.transform)
    (data : Raster K) (hr : 2 ≤ data.rows) (hc : 2 ≤ data.cols) {short diag k : K} (hs : 0 < short) (hd : 0 < diag) (hk : 0 < k)
    (accum vector : Bool) (mm : K) {zresolution : K} (hres : 0 < zresolution)
    (hnn : ∀ c z, data.Has c → IsSpillLevel data.rows data.cols data.get c z → data.get c < z → 0 ≤ data.get c)
    {before : FileSystem (WithTop K) K} {dem : Path} {outdir : String} (hempty : IsEmptyDir before outdir)
    (hdem : before.files.get? dem = some (.raster (.elevations ⟨finiteDem data, none⟩) georef))
    {filter : Option (List Char)} {text : Option (List Char)} (hfilter : Filter.parseFilter filter = .ok text) :
    ∃ files files' finaldepths finalbluespots after,
      (Scripts.complete (·.untopD 0) cc (Dem.python exactSub (· * k)) Bluespots.python exactSub (exactSafe short diag)
        ((-999 : K) : WithTop K) georef.transform ⟨finiteDem data, none⟩ accum (text.map evalFilter) mm zresolution).Yields
        (.ok files) ∧ SameFiles files files' ∧
      files'.finaldepths = some finaldepths ∧ files'.finalbluespots = some finalbluespots ∧
      (complete ogr (exactSetting cc short diag k near evalFilter) dem outdir accum vector filter mm zresolution).Ends before
        (.ok none) after ∧
      Wrote ogr before outdir (terrainFiles near georef files' ++ waterFiles georef finaldepths finalbluespots)
        (networkLayers files' ++ waterLayers files')
        (bluespotPolygons ogr vector files' ++ [("finalbluespots", polygonsOf ogr finalbluespots)]) after := by
  obtain ⟨files, files', h1, h2, h3⟩ := C71_complete_files ogr.text ogr.fid ogr.shape (ds := fun _ => []) (fun _ => rfl) hcc hsq
    data hr hc hs hd hk accum (text.map evalFilter) mm hres hnn
  obtain ⟨a, b, after, h4, h5, h6, h7⟩ := C87_files ogr (exactSetting cc short diag k near evalFilter) vector hempty hdem hfilter h2
  exact ⟨files, files', a, b, after, h1, h3, h4, h5, h6, h7⟩

end

/-- An empty directory "out" and a DEM in the directory "in". -/
def demoFs : FileSystem (WithTop Rat) Rat :=
  ⟨["in", "out"], [(("in", "dem.tif"), .raster (.elevations ⟨finiteDem demoValley, none⟩) ⟨⟨0, 2, 0, 0, 0, -2⟩, "EPSG:25832"⟩)]⟩

def demoOgr : Ogr Rat := ⟨id, fun i => some i, id, fun _ _ => []⟩

def demoSetting : Setting (WithTop Rat) Rat :=
  exactSetting demoValleyCC (1/1000) (14/10000) (7/10) (fun _ => false) fun _ _ => true

/-- It meets the hypotheses of C87. -/
example : IsEmptyDir demoFs "out" ∧ ¬ IsEmptyDir demoFs "in" ∧ ¬ IsEmptyDir demoFs "missing" ∧
    demoFs.files.get? ("in", "dem.tif") =
      some (.raster (.elevations ⟨finiteDem demoValley, none⟩) ⟨⟨0, 2, 0, 0, 0, -2⟩, "EPSG:25832"⟩) ∧
    Filter.parseFilter (some "volume > 1.5".toList) = .ok (some "lambda stats: stats[\"volume\"] > 1.5".toList) ∧
    (∃ e, Filter.parseFilter (some "import os".toList) = .error e) ∧
    (∃ cc, LabelContract cc) ∧ SquareCells (⟨0, 2, 0, 0, 0, -2⟩ : GeoTransform Rat) ∧ 2 ≤ demoValley.rows ∧ 2 ≤ demoValley.cols ∧
    ∀ c z, demoValley.Has c → IsSpillLevel demoValley.rows demoValley.cols demoValley.get c z → demoValley.get c < z →
      0 ≤ demoValley.get c := by
  refine ⟨(isEmptyDir_iff _ _).2 (by decide +kernel), fun h => (isEmptyDir_iff _ _).1 h (by decide +kernel),
    fun h => (isEmptyDir_iff _ _).1 h (by decide +kernel), rfl, by decide +kernel, ⟨.other, by decide +kernel⟩, exists_labelContract,
    by unfold SquareCells; norm_num, by decide, by decide, ?_⟩
  intro c z hc _ _
  have key : ∀ c ∈ Raster.cellList 4 5, 0 ≤ demoValley.get c := by decide +kernel
  exact key c (Flow.mem_cellList.2 hc)

/-- The names of the files and of the layers in the output directory, and the exit status. -/
def demoListing (r : Option (Except PyErr (Option Nat) × FileSystem (WithTop Rat) Rat)) :
    Option (Nat × List Path × List String × List String) :=
  r.map fun (r, fs) => (exitStatus r, fs.files.map (·.1),
    match fs.files.get? ("out", "malstroem.gpkg") with
    | some (.geopackage layers polygons) => (layers.map (·.1), polygons.map (·.1))
    | _ => ([], []))

/-- The command on this DEM. -/
example : demoListing (complete demoOgr demoSetting ("in", "dem.tif") "out" true true (some "volume > 1.5".toList) 500 (1/4)
      demoFs 40) = some (0,
    [("in", "dem.tif"), ("out", "filled.tif"), ("out", "bs_depths.tif"), ("out", "flowdir.tif"), ("out", "accum.tif"),
     ("out", "bluespots.tif"), ("out", "malstroem.gpkg"), ("out", "watersheds.tif"), ("out", "finaldepths.tif"),
     ("out", "finalbluespots.tif")],
    ["pourpoints", "nodes", "streams", "initvolumes", "finalstate", "hypsometry", "finallevels"],
    ["bluespots", "watersheds", "finalbluespots"]) := by
  decide +kernel

/-- The command on this DEM with resolution 0. -/
example : demoListing (complete demoOgr demoSetting ("in", "dem.tif") "out" false false none 500 0 demoFs 40) = some (1,
    [("in", "dem.tif"), ("out", "filled.tif"), ("out", "bs_depths.tif"), ("out", "flowdir.tif"),
     ("out", "bluespots.tif"), ("out", "watersheds.tif"), ("out", "malstroem.gpkg")],
    ["pourpoints", "nodes", "streams", "initvolumes", "finalstate"], []) := by
  decide +kernel

end Command
end Malstroem
