/-
The `complete` command with its effects on files: what each tool reads and writes.
-/
import Verif.Model.Command
import Verif.Props.Rerun

set_option linter.unusedSectionVars false

namespace Malstroem
namespace Command
open Spec Scripts
variable {K : Type} [Field K] [LinearOrder K] {β : Type} [LinearOrder β] [OrderTop β]

/-- The command ends well with the given amount of fuel. -/
def Does {α : Type} (x : Cmd β K α) (fs : FileSystem β K) (n : Nat) (a : α) (fs' : FileSystem β K) : Prop :=
  x fs n = some (.ok a, fs')

theorem bind_apply {α γ : Type} (x : Cmd β K α) (f : α → Cmd β K γ) (fs : FileSystem β K) (n : Nat) :
    (x >>= f) fs n = (x fs n).bind fun r => match r.1 with
      | .ok a => f a r.2 n
      | .error e => some (.error e, r.2) := by
  show (Option.bind (x fs n) fun r => _) = _
  congr 1
  funext r
  obtain ⟨r, fs'⟩ := r
  cases r <;> rfl

theorem Does.bind {α γ : Type} {x : Cmd β K α} {f : α → Cmd β K γ} {fs fs1 fs2 : FileSystem β K} {n : Nat} {a : α} {c : γ}
    (h : Does x fs n a fs1) (h' : Does (f a) fs1 n c fs2) : Does (x >>= f) fs n c fs2 := by
  unfold Does at *
  rw [bind_apply, h]
  exact h'

/-- The command raises an exception with the given amount of fuel. -/
def Raises {α : Type} (x : Cmd β K α) (fs : FileSystem β K) (n : Nat) (e : PyErr) (fs' : FileSystem β K) : Prop :=
  x fs n = some (.error e, fs')

theorem Raises.bind {α γ : Type} {x : Cmd β K α} (f : α → Cmd β K γ) {fs fs1 : FileSystem β K} {n : Nat} {e : PyErr}
    (h : Raises x fs n e fs1) : Raises (x >>= f) fs n e fs1 := by
  unfold Raises at *
  rw [bind_apply, h]
  rfl

theorem Does.raises {α γ : Type} {x : Cmd β K α} {f : α → Cmd β K γ} {fs fs1 fs2 : FileSystem β K} {n : Nat} {a : α} {e : PyErr}
    (h : Does x fs n a fs1) (h' : Raises (f a) fs1 n e fs2) : Raises (x >>= f) fs n e fs2 := by
  unfold Does Raises at *
  rw [bind_apply, h]
  exact h'

theorem Raises.run {α : Type} {x : Run α} {n : Nat} {e : PyErr} (h : x n = some (.error e)) (fs : FileSystem β K) :
    Raises (Cmd.run x) fs n e fs := by
  show Option.map _ (x n) = _
  rw [h]; rfl

theorem Does.pure {α : Type} (a : α) (fs : FileSystem β K) (n : Nat) : Does (Pure.pure a : Cmd β K α) fs n a fs := rfl

theorem Does.files (fs : FileSystem β K) (n : Nat) : Does (Cmd.files : Cmd β K _) fs n fs fs := rfl

theorem Does.run {α : Type} {x : Run α} {n : Nat} {a : α} (h : x n = some (.ok a)) (fs : FileSystem β K) :
    Does (Cmd.run x) fs n a fs := by
  show Option.map _ (x n) = _
  rw [h]; rfl

/-- The files after one of them is put into place. -/
def FileSystem.put (fs : FileSystem β K) (path : Path) (content : Content β K) : FileSystem β K :=
  { fs with files := fs.files.set path content }

theorem get_put (fs : FileSystem β K) (path path' : Path) (content : Content β K) :
    (fs.put path content).files.get? path' = if path = path' then some content else fs.files.get? path' :=
  Dict.get?_set _ _ _ _

theorem Does.put {fs : FileSystem β K} {path : Path} (h : path.1 ∈ fs.directories) (content : Content β K) (n : Nat) :
    Does (Command.put path content) fs n () (fs.put path content) := by
  show (if path.1 ∈ fs.directories then _ else _) = _
  rw [if_pos h]; rfl

theorem Does.writeRaster {fs : FileSystem β K} {path : Path} (h : path.1 ∈ fs.directories) (georef : Georef K)
    (values : Values β K) (n : Nat) :
    Does (Command.writeRaster path georef values) fs n () (fs.put path (.raster values georef)) := Does.put h _ n

theorem Does.openRaster {fs : FileSystem β K} {path : Path} {values : Values β K} {georef : Georef K}
    (h : fs.files.get? path = some (.raster values georef)) (n : Nat) :
    Does (Command.openRaster path) fs n (values, georef) fs := by
  refine Does.bind (Does.files fs n) ?_
  rw [h]
  exact Does.pure _ _ _

theorem Does.readElevations {fs : FileSystem β K} {path : Path} {file : ElevFile β} {georef : Georef K}
    (h : fs.files.get? path = some (.raster (.elevations file) georef)) (subst : Option β) (n : Nat) :
    Does (Command.readElevations path subst) fs n (file.read subst, georef) fs :=
  Does.bind (Does.openRaster h n) (Does.pure _ _ _)

theorem Does.readNumbers {fs : FileSystem β K} {path : Path} {data : Raster K} {georef : Georef K}
    (h : fs.files.get? path = some (.raster (.numbers data) georef)) (n : Nat) :
    Does (Command.readNumbers path) fs n (data, georef) fs := Does.bind (Does.openRaster h n) (Does.pure _ _ _)

theorem Does.readDirections {fs : FileSystem β K} {path : Path} {data : Raster Nat} {georef : Georef K}
    (h : fs.files.get? path = some (.raster (.directions data) georef)) (n : Nat) :
    Does (Command.readDirections path) fs n (data, georef) fs := Does.bind (Does.openRaster h n) (Does.pure _ _ _)

theorem Does.readCounts {fs : FileSystem β K} {path : Path} {data : Raster Int} {georef : Georef K}
    (h : fs.files.get? path = some (.raster (.counts data) georef)) (n : Nat) :
    Does (Command.readCounts path) fs n (data, georef) fs := Does.bind (Does.openRaster h n) (Does.pure _ _ _)

theorem Does.readLabels {fs : FileSystem β K} {path : Path} {data : Raster Int} {nodata : Option Int} {georef : Georef K}
    (h : fs.files.get? path = some (.raster (.labels data nodata) georef)) (n : Nat) :
    Does (Command.readLabels path) fs n (data, nodata, georef) fs := Does.bind (Does.openRaster h n) (Does.pure _ _ _)

/-! ### Layers -/

/-- The GeoPackage at a path, `none` if there is no file. -/
def packageAt (fs : FileSystem β K) (path : Path) (layers : Vector.Datasource K)
    (polygons : Dict String (List (PolygonFeature K))) : Prop :=
  fs.files.get? path = some (.geopackage layers polygons) ∨ fs.files.get? path = none ∧ layers = [] ∧ polygons = []

/-- The layers after features are written to one of them. -/
def withLayer (ogr : Ogr K) (layers : Vector.Datasource K) (name : String) (features : List (Feature K)) :
    Vector.Datasource K := (Vector.writeGeojsonFeatures ogr.text (Vector.Writer.init name []) layers features).2

/-- The polygon layers after polygons are written to one of them. -/
def withPolygons (ogr : Ogr K) (polygons : Dict String (List (PolygonFeature K))) (name : String) (data : Raster Int) :
    Dict String (List (PolygonFeature K)) :=
  polygons.set name ((polygons.get? name).getD [] ++ Polygons.vectorizeLabelsFile ogr.polygonize (some 0) data "bspot_id")

theorem Does.openForUpdate {fs : FileSystem β K} {path : Path} {layers : Vector.Datasource K}
    {polygons : Dict String (List (PolygonFeature K))} (h : packageAt fs path layers polygons) (n : Nat) :
    Does (Command.openForUpdate path) fs n (layers, polygons) fs := by
  refine Does.bind (Does.files fs n) ?_
  rcases h with h | ⟨h, rfl, rfl⟩
  · rw [h]; exact Does.pure _ _ _
  · rw [h]; exact Does.pure _ _ _

theorem Does.writeLayer (ogr : Ogr K) {fs : FileSystem β K} {path : Path} {layers : Vector.Datasource K}
    {polygons : Dict String (List (PolygonFeature K))} (hdir : path.1 ∈ fs.directories) (h : packageAt fs path layers polygons)
    (name : String) (features : List (Feature K)) (n : Nat) :
    Does (Command.writeLayer ogr path name features) fs n ()
      (fs.put path (.geopackage (withLayer ogr layers name features) polygons)) :=
  Does.bind (Does.openForUpdate h n) (Does.put hdir _ n)

theorem Does.readLayer (ogr : Ogr K) {fs : FileSystem β K} {path : Path} {layers : Vector.Datasource K}
    {polygons : Dict String (List (PolygonFeature K))} (h : fs.files.get? path = some (.geopackage layers polygons))
    {name : String} {features : List (Feature K)}
    (hr : Vector.readGeojsonFeatures ogr.fid ogr.shape layers name = .ok features) (n : Nat) :
    Does (Command.readLayer ogr path name) fs n features fs := by
  refine Does.bind (Does.files fs n) ?_
  rw [h]
  refine Does.run ?_ fs
  rw [hr]; rfl

theorem Does.writePolygons (ogr : Ogr K) {fs : FileSystem β K} {labels path : Path} {layers : Vector.Datasource K}
    {polygons : Dict String (List (PolygonFeature K))} (hdir : path.1 ∈ fs.directories) (h : packageAt fs path layers polygons)
    {data : Raster Int} {georef : Georef K} (hl : fs.files.get? labels = some (.raster (.labels data (some 0)) georef))
    (name : String) (n : Nat) :
    Does (Command.writePolygons ogr labels path name) fs n ()
      (fs.put path (.geopackage layers (withPolygons ogr polygons name data))) :=
  Does.bind (Does.readLabels hl n) (Does.bind (Does.openForUpdate h n) (Does.put hdir _ n))

/-- What is read from a layer that was new when the features were written to it. -/
abbrev back (ogr : Ogr K) : String → List (Feature K) → List (Feature K) :=
  layerBack ogr.text ogr.fid ogr.shape fun _ => []

theorem withLayer_eq (ogr : Ogr K) (name : String) (features : List (Feature K)) :
    ∃ l, ∀ layers : Vector.Datasource K, layers.get? name = none →
      withLayer ogr layers name features = layers.set name l := by
  refine ⟨⟨if features = [] then [] else Vector.geojsonFields features, features.map fun f => ⟨f.geometry,
    Vector.fieldValues ogr.text (Vector.geojsonFields features) fun n => (Vector.fieldValues ogr.text
      (Vector.geojsonFields features) fun n => f.properties.get? n).get? n⟩⟩, fun layers h => ?_⟩
  unfold withLayer
  rw [Vector.write_ds]
  unfold Vector.initLayer
  rw [h]
  rfl

theorem get_withLayer (ogr : Ogr K) (layers : Vector.Datasource K) {name other : String} (hne : name ≠ other)
    (features : List (Feature K)) : (withLayer ogr layers name features).get? other = layers.get? other := by
  unfold withLayer
  rw [Vector.write_ds, Dict.get?_set, if_neg hne]

theorem read_withLayer (ogr : Ogr K) {layers : Vector.Datasource K} {name : String} (h : layers.get? name = none)
    (features : List (Feature K)) :
    Vector.readGeojsonFeatures ogr.fid ogr.shape (withLayer ogr layers name features) name = .ok (back ogr name features) := by
  obtain ⟨l, hl⟩ := withLayer_eq ogr name features
  have h1 : ∀ layers' : Vector.Datasource K, layers'.get? name = none →
      Vector.readGeojsonFeatures ogr.fid ogr.shape (withLayer ogr layers' name features) name =
        .ok (l.features.zipIdx.map fun (f, i) => ⟨ogr.fid i, ogr.shape f.geometry, f.values⟩) := by
    intro layers' h'
    rw [hl _ h']
    unfold Vector.readGeojsonFeatures
    rw [Dict.get?_set, if_pos rfl]
  have h2 := h1 [] rfl
  rw [h1 layers h]
  show _ = Except.ok ((Vector.readGeojsonFeatures ogr.fid ogr.shape (withLayer ogr [] name features) name).toOption.getD [])
  rw [h2]
  rfl

theorem read_other (ogr : Ogr K) (layers : Vector.Datasource K) {name other : String} (hne : name ≠ other)
    (features : List (Feature K)) :
    Vector.readGeojsonFeatures ogr.fid ogr.shape (withLayer ogr layers name features) other =
      Vector.readGeojsonFeatures ogr.fid ogr.shape layers other := by
  unfold Vector.readGeojsonFeatures
  rw [get_withLayer ogr layers hne]

theorem keys_set {κ ν : Type} [DecidableEq κ] : ∀ {d : Dict κ ν} {k : κ} {v : ν}, d.get? k = none →
    (d.set k v).map (·.1) = d.map (·.1) ++ [k] := by
  intro d
  induction d with
  | nil => intro k v _; rfl
  | cons a d ih =>
    obtain ⟨k', v'⟩ := a
    intro k v h
    by_cases hk : k' = k
    · simp [Dict.get?, hk] at h
    · simp only [Dict.get?, if_neg hk] at h
      simp [Dict.set, hk, ih h]

theorem keys_withLayer (ogr : Ogr K) {layers : Vector.Datasource K} {name : String} (h : layers.get? name = none)
    (features : List (Feature K)) : (withLayer ogr layers name features).map (·.1) = layers.map (·.1) ++ [name] := by
  obtain ⟨l, hl⟩ := withLayer_eq ogr name features
  rw [hl _ h]
  exact keys_set h

/-! ### The tools -/

theorem accum_isSome {eng : Dem.Engine β K} {sub : β → β → K} {safe : Raster β → (β → β) × (β → β)} {square want : Bool}
    {dem : Raster β} {n : Nat} {out : Dem.Out β K} (h : Dem.process eng sub safe square want dem n = some (.ok out)) :
    out.accum.isSome = want := by
  unfold Dem.process at h
  split at h
  · cases h
  · rcases hf : eng.fillTerrain dem n with _ | _ | filled
    · rw [hf] at h; cases h
    · rw [hf] at h; cases h
    · rw [hf] at h
      dsimp only at h
      rcases hg : eng.fillTerrainNoFlats (safe dem).1 (safe dem).2 dem n with _ | _ | g
      · rw [hg] at h; cases h
      · rw [hg] at h; cases h
      · rw [hg] at h
        dsimp only at h
        split at h
        · rename_i hw
          rcases ha : eng.accumulatedFlow (Flow.terrainFlowdirection eng.drop eng.scale g true) n with _ | _ | a
          · rw [ha] at h; cases h
          · rw [ha] at h; cases h
          · rw [ha] at h
            simp only [Option.some.injEq, Except.ok.injEq] at h
            rw [← h, hw]; rfl
        · rename_i hw
          simp only [Option.some.injEq, Except.ok.injEq] at h
          rw [← h]
          simp at hw
          rw [hw]; rfl

/-- `m` with another content under a name. -/
def upd (m : String → Option (Content β K)) (name : String) (content : Content β K) : String → Option (Content β K) :=
  fun k => if name = k then some content else m k

/-- The files `fs` are those of `fs0`, except that the directory `outdir` has the contents `m`. -/
structure Holds (fs0 : FileSystem β K) (outdir : String) (fs : FileSystem β K) (m : String → Option (Content β K)) : Prop where
  directories : fs.directories = fs0.directories
  elsewhere : ∀ path : Path, path.1 ≠ outdir → fs.files.get? path = fs0.files.get? path
  inside : ∀ name, fs.files.get? (outdir, name) = m name

variable {fs0 fs : FileSystem β K} {outdir : String} {m : String → Option (Content β K)}

theorem Holds.put (h : Holds fs0 outdir fs m) (name : String) (content : Content β K) :
    Holds fs0 outdir (fs.put (outdir, name) content) (upd m name content) where
  directories := h.directories
  elsewhere path hp := by
    rw [get_put, if_neg (fun e => hp (by rw [← e])), h.elsewhere path hp]
  inside k := by
    rw [get_put, h.inside]
    unfold upd
    by_cases e : name = k
    · rw [if_pos (by rw [e]), if_pos e]
    · rw [if_neg (fun he => e (Prod.mk.inj he).2), if_neg e]

/-- The contents after a raster of accumulated flow, if any. -/
def withAccum (georef : Georef K) (accum : Option (Raster Int)) (m : String → Option (Content β K)) :
    String → Option (Content β K) :=
  match accum with
  | some a => upd m "accum.tif" (.raster (.counts a) georef)
  | none => m

theorem Holds.congr {m' : String → Option (Content β K)} (h : Holds fs0 outdir fs m) (e : ∀ name, m name = m' name) :
    Holds fs0 outdir fs m' := ⟨h.directories, h.elsewhere, fun name => (h.inside name).trans (e name)⟩

theorem demTool_does {demEngine : Dem.Engine β K} {sub : β → β → K} {safe : Raster β → (β → β) × (β → β)} {subst : β}
    {near : β → Bool} {dem : Path} {georef dem_georef : Georef K} {file : ElevFile β} {accum : Bool}
    (filled : Raster β) (depths : Raster K) (flowdir : Raster Nat) {accum_data : Option (Raster Int)}
    (hs : accum_data.isSome = accum)
    (hdir : outdir ∈ fs0.directories) (h : Holds fs0 outdir fs m) (hdem : dem.1 ≠ outdir)
    (hfile : fs0.files.get? dem = some (.raster (.elevations file) dem_georef)) :
    ∃ fs', (∀ n out, Dem.process demEngine sub safe (Complete.squareCells dem_georef.transform) accum (file.read (some subst)) n =
        some (.ok out) → out.filled = filled → out.depths = depths → out.flowdir = flowdir → out.accum = accum_data →
        Does (demTool demEngine sub safe subst near dem georef (outdir, "filled.tif") (outdir, "bs_depths.tif")
        (outdir, "flowdir.tif") (if accum then some (outdir, "accum.tif") else none)) fs n () fs') ∧
      Holds fs0 outdir fs' (withAccum georef accum_data (upd (upd (upd m "filled.tif"
        (.raster (.elevations ⟨filled, some near⟩) georef)) "bs_depths.tif" (.raster (.numbers depths) georef))
        "flowdir.tif" (.raster (.directions flowdir) georef))) := by
  have hr := fun n => Does.readElevations (n := n) (fs := fs) ((h.elsewhere dem hdem).trans hfile) (some subst)
  have hd : ∀ {fs' : FileSystem β K} {m'}, Holds fs0 outdir fs' m' → outdir ∈ fs'.directories := fun h => by
    rw [h.directories]; exact hdir
  have h1 := h.put "filled.tif" (.raster (.elevations ⟨filled, some near⟩) georef)
  have h2 := h1.put "bs_depths.tif" (.raster (.numbers depths) georef)
  have h3 := h2.put "flowdir.tif" (.raster (.directions flowdir) georef)
  cases accum with
  | false =>
    have ha : accum_data = none := by simpa using hs
    subst ha
    refine ⟨_, fun n out hout e1 e2 e3 e4 => ?_, h3⟩
    subst e1 e2 e3
    refine (hr n).bind ?_
    refine (Does.run hout _).bind ?_
    refine (Does.writeRaster (hd h) _ _ n).bind ?_
    refine (Does.writeRaster (hd h1) _ _ n).bind ?_
    refine (Does.writeRaster (hd h2) _ _ n).bind ?_
    exact Does.pure _ _ _
  | true =>
    obtain ⟨a, rfl⟩ := Option.isSome_iff_exists.1 hs
    have h4 := h3.put "accum.tif" (.raster (.counts a) georef)
    refine ⟨_, fun n out hout e1 e2 e3 e4 => ?_, h4⟩
    subst e1 e2 e3
    refine (hr n).bind ?_
    refine (Does.run hout _).bind ?_
    refine (Does.writeRaster (hd h) _ _ n).bind ?_
    refine (Does.writeRaster (hd h1) _ _ n).bind ?_
    refine (Does.writeRaster (hd h2) _ _ n).bind ?_
    rw [e4]
    exact Does.writeRaster (hd h3) _ _ n

variable (ogr : Ogr K)

/-- Write a layer to the GeoPackage of the directory. -/
theorem writeLayer_does (hdir : outdir ∈ fs0.directories) (h : Holds fs0 outdir fs m) {layers : Vector.Datasource K}
    {polygons : Dict String (List (PolygonFeature K))}
    (hp : m "malstroem.gpkg" = some (.geopackage layers polygons) ∨ m "malstroem.gpkg" = none ∧ layers = [] ∧ polygons = [])
    (name : String) (features : List (Feature K)) :
    ∃ fs', (∀ n, Does (writeLayer ogr (outdir, "malstroem.gpkg") name features) fs n () fs') ∧
      Holds fs0 outdir fs' (upd m "malstroem.gpkg" (.geopackage (withLayer ogr layers name features) polygons)) := by
  refine ⟨_, fun n => Does.writeLayer ogr ?_ ?_ name features n, h.put _ _⟩
  · rw [h.directories]; exact hdir
  · unfold packageAt; rw [h.inside]; exact hp

theorem writePolygons_does (hdir : outdir ∈ fs0.directories) (h : Holds fs0 outdir fs m) {layers : Vector.Datasource K}
    {polygons : Dict String (List (PolygonFeature K))}
    (hp : m "malstroem.gpkg" = some (.geopackage layers polygons) ∨ m "malstroem.gpkg" = none ∧ layers = [] ∧ polygons = [])
    {labels : String} {data : Raster Int} {georef : Georef K} (hl : m labels = some (.raster (.labels data (some 0)) georef))
    (name : String) :
    ∃ fs', (∀ n, Does (writePolygons ogr (outdir, labels) (outdir, "malstroem.gpkg") name) fs n () fs') ∧
      Holds fs0 outdir fs' (upd m "malstroem.gpkg" (.geopackage layers (withPolygons ogr polygons name data))) := by
  refine ⟨_, fun n => Does.writePolygons ogr ?_ ?_ (by rw [h.inside]; exact hl) name n, h.put _ _⟩
  · rw [h.directories]; exact hdir
  · unfold packageAt; rw [h.inside]; exact hp

/-- The polygon layers that BluespotTool writes. -/
def vectorized (vector : Bool) (labeled watersheds : Raster Int) : Dict String (List (PolygonFeature K)) :=
  if vector then withPolygons ogr (withPolygons ogr [] "bluespots" labeled) "watersheds" watersheds else []

theorem bluespotTool_does {cc : Raster Bool → Raster Int × Nat} {eng : Bluespots.Engine β K}
    {safe : Raster β → (β → β) × (β → β)} {subst : β} {filter_function : Bluespots.StatUnits K → Bool}
    {dem : Path} {georef dem_georef depths_georef flowdir_georef accum_georef : Georef K} {file : ElevFile β} {accum vector : Bool}
    {depths : Raster K} {flowdir : Raster Nat} {accum_data : Option (Raster Int)} (labeled watersheds : Raster Int)
    (pourpoints : List (Feature K))
    (hdir : outdir ∈ fs0.directories) (h : Holds fs0 outdir fs m) (hdem : dem.1 ≠ outdir)
    (hfile : fs0.files.get? dem = some (.raster (.elevations file) dem_georef))
    (hdepths : m "bs_depths.tif" = some (.raster (.numbers depths) depths_georef))
    (hflowdir : m "flowdir.tif" = some (.raster (.directions flowdir) flowdir_georef))
    (haccum : accum_data.isSome = accum)
    (haccum' : ∀ a, accum_data = some a → m "accum.tif" = some (.raster (.counts a) accum_georef))
    (hnew : m "malstroem.gpkg" = none) :
    ∃ fs', (∀ n out, Bluespots.process cc eng safe depths_georef.transform depths (some filter_function) flowdir accum_data
          (some (file.read (some subst))) n = some (.ok out) → out.labeled = labeled → out.watersheds = watersheds →
        out.pourpoints.map (·.feature) = pourpoints →
        Does (bluespotTool ogr cc eng safe subst filter_function dem (outdir, "bs_depths.tif") (outdir, "flowdir.tif")
        (if accum then some (outdir, "accum.tif") else none) georef (outdir, "bluespots.tif") (outdir, "watersheds.tif")
        (outdir, "malstroem.gpkg") vector) fs n () fs') ∧
      Holds fs0 outdir fs' (upd (upd (upd m "bluespots.tif"
        (.raster (.labels labeled (some 0)) georef)) "watersheds.tif" (.raster (.labels watersheds (some 0)) georef))
        "malstroem.gpkg" (.geopackage (withLayer ogr [] "pourpoints" pourpoints) (vectorized ogr vector labeled watersheds))) := by
  have hd : ∀ {fs' : FileSystem β K} {m'}, Holds fs0 outdir fs' m' → outdir ∈ fs'.directories := fun h => by
    rw [h.directories]; exact hdir
  have r1 := fun n => Does.readNumbers (n := n) (fs := fs) (path := (outdir, "bs_depths.tif")) ((h.inside _).trans hdepths)
  have r2 := fun n => Does.readDirections (n := n) (fs := fs) (path := (outdir, "flowdir.tif")) ((h.inside _).trans hflowdir)
  have r4 := fun n => Does.readElevations (n := n) (fs := fs) ((h.elsewhere dem hdem).trans hfile) (some subst)
  have r3 : ∀ n, Does (readAccum (if accum then some (outdir, "accum.tif") else none) : Cmd β K (Option (Raster Int))) fs n
      accum_data fs := by
    intro n
    cases accum with
    | false =>
      have : accum_data = none := by simpa using haccum
      rw [this]; exact Does.pure _ _ _
    | true =>
      obtain ⟨a, ha⟩ := Option.isSome_iff_exists.1 haccum
      rw [ha]
      exact (Does.readCounts (path := (outdir, "accum.tif")) ((h.inside _).trans (haccum' a ha)) n).bind (Does.pure _ _ _)
  have h1 := h.put "bluespots.tif" (.raster (.labels labeled (some 0)) georef)
  have w1 := fun n => Does.writeRaster (n := n) (path := (outdir, "bluespots.tif")) (hd h) georef (.labels labeled (some 0))
  cases vector with
  | false =>
    have h2 := h1.put "watersheds.tif" (.raster (.labels watersheds (some 0)) georef)
    have w2 := fun n => Does.writeRaster (n := n) (path := (outdir, "watersheds.tif")) (hd h1) georef (.labels watersheds (some 0))
    obtain ⟨fs', w3, h3⟩ := writeLayer_does ogr hdir h2 (layers := []) (polygons := [])
      (.inr ⟨by simp [upd, hnew], rfl, rfl⟩) "pourpoints" pourpoints
    refine ⟨fs', fun n out hout e1 e2 e3 => ?_, h3⟩
    subst e1 e2 e3
    refine (r1 n).bind ((r2 n).bind ((r3 n).bind ((r4 n).bind ((Does.run hout _).bind ((w1 n).bind ?_)))))
    exact (Does.pure _ _ _).bind ((w2 n).bind ((Does.pure _ _ _).bind (w3 n)))
  | true =>
    obtain ⟨fs1, w2, h2⟩ := writePolygons_does ogr hdir h1 (layers := []) (polygons := [])
      (.inr ⟨by simp [upd, hnew], rfl, rfl⟩) (labels := "bluespots.tif") (data := labeled) (georef := georef)
      (by simp [upd]) "bluespots"
    have h3 := h2.put "watersheds.tif" (.raster (.labels watersheds (some 0)) georef)
    have w3 := fun n => Does.writeRaster (n := n) (path := (outdir, "watersheds.tif")) (hd h2) georef (.labels watersheds (some 0))
    obtain ⟨fs2, w4, h4⟩ := writePolygons_does ogr hdir h3 (layers := []) (polygons := withPolygons ogr [] "bluespots" labeled)
      (.inl (by simp [upd])) (labels := "watersheds.tif") (data := watersheds) (georef := georef)
      (by simp [upd]) "watersheds"
    obtain ⟨fs', w5, h5⟩ := writeLayer_does ogr hdir h4 (layers := [])
      (polygons := withPolygons ogr (withPolygons ogr [] "bluespots" labeled) "watersheds" watersheds)
      (.inl (by simp [upd])) "pourpoints" pourpoints
    refine ⟨fs', fun n out hout e1 e2 e3 => ?_, h5.congr fun name => ?_⟩
    · subst e1 e2 e3
      refine (r1 n).bind ((r2 n).bind ((r3 n).bind ((r4 n).bind ((Does.run hout _).bind ((w1 n).bind ?_)))))
      exact (w2 n).bind ((w3 n).bind ((w4 n).bind (w5 n)))
    · unfold upd vectorized
      split_ifs <;> first | rfl | simp_all

theorem readLayer_does (h : Holds fs0 outdir fs m) {layers : Vector.Datasource K}
    {polygons : Dict String (List (PolygonFeature K))} (hp : m "malstroem.gpkg" = some (.geopackage layers polygons))
    {name : String} {features : List (Feature K)}
    (hr : Vector.readGeojsonFeatures ogr.fid ogr.shape layers name = .ok features) (n : Nat) :
    Does (readLayer ogr (outdir, "malstroem.gpkg") name) fs n features fs :=
  Does.readLayer ogr ((h.inside _).trans hp) hr n

theorem streamTool_does (hdir : outdir ∈ fs0.directories) (h : Holds fs0 outdir fs m) {layers : Vector.Datasource K}
    {polygons : Dict String (List (PolygonFeature K))} (hp : m "malstroem.gpkg" = some (.geopackage layers polygons))
    {flowdir_georef labels_georef : Georef K} {flowdir : Raster Nat} {labeled : Raster Int} {nodata : Option Int}
    {pourpoints : List (Feature K)} (out : List (Feature K) × List (Feature K))
    (hflowdir : m "flowdir.tif" = some (.raster (.directions flowdir) flowdir_georef))
    (hlabels : m "bluespots.tif" = some (.raster (.labels labeled nodata) labels_georef))
    (hr : Vector.readGeojsonFeatures ogr.fid ogr.shape layers "pourpoints" = .ok pourpoints) :
    ∃ fs', (∀ n, Streams.process flowdir_georef.transform flowdir labeled pourpoints true n = some (.ok out) →
        Does (streamTool ogr (outdir, "malstroem.gpkg") (outdir, "bluespots.tif") (outdir, "flowdir.tif")) fs n () fs') ∧
      Holds fs0 outdir fs' (upd m "malstroem.gpkg"
        (.geopackage (withLayer ogr (withLayer ogr layers "nodes" out.1) "streams" out.2) polygons)) := by
  obtain ⟨fs1, w1, h1⟩ := writeLayer_does ogr hdir h (.inl hp) "nodes" out.1
  obtain ⟨fs2, w2, h2⟩ := writeLayer_does ogr hdir h1 (.inl (by simp [upd]; exact ⟨rfl, rfl⟩)) "streams" out.2
  refine ⟨fs2, fun n hout => ?_, h2.congr fun name => ?_⟩
  · refine (Does.readDirections (path := (outdir, "flowdir.tif")) ((h.inside _).trans hflowdir) n).bind ?_
    refine (Does.readLabels (path := (outdir, "bluespots.tif")) ((h.inside _).trans hlabels) n).bind ?_
    refine (readLayer_does ogr h hp hr n).bind ?_
    refine Does.bind (a := out) (Does.run hout _) ?_
    exact (w1 n).bind (w2 n)
  · unfold upd; split_ifs <;> rfl

/-- A tool that reads a layer and writes another one. -/
theorem layerTool_does (hdir : outdir ∈ fs0.directories) (h : Holds fs0 outdir fs m) {layers : Vector.Datasource K}
    {polygons : Dict String (List (PolygonFeature K))} (hp : m "malstroem.gpkg" = some (.geopackage layers polygons))
    {input output : String} {x : List (Feature K) → Run (List (Feature K))} {features : List (Feature K)}
    (result : List (Feature K)) (hr : Vector.readGeojsonFeatures ogr.fid ogr.shape layers input = .ok features) :
    ∃ fs', (∀ n, x features n = some (.ok result) → Does (do
        let features ← readLayer ogr (outdir, "malstroem.gpkg") input
        let result ← Cmd.run (x features)
        writeLayer ogr (outdir, "malstroem.gpkg") output result) fs n () fs') ∧
      Holds fs0 outdir fs' (upd m "malstroem.gpkg" (.geopackage (withLayer ogr layers output result) polygons)) := by
  obtain ⟨fs', w, h'⟩ := writeLayer_does ogr hdir h (.inl hp) output result
  exact ⟨fs', fun n hx => (readLayer_does ogr h hp hr n).bind ((Does.run hx _).bind (w n)), h'⟩

/-- The layers of the GeoPackage up to the final state. -/
def layers5 (pourpoints nodes streams volumes final : List (Feature K)) : Vector.Datasource K :=
  withLayer ogr (withLayer ogr (withLayer ogr (withLayer ogr (withLayer ogr [] "pourpoints" pourpoints) "nodes" nodes)
    "streams" streams) "initvolumes" volumes) "finalstate" final

/-- The contents of the output directory up to the final state. -/
def contents5 (near : β → Bool) (georef : Georef K) (filled : Raster β) (depths : Raster K) (flowdir : Raster Nat)
    (accum : Option (Raster Int)) (labeled watersheds : Raster Int) (package : Content β K) : String → Option (Content β K) :=
  upd (upd (upd (withAccum georef accum (upd (upd (upd (fun _ => none) "filled.tif"
        (.raster (.elevations ⟨filled, some near⟩) georef)) "bs_depths.tif" (.raster (.numbers depths) georef))
        "flowdir.tif" (.raster (.directions flowdir) georef))) "bluespots.tif"
        (.raster (.labels labeled (some 0)) georef)) "watersheds.tif" (.raster (.labels watersheds (some 0)) georef))
        "malstroem.gpkg" package

theorem untilFinalState_does [FloorRing K] (s : Setting β K) {dem : Path} {georef : Georef K} {file : ElevFile β}
    {accum vector : Bool} {filter_function : Bluespots.StatUnits K → Bool} {mm : K}
    (filled : Raster β) (depths : Raster K) (flowdir : Raster Nat) {accum_data : Option (Raster Int)}
    (hs : accum_data.isSome = accum) (labeled watersheds : Raster Int)
    (pourpoints nodes streams volumes final : List (Feature K))
    (hdir : outdir ∈ fs0.directories) (h : Holds fs0 outdir fs fun _ => none) (hdem : dem.1 ≠ outdir)
    (hfile : fs0.files.get? dem = some (.raster (.elevations file) georef)) :
    ∃ fs', (∀ n d b, Dem.process s.demEngine s.sub s.safe (Complete.squareCells georef.transform) accum (file.read (some s.subst)) n =
        some (.ok d) → d.filled = filled → d.depths = depths → d.flowdir = flowdir → d.accum = accum_data →
        Bluespots.process s.cc s.bluespotEngine s.safe georef.transform depths (some filter_function) flowdir accum_data
          (some (file.read (some s.subst))) n = some (.ok b) → b.labeled = labeled → b.watersheds = watersheds →
        b.pourpoints.map (·.feature) = pourpoints →
        Streams.process georef.transform flowdir labeled (back ogr "pourpoints" pourpoints) true n = some (.ok (nodes, streams)) →
        Rain.simpleVolumes (back ogr "nodes" nodes) "inputv" mm = .ok volumes →
        Network.finalState (back ogr "initvolumes" volumes) "inputv" n = some (.ok final) →
        Does (untilFinalState ogr s dem outdir accum vector filter_function mm georef) fs n () fs') ∧
      Holds fs0 outdir fs' (contents5 s.near georef filled depths flowdir accum_data labeled watersheds
        (.geopackage (layers5 ogr pourpoints nodes streams volumes final) (vectorized ogr vector labeled watersheds))) := by
  obtain ⟨fs1, w1, h1⟩ := demTool_does (demEngine := s.demEngine) (sub := s.sub) (safe := s.safe) (subst := s.subst)
    (near := s.near) (georef := georef) filled depths flowdir hs hdir h hdem hfile
  have hacc : ∀ name, name ≠ "accum.tif" → ∀ m : String → Option (Content β K), withAccum georef accum_data m name = m name := by
    intro name hne m
    unfold withAccum upd
    cases accum_data with
    | none => rfl
    | some a => exact if_neg (Ne.symm hne)
  obtain ⟨fs2, w2, h2⟩ := bluespotTool_does ogr (cc := s.cc) (eng := s.bluespotEngine) (safe := s.safe) (subst := s.subst)
    (filter_function := filter_function) (georef := georef) (accum_georef := georef) (vector := vector) (depths := depths)
    (flowdir := flowdir) (depths_georef := georef) (flowdir_georef := georef) labeled watersheds
    pourpoints hdir h1 hdem hfile (by rw [hacc _ (by decide)]; rfl) (by rw [hacc _ (by decide)]; rfl) hs
    (fun a ha => by rw [ha]; rfl) (by rw [hacc _ (by decide)]; rfl)
  obtain ⟨fs3, w3, h3⟩ := streamTool_does ogr hdir h2 rfl (flowdir := flowdir) (flowdir_georef := georef) (labels_georef := georef)
    (nodata := some 0) (labeled := labeled)
    (nodes, streams) (by
      show withAccum georef accum_data _ "flowdir.tif" = _
      rw [hacc _ (by decide)]; rfl) rfl (read_withLayer ogr rfl pourpoints)
  obtain ⟨fs4, w4, h4⟩ := layerTool_does ogr hdir h3 rfl (input := "nodes") (output := "initvolumes")
    (x := fun nodes => Run.ofExcept (Rain.simpleVolumes nodes "inputv" mm)) (features := back ogr "nodes" nodes) volumes (by
      rw [read_other ogr _ (by decide), read_withLayer ogr]
      rw [get_withLayer ogr _ (by decide)]; rfl)
  obtain ⟨fs5, w5, h5⟩ := layerTool_does ogr hdir h4 rfl (input := "initvolumes") (output := "finalstate")
    (x := fun volumes => Run.ofFuel (Network.finalState volumes "inputv")) (features := back ogr "initvolumes" volumes) final (by
      rw [read_withLayer ogr]
      rw [get_withLayer ogr _ (by decide), get_withLayer ogr _ (by decide), get_withLayer ogr _ (by decide)]; rfl)
  refine ⟨fs5, ?_, h5.congr fun name => ?_⟩
  · intro n d b hd e1 e2 e3 e4 hb e5 e6 e7 hstr hvol hfin
    exact (w1 n d hd e1 e2 e3 e4).bind ((w2 n b hb e5 e6 e7).bind ((w3 n hstr).bind
      ((w4 n (by show some _ = _; rw [hvol])).bind (w5 n hfin))))
  · unfold contents5 upd
    split_ifs <;> rfl

/-- The contents of the output directory at the end. -/
def contents7 (m : String → Option (Content β K)) (georef : Georef K) (finaldepths : Raster K) (finalbluespots : Raster Int)
    (package : Content β K) : String → Option (Content β K) :=
  upd (upd (upd m "finaldepths.tif" (.raster (.numbers finaldepths) georef)) "finalbluespots.tif"
    (.raster (.labels finalbluespots (some 0)) georef)) "malstroem.gpkg" package

theorem afterFinalState_does [FloorRing K] (s : Setting β K) {dem : Path} {georef : Georef K} {file : ElevFile β}
    {zresolution : K} (labeled : Raster Int) {layers : Vector.Datasource K} {polygons : Dict String (List (PolygonFeature K))}
    {pourpoints final : List (Feature K)} (hyps levels : List (Feature K)) (finaldepths : Raster K) (finalbluespots : Raster Int)
    (hdir : outdir ∈ fs0.directories) (h : Holds fs0 outdir fs m) (hdem : dem.1 ≠ outdir)
    (hfile : fs0.files.get? dem = some (.raster (.elevations file) georef))
    (hlabels : m "bluespots.tif" = some (.raster (.labels labeled (some 0)) georef))
    (hp : m "malstroem.gpkg" = some (.geopackage layers polygons))
    (hpour : Vector.readGeojsonFeatures ogr.fid ogr.shape layers "pourpoints" = .ok pourpoints)
    (hfinal : Vector.readGeojsonFeatures ogr.fid ogr.shape layers "finalstate" = .ok final)
    (hn1 : layers.get? "hypsometry" = none) (hn2 : layers.get? "finallevels" = none) :
    ∃ fs', (∀ n, Hyps.hypsometryIo labeled georef.transform (numbers s.elev (file.read (some s.subst))) georef.transform
          pourpoints zresolution = .ok hyps →
        Approx.waterLevelIo final (back ogr "hypsometry" hyps) = .ok levels →
        Approx.approxBluespotsIo labeled (back ogr "finallevels" levels) (numbers s.elev (file.read (some s.subst))) true true 0 =
          .ok (some finaldepths, some finalbluespots) →
        Does (afterFinalState ogr s dem outdir zresolution georef) fs n () fs') ∧
      Holds fs0 outdir fs' (contents7 m georef finaldepths finalbluespots
        (.geopackage (withLayer ogr (withLayer ogr layers "hypsometry" hyps) "finallevels" levels)
          (withPolygons ogr polygons "finalbluespots" finalbluespots))) := by
  have hd : ∀ {fs' : FileSystem β K} {m'}, Holds fs0 outdir fs' m' → outdir ∈ fs'.directories := fun h => by
    rw [h.directories]; exact hdir
  obtain ⟨fs1, w1, h1⟩ := writeLayer_does ogr hdir h (.inl hp) "hypsometry" hyps
  obtain ⟨fs2, w2, h2⟩ := writeLayer_does ogr hdir h1 (.inl rfl) "finallevels" levels
  have h3 := h2.put "finaldepths.tif" (.raster (.numbers finaldepths) georef)
  have h4 := h3.put "finalbluespots.tif" (.raster (.labels finalbluespots (some 0)) georef)
  obtain ⟨fs5, w5, h5⟩ := writePolygons_does ogr hdir h4 (.inl rfl) (labels := "finalbluespots.tif") (data := finalbluespots)
    (georef := georef) rfl "finalbluespots"
  refine ⟨fs5, ?_, h5.congr fun name => ?_⟩
  · intro n hhyps hlevels hflood
    refine Does.bind (fs1 := fs1) (a := ()) ?_ (Does.bind (fs1 := fs2) (a := ()) ?_ (Does.bind (a := ()) ?_ (w5 n)))
    · refine (Does.readLabels (path := (outdir, "bluespots.tif")) ((h.inside _).trans hlabels) n).bind ?_
      refine (Does.readElevations ((h.elsewhere dem hdem).trans hfile) (some s.subst) n).bind ?_
      refine (readLayer_does ogr h hp hpour n).bind ?_
      refine Does.bind (a := hyps) (Does.run (congrArg some hhyps) _) ?_
      exact w1 n
    · refine (readLayer_does ogr h1 rfl (features := final) (by rw [read_other ogr _ (by decide)]; exact hfinal) n).bind ?_
      refine (readLayer_does ogr h1 rfl (read_withLayer ogr hn1 hyps) n).bind ?_
      refine Does.bind (a := levels) (Does.run (congrArg some hlevels) _) ?_
      exact w2 n
    · refine (Does.readLabels (path := (outdir, "bluespots.tif")) ((h2.inside _).trans hlabels) n).bind ?_
      refine (readLayer_does ogr h2 rfl (read_withLayer ogr (by rw [get_withLayer ogr _ (by decide)]; exact hn2) levels) n).bind ?_
      refine (Does.readElevations ((h2.elsewhere dem hdem).trans hfile) (some s.subst) n).bind ?_
      refine Does.bind (a := (some finaldepths, some finalbluespots)) (Does.run (congrArg some hflood) _) ?_
      exact (Does.writeRaster (path := (outdir, "finaldepths.tif")) (hd h2) _ _ n).bind
        (Does.writeRaster (path := (outdir, "finalbluespots.tif")) (hd h3) _ _ n)
  · unfold contents7 upd
    split_ifs <;> first | rfl | simp_all

theorem hypsometryTool_raises [FloorRing K] {elev : β → K} {subst : β} {dem : Path} {georef : Georef K} {file : ElevFile β}
    {zresolution : K} {labeled : Raster Int} {nodata : Option Int} {layers : Vector.Datasource K}
    {polygons : Dict String (List (PolygonFeature K))} {pourpoints : List (Feature K)}
    (h : Holds fs0 outdir fs m) (hdem : dem.1 ≠ outdir)
    (hfile : fs0.files.get? dem = some (.raster (.elevations file) georef))
    (hlabels : m "bluespots.tif" = some (.raster (.labels labeled nodata) georef))
    (hp : m "malstroem.gpkg" = some (.geopackage layers polygons))
    (hpour : Vector.readGeojsonFeatures ogr.fid ogr.shape layers "pourpoints" = .ok pourpoints) (hz : ¬ 0 < zresolution)
    (n : Nat) :
    Raises (hypsometryTool ogr elev subst dem (outdir, "bluespots.tif") (outdir, "malstroem.gpkg") zresolution) fs n
      .assertionError fs := by
  refine (Does.readLabels (path := (outdir, "bluespots.tif")) ((h.inside _).trans hlabels) n).raises ?_
  refine (Does.readElevations ((h.elsewhere dem hdem).trans hfile) (some subst) n).raises ?_
  refine (readLayer_does ogr h hp hpour n).raises ?_
  refine Raises.bind _ (Raises.run ?_ _)
  show some _ = _
  simp only [Hyps.hypsometryIo, hz, not_false_eq_true, if_true]
  rfl

/-! ### Nothing outside a directory changes -/

/-- Whatever the outcome, the command changes no file outside `outdir` and no directory. -/
def Keeps (outdir : String) {α : Type} (x : Cmd β K α) : Prop :=
  ∀ fs n r fs', x fs n = some (r, fs') → fs'.directories = fs.directories ∧
    ∀ path : Path, path.1 ≠ outdir → fs'.files.get? path = fs.files.get? path

namespace Keeps
variable {α γ : Type}

theorem same {x : Cmd β K α} (h : ∀ fs n r fs', x fs n = some (r, fs') → fs' = fs) : Keeps outdir x := by
  intro fs n r fs' hx
  rw [h fs n r fs' hx]
  exact ⟨rfl, fun _ _ => rfl⟩

theorem bind {x : Cmd β K α} {f : α → Cmd β K γ} (hx : Keeps outdir x) (hf : ∀ a, Keeps outdir (f a)) :
    Keeps outdir (x >>= f) := by
  intro fs n r fs' h
  rw [bind_apply] at h
  rcases hxn : x fs n with _ | ⟨_ | a, fs1⟩
  · rw [hxn] at h; cases h
  · rw [hxn] at h
    simp only [Option.bind_some, Option.some.injEq, Prod.mk.injEq] at h
    rw [← h.2]
    exact hx _ _ _ _ hxn
  · rw [hxn] at h
    obtain ⟨h1, h2⟩ := hx _ _ _ _ hxn
    obtain ⟨h3, h4⟩ := hf a fs1 n r fs' h
    exact ⟨h3.trans h1, fun path hp => (h4 path hp).trans (h2 path hp)⟩

theorem pure (a : α) : Keeps outdir (Pure.pure a : Cmd β K α) := same fun fs n r fs' h => by
  change some (_, fs) = some _ at h
  simp only [Option.some.injEq, Prod.mk.injEq] at h
  exact h.2.symm

theorem files : Keeps outdir (Cmd.files : Cmd β K _) := same fun fs n r fs' h => by
  change some (_, fs) = some _ at h
  simp only [Option.some.injEq, Prod.mk.injEq] at h
  exact h.2.symm

theorem fail (e : PyErr) : Keeps outdir (Cmd.fail e : Cmd β K α) := same fun fs n r fs' h => by
  change some (_, fs) = some _ at h
  simp only [Option.some.injEq, Prod.mk.injEq] at h
  exact h.2.symm

theorem run (x : Run α) : Keeps outdir (Cmd.run x : Cmd β K α) := same fun fs n r fs' h => by
  change Option.map (fun r => (r, fs)) (x n) = some _ at h
  obtain ⟨_, _, h⟩ := Option.map_eq_some_iff.1 h
  simp only [Prod.mk.injEq] at h
  exact h.2.symm

theorem put (name : String) (content : Content β K) : Keeps outdir (Command.put (outdir, name) content) := by
  intro fs n r fs' h
  change (if outdir ∈ fs.directories then _ else _) = _ at h
  split_ifs at h
  · simp only [Option.some.injEq, Prod.mk.injEq] at h
    rw [← h.2]
    refine ⟨rfl, fun path hp => ?_⟩
    show Dict.get? (fs.files.set _ _) path = _
    rw [Dict.get?_set, if_neg (fun e => hp (by rw [← e]))]
  · simp only [Option.some.injEq, Prod.mk.injEq] at h
    rw [← h.2]
    exact ⟨rfl, fun _ _ => rfl⟩

theorem openRaster (path : Path) : Keeps outdir (Command.openRaster path : Cmd β K _) :=
  files.bind fun fs => by
    split
    · exact pure _
    · exact fail _

theorem readElevations (path : Path) (subst : Option β) : Keeps outdir (Command.readElevations path subst : Cmd β K _) :=
  (openRaster path).bind fun _ => by split; exact pure _; exact fail _

theorem readNumbers (path : Path) : Keeps outdir (Command.readNumbers path : Cmd β K _) :=
  (openRaster path).bind fun _ => by split; exact pure _; exact fail _

theorem readDirections (path : Path) : Keeps outdir (Command.readDirections path : Cmd β K _) :=
  (openRaster path).bind fun _ => by split; exact pure _; exact fail _

theorem readCounts (path : Path) : Keeps outdir (Command.readCounts path : Cmd β K _) :=
  (openRaster path).bind fun _ => by split; exact pure _; exact fail _

theorem readLabels (path : Path) : Keeps outdir (Command.readLabels path : Cmd β K _) :=
  (openRaster path).bind fun _ => by split; exact pure _; exact fail _

theorem readAccum (path : Option Path) : Keeps outdir (Command.readAccum path : Cmd β K _) := by
  cases path with
  | none => exact pure _
  | some path => exact (readCounts path).bind fun _ => pure _

theorem openForUpdate (path : Path) : Keeps outdir (Command.openForUpdate path : Cmd β K _) :=
  files.bind fun fs => by
    split
    · exact pure _
    · exact pure _
    · exact fail _

theorem writeLayer (name layer : String) (features : List (Feature K)) :
    Keeps outdir (Command.writeLayer ogr (outdir, name) layer features : Cmd β K _) :=
  (openForUpdate _).bind fun _ => put _ _

theorem readLayer (path : Path) (layer : String) : Keeps outdir (Command.readLayer ogr path layer : Cmd β K _) :=
  files.bind fun fs => by
    split
    · exact run _
    · exact fail _

theorem writePolygons (labels : Path) (name layer : String) :
    Keeps outdir (Command.writePolygons ogr labels (outdir, name) layer : Cmd β K _) :=
  (readLabels _).bind fun _ => (openForUpdate _).bind fun _ => put _ _

theorem vectorizeIf (vector : Bool) (labels : Path) (name layer : String) :
    Keeps outdir (Command.vectorizeIf ogr vector labels (outdir, name) layer : Cmd β K _) := by
  unfold Command.vectorizeIf
  split
  · exact writePolygons ogr _ _ _
  · exact pure _

theorem writeIf (name : String) (georef : Georef K) (values : Option (Values β K)) :
    Keeps outdir (Command.writeIf (outdir, name) georef values) := by
  cases values with
  | none => exact pure _
  | some v => exact put _ _

theorem demTool {eng : Dem.Engine β K} {sub : β → β → K} {safe : Raster β → (β → β) × (β → β)} {subst : β} {near : β → Bool}
    {dem : Path} {georef : Georef K} {a b c : String} {d : Option Path} (hd : ∀ p, d = some p → p.1 = outdir) :
    Keeps outdir (Command.demTool eng sub safe subst near dem georef (outdir, a) (outdir, b) (outdir, c) d) := by
  refine (readElevations _ _).bind fun _ => (run _).bind fun out => (put _ _).bind fun _ => (put _ _).bind fun _ =>
    (put _ _).bind fun _ => ?_
  cases d with
  | none => exact pure _
  | some path =>
    obtain ⟨p, q⟩ := path
    obtain rfl : p = outdir := hd _ rfl
    cases out.accum with
    | none => exact pure _
    | some data => exact put _ _

theorem bluespotTool {cc : Raster Bool → Raster Int × Nat} {eng : Bluespots.Engine β K} {safe : Raster β → (β → β) × (β → β)}
    {subst : β} {ff : Bluespots.StatUnits K → Bool} {dem depths flowdir : Path} {accum : Option Path} {georef : Georef K}
    {a b c : String} {vector : Bool} :
    Keeps outdir (Command.bluespotTool ogr cc eng safe subst ff dem depths flowdir accum georef (outdir, a) (outdir, b) (outdir, c)
      vector) :=
  (readNumbers _).bind fun _ => (readDirections _).bind fun _ => (readAccum _).bind fun _ => (readElevations _ _).bind fun _ =>
    (run _).bind fun _ => (put _ _).bind fun _ => (vectorizeIf ogr _ _ _ _).bind fun _ => (put _ _).bind fun _ =>
    (vectorizeIf ogr _ _ _ _).bind fun _ => writeLayer ogr _ _ _

theorem complete [FloorRing K] (s : Setting β K) {dem : Path} {accum vector : Bool} {filter : Option (List Char)}
    {mm zresolution : K} : Keeps outdir (Command.complete ogr s dem outdir accum vector filter mm zresolution) := by
  refine files.bind fun fs => ?_
  split_ifs
  · exact pure _
  · refine (run _).bind fun _ => (openRaster _).bind fun _ => Keeps.bind ?_ fun _ => Keeps.bind ?_ fun _ => pure _
    · refine (demTool ?_).bind fun _ => (bluespotTool ogr).bind fun _ => Keeps.bind ?_ fun _ => Keeps.bind ?_ fun _ => ?_
      · intro p hp
        split_ifs at hp
        cases hp
        rfl
      · exact (readDirections _).bind fun _ => (readLabels _).bind fun _ => (readLayer ogr _ _).bind fun _ => (run _).bind fun _ =>
          (writeLayer ogr _ _ _).bind fun _ => writeLayer ogr _ _ _
      · exact (readLayer ogr _ _).bind fun _ => (run _).bind fun _ => writeLayer ogr _ _ _
      · exact (readLayer ogr _ _).bind fun _ => (run _).bind fun _ => writeLayer ogr _ _ _
    · refine Keeps.bind ?_ fun _ => Keeps.bind ?_ fun _ => Keeps.bind ?_ fun _ => writePolygons ogr _ _ _
      · exact (readLabels _).bind fun _ => (readElevations _ _).bind fun _ => (readLayer ogr _ _).bind fun _ => (run _).bind fun _ =>
          writeLayer ogr _ _ _
      · exact (readLayer ogr _ _).bind fun _ => (readLayer ogr _ _).bind fun _ => (run _).bind fun _ => writeLayer ogr _ _ _
      · exact (readLabels _).bind fun _ => (readLayer ogr _ _).bind fun _ => (readElevations _ _).bind fun _ => (run _).bind fun _ =>
          (writeIf _ _ _).bind fun _ => writeIf _ _ _

end Keeps

end Command
end Malstroem
