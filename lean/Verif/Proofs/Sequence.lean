/-
The subcommands with files: what each of them does when its computation ends well.
-/
import Verif.Model.Stored
import Verif.Proofs.Subcommands

set_option linter.unusedSectionVars false

namespace Malstroem
namespace Command
open Spec Scripts
variable {K : Type} [Field K] [LinearOrder K] [FloorRing K] {β : Type} [LinearOrder β] [OrderTop β]

theorem Does.mustExist {fs : FileSystem β K} (n : Nat) : ∀ {paths : List Path},
    (∀ p ∈ paths, (fs.files.get? p).isSome) → Does (Command.mustExist paths) fs n () fs := by
  intro paths
  induction paths with
  | nil => intro _; exact Does.pure _ _ _
  | cons p rest ih =>
    intro h
    refine (Does.files fs n).bind ?_
    have hp := h p (by simp)
    rcases hg : fs.files.get? p with _ | c
    · rw [hg] at hp; cases hp
    · exact ih fun q hq => h q (by simp [hq])

theorem Does.openElevations {fs : FileSystem β K} {path : Path} {file : ElevFile β} {georef : Georef K}
    (h : fs.files.get? path = some (.raster (.elevations file) georef)) (n : Nat) :
    Does (Command.openElevations path) fs n (file, georef) fs := Does.bind (Does.openRaster h n) (Does.pure _ _ _)

section
variable (ogr : Ogr K) (s : Setting β K) {fs : FileSystem β K} {n : Nat} {georef g1 g2 : Georef K}

theorem filled_does {dem out : Path} {file filled : ElevFile β} (hout : out.1 ∈ fs.directories)
    (h1 : fs.files.get? dem = some (.raster (.elevations file) georef))
    (h : Scripts.filled s.demEngine s.subst s.near file n = some (.ok filled)) :
    Does (runSub ogr s (.filled dem out)) fs n () (fs.put out (.raster (.elevations filled) georef)) :=
  (Does.mustExist n (by simp [h1])).bind ((Does.openElevations h1 n).bind ((Does.run h fs).bind (Does.writeRaster hout _ _ n)))

theorem depths_does {dem filled out : Path} {file filled_file : ElevFile β} (hout : out.1 ∈ fs.directories)
    (h1 : fs.files.get? dem = some (.raster (.elevations file) georef))
    (h2 : fs.files.get? filled = some (.raster (.elevations filled_file) g1)) :
    Does (runSub ogr s (.depths dem filled out)) fs n ()
      (fs.put out (.raster (.numbers (Scripts.depths s.sub s.subst file filled_file)) georef)) :=
  (Does.mustExist n (by simp [h1, h2])).bind ((Does.openElevations h1 n).bind ((Does.openElevations h2 n).bind
    (Does.writeRaster hout _ _ n)))

theorem flowdir_does {dem out : Path} {file : ElevFile β} {flowdir : Raster Nat} (hout : out.1 ∈ fs.directories)
    (h1 : fs.files.get? dem = some (.raster (.elevations file) georef))
    (h : Scripts.flowdir s.demEngine s.safe s.subst file n = some (.ok flowdir)) :
    Does (runSub ogr s (.flowdir dem out)) fs n () (fs.put out (.raster (.directions flowdir) georef)) :=
  (Does.mustExist n (by simp [h1])).bind ((Does.openElevations h1 n).bind ((Does.run h fs).bind (Does.writeRaster hout _ _ n)))

theorem accum_does {flowdir out : Path} {data : Raster Nat} {accum : Raster Int} (hout : out.1 ∈ fs.directories)
    (h1 : fs.files.get? flowdir = some (.raster (.directions data) georef))
    (h : Scripts.accum s.demEngine data n = some (.ok accum)) :
    Does (runSub ogr s (.accum flowdir out)) fs n () (fs.put out (.raster (.counts accum) georef)) :=
  (Does.mustExist n (by simp [h1])).bind ((Does.readDirections h1 n).bind ((Does.run h fs).bind (Does.writeRaster hout _ _ n)))

theorem bspots_does {depths out : Path} {data : Raster K} {filter text : Option (List Char)} {labels : Raster Int}
    (hout : out.1 ∈ fs.directories) (h1 : fs.files.get? depths = some (.raster (.numbers data) georef))
    (hf : Filter.parseFilter filter = .ok text)
    (h : Scripts.bspots s.cc s.bluespotEngine georef.transform data (text.map s.evalFilter) n = some (.ok labels)) :
    Does (runSub ogr s (.bspots depths out filter)) fs n () (fs.put out (.raster (.labels labels (some 0)) georef)) :=
  (Does.mustExist n (by simp [h1])).bind ((Does.readNumbers h1 n).bind ((Does.run (congrArg some hf) fs).bind
    ((Does.run h fs).bind (Does.writeRaster hout _ _ n))))

theorem wsheds_does {bluespots flowdir out : Path} {labels watersheds : Raster Int} {nodata : Option Int} {data : Raster Nat}
    (hout : out.1 ∈ fs.directories) (h1 : fs.files.get? bluespots = some (.raster (.labels labels nodata) georef))
    (h2 : fs.files.get? flowdir = some (.raster (.directions data) g1))
    (h : Scripts.wsheds s.bluespotEngine labels data n = some (.ok watersheds)) :
    Does (runSub ogr s (.wsheds bluespots flowdir out)) fs n () (fs.put out (.raster (.labels watersheds (some 0)) georef)) :=
  (Does.mustExist n (by simp [h1, h2])).bind ((Does.readLabels h1 n).bind ((Does.readDirections h2 n).bind
    ((Does.run h fs).bind (Does.writeRaster hout _ _ n))))

theorem pourpts_does {bluespots depths watersheds dem accum out : Path} {labels watersheds_data : Raster Int} {n1 n2 : Option Int}
    {data : Raster K} {file : ElevFile β} {counts : Option (Raster Int)} {layers : Vector.Datasource K}
    {polygons : Dict String (List (PolygonFeature K))} {layer : String} {points : List (Bluespots.PourPoint K)}
    (hout : out.1 ∈ fs.directories) (h1 : fs.files.get? bluespots = some (.raster (.labels labels n1) g1))
    (h2 : fs.files.get? depths = some (.raster (.numbers data) georef))
    (h3 : fs.files.get? watersheds = some (.raster (.labels watersheds_data n2) g2))
    (h4 : fs.files.get? dem = some (.raster (.elevations file) georef))
    (h5 : ∀ a, counts = some a → fs.files.get? accum = some (.raster (.counts a) georef))
    (hp : packageAt fs out layers polygons)
    (h : Scripts.pourpts s.bluespotEngine s.safe georef.transform labels data watersheds_data (some file) counts n =
      some (.ok points)) :
    Does (runSub ogr s (.pourpts bluespots depths watersheds (some dem) (counts.map fun _ => accum) out layer)) fs n ()
      (fs.put out (.geopackage (withLayer ogr layers layer (points.map (·.feature))) polygons)) := by
  cases counts with
  | none =>
    exact (Does.mustExist n (by simp [h1, h2, h3, h4])).bind ((Does.readLabels h1 n).bind ((Does.readNumbers h2 n).bind
      ((Does.readLabels h3 n).bind (Does.bind (a := (some file, none)) ((Does.openElevations h4 n).bind (Does.pure _ _ _))
      ((Does.run h fs).bind (Does.writeLayer ogr hout hp _ _ n))))))
  | some a =>
    have h' : Scripts.pourpts s.bluespotEngine s.safe georef.transform labels data watersheds_data none (some a) n =
        some (.ok points) := h
    exact (Does.mustExist n (by simp [h1, h2, h3, h4, h5 a rfl])).bind ((Does.readLabels h1 n).bind
      ((Does.readNumbers h2 n).bind ((Does.readLabels h3 n).bind (Does.bind (a := (none, some a))
      ((Does.readCounts (h5 a rfl) n).bind (Does.pure _ _ _)) ((Does.run h' fs).bind (Does.writeLayer ogr hout hp _ _ n))))))

theorem network_does {bluespots flowdir pourpoints out : Path} {labels : Raster Int} {n1 : Option Int} {data : Raster Nat}
    {pl nl sl : String} {points : List (Feature K)} {net : List (Feature K) × List (Feature K)} {layers layers' : Vector.Datasource K}
    {polygons polygons' : Dict String (List (PolygonFeature K))}
    (hout : out.1 ∈ fs.directories) (h1 : fs.files.get? bluespots = some (.raster (.labels labels n1) g1))
    (h2 : fs.files.get? flowdir = some (.raster (.directions data) georef))
    (h3 : fs.files.get? pourpoints = some (.geopackage layers' polygons'))
    (hr : Vector.readGeojsonFeatures ogr.fid ogr.shape layers' pl = .ok points)
    (hp : packageAt fs out layers polygons)
    (h : Scripts.network georef.transform labels data points n = some (.ok net)) :
    Does (runSub ogr s (.network bluespots flowdir pourpoints pl out nl sl)) fs n ()
      ((fs.put out (.geopackage (withLayer ogr layers nl net.1) polygons)).put out
        (.geopackage (withLayer ogr (withLayer ogr layers nl net.1) sl net.2) polygons)) :=
  (Does.mustExist n (by simp [h1, h2])).bind ((Does.readLayer ogr h3 hr n).bind ((Does.readLabels h1 n).bind
    ((Does.readDirections h2 n).bind ((Does.run h fs).bind ((Does.writeLayer ogr hout hp _ _ n).bind
    (Does.writeLayer ogr (fs := fs.put _ _) hout (.inl (by rw [get_put, if_pos rfl])) _ _ n))))))

theorem hyps_does {bluespots dem pourpoints out : Path} {labels : Raster Int} {n1 : Option Int} {file : ElevFile β}
    {pl hl : String} {zresolution : K} {points hyps : List (Feature K)} {layers layers' : Vector.Datasource K}
    {polygons polygons' : Dict String (List (PolygonFeature K))}
    (hout : out.1 ∈ fs.directories) (h1 : fs.files.get? bluespots = some (.raster (.labels labels n1) georef))
    (h2 : fs.files.get? dem = some (.raster (.elevations file) georef))
    (h3 : fs.files.get? pourpoints = some (.geopackage layers' polygons'))
    (hr : Vector.readGeojsonFeatures ogr.fid ogr.shape layers' pl = .ok points)
    (hp : packageAt fs out layers polygons)
    (h : Scripts.hyps s.elev georef.transform s.subst labels file points zresolution n = some (.ok hyps)) :
    Does (runSub ogr s (.hyps bluespots dem pourpoints pl zresolution out hl)) fs n ()
      (fs.put out (.geopackage (withLayer ogr layers hl hyps) polygons)) :=
  (Does.mustExist n (by simp [h1, h2])).bind ((Does.readLayer ogr h3 hr n).bind ((Does.readLabels h1 n).bind
    ((Does.readElevations h2 _ n).bind ((Does.run h fs).bind (Does.writeLayer ogr hout hp _ _ n)))))

theorem initvolumes_does {nodes out : Path} {nl ol att : String} {mm : K} {features volumes : List (Feature K)}
    {layers layers' : Vector.Datasource K} {polygons polygons' : Dict String (List (PolygonFeature K))} {u : Rain.Unit}
    (hout : out.1 ∈ fs.directories) (h3 : fs.files.get? nodes = some (.geopackage layers' polygons'))
    (hr : Vector.readGeojsonFeatures ogr.fid ogr.shape layers' nl = .ok features)
    (hp : packageAt fs out layers polygons)
    (h : Scripts.initvolumes features (some mm) none u none att = .ok volumes) :
    Does (runSub ogr s (.initvolumes nodes nl (some mm) none u none out ol att)) fs n ()
      (fs.put out (.geopackage (withLayer ogr layers ol volumes) polygons)) := by
  refine (Does.mustExist n (by simp)).bind ?_
  have hmm : ((some mm).filter (· ≠ 0)).isSome := by
    by_contra hc
    have h0 : (some mm).filter (· ≠ 0) = none := by simpa using hc
    unfold Scripts.initvolumes at h
    rw [h0] at h
    cases h
  rw [if_neg (by simp), if_neg (by rw [Option.isNone_iff_eq_none]; rintro ⟨e, _⟩; rw [e] at hmm; cases hmm)]
  exact (Does.readLayer ogr h3 hr n).bind (Does.bind (a := (none, none)) (Does.pure _ _ _)
    ((Does.run (congrArg some h) fs).bind (Does.writeLayer ogr hout hp _ _ n)))

theorem finalvolumes_does {inputvolumes out : Path} {il ol att : String} {volumes final : List (Feature K)}
    {layers layers' : Vector.Datasource K} {polygons polygons' : Dict String (List (PolygonFeature K))}
    (hout : out.1 ∈ fs.directories) (h3 : fs.files.get? inputvolumes = some (.geopackage layers' polygons'))
    (hr : Vector.readGeojsonFeatures ogr.fid ogr.shape layers' il = .ok volumes)
    (hp : packageAt fs out layers polygons)
    (h : Scripts.finalvolumes volumes att n = some (.ok final)) :
    Does (runSub ogr s (.finalvolumes inputvolumes il att out ol)) fs n ()
      (fs.put out (.geopackage (withLayer ogr layers ol final) polygons)) :=
  (Does.readLayer ogr h3 hr n).bind ((Does.run h fs).bind (Does.writeLayer ogr hout hp _ _ n))

theorem finallevels_does {finalvols hyps out : Path} {fl hl ol : String} {final hyps_data levels : List (Feature K)}
    {layers l1 l2 : Vector.Datasource K} {polygons p1 p2 : Dict String (List (PolygonFeature K))}
    (hout : out.1 ∈ fs.directories) (h1 : fs.files.get? finalvols = some (.geopackage l1 p1))
    (hr1 : Vector.readGeojsonFeatures ogr.fid ogr.shape l1 fl = .ok final)
    (h2 : fs.files.get? hyps = some (.geopackage l2 p2))
    (hr2 : Vector.readGeojsonFeatures ogr.fid ogr.shape l2 hl = .ok hyps_data)
    (hp : packageAt fs out layers polygons)
    (h : Scripts.finallevels final hyps_data n = some (.ok levels)) :
    Does (runSub ogr s (.finallevels finalvols fl hyps hl out ol)) fs n ()
      (fs.put out (.geopackage (withLayer ogr layers ol levels) polygons)) :=
  (Does.readLayer ogr h1 hr1 n).bind ((Does.readLayer ogr h2 hr2 n).bind ((Does.run h fs).bind
    (Does.writeLayer ogr hout hp _ _ n)))

theorem finalbluespots_does {bluespots dem finallevels out_depths out_bluespots : Path} {labels : Raster Int} {n1 : Option Int}
    {file : ElevFile β} {fl : String} {levels : List (Feature K)} {layers : Vector.Datasource K}
    {polygons : Dict String (List (PolygonFeature K))} {depths : Raster K} {extent : Raster Int}
    (hout1 : out_depths.1 ∈ fs.directories) (hout2 : out_bluespots.1 ∈ fs.directories)
    (h1 : fs.files.get? bluespots = some (.raster (.labels labels n1) georef))
    (h2 : fs.files.get? dem = some (.raster (.elevations file) g1))
    (h3 : fs.files.get? finallevels = some (.geopackage layers polygons))
    (hr : Vector.readGeojsonFeatures ogr.fid ogr.shape layers fl = .ok levels)
    (h : Scripts.finalbluespots s.elev s.subst labels file levels true true n = some (.ok (some depths, some extent))) :
    Does (runSub ogr s (.finalbluespots bluespots dem finallevels fl (some out_depths) (some out_bluespots))) fs n ()
      ((fs.put out_depths (.raster (.numbers depths) georef)).put out_bluespots (.raster (.labels extent (some 0)) georef)) := by
  refine (Does.mustExist n (by simp [h1, h2])).bind ?_
  rw [if_neg (by simp)]
  exact (Does.readLabels h1 n).bind ((Does.openElevations h2 n).bind ((Does.readLayer ogr h3 hr n).bind
    ((Does.run h fs).bind ((Does.writeRaster hout1 _ _ n).bind (Does.writeRaster (fs := fs.put _ _) hout2 _ _ n)))))

end

end Command
end Malstroem
