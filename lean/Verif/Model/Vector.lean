/-
Model of VectorWriter and VectorReader (malstroem/io.py:197-424).

What is assumed of GDAL/OGR is in the first section: the GeoJSON driver gives a layer one field per property name that occurs
in the file, a field with real numbers makes its integers real, a feature has a null where it lacks the property; a layer
keeps the values that are put into it. Not modelled: other conversions a format
may do (shortening of names or texts), coordinate systems, creation options, transactions, failing calls.
-/
import Verif.Model.Feature

namespace Malstroem
namespace Vector
variable {K : Type} [Field K]

/-! ### OGR -/

/-- An OGR field type. -/
inductive FieldType
  | integer | real | text
  deriving DecidableEq

/-- An OGR field definition. -/
structure FieldDefn where
  name : String
  type : FieldType
  deriving DecidableEq

/-- An OGR feature: a null field has the value `none`. -/
structure OgrFeature (K : Type) where
  geometry : Geometry K
  values : Props K

/-- An OGR layer. -/
structure Layer (K : Type) where
  fields : List FieldDefn
  features : List (OgrFeature K)

/-- A datasource: its layers by name. -/
abbrev Datasource (K : Type) := Dict String (Layer K)

/-- The field type a value asks for in the GeoJSON driver. -/
def typeOf : Val K → Option FieldType
  | .none => none
  | .int _ => some .integer
  | .num _ => some .real
  | .str _ => some .text
  | .inf => some .real
  | .ninf => some .real
  | .nan => some .real

/-- The type of a field with the given values in the GeoJSON driver: text if there are only nulls. -/
def columnType (vs : List (Val K)) : FieldType :=
  if vs.any fun v => typeOf v = some .text then .text
  else if vs.any fun v => typeOf v = some .real then .real
  else if vs.any fun v => typeOf v = some .integer then .integer
  else .text

/-- A value put into a field: an integer becomes a real number in a real field; `text` is what becomes of a number in a
text field. -/
def convert (text : Val K → Val K) (type : FieldType) (v : Val K) : Val K :=
  match type, v with
  | _, .none => .none
  | _, .str s => .str s
  | .integer, v => v
  | .real, .int i => .num (i : K)
  | .real, v => v
  | .text, v => text v

/-- The names that occur in a list, in the order of their first occurrence. -/
def distinct (names : List String) : List String := names.foldl (fun l n => if n ∈ l then l else l ++ [n]) []

/-- The fields of a GeoJSON file with the given features. -/
def geojsonFields (fs : List (Feature K)) : List FieldDefn :=
  (distinct (fs.flatMap fun f => f.properties.map (·.1))).map fun name =>
    ⟨name, columnType (fs.filterMap fun f => f.properties.get? name)⟩

/-- The values of an OGR feature with the given fields: null where `get` has none. -/
def fieldValues (text : Val K → Val K) (fields : List FieldDefn) (get : String → Option (Val K)) : Props K :=
  fields.map fun d => (d.name, convert text d.type ((get d.name).getD .none))

/-- The layer of a GeoJSON file with the given features. -/
def geojsonLayer (text : Val K → Val K) (fs : List (Feature K)) : Layer K where
  fields := geojsonFields fs
  features := fs.map fun f => ⟨f.geometry, fieldValues text (geojsonFields fs) fun name => f.properties.get? name⟩

/-! ### The code -/

/-- io.py:243-255: the attributes of a `VectorWriter` that change or matter here. -/
structure Writer where
  layername : String
  fields : List FieldDefn
  fieldsinitialized : Bool

/-- io.py:243-255 `VectorWriter.__init__`. -/
def Writer.init (layername : String) (fields : List FieldDefn) : Writer := ⟨layername, fields, false⟩

/-- io.py:282-290 `_init_fields`: the fields of the GeoJSON feature are appended to those given and all are created.
Simplified: a field whose name the layer already has is appended too, and is never found since lookups return the first
(formats refuse or rename it). -/
def initFields (w : Writer) (lyr : Layer K) (defn : List FieldDefn) : Writer × Layer K :=
  let fields := w.fields ++ defn
  ({ w with fields := fields, fieldsinitialized := true }, { lyr with fields := lyr.fields ++ fields })

/-- io.py:334-343 `_write_ogr_feature`: `SetFrom` with forgiving=1 copies the fields that the layer has. -/
def writeOgrFeature (text : Val K → Val K) (s : Writer × Layer K) (defn : List FieldDefn) (f : OgrFeature K) : Writer × Layer K :=
  let s := if s.1.fieldsinitialized then s else initFields s.1 s.2 defn
  let feature : OgrFeature K := ⟨f.geometry, fieldValues text s.2.fields fun name => f.values.get? name⟩
  (s.1, { s.2 with features := s.2.features ++ [feature] })

/-- io.py:257-280 `_init_datasource`: the layer, created without fields if it does not exist. -/
def initLayer (ds : Datasource K) (layername : String) : Layer K := (ds.get? layername).getD ⟨[], []⟩

/-- io.py:292-332 `write_geojson_features` for a sequence of features or a FeatureCollection: the writer and the datasource
after it. -/
def writeGeojsonFeatures (text : Val K → Val K) (w : Writer) (ds : Datasource K) (fs : List (Feature K)) : Writer × Datasource K :=
  let lyr := initLayer ds w.layername
  let tmp := geojsonLayer text fs
  let (w, lyr) := tmp.features.foldl (fun s f => writeOgrFeature text s tmp.fields f) (w, lyr)
  (w, ds.set w.layername lyr)

/-- io.py:397-405 `read_geojson_features` of the layer with the given name; an exception if there is none (392-393).
`fid` and `shape` are what the format and ExportToJson make of the position of a feature and of its geometry. -/
def readGeojsonFeatures (fid : Nat → Option Int) (shape : Geometry K → Geometry K) (ds : Datasource K)
    (layername : String) : Except PyErr (List (Feature K)) :=
  match ds.get? layername with
  | none => .error .other
  | some lyr => .ok (lyr.features.zipIdx.map fun (f, i) => ⟨fid i, shape f.geometry, f.values⟩)

end Vector
end Malstroem
