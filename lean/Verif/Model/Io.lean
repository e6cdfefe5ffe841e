/-
Model of RasterReader and RasterWriter in malstroem/io.py. GDAL is modelled as a store: a file keeps its shape, type, values,
transform, crs and nodata value as they were set. Arrays hold rationals, infinities and NaN; comparisons are exact.
-/
import Verif.Spec.Io
import Verif.Model.Raster

namespace Malstroem
namespace Io
open Spec (Num DType)

/-- `a <= b` for floats (false if an operand is NaN). -/
def le : Num → Num → Bool
  | .nan, _ => false
  | _, .nan => false
  | .ninf, _ => true
  | _, .inf => true
  | .fin x, .fin y => decide (x ≤ y)
  | _, _ => false

/-- `np.isnan`. -/
def isnan (x : Num) : Bool := decide (x = .nan)

/-- `np.isclose(x, y)` with the default tolerances. -/
def isclose (x y : Num) : Bool :=
  match x, y with
  | .fin a, .fin b => decide (|a - b| ≤ 1 / 100000000 + 1 / 100000 * |b|)
  | .inf, .inf => true
  | .ninf, .ninf => true
  | _, _ => false

/-- Truth value of an optional float: `None` and zero are false, NaN is true. -/
def truthy : Option Num → Bool
  | none => false
  | some x => decide (x ≠ .fin 0)

/-- A numpy array with its type. -/
structure Arr where
  dtype : DType
  data : Raster Num

/-- A raster file with one band, as kept by GDAL. -/
structure File where
  dtype : DType
  data : Raster Num
  transform : List Rat
  crs : String
  nodata : Option Num

/-- io.py:59-68 `RasterReader.__init__` (the file is passed instead of its path). -/
structure Reader where
  file : File
  transform : List Rat
  crs : String
  nodata : Option Num
  nodatasubst : Option Num
  shape : Nat × Nat
  resolution : Rat × Rat

def Reader.open (file : File) (nodatasubst : Option Num) : Except PyErr Reader :=
  match file.transform[5]?, file.transform[1]? with
  | some t5, some t1 =>
    .ok { file := file, transform := file.transform, crs := file.crs, nodata := file.nodata, nodatasubst := nodatasubst,
          shape := (file.data.rows, file.data.cols), resolution := (|t5|, |t1|) }
  | _, _ => .error .indexError

/-- io.py:70-81 `RasterReader.read`. `store t v` is the value of type `t` stored when assigning `v` to cells of an array
(an exception if numpy cannot convert it). -/
def Reader.read (store : DType → Num → Except PyErr Num) (self : Reader) : Except PyErr Arr :=
  let data := self.file.data
  match self.nodata, self.nodatasubst with
  | some nodata, some subst =>
    if truthy (some nodata) then
      let mask := if isnan nodata then fun c => isnan (data.get c) else fun c => isclose (data.get c) nodata
      match store self.file.dtype subst with
      | .error e => .error e
      | .ok v => .ok ⟨self.file.dtype, { data with get := fun c => if mask c then v else data.get c }⟩
    else .ok ⟨self.file.dtype, data⟩
  | _, _ => .ok ⟨self.file.dtype, data⟩

/-- io.py:113-120 `RasterWriter.__init__`. -/
structure Writer where
  transform : List Rat
  crs : String
  nodata : Option Num

/-- `data.min()`: NaN if there is one, ValueError if the array is empty. -/
def minimum : List Num → Except PyErr Num
  | [] => .error .valueError
  | x :: l => .ok (l.foldl (fun a b => if isnan a || isnan b then .nan else if le a b then a else b) x)

/-- `data.max()`. -/
def maximum : List Num → Except PyErr Num
  | [] => .error .valueError
  | x :: l => .ok (l.foldl (fun a b => if isnan a || isnan b then .nan else if le b a then a else b) x)

/-- io.py:137-156: the types passed on to GDAL as they are. -/
def gdalType : DType → Option DType
  | .float64 => some .float64
  | .float32 => some .float32
  | .int32 => some .int32
  | .uint32 => some .uint32
  | .int16 => some .int16
  | .uint16 => some .uint16
  | .uint8 => some .uint8
  | _ => none

/-- `data.dtype.kind in ('i', 'u')`. -/
def isIntKind : DType → Bool
  | .int8 | .int16 | .int32 | .int64 | .uint8 | .uint16 | .uint32 | .uint64 => true
  | _ => false

/-- io.py:178-194: creates the file. GDAL raises for a raster without cells; the geotransform and crs are set if they are
not empty, GDAL's defaults are used otherwise. -/
def Writer.create (self : Writer) (gdal_datatype : DType) (data : Raster Num) : Except PyErr File :=
  if data.rows = 0 ∨ data.cols = 0 then .error .other
  else .ok { dtype := gdal_datatype, data := data,
             transform := if self.transform ≠ [] then self.transform else [0, 1, 0, 0, 0, 1],
             crs := if self.crs ≠ "" then self.crs else "",
             nodata := self.nodata }

/-- `self.write(data.astype(dtype))` (io.py:164-175): the recursive call, for a type that GDAL supports. -/
def Writer.writeCast (astype : DType → Num → Num) (self : Writer) (data : Raster Num) (dtype : DType) : Except PyErr File :=
  match gdalType dtype with
  | some t => self.create t { data with get := fun c => astype dtype (data.get c) }
  | none => .error .other

/-- io.py:122-194 `RasterWriter.write`. `astype` is numpy's conversion of one value. If no branch assigns `gdal_datatype`,
line 176 raises UnboundLocalError (a NameError). -/
def Writer.write (astype : DType → Num → Num) (self : Writer) (data : Arr) : Except PyErr File :=
  match gdalType data.dtype with
  | some t => self.create t data.data
  | none => do
    let values := data.data.cells.map data.data.get
    let min_val ← minimum values
    let max_val ← maximum values
    if isIntKind data.dtype then
      if le (.fin 0) min_val then
        if le max_val (.fin 255) then self.writeCast astype data.data .uint8
        else if le max_val (.fin 65535) then self.writeCast astype data.data .uint16
        else if le max_val (.fin 4294967295) then self.writeCast astype data.data .uint32
        else .error .nameError
      else if le (.fin (-32768)) min_val && le max_val (.fin 32767) then self.writeCast astype data.data .int16
      else if le (.fin (-2147483648)) min_val && le max_val (.fin 2147483647) then self.writeCast astype data.data .int32
      else .error .nameError
    else if le (.fin (-34028235 * 10 ^ 31)) min_val && le max_val (.fin (34028235 * 10 ^ 31)) then
      self.writeCast astype data.data .float32
    else self.writeCast astype data.data .float64

end Io
end Malstroem
