import Verif.Basic
import Verif.Cdm.Model
import Verif.Slice.Spec
import Verif.Tables.DataType

/-!
# NetCDF files: the library and `NetCDF_Utils`

The netCDF library is outside the model.  What the modelled code relies on is written down here as a
contract: a file has dimensions and variables in the order of their definition (the position is the
id), `nc_put_vara` stores the values of a hyper-rectangle and makes unlimited dimensions longer where
needed, `nc_get_vara` returns the values of a hyper-rectangle.  Besides the errors that are
spelled out, the library may refuse any call for reasons of its own (`Lib.refuse`); a refused call
leaves the file as it was.  What a cell contains before anything is written to it is arbitrary
(`Lib.blank`).

Index vectors of the library have the slowest dimension first, those of the CDM the fastest one.

The build with netCDF-4 and without MPI is modelled.
-/

namespace Fimex.Netcdf

open Fimex.Cdm
open Fimex.Tables (DataType)

/-- netcdf.h: `nc_type`. -/
inductive NcType where
  | nat | byte | char | short | int | float | double | ubyte | ushort | uint | int64 | uint64 | string
deriving DecidableEq

/-- src/io/netcdf/NetCDF_Utils.cc:126-159 `cdmDataType2ncType`. -/
def cdmDataType2ncType : DataType → NcType
  | .char => .byte
  | .string => .char
  | .short => .short
  | .int => .int
  | .float => .float
  | .double => .double
  | .strings => .string
  | .uchar => .ubyte
  | .ushort => .ushort
  | .uint => .uint
  | .int64 => .int64
  | .uint64 => .uint64
  | .nat => .nat

/-- src/io/netcdf/NetCDF_Utils.cc:161-195 `ncType2cdmDataType`. -/
def ncType2cdmDataType : NcType → DataType
  | .nat => .nat
  | .byte => .char
  | .char => .string
  | .short => .short
  | .int => .int
  | .float => .float
  | .double => .double
  | .string => .strings
  | .ubyte => .uchar
  | .ushort => .ushort
  | .uint => .uint
  | .int64 => .int64
  | .uint64 => .uint64

/-- The result of `nc_inq_format`: 1, 2, 3 and 4. -/
inductive Format where
  | classic | offset64 | netcdf4 | netcdf4classic
deriving DecidableEq

/-- netcdf.h: the numbers of the formats. -/
def Format.code : Format → Nat
  | .classic => 1
  | .offset64 => 2
  | .netcdf4 => 3
  | .netcdf4classic => 4

/-- A `Data` object: its type and its values. -/
structure Data (A : Type) where
  ty : DataType
  vals : List A
deriving DecidableEq

/-- What a `CDMVariable` has besides name and shape: type and data in memory. -/
structure Payload (A : Type) where
  ty : DataType
  mem : Option (Data A)

/-- A dataset description whose attributes are `Data`. -/
abbrev Ds (A : Type) := CDM (Payload A) (Data A) Unit

structure NcDim where
  name : String
  /-- The length, for unlimited dimensions the present one. -/
  len : Nat
  unlimited : Bool
deriving DecidableEq

structure NcAtt (A : Type) where
  name : String
  ty : NcType
  vals : List A
deriving DecidableEq

structure NcVar (A : Type) where
  name : String
  ty : NcType
  /-- Ids of the dimensions, slowest first. -/
  dims : List Nat
  atts : List (NcAtt A)
  chunks : Option (List Nat)
  /-- Shuffle and level. -/
  deflate : Option (Bool × Nat)
  cells : List Nat → A

structure NcFile (A : Type) where
  format : Format
  dims : List NcDim
  vars : List (NcVar A)
  gatts : List (NcAtt A)

/-- The calls that may be refused. -/
inductive Call where
  | defDim (name : String) (len : Nat)
  | defVar (name : String) (ty : NcType) (dims : List Nat)
  | chunking (var : Nat) (sizes : List Nat)
  | deflate (var : Nat) (shuffle : Bool) (level : Nat)
  | putAtt (var : Option Nat) (name : String) (ty : NcType) (len : Nat)
  | enddef
  | put (var : Nat) (start count : List Nat)
  | sync

/-- What is not known of the library. -/
structure Lib (A : Type) where
  refuse : NcFile A → Call → Bool
  blank : Nat → List Nat → A

variable {A : Type}

/-- `nc_def_dim`: length 0 is `NC_UNLIMITED`; the classic formats have one unlimited dimension. -/
def ncDefDim (L : Lib A) (f : NcFile A) (name : String) (len : Nat) : Res (NcFile A × Nat) :=
  if L.refuse f (.defDim name len) then .throws
  else if f.dims.any fun d => d.name == name then .throws
  else if len = 0 ∧ f.format ≠ .netcdf4 ∧ f.dims.any (·.unlimited) then .throws
  else .ok ({ f with dims := f.dims ++ [⟨name, len, len == 0⟩] }, f.dims.length)

/-- The types of the classic data model. -/
def NcType.isClassic : NcType → Bool
  | .byte | .char | .short | .int | .float | .double => true
  | _ => false

/-- `nc_def_var`. -/
def ncDefVar (L : Lib A) (f : NcFile A) (name : String) (ty : NcType) (dims : List Nat) :
    Res (NcFile A × Nat) :=
  if L.refuse f (.defVar name ty dims) then .throws
  else if f.vars.any fun v => v.name == name then .throws
  else if ty = .nat ∨ (f.format ≠ .netcdf4 ∧ !ty.isClassic) then .throws
  else if dims.any fun d => f.dims.length ≤ d then .throws
  else .ok ({ f with vars := f.vars ++ [⟨name, ty, dims, [], none, none, L.blank f.vars.length⟩] },
    f.vars.length)

/-- `nc_def_var_chunking` with `NC_CHUNKED`: sizes are positive and not above the lengths of fixed
dimensions. -/
def ncDefChunking (L : Lib A) (f : NcFile A) (id : Nat) (sizes : List Nat) : Res (NcFile A) :=
  if L.refuse f (.chunking id sizes) then .throws
  else
    match f.vars[id]? with
    | none => .throws
    | some v =>
      if (v.dims.zip sizes).any fun p =>
          p.2 == 0 || (match f.dims[p.1]? with
            | some d => !d.unlimited && d.len < p.2
            | none => true) then .throws
      else .ok { f with vars := f.vars.set id { v with chunks := some sizes } }

/-- `nc_def_var_deflate` with deflation: levels are 0 to 9. -/
def ncDefDeflate (L : Lib A) (f : NcFile A) (id : Nat) (shuffle : Bool) (level : Nat) : Res (NcFile A) :=
  if L.refuse f (.deflate id shuffle level) then .throws
  else if 9 < level then .throws
  else
    match f.vars[id]? with
    | none => .throws
    | some v => .ok { f with vars := f.vars.set id { v with deflate := some (shuffle, level) } }

/-- Append an attribute or replace the one with the same name. -/
def setAtt (l : List (NcAtt A)) (a : NcAtt A) : List (NcAtt A) :=
  if l.any fun b => b.name == a.name then l.map fun b => if b.name = a.name then a else b else l ++ [a]

/-- `nc_put_att_…`; the variable `none` is `NC_GLOBAL`. -/
def ncPutAtt (L : Lib A) (f : NcFile A) (id : Option Nat) (a : NcAtt A) : Res (NcFile A) :=
  if L.refuse f (.putAtt id a.name a.ty a.vals.length) then .throws
  else if a.ty = .nat ∨ (f.format ≠ .netcdf4 ∧ !a.ty.isClassic) then .throws
  else
    match id with
    | none => .ok { f with gatts := setAtt f.gatts a }
    | some i =>
      match f.vars[i]? with
      | none => .throws
      | some v => .ok { f with vars := f.vars.set i { v with atts := setAtt v.atts a } }

/-- The hyper-rectangle of a call contains the index. -/
def inside : List Nat → List Nat → List Nat → Bool
  | [], [], [] => true
  | s :: start, n :: count, i :: idx => decide (s ≤ i) && decide (i < s + n) && inside start count idx
  | _, _, _ => false

/-- The position of an index in the values of a hyper-rectangle: the last dimension is the fastest. -/
def offset (start count idx : List Nat) : Nat :=
  pos count.reverse (List.zipWith (· - ·) idx start).reverse

/-- The new length of a dimension: `start` and `count` along it. -/
def grown (d : NcDim) (s n : Nat) : NcDim := if d.unlimited then { d with len := max d.len (s + n) } else d

/-- Make the unlimited dimensions as long as needed. -/
def growDims : List NcDim → List Nat → List Nat → List Nat → List NcDim
  | ds, id :: ids, s :: start, n :: count =>
    growDims (match ds[id]? with
      | some d => ds.set id (grown d s n)
      | none => ds) ids start count
  | ds, _, _, _ => ds

/-- The hyper-rectangle is within the fixed dimensions. -/
def fits (ds : List NcDim) : List Nat → List Nat → List Nat → Bool
  | [], [], [] => true
  | id :: ids, s :: start, n :: count =>
    (match ds[id]? with
      | some d => d.unlimited || decide (s + n ≤ d.len)
      | none => false) && fits ds ids start count
  | _, _, _ => false

/-- The same with the present length of unlimited dimensions. -/
def fitsNow (ds : List NcDim) : List Nat → List Nat → List Nat → Bool
  | [], [], [] => true
  | id :: ids, s :: start, n :: count =>
    (match ds[id]? with
      | some d => decide (s + n ≤ d.len)
      | none => false) && fitsNow ds ids start count
  | _, _, _ => false

/-- `nc_put_vara…`: the library reads as many values as the hyper-rectangle has cells. -/
def ncPutVara (L : Lib A) (f : NcFile A) (id : Nat) (start count : List Nat) (vals : List A) :
    Res (NcFile A) :=
  if L.refuse f (.put id start count) then .throws
  else
    match f.vars[id]? with
    | none => .throws
    | some v =>
      if !fits f.dims v.dims start count then .throws
      else if vals.length < count.prod then .ub
      else .ok
        { f with
          dims := growDims f.dims v.dims start count
          vars := f.vars.set id { v with
            cells := fun idx =>
              if inside start count idx then vals.getD (offset start count idx) (v.cells idx)
              else v.cells idx } }

/-- `nc_get_vara`. -/
def ncGetVara (f : NcFile A) (id : Nat) (start count : List Nat) : Res (List A) :=
  match f.vars[id]? with
  | none => .throws
  | some v =>
    if !fitsNow f.dims v.dims start count then .throws
    else .ok ((Fimex.cells count.reverse).map fun j => v.cells (List.zipWith (· + ·) start j.reverse))

/-- `nc_inq_dimid`. -/
def ncInqDimid (f : NcFile A) (name : String) : Res Nat :=
  match f.dims.findIdx? fun d => d.name == name with
  | some i => .ok i
  | none => .throws

/-- `nc_inq_varid`. -/
def ncInqVarid (f : NcFile A) (name : String) : Res Nat :=
  match f.vars.findIdx? fun v => v.name == name with
  | some i => .ok i
  | none => .throws

/-- `nc_inq_dimlen` for all dimensions of a variable. -/
def dimLens (ds : List NcDim) : List Nat → Res (List Nat)
  | [] => .ok []
  | i :: l =>
    match ds[i]? with
    | some d => do
      let r ← dimLens ds l
      .ok (d.len :: r)
    | none => .throws

/-! ## NetCDF_Utils -/

/-- What the code uses of `Data` and of the units: `asType` is `asShort` and the like (for `CDM_STRING` it
is `asString`), `num` the double of a value, `differs` the operator `!=` of doubles, `text`
`CDMAttribute::getStringValue`, `castFill` the cast of a double to the type, `defaultFill` the table of
src/CDM.cc:460-475, `getConverter` `Units::getConverter`, `convert` `convertDataType` (src/DataImpl.h:306-331),
`parse` `initDataByArray` with one value. -/
structure Ops (A F U : Type) where
  asType : DataType → Data A → Res (List A)
  num : A → F
  differs : F → F → Bool
  one : F
  zero : F
  text : Data A → Res String
  castFill : DataType → F → Res A
  defaultFill : DataType → F
  getConverter : String → String → Res U
  convert : Data A → F → F → F → Option U → DataType → F → F → F → Res (Data A)
  parse : DataType → String → Res (Data A)

variable {F U : Type}

/-- src/io/netcdf/NetCDF_Utils.cc:358-443 `ncPutValues`.  The number of values is compared with
the hyper-rectangle; a scalar has one value.  All cases convert to the type of the variable and hand
on the array; `NC_NAT` does nothing. -/
def ncPutValues (L : Lib A) (O : Ops A F U) (f : NcFile A) (data : Data A) (id : Nat) (ty : NcType)
    (start count : List Nat) : Res (NcFile A) :=
  if data.vals.length = 0 then .ok f
  else if count.prod ≠ data.vals.length then .throws
  else if ty = .nat then .ok f
  else do
    let vals ← O.asType (ncType2cdmDataType ty) data
    ncPutVara L f id start count vals

/-- src/io/netcdf/NetCDF_Utils.cc:276-356 `ncGetValues`: `NC_NAT` gives empty data of type int. -/
def ncGetValues (f : NcFile A) (id : Nat) (ty : NcType) (start count : List Nat) : Res (Data A) :=
  if ty = .nat then .ok ⟨.int, []⟩
  else do
    let vals ← ncGetVara f id start count
    .ok ⟨ncType2cdmDataType ty, vals⟩

/-- src/io/netcdf/NetCDF_Utils.cc:197-272 `ncGetAttValues`; `isZero` says which characters are the
terminating one.  One such character is removed from the end of a text. -/
def ncGetAttValues (isZero : A → Bool) (a : NcAtt A) : Data A :=
  match a.ty with
  | .nat => ⟨.int, []⟩
  | .char =>
    match a.vals.getLast? with
    | some z => if isZero z then ⟨.string, a.vals.dropLast⟩ else ⟨.string, a.vals⟩
    | none => ⟨.string, []⟩
  | ty => ⟨ncType2cdmDataType ty, a.vals⟩

end Fimex.Netcdf
