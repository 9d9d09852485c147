import Verif.Netcdf.File

/-!
# Model of `NetCDF_CDMReader`

The file is one of the library (`NcFile`).  Groups and user-defined types are not modelled.
-/

namespace Fimex.Netcdf

open Fimex.Cdm
open Fimex.Tables (DataType)

variable {A F U : Type}

/-- `nc_inq_unlimdim`: the first unlimited dimension. -/
def ncInqUnlimdim (f : NcFile A) : Option Nat := f.dims.findIdx? (·.unlimited)

/-- src/io/netcdf/NetCDF_CDMReader.cc:66-83: the dimensions from number `i` on. -/
def readDims (recid : Option Nat) (c : Ds A) (i : Nat) : List NcDim → Res (Ds A)
  | [] => .ok c
  | d :: l =>
    match addDimension c ⟨d.name, d.len, decide (recid = some i)⟩ with
    | (c, .ok ()) => readDims recid c (i + 1) l
    | (_, .throws) => .throws
    | (_, .ub) => .ub

/-- src/io/netcdf/NetCDF_CDMReader.cc:280-288 `addAttribute`, for all attributes of a variable
(lines 113-117 and 124-128). -/
def readAtts (isZero : A → Bool) (n : String) (c : Ds A) : List (NcAtt A) → Res (Ds A)
  | [] => .ok c
  | a :: l =>
    match addAttribute c n ⟨a.name, ncGetAttValues isZero a⟩ with
    | (c, .ok ()) => readAtts isZero n c l
    | (_, .throws) => .throws
    | (_, .ub) => .ub

/-- src/io/netcdf/NetCDF_CDMReader.cc:98-104: the names of the dimensions, in reverse order. -/
def shapeOf (f : NcFile A) : List Nat → Res (List String)
  | [] => .ok []
  | i :: l => do
    let r ← shapeOf f l
    match f.dims[i]? with
    | some d => .ok (r ++ [d.name])
    | none => .throws

/-- src/io/netcdf/NetCDF_CDMReader.cc:86-118: the variables. -/
def readVars (isZero : A → Bool) (f : NcFile A) (c : Ds A) : List (NcVar A) → Res (Ds A)
  | [] => .ok c
  | v :: l => do
    let shape ← shapeOf f v.dims
    match addVariable c ⟨v.name, shape, ⟨ncType2cdmDataType v.ty, none⟩⟩ with
    | (c, .ok ()) => do
      let c ← readAtts isZero v.name c v.atts
      readVars isZero f c l
    | (_, .throws) => .throws
    | (_, .ub) => .ub

/-- src/io/netcdf/NetCDF_CDMReader.cc:46-130: the constructor. -/
def openFile (isZero : A → Bool) (f : NcFile A) : Res (Ds A) := do
  let c ← readDims (ncInqUnlimdim f) ⟨fun _ => none, [], [], false, ()⟩ 0 f.dims
  let c ← readVars isZero f c f.vars
  readAtts isZero globalNS c f.gatts

/-- `a[0] = x`; an empty array has no such element. -/
def setHead (l : List Nat) (x : Nat) : Res (List Nat) :=
  match l with
  | [] => .ub
  | _ :: l => .ok (x :: l)

/-- src/io/netcdf/NetCDF_CDMReader.cc:147-160,222-236: `start` and `count` of a slice along the unlimited
dimension. -/
def sliceBounds (c : Ds A) (f : NcFile A) (v : Var (Payload A)) (nv : NcVar A) (unLimDimPos : Nat) :
    Res (List Nat × List Nat) := do
  let count ← dimLens f.dims nv.dims
  if hasUnlimitedDim c v then do
    let start ← setHead (count.map fun _ => 0) unLimDimPos
    let count ← setHead count 1
    .ok (start, count)
  else .ok (count.map fun _ => 0, count)

/-- src/CDMReader.cc:248-263 `getDataSliceFromMemory` is outside this model: data in memory is
handed in as `fromMemory`. -/
abbrev FromMemory (A : Type) := Data A → Res (Data A)

/-- The variable of the file with the name. -/
def fileVar (f : NcFile A) (n : String) : Res (Nat × NcVar A) := do
  let id ← ncInqVarid f n
  match f.vars[id]? with
  | some v => .ok (id, v)
  | none => .throws

/-- src/io/netcdf/NetCDF_CDMReader.cc:133-167 `getDataSlice(varName, unLimDimPos)`. -/
def readSlice (mem : FromMemory A) (c : Ds A) (f : NcFile A) (n : String) (unLimDimPos : Nat) : Res (Data A) := do
  let v ← getVariable c n
  match v.payload.mem with
  | some d => mem d
  | none => do
    let (id, nv) ← fileVar f n
    let (start, count) ← sliceBounds c f v nv unLimDimPos
    ncGetValues f id nv.ty start count

/-- src/io/netcdf/NetCDF_CDMReader.cc:187-191,266-272: the bounds of a request in the order of the
library; `&start[0]` needs an element, and the library reads as many as the variable has dimensions
(the assertions are those of a debug build). -/
def requestBounds (nv : NcVar A) (start size : List Nat) : Res (List Nat × List Nat) :=
  if start.length ≠ nv.dims.length ∨ size.length ≠ nv.dims.length ∨ nv.dims = [] then .ub
  else .ok (start.reverse, size.reverse)

/-- src/io/netcdf/NetCDF_CDMReader.cc:169-198 `getDataSlice(varName, sb)`. -/
def readRegion (mem : FromMemory A) (c : Ds A) (f : NcFile A) (n : String) (start size : List Nat) : Res (Data A) := do
  let v ← getVariable c n
  match v.payload.mem with
  | some d => mem d
  | none => do
    let (id, nv) ← fileVar f n
    let (start, count) ← requestBounds nv start size
    ncGetValues f id nv.ty start count

/-- `getVariable(varName).setData(DataPtr())`. -/
def dropMem (n : String) : List (Var (Payload A)) → List (Var (Payload A))
  | [] => []
  | v :: l =>
    if v.name == n then { v with payload := { v.payload with mem := none } } :: l else v :: dropMem n l

/-- src/io/netcdf/NetCDF_CDMReader.cc:206-243 `putDataSlice(varName, unLimDimPos, data)`. -/
def putSlice (L : Lib A) (O : Ops A F U) (c : Ds A) (f : NcFile A) (n : String) (unLimDimPos : Nat)
    (data : Option (Data A)) : Res (Ds A × NcFile A) := do
  let v ← getVariable c n
  let c := { c with vars := dropMem n c.vars }
  match data with
  | none => .ok (c, f)
  | some d =>
    if d.vals.isEmpty then .ok (c, f)
    else do
      let (id, nv) ← fileVar f n
      let (start, count) ← sliceBounds c f v nv unLimDimPos
      let f ← ncPutValues L O f d id nv.ty start count
      .ok (c, f)

/-- src/io/netcdf/NetCDF_CDMReader.cc:245-278 `putDataSlice(varName, sb, data)`. -/
def putRegion (L : Lib A) (O : Ops A F U) (c : Ds A) (f : NcFile A) (n : String) (start size : List Nat)
    (data : Option (Data A)) : Res (Ds A × NcFile A) := do
  let _ ← getVariable c n
  let c := { c with vars := dropMem n c.vars }
  match data with
  | none => .ok (c, f)
  | some d =>
    if d.vals.isEmpty then .ok (c, f)
    else do
      let (id, nv) ← fileVar f n
      let (start, count) ← requestBounds nv start size
      let f ← ncPutValues L O f d id nv.ty start count
      .ok (c, f)

end Fimex.Netcdf
