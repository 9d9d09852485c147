import Verif.Netcdf.File

/-!
# Model of `NetCDF_CDMWriter`

The configuration document is the list of the values its elements give, in document order
(`Config`); having no document is the same as a document without elements.  The reader the writer takes
its data from is the one after `initNcmlReader`.  Numbers in the configuration that cannot be read,
and more than one `ncmlConfig`, are not modelled.  The outcome is the file; what an exception leaves
in the file is not modelled.
-/

namespace Fimex.Netcdf

open Fimex.Cdm
open Fimex.Tables (DataType)

variable {A F U : Type}

/-- The parent element of an `attribute` element. -/
inductive Parent where
  | root
  | var (name : String)
  | other

/-- An `attribute` element with its properties; absent properties are empty. -/
structure AttEdit where
  parent : Parent
  name : String
  value : String
  type : String
  newname : String

/-- The elements of `/cdm_ncwriter_config`. -/
structure Config where
  filetype : Option String := none
  /-- `remove[@type='attribute']` -/
  removeAtts : List String := []
  /-- `variable/remove[@type='attribute']`: variable and attribute -/
  removeVarAtts : List (String × String) := []
  removeVars : List String := []
  removeDims : List String := []
  /-- `default[@autoRemoveUnusedDimension='false']` -/
  keepDims : Bool := false
  /-- `variable[@newname]` -/
  varNames : List (String × String) := []
  /-- `variable[@type]` -/
  varTypes : List (String × String) := []
  /-- `default[@compressionLevel]` -/
  compression : Option Nat := none
  /-- `variable[@compressionLevel]` -/
  varCompression : List (String × Nat) := []
  /-- `dimension[@chunkSize]` -/
  chunkSizes : List (String × Nat) := []
  /-- `dimension[@newname]` -/
  dimNames : List (String × String) := []
  attEdits : List AttEdit := []

/-- A `std::map` with text keys. -/
abbrev Map (α : Type) := String → Option α

/-- `m[k] = v`. -/
def Map.put {α : Type} (m : Map α) (k : String) (v : α) : Map α := fun n => if n = k then some v else m n

/-- The members of `NetCDF_CDMWriter`. -/
structure Writer (A : Type) where
  cdm : Ds A
  varNames : Map String
  dimNames : Map String
  varTypes : Map DataType
  compression : Map Nat
  chunkSizes : Map Nat

/-- src/io/netcdf/NetCDF_CDMWriter.cc:52-95 `getNcVersion`: the format that `nc_create` gives the file
for the flags; `filetype` is in lower case. -/
def getFormat (version : Int) (filetype : Option String) : Res Format :=
  match filetype with
  | none => .ok (if version = 4 then .netcdf4classic else if version = 5 then .netcdf4 else .classic)
  | some t =>
    if t = "netcdf3" then .ok .classic
    else if t = "netcdf3_64bit" then .ok .offset64
    else if t = "netcdf4" then .ok .netcdf4
    else if t = "netcdf4classic" then .ok .netcdf4classic
    else .throws

/-- src/io/netcdf/NetCDF_CDMWriter.cc:201-210: remove the dimensions named in the configuration. -/
def removeDims (c : Ds A) : List String → Res (Ds A)
  | [] => .ok c
  | n :: l =>
    if testDimensionInUse c n then removeDims c l
    else
      match removeDimension c n false with
      | (c, .ok _) => removeDims c l
      | (_, .throws) => .throws
      | (_, .ub) => .ub

/-- src/io/netcdf/NetCDF_CDMWriter.cc:175-229 `initRemove`.  The automatic removal is the same loop as the
one over the configured dimensions. -/
def initRemove (cfg : Config) (c : Ds A) : Res (Ds A) := do
  let c := cfg.removeAtts.foldl (fun c a => removeAttribute c globalNS a) c
  let c := cfg.removeVarAtts.foldl (fun c p => removeAttribute c p.1 p.2) c
  let c := cfg.removeVars.foldl removeVariable c
  let c ← removeDims c cfg.removeDims
  if cfg.keepDims then .ok c else removeDims c (c.dims.map (·.name))

/-- `getVariable(name).setDataType(ty)`. -/
def setFirstType (n : String) (ty : DataType) : List (Var (Payload A)) → List (Var (Payload A))
  | [] => []
  | v :: l =>
    if v.name == n then { v with payload := { v.payload with ty := ty } } :: l else v :: setFirstType n ty l

/-- src/io/netcdf/NetCDF_CDMWriter.cc:260-268: new names of variables. -/
def renameVars (w : Writer A) : List (String × String) → Res (Writer A)
  | [] => .ok w
  | (n, m) :: l => do
    let _ ← getVariable w.cdm n
    renameVars { w with varNames := w.varNames.put n m } l

/-- src/io/netcdf/NetCDF_CDMWriter.cc:269-278: new types of variables. -/
def retypeVars (w : Writer A) : List (String × String) → Res (Writer A)
  | [] => .ok w
  | (n, t) :: l => do
    let ty := Tables.string2datatype t.toList
    let _ ← getVariable w.cdm n
    retypeVars { w with
      cdm := { w.cdm with vars := setFirstType n ty w.cdm.vars }
      varTypes := w.varTypes.put n ty } l

/-- src/io/netcdf/NetCDF_CDMWriter.cc:258-307 `initFillRenameVariable`. -/
def initFillRenameVariable (cfg : Config) (w : Writer A) : Res (Writer A) := do
  let w ← renameVars w cfg.varNames
  let w ← retypeVars w cfg.varTypes
  let all := w.cdm.vars.foldl (fun m v => Map.put m v.name (cfg.compression.getD 13)) w.compression
  let all := cfg.varCompression.foldl (fun m p => Map.put m p.1 p.2) all
  let chunks := cfg.chunkSizes.foldl (fun m p => Map.put m p.1 (p.2 % 2 ^ 32)) w.chunkSizes
  .ok { w with compression := all, chunkSizes := chunks }

/-- src/io/netcdf/NetCDF_CDMWriter.cc:231-247 `initFillRenameDimension`. -/
def initFillRenameDimension (w : Writer A) : List (String × String) → Res (Writer A)
  | [] => .ok w
  | (n, m) :: l => do
    let _ ← getDimension w.cdm n
    initFillRenameDimension { w with
      dimNames := w.dimNames.put n m
      varNames := if w.varNames n = none then w.varNames.put n m else w.varNames } l

/-- src/io/netcdf/NetCDF_CDMWriter.cc:320-330: the variable an `attribute` element belongs to. -/
def editOwner (c : Ds A) (p : Parent) : Res String :=
  match p with
  | .root => .ok globalNS
  | .var v => do
    let _ ← getVariable c v
    .ok v
  | .other => .throws

/-- src/io/netcdf/NetCDF_CDMWriter.cc:332-341: the new attribute. -/
def editedAtt (O : Ops A F U) (c : Ds A) (v : String) (e : AttEdit) : Res (Attr (Data A)) :=
  let name := if e.newname ≠ "" then e.newname else e.name
  if e.type ≠ "" then do
    let d ← O.parse (Tables.string2datatype e.type.toList) e.value
    .ok ⟨name, d⟩
  else do
    let old ← getAttribute c v e.name
    .ok ⟨name, old.value⟩

/-- src/io/netcdf/NetCDF_CDMWriter.cc:309-345 `initFillRenameAttribute`. -/
def initFillRenameAttribute (O : Ops A F U) (c : Ds A) : List AttEdit → Res (Ds A)
  | [] => .ok c
  | e :: l => do
    let v ← editOwner c e.parent
    let a ← editedAtt O c v e
    match addAttribute (removeAttribute c v e.name) v a with
    | (c, .ok ()) => initFillRenameAttribute O c l
    | (_, .throws) => .throws
    | (_, .ub) => .ub

/-- src/io/netcdf/NetCDF_CDMWriter.cc:760-770 `getVariableName`, `getDimensionName`. -/
def written (m : Map String) (n : String) : String := (m n).getD n

/-- A `size_t` assigned to an `int` and handed on as `size_t`. -/
def throughInt (n : Nat) : Nat :=
  if n % 2 ^ 32 < 2 ^ 31 then n % 2 ^ 32 else n % 2 ^ 32 + (2 ^ 64 - 2 ^ 32)

/-- src/io/netcdf/NetCDF_CDMWriter.cc:351-367: the length handed to the library. -/
def definedLength (d : Dim) : Nat :=
  if d.unlimited then 0 else if throughInt d.length = 0 then 1 else throughInt d.length

/-- src/io/netcdf/NetCDF_CDMWriter.cc:347-376 `defineDimensions`. -/
def defineDimensions (L : Lib A) (w : Writer A) (f : NcFile A) (ids : Map Nat) :
    List Dim → Res (NcFile A × Map Nat)
  | [] => .ok (f, ids)
  | d :: l => do
    let (f, id) ← ncDefDim L f (written w.dimNames d.name) (definedLength d)
    defineDimensions L w f (ids.put d.name id) l

/-- include/fimex/MathUtils.h:53-61 `clamp`. -/
def clamp (low value high : Nat) : Nat := if value < low then low else if value < high then value else high

/-- src/io/netcdf/NetCDF_CDMWriter.cc:429-452: the chunk size of one dimension and the number of values so
far; `unsigned int` and `size_t` wrap. -/
def chunkStep (w : Writer A) (n : String) (acc : Nat) : Res (Nat × Nat) := do
  let d ← getDimension w.cdm n
  let dimSize := if d.unlimited then 1 else d.length % 2 ^ 32
  match w.chunkSizes n with
  | some k => .ok (acc * clamp 1 dimSize k % two64, clamp 1 dimSize k)
  | none =>
    let total := acc * dimSize % two64
    if total < 2 ^ 21 then .ok (total, dimSize)
    else .ok (total, if 1 < dimSize ∧ acc < 2 ^ 17 then clamp 1 (total / 2 ^ 17) dimSize else 1)

/-- src/io/netcdf/NetCDF_CDMWriter.cc:427-453: all dimensions, the fastest first. -/
def chunkLoop (w : Writer A) : List String → Nat → Res (Nat × List Nat)
  | [], acc => .ok (acc, [])
  | n :: l, acc => do
    let (acc, k) ← chunkStep w n acc
    let (acc, ks) ← chunkLoop w l acc
    .ok (acc, k :: ks)

/-- src/io/netcdf/NetCDF_CDMWriter.cc:412-421: level and shuffle. -/
def compressionOf (w : Writer A) (n : String) : Nat × Bool :=
  match w.compression n with
  | none => (0, false)
  | some k => if 2 ^ 31 ≤ k % 2 ^ 32 then (0, false)
    else if 10 < k % 2 ^ 32 then (k % 2 ^ 32 - 10, true) else (k % 2 ^ 32, false)

/-- src/io/netcdf/NetCDF_CDMWriter.cc:403-461: chunking and compression of a variable. -/
def compress (L : Lib A) (w : Writer A) (f : NcFile A) (v : Var (Payload A)) (id : Nat) : Res (NcFile A) :=
  if f.format = .netcdf4 ∨ f.format = .netcdf4classic then
    let (level, shuffle) := compressionOf w v.name
    if 0 < level ∧ v.shape ≠ [] then do
      let (total, ks) ← chunkLoop w v.shape 1
      if 0 < total then do
        let f ← ncDefChunking L f id ks.reverse
        ncDefDeflate L f id shuffle level
      else ncDefDeflate L f id shuffle level
    else .ok f
  else .ok f

/-- src/io/netcdf/NetCDF_CDMWriter.cc:383-386: the ids of the dimensions of a variable, slowest first;
an unknown dimension dereferences the end of the map. -/
def idsOf (ids : Map Nat) : List String → Res (List Nat)
  | [] => .ok []
  | n :: l => do
    let rest ← idsOf ids l
    match ids n with
    | some i => .ok (rest ++ [i])
    | none => .ub

/-- src/io/netcdf/NetCDF_CDMWriter.cc:387-395: the type of a variable in the file. -/
def definedType (w : Writer A) (v : Var (Payload A)) : DataType :=
  let ty := match w.varTypes v.name with
    | some t => if t ≠ .nat then t else v.payload.ty
    | none => v.payload.ty
  if ty = .nat ∧ v.shape = [] then .int else ty

/-- src/io/netcdf/NetCDF_CDMWriter.cc:378-466 `defineVariables`. -/
def defineVariables (L : Lib A) (w : Writer A) (dimIds : Map Nat) (f : NcFile A) (ids : Map Nat) :
    List (Var (Payload A)) → Res (NcFile A × Map Nat)
  | [] => .ok (f, ids)
  | v :: l => do
    let dims ← idsOf dimIds v.shape
    let (f, id) ← ncDefVar L f (written w.varNames v.name) (cdmDataType2ncType (definedType w v)) dims
    let f ← compress L w f v id
    defineVariables L w dimIds f (ids.put v.name id) l

/-- src/io/netcdf/NetCDF_CDMWriter.cc:478-541: an attribute of the file. -/
def attToNc (O : Ops A F U) (format : Format) (a : Attr (Data A)) : Res (NcAtt A) :=
  match a.value.ty with
  | .string => .ok ⟨a.name, .char, a.value.vals⟩
  | .strings =>
    if format = .netcdf4 then .ok ⟨a.name, .string, a.value.vals⟩
    else if a.value.vals.length = 1 then do
      let t ← O.asType .string a.value
      .ok ⟨a.name, .char, t⟩
    else .throws
  | .nat => .throws
  | ty => .ok ⟨a.name, cdmDataType2ncType ty, a.value.vals⟩

/-- src/io/netcdf/NetCDF_CDMWriter.cc:478-541: the attributes of one variable. -/
def writeAtts (L : Lib A) (O : Ops A F U) (id : Option Nat) (f : NcFile A) : List (Attr (Data A)) → Res (NcFile A)
  | [] => .ok f
  | a :: l => do
    let n ← attToNc O f.format a
    let f ← ncPutAtt L f id n
    writeAtts L O id f l

/-- src/io/netcdf/NetCDF_CDMWriter.cc:473-477: the id the attributes of a name are written to. -/
def attOwner (ids : Map Nat) (n : String) : Res (Option Nat) :=
  if n = globalNS then .ok none
  else
    match ids n with
    | some i => .ok (some i)
    | none => .ub

/-- src/io/netcdf/NetCDF_CDMWriter.cc:468-544 `writeAttributes`; the list is the keys of the map of
attributes. -/
def writeAttributes (L : Lib A) (O : Ops A F U) (c : Ds A) (ids : Map Nat) (f : NcFile A) :
    List String → Res (NcFile A)
  | [] => .ok f
  | n :: l => do
    let id ← attOwner ids n
    let f ← writeAtts L O id f (getAttributes c n)
    writeAttributes L O c ids f l

/-- src/CDM.cc:428-441 `getAttribute(varName, attrName, retAttribute)`. -/
def findAtt (c : Ds A) (v a : String) : Option (Data A) :=
  ((getAttributes c v).find? fun b => b.name == a).map (·.value)

/-- src/CDM.cc:539-546 `getUnits`. -/
def getUnits (O : Ops A F U) (c : Ds A) (v : String) : Res String :=
  match findAtt c v "units" with
  | some d => O.text d
  | none => .ok ""

/-- `asDouble()[0]`: texts and native data have no doubles (src/StringData.h:64, src/NativeData.h:79), empty data
has no element. -/
def firstDouble (O : Ops A F U) (d : Data A) : Res F :=
  if d.ty = .string ∨ d.ty = .nat then .throws
  else
    match d.vals with
    | [] => .ub
    | a :: _ => .ok (O.num a)

/-- src/CDM.cc:477-492 `getFillValue`, for a variable that exists. -/
def getFillValue (O : Ops A F U) (c : Ds A) (v : String) : Res F := do
  let var ← getVariable c v
  match findAtt c v "_FillValue", findAtt c v "missing_value" with
  | some d, _ => if var.payload.ty ≠ d.ty then .throws else firstDouble O d
  | none, some d => if var.payload.ty ≠ d.ty then .throws else firstDouble O d
  | none, none => .ok (O.defaultFill var.payload.ty)

/-- src/CDM.cc:529-537 `getScaleFactor`. -/
def getScaleFactor (O : Ops A F U) (c : Ds A) (v : String) : Res F :=
  match findAtt c v "scale_factor" with
  | some d => firstDouble O d
  | none => .ok O.one

/-- src/CDM.cc:519-527 `getAddOffset`. -/
def getAddOffset (O : Ops A F U) (c : Ds A) (v : String) : Res F :=
  match findAtt c v "add_offset" with
  | some d => firstDouble O d
  | none => .ok O.zero

/-- src/io/netcdf/NetCDF_CDMWriter.cc:565-569: the converter of the units. -/
def unitConverter (O : Ops A F U) (old new : String) : Res (Option U) :=
  if old ≠ new then do
    let u ← O.getConverter old new
    .ok (some u)
  else .ok none

/-- src/io/netcdf/NetCDF_CDMWriter.cc:546-580 `convertData`.  The exceptions of the conversion are caught and
leave the data as it was. -/
def convertData (O : Ops A F U) (reader : Ds A) (w : Writer A) (v : Var (Payload A)) (data : Data A) :
    Res (Data A) := do
  let oldUnit ← getUnits O reader v.name
  let newUnit ← getUnits O w.cdm v.name
  let oldType := v.payload.ty
  let newType := (w.varTypes v.name).getD oldType
  let oldFill ← getFillValue O reader v.name
  let oldScale ← getScaleFactor O reader v.name
  let oldOffset ← getAddOffset O reader v.name
  let newFill ← getFillValue O w.cdm v.name
  let newScale ← getScaleFactor O w.cdm v.name
  let newOffset ← getAddOffset O w.cdm v.name
  if (newType ≠ .nat ∧ oldType ≠ .nat) ∧
      (newType ≠ oldType ∨ newUnit ≠ oldUnit ∨ O.differs oldFill newFill ∨ O.differs oldScale newScale ∨
        O.differs oldOffset newOffset) then
    match (do
      let uc ← unitConverter O oldUnit newUnit
      O.convert data oldFill oldScale oldOffset uc newType newFill newScale newOffset : Res (Data A)) with
    | .ok d => .ok d
    | .throws => .ok data
    | .ub => .ub
  else .ok data

/-- The reader the data comes from; `none` is a null pointer. -/
structure Source (A : Type) where
  cdm : Ds A
  getData : String → Res (Option (Data A))
  getDataSlice : String → Nat → Res (Option (Data A))

/-- The last position of an id. -/
def lastIdx (id : Option Nat) (dims : List Nat) : Option Nat :=
  (dims.zipIdx.filter fun p => some p.1 = id).getLast?.map (·.2)

/-- src/io/netcdf/NetCDF_CDMWriter.cc:672-679: read the data; the outer `none` is `continue`. -/
def readData (O : Ops A F U) (src : Source A) (w : Writer A) (v : Var (Payload A)) (pos unIdx : Option Nat) :
    Option (Res (Option (Data A))) :=
  let read : Option (Res (Option (Data A))) :=
    match pos, unIdx, hasUnlimitedDim w.cdm v with
    | none, none, false => some (src.getData v.name)
    | some p, some _, true => some (src.getDataSlice v.name p)
    | _, _, _ => none
  read.map fun r => do
    match ← r with
    | none => .ok none
    | some d => do
      let d ← convertData O src.cdm w v d
      .ok (some d)

/-- Whether there are no values. -/
def noValues (d : Option (Data A)) : Bool :=
  match d with
  | none => true
  | some d => d.vals.isEmpty

/-- src/io/netcdf/NetCDF_CDMWriter.cc:703-710: in the classic formats data that is absent is replaced by fill
values (`createData`, src/Data.cc:111-116). -/
def orFill (O : Ops A F U) (w : Writer A) (format : Format) (v : Var (Payload A)) (count : List Nat)
    (d : Option (Data A)) : Res (Option (Data A)) :=
  if noValues d && decide (format.code < 3) then do
    let fill ← getFillValue O w.cdm v.name
    let a ← O.castFill v.payload.ty fill
    .ok (some ⟨v.payload.ty, List.replicate count.prod a⟩)
  else .ok d

/-- src/io/netcdf/NetCDF_CDMWriter.cc:711-730: write the data; an exception is caught. -/
def putData (L : Lib A) (O : Ops A F U) (f : NcFile A) (v : Var (Payload A)) (id : Nat) (start count : List Nat)
    (d : Option (Data A)) : Res (NcFile A) :=
  match d with
  | none => .ok f
  | some d =>
    if d.vals.isEmpty then .ok f
    else
      match ncPutValues L O f d id (cdmDataType2ncType v.payload.ty) start count with
      | .ok f => .ok f
      | .throws => .ok f
      | .ub => .ub

/-- `a[i] = x` where there is such an `i`. -/
def setAt (l : List Nat) (i : Option Nat) (x : Nat) : List Nat :=
  match i with
  | some i => l.set i x
  | none => l

/-- src/io/netcdf/NetCDF_CDMWriter.cc:619-731: one variable at one position of the unlimited dimension (`none`
is -1).  The flag says that an exception occurred while reading. -/
def writeVar (L : Lib A) (O : Ops A F U) (src : Source A) (w : Writer A) (ids : Map Nat) (unLimId : Option Nat)
    (f : NcFile A) (pos : Option Nat) (v : Var (Payload A)) : Res (NcFile A × Bool) :=
  match ids v.name with
  | none => .ub
  | some id =>
    match f.vars[id]? with
    | none => .throws
    | some nv => do
      let lens ← dimLens f.dims nv.dims
      let unIdx := lastIdx unLimId nv.dims
      match readData O src w v pos unIdx with
      | none => .ok (f, false)
      | some .throws => .ok (f, true)
      | some .ub => .ub
      | some (.ok d) => do
        let count := setAt lens unIdx 1
        let start := setAt (lens.map fun _ => 0) unIdx (pos.getD 0)
        let d ← orFill O w f.format v count d
        let f ← putData L O f v id start count d
        .ok (f, false)

/-- The steps of `writeData`. -/
inductive Step (A : Type) where
  | var (pos : Option Nat) (v : Var (Payload A))
  | sync

/-- src/io/netcdf/NetCDF_CDMWriter.cc:617-735: the steps in the order in which they happen.  The loop over the
positions runs in parallel; the calls of the library are serialised by a mutex, so an execution is
some order of the steps (simplification: what a step reads from the library before and what it
writes afterwards is taken together; the lengths it reads for unlimited dimensions are not used). -/
def runSteps (L : Lib A) (O : Ops A F U) (src : Source A) (w : Writer A) (ids : Map Nat) (unLimId : Option Nat) :
    NcFile A → Bool → List (Step A) → Res (NcFile A × Bool)
  | f, ex, [] => .ok (f, ex)
  | f, ex, .sync :: l => if L.refuse f .sync then .throws else runSteps L O src w ids unLimId f ex l
  | f, true, .var _ _ :: l => runSteps L O src w ids unLimId f true l
  | f, false, .var p v :: l => do
    let (f, ex) ← writeVar L O src w ids unLimId f p v
    runSteps L O src w ids unLimId f ex l

/-- The positions: -1 and those of the unlimited dimension (src/io/netcdf/NetCDF_CDMWriter.cc:586,605). -/
def positions (c : Ds A) : List (Option Nat) :=
  none :: (match getUnlimitedDim c with
    | some d => (List.range d.length).map some
    | none => [])

/-- The steps in the order of a single thread. -/
def sequential (c : Ds A) : List (Step A) :=
  (positions c).flatMap fun p => c.vars.map (Step.var p) ++ (if p.isSome then [.sync] else [])

/-- src/io/netcdf/NetCDF_CDMWriter.cc:97-103 `ncDimId`. -/
def unLimDimId (f : NcFile A) (c : Ds A) : Res (Option Nat) :=
  match getUnlimitedDim c with
  | some d => do
    let i ← ncInqDimid f d.name
    .ok (some i)
  | none => .ok none

/-- src/io/netcdf/NetCDF_CDMWriter.cc:582-739 `writeData`, with the steps in the order given. -/
def writeData (L : Lib A) (O : Ops A F U) (src : Source A) (w : Writer A) (ids : Map Nat) (f : NcFile A)
    (steps : List (Step A)) : Res (NcFile A) := do
  let id ← unLimDimId f w.cdm
  let (f, ex) ← runSteps L O src w ids id f false steps
  if ex then .throws else .ok f

/-- src/io/netcdf/NetCDF_CDMWriter.cc:114-159: the members after the `init…` functions. -/
def configure (O : Ops A F U) (cfg : Config) (c : Ds A) : Res (Writer A) := do
  let c ← initRemove cfg c
  let w ← initFillRenameVariable cfg ⟨c, fun _ => none, fun _ => none, fun _ => none, fun _ => none, fun _ => none⟩
  let w ← initFillRenameDimension w cfg.dimNames
  let c ← initFillRenameAttribute O w.cdm cfg.attEdits
  .ok { w with cdm := c }

/-- src/io/netcdf/NetCDF_CDMWriter.cc:741-747: dimensions, variables and attributes of the file. -/
def define (L : Lib A) (O : Ops A F U) (w : Writer A) (keys : List String) (format : Format) :
    Res (NcFile A × Map Nat) := do
  let (f, dimIds) ← defineDimensions L w ⟨format, [], [], []⟩ (fun _ => none) w.cdm.dims
  let (f, ids) ← defineVariables L w dimIds f (fun _ => none) w.cdm.vars
  let f ← writeAttributes L O w.cdm ids f keys
  if L.refuse f .enddef then .throws else .ok (f, ids)

/-- src/io/netcdf/NetCDF_CDMWriter.cc:114-159,741-751: the constructor. -/
def write (L : Lib A) (O : Ops A F U) (src : Source A) (cfg : Config) (version : Int)
    (keys : Ds A → List String) (order : Ds A → List (Step A)) : Res (NcFile A) := do
  let format ← getFormat version cfg.filetype
  let w ← configure O cfg src.cdm
  let (f, ids) ← define L O w (keys w.cdm) format
  writeData L O src w ids f (order w.cdm)

end Fimex.Netcdf
