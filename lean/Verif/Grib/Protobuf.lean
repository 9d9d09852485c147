import Verif.Cdm.Model
import Verif.Text.Model
import Verif.Tables.DataType
import Verif.Scale.Model
import Verif.Files.Paths

/-!
# Model of the index file (src/ProtobufCDM.cc, src/io/grib/GribProtobufIndexReader.cc, GribProtobufIndexWriter.cc)

A message is the record of its fields as declared in `cdm.proto` and `grib_index.proto`. Writing a message to
a stream and parsing it is done by the protobuf library and is not modelled: it is taken to give back the
message. Field types narrower than the C++ value written to them reduce the value modulo `2^32`.
`float` and `double` values are elements of two arbitrary types `F` and `D`.
-/

namespace Fimex.Pb

open Fimex.Cdm Fimex.Text Fimex.Tables

/-! ## Data in memory -/

/-- The integer element types of `DataImpl<T>` (src/Data.cc:195-214). -/
inductive IntT where
  | char | short | int | uchar | ushort | uint | int64 | uint64
deriving DecidableEq, Repr

/-- Width of the element type. -/
def IntT.bits : IntT → Nat
  | .char | .uchar => 8
  | .short | .ushort => 16
  | .int | .uint => 32
  | .int64 | .uint64 => 64

/-- Whether the element type is signed (`char` is, on the supported platforms). -/
def IntT.signed : IntT → Bool
  | .char | .short | .int | .int64 => true
  | _ => false

/-- src/Data.cc:195-209 `DataImpl<T>::getDataType`. -/
def IntT.type : IntT → DataType
  | .char => .char
  | .short => .short
  | .int => .int
  | .uchar => .uchar
  | .ushort => .ushort
  | .uint => .uint
  | .int64 => .int64
  | .uint64 => .uint64

variable {F D : Type}

/-- The objects behind a `DataPtr`: `DataImpl<T>` for each element type, `StringData`, and `NativeData` of a
given size (src/Data.cc:56-77). -/
inductive Data (F D : Type) where
  | int (t : IntT) (vs : List Int)
  | float (vs : List F)
  | double (vs : List D)
  | string (s : String)
  | strings (ss : List String)
  | native (size : Nat)
deriving DecidableEq, Repr

/-- `Data::getDataType`. -/
def Data.type : Data F D → DataType
  | .int t _ => t.type
  | .float _ => .float
  | .double _ => .double
  | .string _ => .string
  | .strings _ => .strings
  | .native _ => .nat

/-- Data type and data of a variable. `CDMVariable::setData` and `setDataType` (src/CDMVariable.cc:71-85)
keep the type of the data equal to the type of the variable, so there is either a type without data or
data. -/
inductive Held (F D : Type) where
  | empty (t : DataType)
  | data (d : Data F D)
deriving DecidableEq

/-- What a variable has besides name and shape: type and data, and the vector counterpart with direction
(include/fimex/CDMVariable.h). -/
structure Payload (F D : Type) where
  held : Held F D
  vector : Option (String × Nat)
deriving DecidableEq

/-- A dataset description; the value of an attribute is a `DataPtr` that may be null. -/
abbrev Dataset (F D CS : Type) := CDM (Payload F D) (Option (Data F D)) CS

/-! ## Messages -/

/-- `message CDMData` (src/protobuf/cdm.proto). Enumerations are open: any number can be read. -/
structure FData (F D : Type) where
  type : Nat
  u8 : List Int := []
  u32 : List Int := []
  u64 : List Int := []
  f32 : List F := []
  f64 : List D := []
  strings : List Nat := []
deriving DecidableEq, Repr

/-- `message CDMAttribute`. -/
structure FAttr (F D : Type) where
  name : Nat
  data : FData F D
deriving DecidableEq, Repr

/-- `message CDMDimension`. -/
structure FDim where
  name : Nat
  length : Nat
  unlimited : Bool
deriving DecidableEq, Repr

/-- `message CDMVariable`. -/
structure FVar (F D : Type) where
  name : Nat
  data : FData F D
  shape : List Nat
  attributes : List (FAttr F D)
deriving DecidableEq, Repr

/-- `message CDM`. -/
structure FCdm (F D : Type) where
  strings : List String
  dims : List FDim
  vars : List (FVar F D)
  globals : List (FAttr F D)
deriving DecidableEq, Repr

/-- The numbers of `enum CDMDataType`, which are the same in cdm.proto and in
include/fimex/CDMDataType.h:35-49. -/
def code : DataType → Nat
  | .nat => 0
  | .char => 1
  | .short => 2
  | .int => 3
  | .float => 4
  | .double => 5
  | .string => 6
  | .uchar => 7
  | .ushort => 8
  | .uint => 9
  | .int64 => 10
  | .uint64 => 11
  | .strings => 12

/-- src/ProtobufCDM.cc:48-51 `dataTypeFromIndexCDM`: the enumerator with the number, if there is one. -/
def ofCode : Nat → Option DataType
  | 0 => some .nat
  | 1 => some .char
  | 2 => some .short
  | 3 => some .int
  | 4 => some .float
  | 5 => some .double
  | 6 => some .string
  | 7 => some .uchar
  | 8 => some .ushort
  | 9 => some .uint
  | 10 => some .int64
  | 11 => some .uint64
  | 12 => some .strings
  | _ => none

/-- Storing a `size_t` in a `uint32` field. -/
def u32 (n : Nat) : Nat := n % 2 ^ 32

/-! ## Writing -/

/-- src/ProtobufCDM.cc:238-302 `writeData` for data of the type that is passed. Bytes are the object
representation of the values (lines 224-229), other integers are converted to the unsigned field type by
`std::copy` (lines 230-235). -/
def writeData (l : StringList) : Held F D → FData F D × StringList
  | .empty t => ({ type := code t }, l)
  | .data (.native _) => ({ type := code .nat }, l)
  | .data (.int t vs) =>
    match t with
    | .char | .uchar => ({ type := code t.type, u8 := vs.map (Scale.wrap 8 false) }, l)
    | .short | .int | .ushort | .uint => ({ type := code t.type, u32 := vs.map (Scale.wrap 32 false) }, l)
    | .int64 | .uint64 => ({ type := code t.type, u64 := vs.map (Scale.wrap 64 false) }, l)
  | .data (.float vs) => ({ type := code .float, f32 := vs }, l)
  | .data (.double vs) => ({ type := code .double, f64 := vs }, l)
  | .data (.strings ss) =>
    let r := l.addAll ss
    ({ type := code .strings, strings := r.2.map u32 }, r.1)
  | .data (.string s) =>
    let r := l.add s
    ({ type := code .string, strings := [u32 r.2] }, r.1)

/-- src/ProtobufCDM.cc:217-221 `writeAttribute`. `getDataType` of an attribute without data dereferences a
null pointer (src/CDMAttribute.cc:108-111). -/
def writeAttribute (l : StringList) (a : Attr (Option (Data F D))) : Res (FAttr F D × StringList) :=
  let n := l.add a.name
  match a.value with
  | none => .ub
  | some d =>
    let w := writeData n.1 (.data d)
    .ok (⟨u32 n.2, w.1⟩, w.2)

/-- A loop that appends one message for each element. -/
def writeAll {α β : Type} (w : StringList → α → Res (β × StringList)) (l : StringList) :
    List α → Res (List β × StringList)
  | [] => .ok ([], l)
  | a :: as => do
    let r ← w l a
    let t ← writeAll w r.2 as
    .ok (r.1 :: t.1, t.2)

/-- src/ProtobufCDM.cc:193-198, one dimension. -/
def writeDim (l : StringList) (d : Dim) : Res (FDim × StringList) :=
  let n := l.add d.name
  .ok (⟨u32 n.2, u32 d.length, d.unlimited⟩, n.1)

/-- src/ProtobufCDM.cc:207-209, one entry of the shape. -/
def writeName (l : StringList) (s : String) : Res (Nat × StringList) :=
  let n := l.add s
  .ok (u32 n.2, n.1)

/-- src/ProtobufCDM.cc:200-210, one variable. -/
def writeVar {CS : Type} (c : Dataset F D CS) (l : StringList) (v : Var (Payload F D)) :
    Res (FVar F D × StringList) := do
  let n := l.add v.name
  let as ← writeAll writeAttribute n.1 (getAttributes c v.name)
  let d := writeData as.2 v.payload.held
  let s ← writeAll writeName d.2 v.shape
  .ok (⟨u32 n.2, d.1, s.1, as.1⟩, s.2)

/-- src/ProtobufCDM.cc:186-215 `writeCDM`, into an empty message. -/
def writeCDM {CS : Type} (c : Dataset F D CS) : Res (FCdm F D) := do
  let gs ← writeAll writeAttribute (StringList.empty false) (getAttributes c globalNS)
  let ds ← writeAll writeDim gs.2 c.dims
  let vs ← writeAll (writeVar c) ds.2 c.vars
  .ok ⟨vs.2.strings, ds.1, vs.1, gs.1⟩

/-! ## Reading -/

/-- `fcdm.strings(i)`: the parameter is an `int`, and the access is not checked. -/
def str (strings : List String) (i : Nat) : Res String :=
  if i < 2 ^ 31 then readAt strings i else .ub

/-- src/ProtobufCDM.cc:116-134 `createDataFromBytes`, `createDataFromField`: no data for an empty field. -/
def fromField {α : Type} (vs : List α) (f : List α → Data F D) : Option (Data F D) :=
  if vs = [] then none else some (f vs)

/-- Conversion of the elements of a field to the element type. -/
def ints (t : IntT) (vs : List Int) : Data F D := .int t (vs.map (Scale.wrap t.bits t.signed))

/-- src/ProtobufCDM.cc:137-184 `readData`. For a list of strings line 167 takes the string at the position in
the list, not at the stored index. -/
def readData (strings : List String) (f : FData F D) : Res (Option (Data F D)) :=
  match ofCode f.type with
  | none => .throws
  | some .nat => .ok none
  | some .char => .ok (fromField f.u8 (ints .char))
  | some .short => .ok (fromField f.u32 (ints .short))
  | some .int => .ok (fromField f.u32 (ints .int))
  | some .float => .ok (fromField f.f32 .float)
  | some .double => .ok (fromField f.f64 .double)
  | some .uchar => .ok (fromField f.u8 (ints .uchar))
  | some .ushort => .ok (fromField f.u32 (ints .ushort))
  | some .uint => .ok (fromField f.u32 (ints .uint))
  | some .int64 => .ok (fromField f.u64 (ints .int64))
  | some .uint64 => .ok (fromField f.u64 (ints .uint64))
  | some .strings =>
    if f.strings = [] then .ok none
    else do
      let ss ← (List.range f.strings.length).mapM (str strings)
      .ok (some (.strings ss))
  | some .string =>
    match f.strings with
    | [] => .ok none
    | i :: _ => do
      let s ← str strings i
      .ok (some (.string s))

/-- src/ProtobufCDM.cc:109-113 `readAttribute`. -/
def readAttribute (strings : List String) (f : FAttr F D) : Res (Attr (Option (Data F D))) := do
  let d ← readData strings f.data
  let n ← str strings f.name
  .ok ⟨n, d⟩

variable {CS : Type}

/-- One statement of `readCDM`: read something, then change the dataset. -/
def andThen {α : Type} (c : Dataset F D CS) (r : Res α) (k : α → Dataset F D CS × Res Unit) :
    Dataset F D CS × Res Unit :=
  match r with
  | .ok a => k a
  | .throws => (c, .throws)
  | .ub => (c, .ub)

/-- A loop of `readCDM`. -/
def each {α : Type} (step : Dataset F D CS → α → Dataset F D CS × Res Unit) (c : Dataset F D CS) :
    List α → Dataset F D CS × Res Unit
  | [] => (c, .ok ())
  | a :: as =>
    match step c a with
    | (c, .ok ()) => each step c as
    | r => r

/-- src/ProtobufCDM.cc:57-61 and 95-98, the attributes of one name. -/
def readAttributes (strings : List String) (n : String) (c : Dataset F D CS) (fs : List (FAttr F D)) :
    Dataset F D CS × Res Unit :=
  each (fun c f => andThen c (readAttribute strings f) fun a => addAttribute c n a) c fs

/-- src/ProtobufCDM.cc:63-67, one dimension. -/
def readDim (strings : List String) (c : Dataset F D CS) (f : FDim) : Dataset F D CS × Res Unit :=
  andThen c (str strings f.name) fun n => addDimension c ⟨n, f.length, f.unlimited⟩

/-- What a variable read from the file holds: its data if there are any, else the type alone
(src/ProtobufCDM.cc:76-79). A number that is no type is refused by `readData` before it matters. -/
def heldOf (type : Nat) : Option (Data F D) → Held F D
  | some d => .data d
  | none => .empty ((ofCode type).getD .nat)

/-- src/ProtobufCDM.cc:69-106, one variable. -/
def readVar (strings : List String) (c : Dataset F D CS) (f : FVar F D) : Dataset F D CS × Res Unit :=
  andThen c (f.shape.mapM (str strings)) fun shape =>
    andThen c (str strings f.name) fun n =>
      andThen c (readData strings f.data) fun d =>
        match addVariable c ⟨n, shape, ⟨heldOf f.data.type d, none⟩⟩ with
        | (c, .ok ()) => readAttributes strings n c f.attributes
        | r => r

/-- src/ProtobufCDM.cc:55-107 `readCDM`. -/
def readCDM (c : Dataset F D CS) (m : FCdm F D) : Dataset F D CS × Res Unit :=
  match readAttributes m.strings globalNS c m.globals with
  | (c, .ok ()) =>
    match each (readDim m.strings) c m.dims with
    | (c, .ok ()) => each (readVar m.strings) c m.vars
    | r => r
  | r => r

/-! ## The index of GRIB messages -/

/-- `GribCDMIndexer::grib_index` (src/io/grib/GribCDMIndexer.h): where one message is. -/
structure Chunk where
  file : Nat
  start : Nat
  size : Nat
deriving DecidableEq, Repr

/-- src/io/grib/GribCDMIndexer.h:60-67 `grib_var`. -/
structure GribVar (D : Type) where
  scale : D
  offset : D
  messages : List Chunk
deriving DecidableEq, Repr

/-- src/io/grib/GribCDMIndexer.h:69-73 `grib_indexed`; the map of variables as a list in its order of names. -/
structure Indexed (D : Type) where
  files : List (List Char)
  vars : List (String × GribVar D)
deriving DecidableEq, Repr

/-- `message GribVariable` and `message GribIndex` (src/io/grib/protobuf/grib_index.proto), without the dataset. -/
structure FIndex (D : Type) where
  files : List (List Char)
  vars : List (String × GribVar D)
deriving DecidableEq, Repr

/-- src/io/grib/GribProtobufIndexWriter.cc:79-82, one message; file and size are `uint32` fields. -/
def writeChunk (c : Chunk) : Chunk := ⟨u32 c.file, c.start, u32 c.size⟩

/-- src/io/grib/GribProtobufIndexWriter.cc:62-85 `writeGribIndex`: only the last part of the file name is kept. -/
def writeIndex (g : Indexed D) : Res (FIndex D) := do
  let fs ← g.files.mapM Files.extractFilename
  .ok ⟨fs, g.vars.map fun v => (v.1, { v.2 with messages := v.2.messages.map writeChunk })⟩

/-- src/io/grib/GribProtobufIndexReader.cc:55-68, one variable: `grib_vars[name]` makes an entry with zeros if
there is none; messages are appended. `zero` is the number 0. -/
def readIndexVar (zero : D) (m : String → Option (GribVar D)) (v : String × GribVar D) : String → Option (GribVar D) :=
  let g := (m v.1).getD ⟨zero, zero, []⟩
  fun n => if n = v.1 then some ⟨v.2.scale, v.2.offset, g.messages ++ v.2.messages⟩ else m n

/-- src/io/grib/GribProtobufIndexReader.cc:45-69 `readGribIndex` into an empty index. -/
def readIndex (zero : D) (f : FIndex D) : List (List Char) × (String → Option (GribVar D)) :=
  (f.files, f.vars.foldl (readIndexVar zero) fun _ => none)

/-- src/io/grib/GribCDMReader.cc:258-259: the place a message is read from, `none` if there is no such file. -/
def messageUrl (root : List Char) (files : List (List Char)) (c : Chunk) : Option (List Char) :=
  (files[c.file]?).map (Files.joinFilename root)

/-- The first bytes of an index file: `FIMEX_PROTO_INDEX_MAGIC` (src/ProtobufCDM.cc:40) and
`GRIB_PROTO_INDEX_MAGIC` (src/io/grib/GribProtobufIndexWriter.cc:40). -/
def fimexMagic : List Nat := [70, 77, 88, 73, 68, 88, 0, 80]
/-- See `fimexMagic`. -/
def gribMagic : List Nat := [71, 0, 0, 0]

/-- `strncmp(a, b, n) == 0` for arrays of at least `n` bytes: comparison ends at a common zero byte. -/
def strncmpEq : Nat → List Nat → List Nat → Bool
  | 0, _, _ => true
  | n + 1, a :: as, b :: bs => if a = b then (if a = 0 then true else strncmpEq n as bs) else false
  | _ + 1, _, _ => false

/-- src/io/grib/GribProtobufIndexReader.cc:77-89 `checkGribProtobufIndexMagic`. -/
def checkMagic (magic : List Nat) : Bool :=
  if magic.length < fimexMagic.length + gribMagic.length then false
  else if !strncmpEq fimexMagic.length fimexMagic magic then false
  else if !strncmpEq gribMagic.length gribMagic (magic.drop fimexMagic.length) then false
  else true

end Fimex.Pb
