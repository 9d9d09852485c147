import Verif.Ncml.DocModel

/-!
# NcML documents written

Model of `NcmlCDMWriter` (`src/NcmlCDMWriter.cc`), which writes a dataset as NcML document, of what an XML parser makes of the texts in it, and of
the reader's conversions of texts (`src/NcmlCDMReader.cc`, `src/DataUtils.cc`) that `Verif.Ncml.DocModel` leaves open.

The document is a tree whose markup is constant; the texts of attributes and elements are as written, before the parser decodes them.  The comment
for types that NcML has not, the space between elements and the declarations of namespaces, which no reader looks at, are left out.  Texts are sequences
of characters in UTF-8.  How numbers are printed and parsed is a parameter.
-/

namespace Fimex.NcmlWrite

open Cdm Tables NcmlDoc
open Fimex.Text (join tokenize)

/-! ## Data -/

/-- Values of a variable or an attribute: numbers (`DataImpl`), a text (`StringData`) or several texts. -/
inductive Val (F : Type) where
  | nums (t : DataType) (l : List F)
  | text (s : List Char)
  | strings (l : List (List Char))
deriving DecidableEq

variable {F : Type}

/-- `Data::getDataType`. -/
def Val.type : Val F → DataType
  | .nums t _ => t
  | .text _ => .string
  | .strings _ => .strings

/-- `Data::size`; src/StringData.h:46 for a text. -/
def Val.size : Val F → Nat
  | .nums _ l => l.length
  | .text s => s.length
  | .strings l => l.length

/-- Printing and parsing of numbers: `type2stream` (include/fimex/Type2String.h:34-59, src/Type2String.cc:40-57) and `string2type` of one value of a type,
and `string2type<int>`. -/
structure Numbers (F : Type) where
  print : DataType → F → List Char
  parse : DataType → List Char → Res F
  int : String → Res Int

/-- src/DataImpl.h:178-194, src/StringData.h:51, 82 `toStream` and `asString`. -/
def stream (N : Numbers F) (d : Val F) (sep : List Char) : List Char :=
  match d with
  | .nums t l => join (l.map (N.print t)) sep
  | .text s => s
  | .strings l => join l sep

/-! ## Texts in XML -/

/-- src/XMLUtils.cc:157-176. -/
def escapeChar (c : Char) : List Char :=
  if c = '&' then "&amp;".toList
  else if c = '<' then "&lt;".toList
  else if c = '>' then "&gt;".toList
  else if c = '"' then "&quot;".toList
  else if c = '\'' then "&apos;".toList
  else [c]

/-- src/XMLUtils.cc:134-181 `escapeXmlToStream`. -/
def escapeXml (s : List Char) : List Char :=
  if s.any fun c => "&<>\"'".toList.contains c then s.flatMap escapeChar else s

/-- XML 1.0, 2.11: line ends. -/
def lineEnds : List Char → List Char
  | [] => []
  | '\r' :: '\n' :: s => '\n' :: lineEnds s
  | '\r' :: s => '\n' :: lineEnds s
  | c :: s => c :: lineEnds s

/-- XML 1.0, 2.2: the characters of a document. -/
def isXmlChar (c : Char) : Bool := c == '\t' || c == '\n' || c == '\r' || (decide (32 ≤ c.toNat) && c.toNat != 65534 && c.toNat != 65535)

/-- XML 1.0, 4.6: predefined entities.  References to characters by number are not modelled, the writer makes none. -/
def entity (n : List Char) : Option Char :=
  if n = "amp".toList then some '&'
  else if n = "lt".toList then some '<'
  else if n = "gt".toList then some '>'
  else if n = "quot".toList then some '"'
  else if n = "apos".toList then some '\''
  else none

/-- Decoding of a text; the first argument is the name of an entity that has begun, `stop` tells characters that may not stand there, `f` is what becomes
of a character.  `none`: the document is not well-formed. -/
def decodeLoop (stop : Char → Bool) (f : Char → Char) : Option (List Char) → List Char → Option (List Char)
  | none, [] => some []
  | some _, [] => none
  | none, c :: s =>
    if c = '&' then decodeLoop stop f (some []) s
    else if stop c = true ∨ isXmlChar c = false then none
    else (decodeLoop stop f none s).map (f c :: ·)
  | some n, c :: s =>
    if c = ';' then
      match entity n with
      | some e => (decodeLoop stop f none s).map (e :: ·)
      | none => none
    else decodeLoop stop f (some (n ++ [c])) s

/-- XML 1.0, 3.3.3: white space in values of attributes. -/
def toSpace (c : Char) : Char := if c = '\t' ∨ c = '\n' ∨ c = '\r' then ' ' else c

/-- XML 1.0, 2.3, 3.3.3: the value of an attribute between `"`. -/
def decodeAttr (s : List Char) : Option (List Char) := decodeLoop (fun c => c == '<' || c == '"') toSpace none (lineEnds s)

/-- XML 1.0, 2.4: the text of an element. -/
def decodeText (s : List Char) : Option (List Char) :=
  if contains s "]]>".toList then none else decodeLoop (fun c => c == '<') id none (lineEnds s)

/-- An element as it is written: name, attributes, text and elements. -/
inductive Raw where
  | node (tag : String) (props : List (String × List Char)) (content : List Char) (children : List Raw)

/-- The attributes of an element. -/
def decodeProps : List (String × List Char) → Option (List (String × String))
  | [] => some []
  | p :: l =>
    match decodeAttr p.2, decodeProps l with
    | some t, some r => some ((p.1, String.ofList t) :: r)
    | _, _ => none

mutual

/-- What the parser makes of an element; `none`: the document is not well-formed. -/
def decode : Raw → Option Xml
  | .node tag props content children =>
    match decodeProps props, decodeText content, decodeAll children with
    | some p, some t, some l => some (.node tag p (String.ofList t) l)
    | _, _, _ => none

def decodeAll : List Raw → Option (List Xml)
  | [] => some []
  | r :: l =>
    match decode r, decodeAll l with
    | some x, some y => some (x :: y)
    | _, _ => none

end

/-! ## The writer -/

/-- src/NcmlCDMWriter.cc:57 -/
def separators : List (List Char) := [" ".toList, ",".toList, "|".toList, "#".toList, "---NEXT-NCML-STRING---".toList]

/-- src/NcmlCDMWriter.cc:53-76 `findStringsSeparator`. -/
def findSeparator (l : List (List Char)) : Res (List Char) :=
  match separators.find? fun sep => !(l.any fun s => contains s sep) with
  | some sep => .ok sep
  | none => .throws

/-- src/NcmlCDMWriter.cc:162-169: a dimension. -/
def rawDim (d : Dim) : Raw :=
  .node "dimension" ([("name", escapeXml d.name.toList), ("length", (toString d.length).toList)] ++ (if d.unlimited then [("isUnlimited", "true".toList)] else [])) [] []

/-- The separator of the values of an attribute, src/NcmlCDMWriter.cc:175-178. -/
def attrSeparator : Val F → Res (List Char)
  | .strings l => findSeparator l
  | _ => .ok [' ']

/-- src/NcmlCDMWriter.cc:172-184: an attribute; src/CDMAttribute.cc:101-106 for its text. -/
def rawAttr (N : Numbers F) (a : Attr (Val F)) : Res Raw :=
  (attrSeparator a.value).bind fun sep =>
  .ok (.node "attribute"
    ([("name", escapeXml a.name.toList), ("type", (cdm2ncml a.value.type).name)] ++ (if sep ≠ [' '] then [("separator", sep)] else []) ++
      [("value", escapeXml (stream N a.value sep))]) [] [])

def rawAttrs (N : Numbers F) : List (Attr (Val F)) → Res (List Raw)
  | [] => .ok []
  | a :: l => (rawAttr N a).bind fun x => (rawAttrs N l).bind fun r => .ok (x :: r)

/-- The reader whose dataset is written: `getData(name)`, `getDataSlice(name, pos)`, and the text of the fill value of a variable,
src/NcmlCDMWriter.cc:143-146. -/
structure Source (F : Type) where
  all : String → Res (Option (Val F))
  slice : String → Nat → Res (Option (Val F))
  fill : String → Res (List Char)

/-- src/NcmlCDMWriter.cc:114-119: the number of values of one slice. -/
def sliceSize {V CS : Type} (c : CDM (Payload (Val F)) V CS) : List String → Res Nat
  | [] => .ok 1
  | d :: l => (getDimension c d).bind fun dim => (sliceSize c l).bind fun n => .ok (if dim.unlimited then n else dim.length * n)

/-- src/NcmlCDMWriter.cc:140-154: the text of what has been read, or of fill values. -/
def chunkText (N : Numbers F) (fill : Res (List Char)) (n : Nat) (sep : List Char) (d : Option (Val F)) : Res (List Char) :=
  match d with
  | some d =>
    if 0 < d.size then .ok (stream N d sep)
    else if 0 < n then fill.bind fun f => .ok (join (List.replicate n f) sep)
    else .ok []
  | none => if 0 < n then fill.bind fun f => .ok (join (List.replicate n f) sep) else .ok []

/-- The slices with positions from `i` on. -/
def slices (S : Source F) (v : String) : Nat → Nat → Res (List (Option (Val F)))
  | _, 0 => .ok []
  | i, n + 1 => (S.slice v i).bind fun d => (slices S v (i + 1) n).bind fun r => .ok (d :: r)

/-- src/NcmlCDMWriter.cc:107-108, 128-137: what is read, one after the other. -/
def chunks {V CS : Type} (S : Source F) (c : CDM (Payload (Val F)) V CS) (v : Var (Payload (Val F))) : Res (List (Option (Val F))) :=
  if hasUnlimitedDim c v then
    match getUnlimitedDim c with
    | some d => slices S v.name 0 d.length
    | none => .ok []
  else (S.all v.name).bind fun d => .ok [d]

def chunkTexts (N : Numbers F) (fill : Res (List Char)) (n : Nat) (sep : List Char) : List (Option (Val F)) → Res (List (List Char))
  | [] => .ok []
  | d :: l => (chunkText N fill n sep d).bind fun x => (chunkTexts N fill n sep l).bind fun r => .ok (x :: r)

/-- src/NcmlCDMWriter.cc:122-123 -/
def stringsMarker : List Char := "---NEXT-NCML-STRING---".toList

/-- src/NcmlCDMWriter.cc:113-157: the element `values`.  Its text is not escaped. -/
def rawValues {V CS : Type} (N : Numbers F) (S : Source F) (c : CDM (Payload (Val F)) V CS) (v : Var (Payload (Val F))) : Res Raw :=
  (sliceSize c v.shape).bind fun n =>
  let sep := if v.payload.dtype = .strings then stringsMarker else [' ']
  (chunks S c v).bind fun ds =>
  (chunkTexts N (S.fill v.name) n sep ds).bind fun l =>
  .ok (.node "values" (if v.payload.dtype = .strings then [("separator", sep)] else []) (join l sep) [])

/-- src/NcmlCDMWriter.cc:44-51 `shapeToXMLStream`: names are not escaped. -/
def rawShape (shape : List String) : List (String × List Char) :=
  if shape = [] then [] else [("shape", join (shape.reverse.map String.toList) [' '])]

/-- src/NcmlCDMWriter.cc:198-211: the type, and the attribute of types without sign. -/
def rawType (t : DataType) : List Char × List Raw :=
  if (cdm2ncml t).name ≠ [] then
    ((cdm2ncml t).name, if (cdm2ncml t).unsigned then [.node "attribute" [("name", "_Unsigned".toList), ("value", "true".toList)] [] []] else [])
  else ("int".toList, [])

/-- src/NcmlCDMWriter.cc:108-159, 192-225: a variable. -/
def rawVar {CS : Type} (N : Numbers F) (S : Source F) (withData : Bool) (c : CDM (Payload (Val F)) (Val F) CS) (v : Var (Payload (Val F))) : Res Raw :=
  (rawAttrs N (getAttributes c v.name)).bind fun attrs =>
  (if withData ∧ v.payload.dtype ≠ .nat then (rawValues N S c v).bind fun x => .ok [x] else .ok []).bind fun values =>
  .ok (.node "variable" ([("name", escapeXml v.name.toList)] ++ rawShape v.shape ++ [("type", (rawType v.payload.dtype).1)]) []
    ((rawType v.payload.dtype).2 ++ attrs ++ values))

def rawVars {CS : Type} (N : Numbers F) (S : Source F) (withData : Bool) (c : CDM (Payload (Val F)) (Val F) CS) : List (Var (Payload (Val F))) → Res (List Raw)
  | [] => .ok []
  | v :: l => (rawVar N S withData c v).bind fun x => (rawVars N S withData c l).bind fun r => .ok (x :: r)

/-- src/NcmlCDMWriter.cc:94-160 `write`. -/
def write {CS : Type} (N : Numbers F) (S : Source F) (withData : Bool) (c : CDM (Payload (Val F)) (Val F) CS) : Res Raw :=
  (rawAttrs N (getAttributes c globalNS)).bind fun attrs =>
  (rawVars N S withData c c.vars).bind fun vars =>
  .ok (.node "netcdf" [] [] (c.dims.map rawDim ++ attrs ++ vars))

/-! ## The conversions of the reader -/

/-- A loop of C26 or C71, with rounds enough to end. -/
def ended {α : Type} (r : Option (Res α)) : Res α :=
  match r with
  | some r => r
  | none => .ub

/-- src/NcmlCDMReader.cc:75-81 `split_ncml_values`. -/
def split (s sep : List Char) : Res (List (List Char)) := ended (Ncml.splitNcmlValues (s.length + 1) s sep)

def parseAll (N : Numbers F) (t : DataType) : List (List Char) → Res (List F)
  | [] => .ok []
  | s :: l => (N.parse t s).bind fun x => (parseAll N t l).bind fun r => .ok (x :: r)

/-- src/DataUtils.cc:20-55 `initDataByArray`. -/
def byArray (N : Numbers F) (t : DataType) (l : List (List Char)) : Res (Val F) :=
  match t with
  | .nat => .throws
  | .string => .ok (.text (join l [' ']))
  | .strings => .ok (.strings l)
  | t => (parseAll N t l).bind fun r => .ok (.nums t r)

/-- src/Data.cc:52-74 `createData(type, 0)`; data without type are numbers of no type. -/
def blank (t : DataType) : Val F :=
  match t with
  | .string => .text []
  | .strings => .strings []
  | t => .nums t []

/-- src/NcmlCDMReader.cc:289-316 (C71); `progression` are the values from start and increment. -/
def readValues (N : Numbers F) (progression : DataType → Nat → String → String → Res (Val F)) (t : DataType) (dims : List Nat) (start increment content separator : String) :
    Res (Val F) :=
  if start.isEmpty ≠ increment.isEmpty then .throws
  else if (!start.isEmpty && !increment.isEmpty) = !content.isEmpty then .throws
  else if !start.isEmpty && !increment.isEmpty then progression t (Ncml.dataSize dims) start increment
  else
    (split content.toList separator.toList).bind fun l =>
    if (dims.length = 0 ∧ 1 < l.length) ∨ (0 < dims.length ∧ l.length ≠ Ncml.dataSize dims) then .throws else byArray N t l

/-- The functions that the reader uses. -/
def readEnv (N : Numbers F) (progression : DataType → Nat → String → String → Res (Val F)) (read : String → Res (Val F)) : Env (Val F) (Val F) where
  typeOf := Val.type
  read := read
  blank := fun t => .ok (blank t)
  shape := fun s => (ended (Ncml.shapeFromAtt (s.toList.length + 1) s.toList)).bind fun l => .ok (l.map String.ofList)
  fill := fun t dims start increment content separator => readValues N progression t dims start increment content separator
  pieces := fun s sep => (split s.toList sep.toList).bind fun l => .ok (l.map String.ofList)
  value := fun t l => byArray N t (l.map String.toList)
  int := N.int

/-- The dataset of a reader without data, src/NcmlAggregationReader.cc:49-57: a document without `location` and aggregation begins with it. -/
def empty {CS : Type} (cs : CS) : CDM (Payload (Val F)) (Val F) CS := ⟨fun _ => none, [], [], false, cs⟩

/-- Reading of a document: src/XMLDoc.cc raises where it is not well-formed. -/
def readBack {CS : Type} (N : Numbers F) (progression : DataType → Nat → String → String → Res (Val F)) (read : String → Res (Val F)) (id : String) (cs : CS) (r : Raw) :
    Res (St (Val F) (Val F) CS) :=
  match decode r with
  | none => .throws
  | some doc => construct (readEnv N progression read) id (some doc) (empty cs) (empty cs)

end Fimex.NcmlWrite
