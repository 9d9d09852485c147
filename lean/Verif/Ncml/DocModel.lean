import Verif.Ncml.Rename
import Verif.Ncml.Values
import Verif.Tables.DataType
import Verif.Extractor.Model

/-!
# What an NcML document does to a dataset

Model of the constructor of `NcmlCDMReader` (`src/NcmlCDMReader.cc`): the dataset of another reader is copied and changed as the document
says, in ten passes over the document.  The renaming of variables and dimensions is that of `Verif.Ncml.Rename` (C70).

An exception leaves the constructor, there is no object then; so only the end of each pass is a state.  Texts that are split and values that
are converted are given as functions (`Env`): they are those of C71.  Elements and attributes have their local names, all are of the
namespace `nc`.
-/

namespace Fimex.NcmlDoc

open Cdm Ncml Tables

/-! ## The document -/

/-- An element: its name, its attributes, its text and its child elements. -/
inductive Xml where
  | node (tag : String) (props : List (String × String)) (content : String) (children : List Xml)

def Xml.tag : Xml → String
  | .node t _ _ _ => t

def Xml.props : Xml → List (String × String)
  | .node _ p _ _ => p

/-- src/XMLDoc.cc:175-181 `getXmlContent`. -/
def Xml.content : Xml → String
  | .node _ _ c _ => c

def Xml.children : Xml → List Xml
  | .node _ _ _ l => l

/-- src/XMLDoc.cc:165-168 `getXmlProp`: the empty text if there is no such attribute. -/
def Xml.prop (e : Xml) (k : String) : String :=
  match e.props.find? fun p => p.1 = k with
  | some p => p.2
  | none => ""

/-- The condition `[@k]` of an XPath. -/
def Xml.has (e : Xml) (k : String) : Bool := e.props.any fun p => p.1 = k

/-- The XPath `/nc:tag`: it begins at the document, whose only child is the root, whatever the context node is
(src/XMLDoc.cc:146-158). -/
def absolute (doc : Xml) (tag : String) : List Xml := if doc.tag = tag then [doc] else []

/-- The step `/nc:tag` from an element. -/
def Xml.kids (e : Xml) (tag : String) : List Xml := e.children.filter fun x => x.tag = tag

/-- The XPath `/nc:netcdf/nc:tag`. -/
def under (doc : Xml) (tag : String) : List Xml := (absolute doc "netcdf").flatMap fun r => r.kids tag

/-- The XPath `/nc:netcdf/nc:variable/nc:tag`, with the parents. -/
def inVariables (doc : Xml) (tag : String) : List (Xml × Xml) := (under doc "variable").flatMap fun v => (v.kids tag).map fun e => (v, e)

/-! ## The dataset -/

/-- include/fimex/CDMVariable.h: the directions of a vector. -/
inductive Direction where
  | none | x | y | lon | lat
deriving DecidableEq

/-- include/fimex/CDMVariable.h: what a variable has besides its name and shape. -/
structure Payload (D : Type) where
  dtype : DataType
  data : Option D
  vector : String × Direction

/-- The functions of other files.  `D` are data, `V` the values of attributes. -/
structure Env (D V : Type) where
  /-- `Data::getDataType` -/
  typeOf : D → DataType
  /-- `dataReader->getData(name)` -/
  read : String → Res D
  /-- `createData(type, 0)` (src/Data.cc:51-74) -/
  blank : DataType → Res D
  /-- `fimexShapeFromXmlAtt` (C71) -/
  shape : String → Res (List String)
  /-- src/NcmlCDMReader.cc:289-316 (C71): the data of a type for dimensions of these lengths, from start, increment, content and separator -/
  fill : DataType → List Nat → String → String → String → String → Res D
  /-- `split_ncml_values` (C71) of a text and a separator -/
  pieces : String → String → Res (List String)
  /-- `CDMAttribute(name, type, values)`: `initDataByArray` -/
  value : DataType → List String → Res V
  /-- `string2type<int>` -/
  int : String → Res Int

variable {D V CS : Type}

/-- src/NcmlCDMReader.cc, include/fimex/NcmlCDMReader.h: the description of the dataset and what has been changed. -/
structure St (D V CS : Type) where
  cdm : CDM (Payload D) V CS
  varNames : Names
  dimNames : Names
  types : List (String × DataType)

/-- A change through the reference `getVariable(name)`; names are unique (C01). -/
def onVar (c : CDM (Payload D) V CS) (n : String) (f : Var (Payload D) → Var (Payload D)) : CDM (Payload D) V CS :=
  { c with vars := c.vars.map fun v => if v.name = n then f v else v }

/-- A change through the reference `getDimension(name)`; names are unique (C01). -/
def onDim (c : CDM (Payload D) V CS) (n : String) (f : Dim → Dim) : CDM (Payload D) V CS :=
  { c with dims := c.dims.map fun d => if d.name = n then f d else d }

/-- src/CDMVariable.cc:78-85 `setData`. -/
def setData (env : Env D V) (s : St D V CS) (n : String) (v : Var (Payload D)) (d : D) : Res (St D V CS) :=
  if v.payload.dtype ≠ env.typeOf d then .throws
  else .ok { s with cdm := onVar s.cdm n fun v => { v with payload := { v.payload with data := some d } } }

/-! ## The passes -/

/-- src/NcmlCDMReader.cc:166-189: one element `remove` of the dataset. -/
def removeOne (s : St D V CS) (e : Xml) : Res (St D V CS) :=
  let name := e.prop "name"
  let type := e.prop "type"
  if name = "" then .throws
  else if type = "" then .throws
  else if type = "variable" then .ok { s with cdm := removeVariable s.cdm name }
  else if type = "dimension" then
    match removeDimension s.cdm name false with
    | (c, .ok _) => .ok { s with cdm := c }
    | (_, .throws) => .throws
    | (_, .ub) => .ub
  else if type = "attribute" then .ok { s with cdm := removeAttribute s.cdm globalNS name }
  else if type = "group" then .ok s
  else .throws

/-- src/NcmlCDMReader.cc:192-206: one element `remove` of a variable. -/
def removeIn (s : St D V CS) (p : Xml × Xml) : Res (St D V CS) :=
  let name := p.2.prop "name"
  let owner := if p.1.prop "orgName" = "" then p.1.prop "name" else p.1.prop "orgName"
  if name = "" then .throws
  else if p.2.prop "type" ≠ "attribute" then .throws
  else if owner = "" then .throws
  else .ok { s with cdm := removeAttribute s.cdm owner name }

/-- src/NcmlCDMReader.cc:431-440. -/
def renameDims (doc : Xml) (s : St D V CS) : Res (St D V CS) :=
  let l := ((under doc "dimension").filter fun e => e.has "orgName").map fun e => (e.prop "orgName", e.prop "name", decide (e.prop "overwriteName" = "true"))
  match renameDimensions l (s.cdm, s.dimNames) with
  | ((c, m), .ok _) => .ok { s with cdm := c, dimNames := m }
  | (_, .throws) => .throws
  | (_, .ub) => .ub

/-- src/NcmlCDMReader.cc:443-454: one element with a length. -/
def lengthOf (env : Env D V) (s : St D V CS) (e : Xml) : Res (St D V CS) :=
  (env.int (e.prop "length")).bind fun len =>
  if !hasDimension s.cdm (e.prop "name") then
    match addDimension s.cdm ⟨e.prop "name", Extractor.toSizeT len, false⟩ with
    | (c, .ok _) => .ok { s with cdm := c }
    | (_, .throws) => .throws
    | (_, .ub) => .ub
  else .ok { s with cdm := onDim s.cdm (e.prop "name") fun d => { d with length := Extractor.toSizeT len } }

/-- src/NcmlCDMReader.cc:474-480: the data of the variable of a dimension that becomes unlimited. -/
def prefetch (env : Env D V) (name org : String) (s : St D V CS) : Res (St D V CS) :=
  match getVariable s.cdm name with
  | .ok v => if v.payload.data.isSome then .ok s else (env.read org).bind fun d => setData env s name v d
  | _ => .ok s

/-- src/NcmlCDMReader.cc:463-491: one element that says whether a dimension is unlimited. -/
def unlimitedOf (env : Env D V) (s : St D V CS) (e : Xml) : Res (St D V CS) :=
  let name := e.prop "name"
  let org := if e.prop "orgName" = "" then name else e.prop "orgName"
  match getDimension s.cdm name with
  | .ok d =>
    if e.prop "isUnlimited" = "true" then
      if d.unlimited then .ok s
      else prefetch env name org { s with cdm := onDim s.cdm name fun d => { d with unlimited := true } }
    else if e.prop "isUnlimited" = "false" then .ok { s with cdm := onDim s.cdm name fun d => { d with unlimited := false } }
    else .throws
  | _ => .ok s

/-- src/NcmlCDMReader.cc:217-233: one element with a shape. -/
def shapeOf (env : Env D V) (s : St D V CS) (e : Xml) : Res (St D V CS) :=
  let name := if e.prop "orgName" = "" then e.prop "name" else e.prop "orgName"
  if name = "" then .throws
  else if hasVariable s.cdm name then
    (env.shape (e.prop "shape")).bind fun sh => .ok { s with cdm := onVar s.cdm name fun v => { v with shape := sh } }
  else .ok s

/-- src/NcmlCDMReader.cc:404-413. -/
def renameVars (doc : Xml) (s : St D V CS) : Res (St D V CS) :=
  let l := ((under doc "variable").filter fun e => e.has "orgName").map fun e => (e.prop "orgName", e.prop "name")
  match renameVariables l (s.cdm, s.varNames) with
  | ((c, m), .ok _) => .ok { s with cdm := c, varNames := m }
  | (_, .throws) => .throws
  | (_, .ub) => .ub

/-- src/NcmlCDMReader.cc:416-425: one element without `orgName`. -/
def addOne (env : Env D V) (s : St D V CS) (e : Xml) : Res (St D V CS) :=
  let name := e.prop "name"
  let type := e.prop "type"
  if type ≠ "" ∧ hasVariable s.cdm name = false then
    let dt := string2datatype type.toList
    (env.shape (e.prop "shape")).bind fun sh =>
    (env.blank dt).bind fun d =>
    if dt ≠ env.typeOf d then .throws
    else
      match addVariable s.cdm ⟨name, sh, ⟨dt, some d, "", .none⟩⟩ with
      | (c, .ok _) => .ok { s with cdm := c }
      | (_, .throws) => .throws
      | (_, .ub) => .ub
  else .ok s

/-- src/NcmlCDMReader.cc:244-252: whether an attribute says that the type is unsigned.  The XPath begins with `/`. -/
def unsigned (doc : Xml) : Res Bool :=
  match (absolute doc "attribute").filter fun a => a.prop "name" = "_Unsigned" with
  | [a] => if a.prop "value" = "true" then .ok true else if a.prop "value" ≠ "false" then .throws else .ok false
  | _ => .ok false

/-- src/CDMVariable.cc:71-76 `setDataType`. -/
def setType (env : Env D V) (t : DataType) (p : Payload D) : Payload D :=
  { p with dtype := t, data := p.data.filter fun d => env.typeOf d = t }

/-- src/NcmlCDMReader.cc:238-264: one element with a type. -/
def typeOne (env : Env D V) (doc : Xml) (s : St D V CS) (e : Xml) : Res (St D V CS) :=
  let name := e.prop "name"
  if name = "" then .throws
  else
    (unsigned doc).bind fun u =>
    match getVariable s.cdm name with
    | .ok v =>
      let t := ncmlName2cdm (e.prop "type").toList u
      if t = .nat then .throws
      else if t ≠ v.payload.dtype then
        .ok { s with
          types := (name, t) :: s.types
          cdm := onVar s.cdm name fun v => { v with payload := setType env t v.payload } }
      else .ok s
    | _ => .ok s

/-- The lengths of the dimensions of a variable, src/NcmlCDMReader.cc:283-287. -/
def lengths (c : CDM (Payload D) V CS) : List String → Res (List Nat)
  | [] => .ok []
  | n :: l => (getDimension c n).bind fun d => (lengths c l).bind fun r => .ok (d.length :: r)

/-- src/NcmlCDMReader.cc:277-318: one element `values`. -/
def valuesOf (env : Env D V) (s : St D V CS) (p : Xml × Xml) : Res (St D V CS) :=
  let name := p.1.prop "name"
  if name = "" then .throws
  else
    match getVariable s.cdm name with
    | .ok v =>
      (lengths s.cdm v.shape).bind fun lens =>
      (env.fill v.payload.dtype lens (p.2.prop "start") (p.2.prop "increment") p.2.content (p.2.prop "separator")).bind fun d =>
      setData env s name v d
    | _ => .ok s

/-- src/CDMVariable.cc:33-45 `vectorDirectionFromString`; `has t`: the text has `t` in it. -/
def directionOf (has : String → Bool) : Direction :=
  if has "x" then .x else if has "y" then .y else if has "lon" then .lon else if has "lat" then .lat else .none

/-- `std::string::find`. -/
def contains (s t : List Char) : Bool := (findMarker t s 0).isSome

/-- src/NcmlCDMReader.cc:324-333: one element `spatial_vector`. -/
def vectorOf (s : St D V CS) (p : Xml × Xml) : Res (St D V CS) :=
  let name := p.1.prop "name"
  if name = "" then .throws
  else if hasVariable s.cdm name then
    let dir := directionOf fun t => contains (p.2.prop "direction").toList t.toList
    .ok { s with cdm := onVar s.cdm name fun v => { v with payload := { v.payload with vector := (p.2.prop "counterpart", dir) } } }
  else .ok s

/-- src/NcmlCDMReader.cc:498-508, 512-524: one attribute with `orgName`. -/
def renameAttr (owner : String) (s : St D V CS) (e : Xml) : Res (St D V CS) :=
  if e.prop "name" = "" then .throws
  else
    match s.cdm.attrs owner with
    | none => .ok s
    | some l =>
      (renameAttribute l (e.prop "orgName") (e.prop "name")).bind fun l =>
      .ok { s with cdm := { s.cdm with coordsInitialized := false, attrs := fun m => if m = owner then some l else s.cdm.attrs m } }

/-- src/NcmlCDMReader.cc:338-346 `getAttributeValue`. -/
def textOf (e : Xml) : String := if e.prop "value" = "" then e.content else e.prop "value"

/-- src/NcmlCDMReader.cc:348-370 `createAttributeFromXML`. -/
def createAttr (env : Env D V) (e : Xml) (value : String) : Res (Attr V) :=
  let type := if e.prop "type" = "" then "string" else e.prop "type"
  let dt := ncmlName2cdm type.toList false
  if dt = .nat then .throws
  else
    (if type = "string" ∨ type = "String" then .ok [value] else env.pieces value (e.prop "separator")).bind fun l =>
    (env.value dt l).bind fun v => .ok ⟨e.prop "name", v⟩

/-- src/NcmlCDMReader.cc:376-386, 389-398: one attribute. -/
def assignAttr (env : Env D V) (owner : String) (s : St D V CS) (e : Xml) : Res (St D V CS) :=
  if textOf e = "" then .ok s
  else
    (createAttr env e (textOf e)).bind fun a =>
    match addAttribute (removeAttribute s.cdm owner a.name) owner a with
    | (c, .ok _) => .ok { s with cdm := c }
    | (_, .throws) => .throws
    | (_, .ub) => .ub

/-- src/NcmlCDMReader.cc:164-207 `initRemove`. -/
def initRemove (doc : Xml) (s : St D V CS) : Res (St D V CS) := do
  let s ← (under doc "remove").foldlM removeOne s
  (inVariables doc "remove").foldlM removeIn s

/-- src/NcmlCDMReader.cc:429-455 `initDimensionNameChange`. -/
def initDims (env : Env D V) (doc : Xml) (s : St D V CS) : Res (St D V CS) := do
  let s ← renameDims doc s
  ((under doc "dimension").filter fun e => e.has "length").foldlM (lengthOf env) s

/-- src/NcmlCDMReader.cc:461-492 `initDimensionUnlimited`. -/
def initUnlimited (env : Env D V) (doc : Xml) (s : St D V CS) : Res (St D V CS) :=
  ((under doc "dimension").filter fun e => e.has "isUnlimited").foldlM (unlimitedOf env) s

/-- src/NcmlCDMReader.cc:215-234 `initVariableShapeChange`. -/
def initShapes (env : Env D V) (doc : Xml) (s : St D V CS) : Res (St D V CS) :=
  ((under doc "variable").filter fun e => e.has "shape").foldlM (shapeOf env) s

/-- src/NcmlCDMReader.cc:402-426 `initVariableNameChange`. -/
def initNames (env : Env D V) (doc : Xml) (s : St D V CS) : Res (St D V CS) := do
  let s ← renameVars doc s
  ((under doc "variable").filter fun e => !e.has "orgName").foldlM (addOne env) s

/-- src/NcmlCDMReader.cc:236-266 `initVariableTypeChange`. -/
def initTypes (env : Env D V) (doc : Xml) (s : St D V CS) : Res (St D V CS) :=
  ((under doc "variable").filter fun e => e.has "type").foldlM (typeOne env doc) s

/-- src/NcmlCDMReader.cc:275-320 `initVariableDataChange`. -/
def initValues (env : Env D V) (doc : Xml) (s : St D V CS) : Res (St D V CS) := (inVariables doc "values").foldlM (valuesOf env) s

/-- src/NcmlCDMReader.cc:322-335 `initVariableSpatialVector`. -/
def initVectors (doc : Xml) (s : St D V CS) : Res (St D V CS) := (inVariables doc "spatial_vector").foldlM vectorOf s

/-- src/NcmlCDMReader.cc:495-527 `initAttributeNameChange`. -/
def initAttrNames (doc : Xml) (s : St D V CS) : Res (St D V CS) := do
  let s ← ((under doc "attribute").filter fun e => e.has "orgName").foldlM (renameAttr globalNS) s
  ((inVariables doc "attribute").filter fun p => p.1.has "name" && p.2.has "orgName").foldlM (fun s p => renameAttr (p.1.prop "name") s p.2) s

/-- src/NcmlCDMReader.cc:373-399 `initAddReassignAttribute`. -/
def initAttrs (env : Env D V) (doc : Xml) (s : St D V CS) : Res (St D V CS) := do
  let s ← (under doc "attribute").foldlM (assignAttr env globalNS) s
  (inVariables doc "attribute").foldlM (fun s p => assignAttr env (p.1.prop "name") s p.2) s

/-- src/NcmlCDMReader.cc:131-154 `init`; `blank` is the dataset of a reader that has been given none. -/
def init (env : Env D V) (doc : Xml) (reader blank : CDM (Payload D) V CS) : Res (St D V CS) :=
  if (absolute doc "netcdf").length = 0 then .ok ⟨blank, [], [], []⟩
  else do
    let s ← initRemove doc ⟨reader, [], [], []⟩
    let s ← initDims env doc s
    let s ← initUnlimited env doc s
    let s ← initShapes env doc s
    let s ← initNames env doc s
    let s ← initTypes env doc s
    let s ← initValues env doc s
    let s ← initVectors doc s
    let s ← initAttrNames doc s
    initAttrs env doc s

/-- src/NcmlCDMReader.cc:107-129: the constructor with a reader.  `id` names the source of the document, `doc` is the document if there is one.
The prefix `nc` is registered only if there is a name, without it no XPath of the constructor can be evaluated (src/XMLDoc.cc:153-156). -/
def construct (env : Env D V) (id : String) (doc : Option Xml) (reader blank : CDM (Payload D) V CS) : Res (St D V CS) :=
  match doc with
  | none => .ub
  | some doc =>
    if id = "" then .throws
    else if (absolute doc "netcdf").length ≠ 1 then .throws
    else init env doc reader blank

/-! ## Reading -/

/-- From where the data of a variable come: from the variable itself, or from one of the other reader and perhaps with another type. -/
inductive Source (D : Type) where
  | memory (d : D)
  | reader (name : String) (type : Option DataType)

/-- src/NcmlCDMReader.cc:547-559, 585-591: the beginning of `getDataSlice(varName, sb)` and of `applyVariableTypeChange`.  A slice builder for a variable
that the other reader has not raises. -/
def source (reader : CDM (Payload D) V CS) (s : St D V CS) (n : String) : Res (Source D) :=
  (getVariable s.cdm n).bind fun v =>
  match v.payload.data with
  | some d => .ok (.memory d)
  | none => (getVariable reader (s.varNames.get n)).bind fun _ => .ok (.reader (s.varNames.get n) ((s.types.find? fun p => p.1 = n).map (·.2)))

end Fimex.NcmlDoc
