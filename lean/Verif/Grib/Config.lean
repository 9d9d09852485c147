import Verif.Basic
import Verif.Cdm.Model
import Verif.Tables.DataType
import Mathlib.Algebra.Field.Defs

/-!
# Configuration of the GRIB reader

Model of `src/io/grib/GribReaderConfig.cc`: what is read from the XML document, and how the parameter for a message is found; and of the
parts of `src/io/grib/GribCDMIndexer.cc` that use it to declare a variable.

An element is its attributes (texts) and those of its children that are asked for.  A `std::map` is a function; a missing entry of
`nodeIdx1` is the empty list.  A shared pointer to a variable is the position of its parameter in the document.  Reading numbers
(`string2type`, `tokenizeDotted`, C72), `split_any` (C26), making an attribute from texts and replacing templates are parameters.
Memory is not modelled, nor is what is written to the log.
-/

namespace Fimex.GribConfig
open Fimex.Tables Fimex.Cdm

/-- The attributes of an element. -/
abbrev Props := List (String × String)

/-- src/XMLDoc.cc:165-168 `getXmlProp`: empty if there is none. -/
def getXmlProp (p : Props) (k : String) : String :=
  match p.find? fun x => x.1 == k with
  | some x => x.2
  | none => ""

/-- An element `grib1` or `grib2`: attributes, and those of its children `extraKey`. -/
structure Elem where
  props : Props
  extra : List Props

/-- A child of `parameter` that is none of `grib1` and `grib2`: `spatial_vector`, `precision`, `attribute`. -/
inductive Child where
  | vector (p : Props)
  | precision (p : Props)
  | listed (p : Props)

/-- An element `parameter`. -/
structure Param where
  props : Props
  children : List Child
  grib1 : List Elem
  grib2 : List Elem

/-- The document, as far as read here. -/
structure Doc where
  /-- number of elements `/gr:cdmGribReaderConfig` -/
  roots : ℕ
  /-- `overrule/earthFigure` -/
  earth : List Props
  /-- `processOptions/option[@name='selectParameters']` -/
  select : List Props
  params : List Param

/-- Value of an attribute. -/
inductive AVal (K : Type) where
  | text (s : String)
  | num (x : K)
deriving DecidableEq

/-- Functions from elsewhere. -/
structure Env (K : Type) where
  /-- `tokenizeDotted<long>` -/
  longs : String → Res (List ℤ)
  /-- `string2type<long>` -/
  long : String → Res ℤ
  /-- `string2type<double>` -/
  real : String → Res K
  /-- `split_any` at commas -/
  split : String → List String
  /-- `CDMAttribute(name, type, value)`: the value for type and text -/
  value : String → String → Res (AVal K)

/-- src/io/grib/GribReaderConfig.h:54-66 `VariableConfig`; `make_shared` sets numbers to zero. -/
structure VarConf (K : Type) where
  name : String
  type : DataType
  constantTime : Bool
  attributes : List (Attr (AVal K)) := []
  direction : String := ""
  counterpart : String := ""
  scale : K
  offset : K
deriving DecidableEq

/-- src/io/grib/GribReaderConfig.h:71-76 `ParamConfig`. -/
structure ParamConf where
  longs : String → Option (List ℤ) := fun _ => none
  strings : String → Option (List String) := fun _ => none
  var : ℕ

/-- src/io/grib/GribReaderConfig.h:78-89 `GribConfig`. -/
structure Config (K : Type) where
  vars : List (VarConf K) := []
  idx1 : ℤ → List ParamConf := fun _ => []
  idx2 : ℤ → List ParamConf := fun _ => []
  earth : String := ""
  onlyDefined : Bool := false

/-- What is asked of a message. -/
structure Msg where
  edition : ℤ
  ids : ℤ × ℤ × ℤ
  levelType : ℤ
  levelNo : ℤ
  timeRange : ℤ
  statistics : ℤ
  stepType : String
  other : List (String × ℤ)
  shortName : String

variable {K : Type}

/-- Conversion of `long` to `int`, as the compilers do it. -/
def toInt (x : ℤ) : ℤ := (x + 2 ^ 31) % 2 ^ 32 - 2 ^ 31

/-- src/io/grib/GribReaderConfig.cc:60-66 `set_optionals_long` with a text. -/
def setLong (E : Env K) (pc : ParamConf) (key text : String) : Res ParamConf :=
  if text = "" then .ok pc
  else (E.longs text).bind fun vs => .ok { pc with longs := fun k => if k = key then some vs else pc.longs k }

/-- src/io/grib/GribReaderConfig.cc:68-71 `set_optionals_long` with an element, for several keys. -/
def setLongs (E : Env K) (e : Elem) (pc : ParamConf) (keys : List String) : Res ParamConf :=
  keys.foldlM (fun pc k => setLong E pc k (getXmlProp e.props k)) pc

/-- src/io/grib/GribReaderConfig.cc:73-82 `has_optionals_long`. -/
def hasLong (pc : ParamConf) (key : String) (v : ℤ) : Bool :=
  match pc.longs key with
  | none => true
  | some ops => if ops.isEmpty then true else ops.contains v

/-- src/io/grib/GribReaderConfig.cc:84-91 `set_optionals_string`. -/
def setString (E : Env K) (e : Elem) (pc : ParamConf) (key : String) : ParamConf :=
  if getXmlProp e.props key = "" then pc
  else { pc with strings := fun k => if k = key then some (E.split (getXmlProp e.props key)) else pc.strings k }

/-- src/io/grib/GribReaderConfig.cc:93-102 `has_optionals_string`. -/
def hasString (pc : ParamConf) (key v : String) : Bool :=
  match pc.strings key with
  | none => true
  | some ops => if ops.isEmpty then true else ops.contains v

/-- src/io/grib/GribReaderConfig.cc:108-111, with the texts of src/io/grib/GribFileIndex.cc:513-514. -/
def fixedKeys : List String := ["typeOfLevel", "levelNo", "timeRangeIndicator", "typeOfStatisticalProcessing"]

/-- src/io/grib/GribReaderConfig.cc:104-121 `pc_grib_any`. -/
def gribAny (E : Env K) (var : ℕ) (e : Elem) : Res ParamConf :=
  (setLongs E e { var := var } fixedKeys).bind fun pc =>
    e.extra.foldlM (fun pc x => setLong E pc (getXmlProp x "name") (getXmlProp x "value")) (setString E e pc "stepType")

/-- The two keys beside the number of the parameter: src/io/grib/GribReaderConfig.cc:255-256 and 272-273, and 290-291. -/
def pairKeys (one : Bool) : List String :=
  if one then ["gribTablesVersionNo", "identificationOfOriginatingGeneratingCentre"] else ["parameterCategory", "discipline"]

/-- The attribute with the number of the parameter: src/io/grib/GribReaderConfig.cc:250 and 267. -/
def idKey (one : Bool) : String := if one then "indicatorOfParameter" else "parameterNumber"

/-- src/io/grib/GribReaderConfig.cc:249-263 and 266-280: an element of a parameter into the index. -/
def addElem (E : Env K) (one : Bool) (var : ℕ) (idx : ℤ → List ParamConf) (e : Elem) : Res (ℤ → List ParamConf) :=
  if getXmlProp e.props (idKey one) = "" then .ok idx
  else
    (gribAny E var e).bind fun pc => (setLongs E e pc (pairKeys one)).bind fun pc =>
      (E.long (getXmlProp e.props (idKey one))).bind fun id =>
        .ok fun n => if n = toInt id then idx n ++ [pc] else idx n

/-- src/io/grib/GribReaderConfig.cc:202-207: children `spatial_vector`, the last one counts. -/
def readVector (v : VarConf K) : Child → VarConf K
  | .vector p => { v with direction := getXmlProp p "direction", counterpart := getXmlProp p "counterpart" }
  | _ => v

section
variable [Field K] [DecidableEq K]

/-- src/io/grib/GribReaderConfig.cc:216-229: a number of `precision`, and its default. -/
def readNumber (E : Env K) (dflt : K) (text : String) : Res K := if text = "" then .ok dflt else E.real text

/-- src/io/grib/GribReaderConfig.cc:231-237: the attributes for a precision. -/
def scaleAttributes (t : DataType) (scale offset : K) : List (Attr (AVal K)) :=
  if t = .float ∨ t = .double then []
  else (if scale = 1 then [] else [⟨"scale_factor", .num scale⟩]) ++ (if offset = 0 then [] else [⟨"add_offset", .num offset⟩])

/-- src/io/grib/GribReaderConfig.cc:211-245: children `precision`. -/
def readPrecision (E : Env K) (v : VarConf K) : Child → Res (VarConf K)
  | .precision p =>
    (readNumber E 1 (getXmlProp p "scale_factor")).bind fun s => (readNumber E 0 (getXmlProp p "add_offset")).bind fun o =>
      .ok { v with scale := s, offset := o, attributes := v.attributes ++ scaleAttributes v.type s o }
  | _ => .ok v

/-- src/CDM_XMLConfigHelper.cc:73-88 `fillAttributeListFromXMLNode`, one child, without templates. -/
def readAttribute (E : Env K) (v : VarConf K) : Child → Res (VarConf K)
  | .listed p =>
    (E.value (getXmlProp p "type") (getXmlProp p "value")).bind fun x =>
      .ok { v with attributes := v.attributes ++ [⟨getXmlProp p "name", x⟩] }
  | _ => .ok v

/-- src/io/grib/GribReaderConfig.cc:190-199: name, type and `constantTime`. -/
def newVar (p : Param) : VarConf K :=
  { name := getXmlProp p.props "name"
    type := if getXmlProp p.props "type" = "" then .double else string2datatype (getXmlProp p.props "type").toList
    constantTime := getXmlProp p.props "constantTime" = "true"
    scale := 0
    offset := 0 }

/-- src/io/grib/GribReaderConfig.cc:190-246: the variable of a parameter. -/
def readVar (E : Env K) (p : Param) : Res (VarConf K) :=
  (p.children.foldlM (readPrecision E) (p.children.foldl readVector (newVar p))).bind fun v => p.children.foldlM (readAttribute E) v

/-- src/io/grib/GribReaderConfig.cc:189-281: a parameter. -/
def addParam (E : Env K) (c : Config K) (p : Param) : Res (Config K) :=
  (readVar E p).bind fun v => (p.grib1.foldlM (addElem E true c.vars.length) c.idx1).bind fun i1 =>
    (p.grib2.foldlM (addElem E false c.vars.length) c.idx2).bind fun i2 => .ok { c with vars := c.vars ++ [v], idx1 := i1, idx2 := i2 }

/-- src/io/grib/GribReaderConfig.cc:175-186: the first option counts. -/
def readSelect (select : List Props) : Res Bool :=
  match select with
  | [] => .ok false
  | p :: _ => if getXmlProp p "value" = "definedOnly" then .ok true else if getXmlProp p "value" = "all" then .ok false else .throws

/-- src/io/grib/GribReaderConfig.cc:39-48 `getConfigEarthFigure`. -/
def readEarth (earth : List Props) : String :=
  match earth with
  | [p] => getXmlProp p "proj4"
  | _ => ""

/-- src/io/grib/GribReaderConfig.cc:144-284 `initXMLConfig` and `configFromXML`. -/
def configFromXML (E : Env K) (d : Doc) : Res (Config K) :=
  if d.roots = 1 then
    (readSelect d.select).bind fun only => d.params.foldlM (addParam E) { earth := readEarth d.earth, onlyDefined := only }
  else .throws

end

/-- src/io/grib/GribReaderConfig.cc:324-370: whether an entry fits to a message. -/
def fits (m : Msg) (pc : ParamConf) : Bool :=
  (match pairKeys (m.edition == 1) with
    | [k1, k2] => hasLong pc k1 m.ids.2.1 && hasLong pc k2 m.ids.2.2
    | _ => false) &&
  hasLong pc "typeOfLevel" m.levelType && hasLong pc "levelNo" m.levelNo && hasLong pc "timeRangeIndicator" m.timeRange &&
  hasLong pc "typeOfStatisticalProcessing" m.statistics && hasString pc "stepType" m.stepType &&
  m.other.all fun o => hasLong pc o.1 o.2

/-- src/io/grib/GribReaderConfig.cc:286-393 `findVariableConfig`; of several entries the first one. -/
def findVariableConfig (c : Config K) (m : Msg) : Option ℕ :=
  (((if m.edition = 1 then c.idx1 else c.idx2) (toInt m.ids.1)).find? (fits m)).map (·.var)

/-- src/io/grib/GribReaderConfig.cc:394-403 `getVariableName`. -/
def getVariableName (c : Config K) (m : Msg) (v : Option ℕ) : Option String :=
  match v with
  | some i => c.vars[i]?.map (·.name)
  | none => some ("ga_" ++ m.shortName ++ "_" ++ toString m.levelType)

/-- src/io/grib/GribCDMIndexer.cc:488-502: a message without parameter is skipped if only defined parameters are wanted; otherwise its
parameter and the name of its variable. -/
def chosen (c : Config K) (m : Msg) : Option (Option ℕ × Option String) :=
  let v := findVariableConfig c m
  if c.onlyDefined ∧ v = none then none else some (v, getVariableName c m v)

/-! ## Variables -/

/-- include/fimex/CDMVariable.h:45 `SpatialVectorDirection`. -/
inductive Direction where
  | none | x | y | lon | lat
deriving DecidableEq

/-- `find(...) != npos`. -/
def contains (s t : List Char) : Bool :=
  match t with
  | [] => s.isEmpty
  | c :: t' => s.isPrefixOf (c :: t') || contains s t'

/-- src/CDMVariable.cc:33-45 `vectorDirectionFromString`. -/
def directionOf (s : String) : Direction :=
  if contains "x".toList s.toList then .x
  else if contains "y".toList s.toList then .y
  else if contains "lon".toList s.toList then .lon
  else if contains "lat".toList s.toList then .lat
  else .none

/-- What is kept of a variable when its first message is loaded (part of `var_has`), and what the dataset has of it. -/
structure Kept (K : Type) where
  type : DataType
  direction : String
  counterpart : String
  attributes : List (Attr (AVal K))
  scale : K
  offset : K

/-- A variable of the dataset: type, vector, attributes. -/
structure Declared (K : Type) where
  type : DataType
  counterpart : String
  direction : Direction
  attributes : List (Attr (AVal K))

section
variable [Field K] [DecidableEq K]

/-- src/io/grib/GribCDMIndexer.cc:578-587: copied from the configuration; `var_has{}` sets the rest to zero. -/
def keep (v : Option (VarConf K)) : Kept K :=
  match v with
  | some v => ⟨v.type, v.direction, v.counterpart, v.attributes, v.scale, v.offset⟩
  | none => ⟨.double, "", "", [], 0, 0⟩

/-- src/io/grib/GribCDMIndexer.cc:246-252: templates of one attribute. -/
def updateAttr (replace : String → String) (a : Attr (AVal K)) : Attr (AVal K) :=
  match a.value with
  | .text s => { a with value := .text (replace s) }
  | .num _ => a

/-- src/io/grib/GribCDMIndexer.cc:242-256 `initUpdateTemplatedAttributeValues`. -/
def updateTemplates (replace : String → String) (c : Config K) : Config K :=
  { c with vars := c.vars.map fun v => { v with attributes := v.attributes.map (updateAttr replace) } }

/-- src/io/grib/GribCDMIndexer.cc:948-951: `setAsSpatialVector`. -/
def declareVector (k : Kept K) : String × Direction :=
  if k.counterpart = "" then (k.counterpart, directionOf k.direction) else ("", .none)

/-- src/CDM.cc:373-386 `addAttribute` for one after the other: an attribute that is there already is refused. -/
def addAttrs (have_ : List (Attr (AVal K))) : List (Attr (AVal K)) → Res (List (Attr (AVal K)))
  | [] => .ok have_
  | a :: as => if have_.any fun b => b.name == a.name then .throws else addAttrs (have_ ++ [a]) as

/-- src/io/grib/GribCDMIndexer.cc:948-960: variable and attributes; `mapping` is the name of the projection, `coords` may be empty. -/
def declare (k : Kept K) (mapping coords : String) : Res (Declared K) :=
  (addAttrs [] (k.attributes ++ [⟨"grid_mapping", .text mapping⟩] ++ (if coords = "" then [] else [⟨"coordinates", .text coords⟩]))).bind
    fun as => .ok ⟨k.type, (declareVector k).1, (declareVector k).2, as⟩

/-- src/io/grib/GribCDMIndexer.cc:486-600 and 214-239, for one variable: its first message is loaded with the configuration, then the
dataset is made, which replaces templates first (`initUpdateTemplatedAttributeValues`). -/
def loadAndBuild (replace : String → String) (c : Config K) (v : Option ℕ) (mapping coords : String) : Config K × Res (Declared K) :=
  let kept := keep (v.bind fun i => c.vars[i]?)
  (updateTemplates replace c, declare kept mapping coords)

/-- src/io/grib/GribReaderConfig.h:48-53 `has_precision`. -/
def hasPrecision (k : Kept K) : Bool := k.scale ≠ 0

/-- src/io/grib/GribCDMReader.cc:276-286: the value of a field as it is delivered for a type of whole numbers, before rounding: with
precision it is packed, without it is left. -/
def packed (k : Kept K) (x : K) : K := if hasPrecision k then (x - k.offset) / k.scale else x

end
end Fimex.GribConfig
