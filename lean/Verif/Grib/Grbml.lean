import Verif.Grib.GridModel
import Verif.Tables.GribSteps
import Verif.Extractor.Model
import Verif.Felt.Arrays
import Mathlib.Algebra.Order.Floor.Ring

/-!
# Index files of GRIB files (C121): model

An index lists the messages of GRIB files; it is made from the files, written as XML ("grbml") and read back.
Documents are what libxml's text reader hands out, node by node; a document which libxml cannot read to its end is marked `bad`.
libxml's writer escapes the attributes it writes, so they are read back as written; text which fimex prints by itself goes through `rawAttr`.
Numbers of grids are of any type `F`, with printing, reading and `fmod(x + 360, 360)` as parameters.
Members which no constructor sets are `none`; using them is undefined behaviour.
-/

namespace Fimex.Grbml
open Fimex.GribGrid (Val Handle get getLong getText set)

/-! ## Numbers as texts -/

/-- include/fimex/Type2String.h:33-38, 63-68 `type2string` of a whole number. -/
def showInt (i : ℤ) : String := String.ofList ((if i < 0 then ['-'] else []) ++ Nat.toDigits 10 i.natAbs)

/-- A whole number cut to the range of `long`, as glibc does. -/
def cutLong (i : ℤ) : ℤ := if i < -(2 ^ 63) then -(2 ^ 63) else if i > 2 ^ 63 - 1 then 2 ^ 63 - 1 else i

/-- `atol`, `atoll` (src/XMLUtils.cc:86-94): white space, a sign, digits; what follows is not looked at. -/
def atol (s : String) : ℤ :=
  match s.toList.dropWhile Char.isWhitespace with
  | '-' :: r => cutLong (-(Felt.digitsNat (r.takeWhile Char.isDigit) : ℤ))
  | '+' :: r => cutLong (Felt.digitsNat (r.takeWhile Char.isDigit))
  | r => cutLong (Felt.digitsNat (r.takeWhile Char.isDigit))

/-- Assignment of a `long` to an `int`. -/
def toInt (i : ℤ) : ℤ := i.bmod (2 ^ 32)

/-! ## Outcomes -/

/-- Outcome of the making of a message: `CDMException` is told from other exceptions. -/
inductive Out (A : Type) where
  | made (a : A)
  | skipped
  | refused
  | undefined
deriving DecidableEq

/-- Sequencing. -/
def Out.bind {A B : Type} (x : Out A) (f : A → Out B) : Out B :=
  match x with
  | .made a => f a
  | .skipped => .skipped
  | .refused => .refused
  | .undefined => .undefined

instance : Monad Out where
  pure := Out.made
  bind := Out.bind

/-- A failing call of the library raises a `runtime_error` (src/io/grib/GribUtils.cc:35-47 `mifi_grib_check`). -/
def must {A : Type} (r : Res A) : Out A :=
  match r with
  | .ok a => .made a
  | .throws => .refused
  | .ub => .undefined

/-! ## Messages -/

variable {F : Type}

/-- include/fimex/GridDefinition.h:154-166: members of `GridDefinition`. -/
structure Grid (F : Type) where
  proj : String
  degree : Bool
  xSize : ℕ
  ySize : ℕ
  xIncr : F
  yIncr : F
  xStart : F
  yStart : F
  lonStart : F
  latStart : F
  resolution : F
  scan : ℤ
deriving DecidableEq

/-- What the model takes from outside: constants, printing and reading of doubles, `fmod(x + 360, 360)`, and the GRIB library. -/
structure Env (F : Type) where
  lit : ℤ → F
  thousandth : F
  millionth : F
  print : F → String
  parse : String → F
  wrap : F → F
  /-- Reading of grids (C110) by edition, type and figure of the earth given by the user. -/
  grid : String → ℤ → String → Handle F → Out (Grid F)
  /-- `grib_set` of the unit of steps: the library converts start and end. -/
  setUnit : Handle F → ℤ → Handle F

/-- src/GridDefinition.cc:48-64: constructor of `GridDefinition`. -/
def mkGrid (E : Env F) (g : Grid F) : Grid F := { g with lonStart := E.wrap g.lonStart }

/-- src/GridDefinition.cc:33-46. -/
def noGrid (E : Env F) : Grid F :=
  { proj := "", degree := true, xSize := 0, ySize := 0, xIncr := E.lit 0, yIncr := E.lit 0, xStart := E.lit 0, yStart := E.lit 0, lonStart := E.lit 0, latStart := E.lit 0, resolution := E.lit (-1), scan := 64 }

/-- src/io/grib/GribFileIndex.cc:245-248 `lonLatResolutionForEdition`. -/
def resolutionFor (E : Env F) (edition : ℤ) : F := if edition = 1 then E.thousandth else E.millionth

/-- src/io/grib/GribFileIndex.h:142-166: members of `GribFileMessage`. -/
structure Msg (F : Type) where
  url : String
  pos : Option ℤ
  size : Option ℕ
  name : String
  short : String
  ids : ℤ × ℤ × ℤ
  edition : Option ℤ
  date : Option ℤ
  time : Option ℤ
  unit : Option ℤ
  stepType : String
  stepStart : Option ℤ
  stepEnd : Option ℤ
  timeRange : Option ℤ
  statistic : Option ℤ
  levelType : Option ℤ
  levelNo : Option ℤ
  member : ℤ
  total : ℤ
  others : List (String × ℤ)
  gridType : String
  grid : Grid F
deriving DecidableEq

/-- A message as it is before any attribute is read. -/
def noMsg (E : Env F) : Msg F :=
  { url := "", pos := none, size := none, name := "", short := "", ids := (0, 0, 0), edition := none, date := none, time := none, unit := none, stepType := "", stepStart := none, stepEnd := none, timeRange := none, statistic := none, levelType := none, levelNo := none, member := 0, total := 0, others := [], gridType := "", grid := noGrid E }

/-! ## Writing -/

/-- Nodes as libxml's text reader hands them out. -/
inductive Event where
  | elem (name : String) (attrs : List (String × String))
  | close (name : String)
  | other
deriving DecidableEq

/-- A document: its nodes, and whether libxml fails after them. -/
structure Doc where
  events : List Event
  bad : Bool
deriving DecidableEq

/-- A member which has to be set. -/
def known {A : Type} (x : Option A) : Res A :=
  match x with
  | some a => .ok a
  | none => .ub

/-- src/io/grib/GribUtils.cc:176-210 `gribStepUnitsToText`; no unit is below 0. -/
def unitText (u : ℤ) : Res String := if u < 0 then .throws else Tables.stepUnitsToText u.toNat

/-- src/io/grib/GribFileIndex.cc:989-1004: parameters by edition. -/
def idsElem (edition : ℤ) (ids : ℤ × ℤ × ℤ) : Res Event :=
  if edition = 1 then .ok (.elem "grib1" [("indicatorOfParameter", showInt ids.1), ("gribTablesVersionNo", showInt ids.2.1), ("identificationOfOriginatingGeneratingCentre", showInt ids.2.2)])
  else if edition = 2 then .ok (.elem "grib2" [("parameterNumber", showInt ids.1), ("parameterCategory", showInt ids.2.1), ("discipline", showInt ids.2.2)])
  else .throws

/-- src/io/grib/GribFileIndex.cc:1013-1019. -/
def ensembleElems (no total : ℤ) : List Event := if total > 0 then [.elem "ensemble" [("no", showInt no), ("total", showInt total)]] else []

/-- src/io/grib/GribFileIndex.cc:1021-1027. -/
def otherElems (l : List (String × ℤ)) : List Event := l.map fun p => .elem "extraKey" [("name", p.1), ("value", showInt p.2)]

/-- src/io/grib/GribFileIndex.cc:1046-1059. -/
def gridElem (E : Env F) (g : Grid F) : Event :=
  .elem "gridDefinition" [("proj4", g.proj), ("isDegree", showInt (if g.degree then 1 else 0)), ("startX", E.print g.xStart), ("startY", E.print g.yStart), ("incrX", E.print g.xIncr), ("incrY", E.print g.yIncr), ("sizeX", showInt g.xSize), ("sizeY", showInt g.ySize), ("startLon", E.print g.lonStart), ("startLat", E.print g.latStart), ("scanMode", showInt g.scan)]

/-- src/io/grib/GribFileIndex.cc:1007-1011. -/
def levelElem (m : Msg F) : Res Event := do
  let t ← known m.levelType
  let n ← known m.levelNo
  .ok (.elem "level" [("type", showInt t), ("no", showInt n)])

/-- src/io/grib/GribFileIndex.cc:1029-1039. -/
def timeElem (m : Msg F) : Res Event := do
  let d ← known m.date
  let t ← known m.time
  let u ← known m.unit
  let ut ← unitText u
  let r ← known m.timeRange
  let s ← known m.statistic
  let a ← known m.stepStart
  let b ← known m.stepEnd
  .ok (.elem "time" [("dataDate", showInt d), ("dataTime", showInt t), ("stepUnits", ut), ("stepType", m.stepType), ("timeRangeIndicator", showInt r), ("typeOfStatisticalProcessing", showInt s), ("stepStart", showInt a), ("stepEnd", showInt b)])

/-- src/io/grib/GribFileIndex.cc:980-984. -/
def headElem (m : Msg F) : Res Event := do
  let p ← known m.pos
  let s ← known m.size
  .ok (.elem "gribMessage" [("url", m.url), ("seekPos", showInt p), ("messagePos", "0"), ("messageSize", showInt s)])

/-- src/io/grib/GribFileIndex.cc:970-1067 `GribFileMessage::toString`, as libxml reads it back: elements without content have no closing node. -/
def writeMessage (E : Env F) (m : Msg F) : Res (List Event) := do
  let head ← headElem m
  let ed ← known m.edition
  let ids ← idsElem ed m.ids
  let level ← levelElem m
  let time ← timeElem m
  .ok ([head, .elem "parameter" [("shortName", m.short), ("name", m.name)], ids, .close "parameter", level] ++ ensembleElems m.member m.total ++ otherElems m.others ++
    [time, .elem "typeOfGrid" [("name", m.gridType)], gridElem E m.grid, .close "gribMessage"])

/-- An index. -/
structure Index (F : Type) where
  url : String
  msgs : List (Msg F)
deriving DecidableEq

/-- Text printed between double quotes without escapes, as libxml reads it: nothing if the document is malformed then.
The five named entities are known; other references are taken as malformed. -/
def rawAttr : List Char → Option (List Char)
  | [] => some []
  | '&' :: 'a' :: 'm' :: 'p' :: ';' :: r => (rawAttr r).map ('&' :: ·)
  | '&' :: 'l' :: 't' :: ';' :: r => (rawAttr r).map ('<' :: ·)
  | '&' :: 'g' :: 't' :: ';' :: r => (rawAttr r).map ('>' :: ·)
  | '&' :: 'q' :: 'u' :: 'o' :: 't' :: ';' :: r => (rawAttr r).map ('"' :: ·)
  | '&' :: 'a' :: 'p' :: 'o' :: 's' :: ';' :: r => (rawAttr r).map ('\'' :: ·)
  | c :: r => if c = '&' ∨ c = '<' ∨ c = '"' then none else (rawAttr r).map ((if c = '\n' ∨ c = '\t' ∨ c = '\r' then ' ' else c) :: ·)

/-- Messages one after the other. -/
def writeMessages (E : Env F) : List (Msg F) → Res (List Event)
  | [] => .ok []
  | m :: r => do
    let e ← writeMessage E m
    let es ← writeMessages E r
    .ok (e ++ es)

/-- src/io/grib/GribFileIndex.cc:1286-1296 `operator<<` of the index. -/
def writeIndex (E : Env F) (ix : Index F) : Res Doc := do
  let es ← writeMessages E ix.msgs
  match rawAttr ix.url.toList with
  | none => .ok { events := [], bad := true }
  | some u => .ok { events := .elem "gribFileIndex" [("url", String.ofList u), ("xmlns", "http://www.met.no/schema/fimex/gribFileIndex")] :: .other :: (es ++ [.close "gribFileIndex"]), bad := false }

/-! ## Reading -/

/-- src/io/grib/GribFileIndex.cc:692-708: one attribute of `gribMessage`. -/
def headAttr (m : Msg F) (a : String × String) : Res (Msg F) :=
  if a.1 = "url" then (if a.2 = "" then .throws else .ok { m with url := a.2 })
  else if a.1 = "seekPos" then (if a.2 = "" then .throws else .ok { m with pos := some (atol a.2) })
  else if a.1 = "messageSize" then (if a.2 = "" then .throws else .ok { m with size := some (Extractor.toSizeT (atol a.2)) })
  else .ok m

/-- All attributes of `gribMessage`. -/
def readHead (E : Env F) (as : List (String × String)) : Res (Msg F) := as.foldlM headAttr (noMsg E)

/-- src/io/grib/GribFileIndex.cc:720-729. -/
def parameterAttr (m : Msg F) (a : String × String) : Msg F :=
  if a.1 = "name" then { m with name := a.2 } else if a.1 = "shortName" then { m with short := a.2 } else m

/-- src/io/grib/GribFileIndex.cc:730-767: three numbers by their names, 0 if absent. -/
def idsAttr (k1 k2 k3 : String) (t : ℤ × ℤ × ℤ) (a : String × String) : ℤ × ℤ × ℤ :=
  if a.1 = k1 then (toInt (atol a.2), t.2.1, t.2.2) else if a.1 = k2 then (t.1, toInt (atol a.2), t.2.2) else if a.1 = k3 then (t.1, t.2.1, toInt (atol a.2)) else t

/-- src/io/grib/GribFileIndex.cc:768-779. -/
def levelAttr (m : Msg F) (a : String × String) : Msg F :=
  if a.1 = "no" then { m with levelNo := some (atol a.2) } else if a.1 = "type" then { m with levelType := some (atol a.2) } else m

/-- src/io/grib/GribFileIndex.cc:780-801. -/
def timeAttr (m : Msg F) (a : String × String) : Res (Msg F) :=
  if a.1 = "dataDate" then .ok { m with date := some (atol a.2) }
  else if a.1 = "dataTime" then .ok { m with time := some (atol a.2) }
  else if a.1 = "stepUnits" then (Tables.stepUnitsFromText a.2).bind fun u => .ok { m with unit := some (u : ℤ) }
  else if a.1 = "stepType" then .ok { m with stepType := a.2 }
  else if a.1 = "timeRangeIndicator" then .ok { m with timeRange := some (atol a.2) }
  else if a.1 = "typeOfStatisticalProcessing" then .ok { m with statistic := some (atol a.2) }
  else if a.1 = "stepStart" then .ok { m with stepStart := some (atol a.2) }
  else if a.1 = "stepEnd" then .ok { m with stepEnd := some (atol a.2) }
  else .ok m

/-- src/io/grib/GribFileIndex.cc:802-809. -/
def typeAttr (m : Msg F) (a : String × String) : Msg F := if a.1 = "name" then { m with gridType := a.2 } else m

/-- src/io/grib/GribFileIndex.cc:810-819. -/
def ensembleAttr (m : Msg F) (a : String × String) : Msg F :=
  if a.1 = "total" then { m with total := atol a.2 } else if a.1 = "no" then { m with member := atol a.2 } else m

/-- src/io/grib/GribFileIndex.cc:820-832. -/
def extraAttr (p : String × ℤ) (a : String × String) : String × ℤ :=
  if a.1 = "name" then (a.2, p.2) else if a.1 = "value" then (p.1, atol a.2) else p

/-- A grid being read: its members, and which of `startLon` and `startLat` were given. -/
structure Draft (F : Type) where
  g : Grid F
  lon : Bool
  lat : Bool

/-- src/io/grib/GribFileIndex.cc:834-846. -/
def noDraft (E : Env F) : Draft F :=
  { g := { proj := "", degree := false, xSize := 0, ySize := 0, xIncr := E.lit 0, yIncr := E.lit 0, xStart := E.lit 0, yStart := E.lit 0, lonStart := E.lit 1000, latStart := E.lit 1000, resolution := E.lit (-1), scan := 64 }, lon := false, lat := false }

/-- src/io/grib/GribFileIndex.cc:847-875; a value outside of the enumeration's 8 bits is undefined. -/
def gridAttr (E : Env F) (d : Draft F) (a : String × String) : Res (Draft F) :=
  if a.1 = "proj4" then .ok { d with g := { d.g with proj := a.2 } }
  else if a.1 = "isDegree" then .ok { d with g := { d.g with degree := decide (toInt (atol a.2) ≠ 0) } }
  else if a.1 = "startX" then .ok { d with g := { d.g with xStart := E.parse a.2 } }
  else if a.1 = "startY" then .ok { d with g := { d.g with yStart := E.parse a.2 } }
  else if a.1 = "startLon" then .ok { d with g := { d.g with lonStart := E.parse a.2 }, lon := true }
  else if a.1 = "startLat" then .ok { d with g := { d.g with latStart := E.parse a.2 }, lat := true }
  else if a.1 = "sizeX" then .ok { d with g := { d.g with xSize := Extractor.toSizeT (atol a.2) } }
  else if a.1 = "sizeY" then .ok { d with g := { d.g with ySize := Extractor.toSizeT (atol a.2) } }
  else if a.1 = "incrX" then .ok { d with g := { d.g with xIncr := E.parse a.2 } }
  else if a.1 = "incrY" then .ok { d with g := { d.g with yIncr := E.parse a.2 } }
  else if a.1 = "scanMode" then (if 0 ≤ atol a.2 ∧ atol a.2 < 256 then .ok { d with g := { d.g with scan := atol a.2 } } else .ub)
  else .ok d

/-- src/io/grib/GribFileIndex.cc:876-877. -/
def readGridElem (E : Env F) (m : Msg F) (as : List (String × String)) : Res (Msg F) := do
  let d ← as.foldlM (gridAttr E) (noDraft E)
  if d.lon && d.lat then
    let ed ← known m.edition
    .ok { m with grid := mkGrid E { d.g with resolution := resolutionFor E ed } }
  else .ok { m with grid := mkGrid E { d.g with resolution := E.lit (-1) } }

/-- src/io/grib/GribFileIndex.cc:717-880: one element inside of a message. -/
def readElem (E : Env F) (m : Msg F) (name : String) (as : List (String × String)) : Res (Msg F) :=
  if name = "parameter" then .ok (as.foldl parameterAttr m)
  else if name = "grib1" then .ok { m with edition := some 1, ids := as.foldl (idsAttr "indicatorOfParameter" "gribTablesVersionNo" "identificationOfOriginatingGeneratingCentre") (0, 0, 0) }
  else if name = "grib2" then .ok { m with edition := some 2, ids := as.foldl (idsAttr "parameterNumber" "parameterCategory" "discipline") (0, 0, 0) }
  else if name = "level" then .ok (as.foldl levelAttr m)
  else if name = "time" then as.foldlM timeAttr m
  else if name = "typeOfGrid" then .ok (as.foldl typeAttr m)
  else if name = "ensemble" then .ok (as.foldl ensembleAttr m)
  else if name = "extraKey" then .ok { m with others := Felt.mapPut Felt.nameLess (as.foldl extraAttr ("", 0)).1 (as.foldl extraAttr ("", 0)).2 m.others }
  else if name = "gridDefinition" then readGridElem E m as
  else .ok m

/-- src/io/grib/GribFileIndex.cc:709-900, 1232-1276: the loop over the nodes of the document, inside of a message while one is given.
The constructor of messages and `initByXMLReader` share the reader and are one loop here. -/
def readNodes (E : Env F) (bad : Bool) : Index F → Option (Msg F × Bool) → List Event → Index F × Res Bool
  | ix, none, [] => (ix, .ok (!bad))
  | ix, some _, [] => (ix, .throws)
  | ix, none, .elem n as :: r =>
    if n = "gribFileIndex" then
      match as.lookup "url" with
      | some u => readNodes E bad { ix with url := u } none r
      | none => (ix, .ub)
    else if n = "gribMessage" then
      match readHead E as with
      | .ok m => readNodes E bad ix (some (m, false)) r
      | .throws => (ix, .throws)
      | .ub => (ix, .ub)
    else readNodes E bad ix none r
  | ix, none, .close n :: r => if n = "gribFileIndex" then (ix, .ok true) else readNodes E bad ix none r
  | ix, none, .other :: r => readNodes E bad ix none r
  | ix, some (m, have_), .elem n as :: r =>
    match readElem E m n as with
    | .ok m' => readNodes E bad ix (some (m', have_ || n == "grib1" || n == "grib2")) r
    | .throws => (ix, .throws)
    | .ub => (ix, .ub)
  | ix, some (m, have_), .close n :: r =>
    if n = "gribMessage" then
      if have_ = false ∨ m.url = "" then (ix, .throws) else readNodes E bad { ix with msgs := ix.msgs ++ [m] } none r
    else readNodes E bad ix (some (m, have_)) r
  | ix, some s, .other :: r => readNodes E bad ix (some s) r

/-- src/io/grib/GribFileIndex.cc:1219-1230 `initByGrbml`: exceptions become `false`, what was read before stays; there may be no such file. -/
def initByGrbml (E : Env F) (ix : Index F) (d : Option Doc) : Index F × Res Bool :=
  match d with
  | none => (ix, .ok false)
  | some d =>
    match readNodes E d.bad ix none d.events with
    | (ix', .ok b) => (ix', .ok b)
    | (ix', .throws) => (ix', .ok false)
    | (ix', .ub) => (ix', .ub)

/-- src/io/grib/GribFileIndex.cc:1129-1133: index from an index file. -/
def openIndex (E : Env F) (d : Option Doc) : Res (Index F) :=
  match initByGrbml E { url := "", msgs := [] } d with
  | (ix, .ok true) => .ok ix
  | (_, .ok false) => .throws
  | (_, .throws) => .throws
  | (_, .ub) => .ub

/-! ## Messages of GRIB files -/

/-- src/io/grib/GribFileIndex.cc:528-549: parameters by edition; Asimof messages are skipped. -/
def readIds (h : Handle F) (edition : ℤ) : Out (ℤ × ℤ × ℤ) :=
  if edition = 1 then do
    let iop ← must (getLong h "indicatorOfParameter")
    let tvn ← must (getLong h "gribTablesVersionNo")
    let ctr ← must (getLong h "centre")
    if iop = 254 then do
      let level ← must (getLong h "level")
      if level = 2147483647 then .skipped else .made (iop, tvn, ctr)
    else .made (iop, tvn, ctr)
  else if edition = 2 then do
    let pnm ← must (getLong h "parameterNumber")
    let pct ← must (getLong h "parameterCategory")
    let dis ← must (getLong h "discipline")
    .made (pnm, pct, dis)
  else .refused

/-- src/io/grib/GribFileIndex.cc:551-566: a name, or the three numbers if it is absent or unknown. -/
def readName (h : Handle F) (key sep : String) (ids : ℤ × ℤ × ℤ) : Out String :=
  match get h key with
  | none => .made (showInt ids.1 ++ sep ++ showInt ids.2.1 ++ sep ++ showInt ids.2.2)
  | some (.text s) => if s = "unknown" then .made (showInt ids.1 ++ sep ++ showInt ids.2.1 ++ sep ++ showInt ids.2.2) else .made s
  | some _ => .refused

/-- src/io/grib/GribFileIndex.cc:568-575. -/
def readExtra (h : Handle F) : List String → List (String × ℤ) → Out (List (String × ℤ))
  | [], l => .made l
  | k :: r, l =>
    match get h k with
    | none => readExtra h r l
    | some (.long i) => readExtra h r (Felt.mapPut Felt.nameLess k i l)
    | some _ => .refused

/-- src/io/grib/GribFileIndex.cc:630-641: number of the first member whose pattern matches the path, and the number of members. -/
def memberOf (members : List (String → Bool)) (url : String) : ℤ × ℤ :=
  match members.findIdx? fun p => p url with
  | some i => (i, members.length)
  | none => (0, 0)

/-- src/io/grib/GribFileIndex.cc:603-654: ensemble of the message or of its file. -/
def ensembleOf (h : Handle F) (members : List (String → Bool)) (url : String) : Out (ℤ × ℤ) :=
  match get h "numberOfForecastsInEnsemble" with
  | some (.long t) =>
    match get h "perturbationNumber" with
    | none => .made (0, 0)
    | some (.long p) => .made (p, t)
    | some _ => .refused
  | none => .made (memberOf members url)
  | some _ => .refused

/-- src/io/grib/GribFileIndex.cc:655-669: clusters stand for ensembles where there are none. -/
def clustersOf (h : Handle F) (e : ℤ × ℤ) : ℤ × ℤ :=
  if e.2 = 0 then
    match get h "totalNumberOfClusters" with
    | some (.long t) =>
      match get h "clusterNumber" with
      | some (.long p) => (p, t)
      | none => (0, t)
      | some _ => (e.1, t)
    | _ => (0, 0)
  else e

/-- src/io/grib/GribFileIndex.cc:584-593: the message's own unit of steps is chosen. -/
def withUnit (E : Env F) (h : Handle F) : Out (Handle F) := do
  let u ← must (getLong h "indicatorOfUnitOfTimeRange")
  if u ≠ 255 then .made (E.setUnit h u) else .made h

/-- src/io/grib/GribFileIndex.cc:130-137 `grib_get` with a value for absent keys. -/
def getOr (h : Handle F) (k : String) (d : ℤ) : Out ℤ :=
  match get h k with
  | none => .made d
  | some (.long i) => .made i
  | some _ => .refused

/-- src/io/grib/GribFileIndex.cc:675-687: known types of grids; others are skipped. -/
def readGridOf (E : Env F) (earth : String) (edition : ℤ) (typ : String) (h : Handle F) : Out (Grid F) :=
  if typ = "regular_ll" ∨ typ = "lambert" ∨ typ = "lambert_lam" ∨ typ = "mercator" ∨ typ = "polar_stereographic" ∨ typ = "rotated_ll" then E.grid earth edition typ h
  else .skipped

/-- Times of a message. -/
structure Times where
  unit : ℤ
  stepType : String
  date : ℤ
  time : ℤ
  range : ℤ
  statistic : ℤ
  start : ℤ
  stop : ℤ

/-- src/io/grib/GribFileIndex.cc:594-601. -/
def readTimes (h : Handle F) : Out Times := do
  let unit ← must (getLong h "stepUnits")
  let stepType ← must (getText h "stepType")
  let date ← must (getLong h "dataDate")
  let time ← must (getLong h "time")
  let range ← must (getLong h "timeRangeIndicator")
  let statistic ← getOr h "typeOfStatisticalProcessing" (-1)
  let start ← must (getLong h "startStep")
  let stop ← must (getLong h "endStep")
  .made { unit := unit, stepType := stepType, date := date, time := time, range := range, statistic := statistic, start := start, stop := stop }

/-- src/io/grib/GribFileIndex.cc:516-688: a message from the library's handle, which is missing if the library cannot read the bytes.
`earth` is the file's variable with the figure of the earth. -/
def fromHandle (E : Env F) (earth : String) (members : List (String → Bool)) (extra : List String) (url : String) (pos size : ℕ) (hd : Option (Handle F)) : Out (Msg F) :=
  match hd with
  | none => .refused
  | some h => do
    let ed ← must (getLong h "edition")
    let ids ← readIds h ed
    let name ← readName h "name" "," ids
    let short ← readName h "shortName" "_" ids
    let others ← readExtra h extra []
    let lt ← must (getLong h (if ed = 1 then "levtype" else "typeOfFirstFixedSurface"))
    let ln ← must (getLong h "level")
    let h' ← withUnit E h
    let t ← readTimes h'
    let e ← ensembleOf h' members url
    let typ ← must (getText h' "typeOfGrid")
    let g ← readGridOf E earth ed typ h'
    .made { url := url, pos := some (pos : ℤ), size := some size, name := name, short := short, ids := ids, edition := some ed, date := some t.date, time := some t.time, unit := some t.unit, stepType := t.stepType, stepStart := some t.start, stepEnd := some t.stop, timeRange := some t.range, statistic := some t.statistic, levelType := some lt, levelNo := some ln, member := (clustersOf h' e).1, total := (clustersOf h' e).2, others := others, gridType := typ, grid := g }

/-- Bytes as number, the highest first. -/
def bigEndian (l : List ℕ) : ℕ := l.foldl (fun n b => n * 256 + b) 0

/-- src/io/grib/GribFileIndex.cc:462-480 `readGribMessageSize`; with an edition other than 1 and 2 the loop runs over uninitialised bounds. -/
def sizeAt (bytes : List ℕ) (off : ℕ) : Res ℕ :=
  if bytes.length < off + 16 then .throws
  else match bytes[off + 7]? with
    | some 1 => .ok (bigEndian ((bytes.drop (off + 4)).take 3))
    | some 2 => .ok (bigEndian ((bytes.drop (off + 8)).take 8))
    | _ => .ub

/-- src/io/grib/GribFileIndex.cc:1170-1190 `initByGrib`: all messages of the file from a position on; `make` is given bytes, position and size.
`steps` bounds the rounds; a message of no bytes is met for ever. -/
def scan (make : List ℕ → ℕ → ℕ → Out (Msg F)) (bytes : List ℕ) : ℕ → ℕ → List (Msg F) → List (Msg F) × Res Unit
  | 0, _, ms => (ms, .ub)
  | steps + 1, off, ms =>
    if off < bytes.length then
      match sizeAt bytes off with
      | .throws => (ms, .throws)
      | .ub => (ms, .ub)
      | .ok n =>
        if bytes.length < off + n then (ms, .throws)
        else match make ((bytes.drop off).take n) off n with
          | .made m => scan make bytes steps (off + n) (ms ++ [m])
          | .skipped => scan make bytes steps (off + n) ms
          | .refused => (ms, .throws)
          | .undefined => (ms, .ub)
    else (ms, .ok ())

/-- Library's reader of one message: nothing if the bytes are none. -/
abbrev Lib (F : Type) := List ℕ → Option (Handle F)

/-- src/io/grib/GribFileIndex.h:241-245: options given by the user. -/
structure Options where
  earth : Option String
  extra : List String

/-- src/io/grib/GribFileIndex.cc:1166-1167: the end of `init`; an exception leaves it before the file's variable is reset. -/
def afterScan (figure url : String) (sc : List (Msg F) × Res Unit) : String × Res (Index F) :=
  match sc with
  | (ms, .ok _) => ("", .ok { url := url, msgs := ms })
  | (_, .throws) => (figure, .throws)
  | (_, .ub) => (figure, .ub)

/-- src/io/grib/GribFileIndex.cc:1145-1168 `init`, and the constructors 1115-1127; `earth` is the file's variable, which is left as it is when an exception passes.
No index file is meant by `none`; the outer option stands for an empty name. -/
def init (E : Env F) (lib : Lib F) (members : List (String → Bool)) (o : Options) (url : String) (bytes : List ℕ) (grbml : Option (Option Doc)) (earth : String) : String × Res (Index F) :=
  let start : Index F × Res Bool :=
    match grbml with
    | none => ({ url := "", msgs := [] }, .ok true)
    | some d => initByGrbml E { url := "", msgs := [] } d
  match start.2 with
  | .ub => (earth, .ub)
  | _ =>
    let old := start.1.msgs.filter fun m => m.url != url
    let figure := o.earth.getD earth
    afterScan figure url (scan (fun b p n => fromHandle E figure members o.extra url p n (lib b)) bytes (bytes.length + 1) 0 old)

/-- `fmod(x + 360, 360)` (src/GridDefinition.cc:58) with exact numbers: the rest has the sign of the first argument. -/
def wrapExact {K : Type} [Field K] [LinearOrder K] [FloorRing K] (x : K) : K :=
  x + 360 - 360 * (if 0 ≤ x + 360 then (⌊(x + 360) / 360⌋ : K) else (⌈(x + 360) / 360⌉ : K))

end Fimex.Grbml
