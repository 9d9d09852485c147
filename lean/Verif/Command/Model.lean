import Verif.Interp.History
import Verif.Extractor.Model

/-!
# The chain of readers the program builds from its options

Model of `src/binSrc/fimex.cc`: the functions that build the readers (`getCDMFileReader`, `getCDMProcessor`, ... `getCDMMerger`), their
order in `applyFimexStreamTasks`, and the end of `run`.

What is modelled is which readers are built, over which reader, with which operations and arguments in which order, and what is printed and
written.  Options are the values given for each key after the command line and the files named with `--config` have been read; the library
that reads them (`miutil::program_options`) is not part of the repository.  Of it is assumed that `find(key)` gives an option if and only
if it has been set, that `is_set` is the same question, and that `value` is some function of the values given.  The conversions of texts
(`string2type`, `tokenizeDotted`, `FimexTime::parseISO8601`, ...) are parameters that may fail.  Constructors and operations of the readers
may throw as well: `accept` says whether a reader can be built as described.  An exception and `exit(1)` are one outcome, `throws`: in both
cases the program ends with status 1 (`src/binSrc/fimex.cc:1144-1150`).  Messages are not modelled.
-/

namespace Fimex.Command

open History (Act lift modify)

/-- The values of the options (`po::value_set`); no values: not set. -/
abbrev Opts : Type := String → List String

/-- src/binSrc/fimex.cc: `vm.is_set(opt)` and `vm.find(key) != nullptr` (used e.g. at 268, 259). -/
def isSet (o : Opts) (k : String) : Bool := !(o k).isEmpty

/-! ## What is built -/

/-- The operations of `CDMProcessor` the program uses (src/binSrc/fimex.cc:432-475). -/
inductive ProcOp where
  | deaccumulate (v : String)
  | accumulate (v : String)
  | rotate (toLatLon : Bool) (x y stdX stdY : List String)
  | rotateAll (toLatLon : Bool)
  | rotateAngles (toLatLon : Bool) (vars : List String)
  | verticalVelocity
  | geopotentialHeight
deriving DecidableEq

/-- The operations of `CDMExtractor` the program uses (src/binSrc/fimex.cc:489-575).  `first` is `reduceDimension(name, 0, 1)`. -/
inductive ExtrOp (R T : Type) where
  | first (name : String)
  | range (name : String) (start stop : Int)
  | pick (name : String) (positions : List Nat)
  | time (start stop : T)
  | vertical (unit : String) (start stop : R)
  | box (south north west east : R)
  | select (vars : List String) (auxiliary : Bool)
  | remove (v : String)
deriving DecidableEq

/-- The calls that change the projection (src/binSrc/fimex.cc:718-788). -/
inductive Target (R : Type) where
  | projection (proj x y unitX unitY typeX typeY : String) (distance : Option R)
  | template (file : String)
  | sections (csd : List (String × List (R × R)))
  | points (lon lat : List R)
deriving DecidableEq

/-- What `createCDMInterpolator` sets (src/binSrc/fimex.cc:692-710). -/
structure Setup (P : Type) where
  latitude : Option String
  longitude : Option String
  pre : Option P
  post : Option P
deriving DecidableEq

/-- Where the vertical interpolation goes (src/binSrc/fimex.cc:633-650). -/
inductive Levels (R : Type) where
  | axis (name : String)
  | template (name : String)
  | fixed (levels : List R)
deriving DecidableEq

/-- A grid for the merger (src/binSrc/fimex.cc:846-847). -/
structure Grid where
  proj : String
  x : String
  y : String
  unitX : String
  unitY : String
  typeX : String
  typeY : String
deriving DecidableEq

/-- Readers as they are chained. -/
inductive Reader (R T P : Type) where
  | file (type name config : String) (optional : List String)
  | processor (ops : List ProcOp) (inner : Reader R T P)
  | quality (autoConf config : String) (inner : Reader R T P)
  | extractor (ops : List (ExtrOp R T)) (inner : Reader R T P)
  | times (spec : String) (inner : Reader R T P)
  | interpolator (method : Nat) (setup : Setup P) (target : Target R) (inner : Reader R T P)
  | ncml (config : String) (inner : Reader R T P)
  | pressure (ops : List String) (inner : Reader R T P)
  | vertical (type method : String) (levels : Levels R) (noMin noMax : Option Bool) (inner : Reader R T P)
  | merger (smoothing : Option P) (keepOuter : Bool) (method : Nat) (grid : Option Grid) (inside outside : Reader R T P)
deriving DecidableEq

/-- What the program gives out: descriptions of readers and files. -/
inductive Out (R T P : Type) where
  | description (stage : String) (file : String) (r : Reader R T P)
  | systems (stage : String) (r : Reader R T P)
  | size (stage : String) (r : Reader R T P)
  | fill (file config : String) (r : Reader R T P)
  | write (type file config : String) (r : Reader R T P)
deriving DecidableEq

/-- What the program uses of the libraries. -/
structure Env (R T P : Type) where
  /-- `vm.value(opt)` of an option that is set -/
  value : List String → String
  /-- `string2type<int>` -/
  int : String → Res Int
  /-- `string2type<double>` -/
  real : String → Res R
  /-- `string2type<bool>` -/
  bool : String → Res Bool
  /-- `tokenize(…, ",")` -/
  names : String → List String
  /-- `tokenizeDotted<int>` -/
  ints : String → Res (List Int)
  /-- `tokenizeDotted<size_t>` -/
  sizes : String → Res (List Nat)
  /-- `tokenizeDotted<double>` -/
  reals : String → Res (List R)
  /-- `FimexTime::parseISO8601` -/
  time : String → Option T
  /-- `FimexTime::min_date_time` -/
  minTime : T
  /-- `FimexTime::max_date_time` -/
  maxTime : T
  /-- `mifi_string_to_interpolation_method`; nothing for `MIFI_INTERPOL_UNKNOWN` -/
  method : String → Option Nat
  /-- `MIFI_INTERPOL_NEAREST_NEIGHBOR` -/
  nearest : Nat
  /-- `createSmoothingFactory` -/
  smoothing : String → Res P
  /-- `parseProcess` (src/binSrc/fimex.cc:663-690) -/
  process : String → Res P
  /-- `po::parse_config_file`, all files together -/
  config : List String → Res Opts
  /-- whether the constructor and the operations go through -/
  accept : Reader R T P → Bool
  /-- whether it can be printed or written -/
  gives : Out R T P → Bool

variable {R T P : Type}

/-- What has been given out so far. -/
abbrev Log (R T P : Type) : Type := List (Out R T P)

/-- The constructor of a reader and the operations that belong to it. -/
def made (env : Env R T P) (r : Reader R T P) : Res (Reader R T P) := if env.accept r then .ok r else .throws

/-- Something is printed or written. -/
def emit (env : Env R T P) (out : Out R T P) : Act (Log R T P) Unit :=
  fun l => (l ++ [out], if env.gives out then .ok () else .throws)

/-! ## Options (src/binSrc/fimex.cc:257-360) -/

/-- src/binSrc/fimex.cc:257-263 `getType`, 352-360 `getFile`, `getConfig`: the text, empty if the option is not set. -/
def text (env : Env R T P) (o : Opts) (k : String) : String := if isSet o k then env.value (o k) else ""

/-- src/binSrc/fimex.cc:265-274 `getOption<string>`. -/
def textOpt (env : Env R T P) (o : Opts) (k : String) : Option String := if isSet o k then some (env.value (o k)) else none

/-- `vm.value(opt)` of an option with the default value `"double"` (src/binSrc/fimex.cc:165-166, 199-200). -/
def typeOf (env : Env R T P) (o : Opts) (k : String) : String := if isSet o k then env.value (o k) else "double"

/-- A conversion of a text, if there is one. -/
def optional {α : Type} (f : String → Res α) : Option String → Res (Option α)
  | none => .ok none
  | some s => (f s).bind fun a => .ok (some a)

/-- include/fimex/String2Type.h:111-119 `strings2types`, as used by src/binSrc/fimex.cc:276-286 `getOptions`. -/
def each {α : Type} (f : String → Res α) : List String → Res (List α)
  | [] => .ok []
  | s :: ss => (f s).bind fun a => (each f ss).bind fun as => .ok (a :: as)

/-- src/binSrc/fimex.cc:362-389 `printReaderStatements`. -/
def printed (env : Env R T P) (o : Opts) (stage : String) (r : Reader R T P) : Act (Log R T P) Unit := do
  if isSet o (stage ++ ".printNcML") then emit env (.description stage (env.value (o (stage ++ ".printNcML"))) r)
  if isSet o (stage ++ ".printCS") then emit env (.systems stage r)
  if isSet o (stage ++ ".printSize") then emit env (.size stage r)

/-- src/binSrc/fimex.cc:410-422 `getInterpolationMethod`. -/
def methodOf (env : Env R T P) (o : Opts) (k : String) : Nat :=
  if isSet o k then (env.method (env.value (o k))).getD env.nearest else env.nearest

/-! ## The input (src/binSrc/fimex.cc:393-408) -/

/-- src/binSrc/fimex.cc:393-408 `getCDMFileReader`. -/
def fileReader (env : Env R T P) (o : Opts) (io : String) : Act (Log R T P) (Reader R T P) := do
  let r ← lift (made env (.file (text env o (io ++ ".type")) (text env o (io ++ ".file")) (text env o (io ++ ".config")) (o (io ++ ".optional"))))
  printed env o io r
  pure r

/-! ## Accumulations and rotations (src/binSrc/fimex.cc:424-477) -/

/-- src/binSrc/fimex.cc:441-450: the direction. -/
def direction (s : String) : Res Bool :=
  if s = "latlon" then .ok true else if s = "grid" then .ok false else .throws

/-- src/binSrc/fimex.cc:451-464: vectors. -/
def rotateVectors (o : Opts) (toLatLon : Bool) : Res (List ProcOp) :=
  if isSet o "process.rotateVector.x" && isSet o "process.rotateVector.y" then
    .ok [.rotate toLatLon (o "process.rotateVector.x") (o "process.rotateVector.y") (o "process.rotateVector.stdNameX")
      (o "process.rotateVector.stdNameY")]
  else if isSet o "process.rotateVector.all" then .ok [.rotateAll toLatLon]
  else if isSet o "process.rotateVector.angle" then .ok []
  else .throws

/-- src/binSrc/fimex.cc:465-468: angles. -/
def rotateAngles (o : Opts) (toLatLon : Bool) : List ProcOp :=
  if isSet o "process.rotateVector.angle" then [.rotateAngles toLatLon (o "process.rotateVector.angle")] else []

/-- src/binSrc/fimex.cc:440-469: rotations. -/
def rotations (env : Env R T P) (o : Opts) : Res (List ProcOp) :=
  if isSet o "process.rotateVector.direction" then
    (direction (env.value (o "process.rotateVector.direction"))).bind fun d =>
    (rotateVectors o d).bind fun v => .ok (v ++ rotateAngles o d)
  else .ok []

/-- src/binSrc/fimex.cc:432-475: all operations. -/
def processOps (env : Env R T P) (o : Opts) : Res (List ProcOp) :=
  (rotations env o).bind fun rot =>
  .ok ((o "process.deaccumulateVariable").map .deaccumulate ++ ((o "process.accumulateVariable").map .accumulate ++ (rot ++
    ((if isSet o "process.addVerticalVelocity" then [.verticalVelocity] else []) ++
     (if isSet o "process.addGeopotentialHeight" then [.geopotentialHeight] else [])))))

/-- src/binSrc/fimex.cc:426-430: whether there is a processor. -/
def wantsProcessor (o : Opts) : Bool :=
  isSet o "process.accumulateVariable" || isSet o "process.deaccumulateVariable" || isSet o "process.rotateVector.direction" ||
  isSet o "process.addVerticalVelocity" || isSet o "process.addGeopotentialHeight"

/-- src/binSrc/fimex.cc:424-477 `getCDMProcessor`. -/
def processor (env : Env R T P) (o : Opts) (r : Reader R T P) : Res (Reader R T P) :=
  if wantsProcessor o then (processOps env o).bind fun ops => made env (.processor ops r) else .ok r

/-! ## Quality (src/binSrc/fimex.cc:581-594) -/

/-- src/binSrc/fimex.cc:583-591: the reader.  The key asked for is `autoConfigString`. -/
def qualityReader (env : Env R T P) (o : Opts) (io : String) (r : Reader R T P) : Res (Reader R T P) :=
  if text env o (io ++ ".autoConfigString") ≠ "" ∨ text env o (io ++ ".config") ≠ "" then
    made env (.quality (text env o (io ++ ".autoConfigString")) (text env o (io ++ ".config")) r)
  else .ok r

/-- src/binSrc/fimex.cc:581-594 `getCDMQualityExtractor`. -/
def quality (env : Env R T P) (o : Opts) (io : String) (r : Reader R T P) : Act (Log R T P) (Reader R T P) := do
  let q ← lift (qualityReader env o io r)
  printed env o io q
  pure q

/-! ## Extraction (src/binSrc/fimex.cc:479-579) -/

/-- src/binSrc/fimex.cc:501-508: the loop over the dimensions.  `startPos.at(i)` throws if there is no such position; `endPos.at(i)` is
evaluated only if the start is 0, otherwise `endPos[i]` is read without a check. -/
def dimensionOps : List String → List Int → List Int → Res (List (ExtrOp R T))
  | [], _, _ => .ok []
  | _ :: _, [], _ => .throws
  | _ :: _, s :: _, [] => if s = 0 then .throws else .ub
  | n :: ns, s :: ss, e :: es =>
      (dimensionOps ns ss es).bind fun ops => .ok ((if s = 0 ∧ e = 0 then .first n else .range n s e) :: ops)

/-- src/binSrc/fimex.cc:489-509: dimensions with start and end. -/
def reduceOps (env : Env R T P) (o : Opts) : Res (List (ExtrOp R T)) :=
  if isSet o "extract.reduceDimension.name" then
    (each env.int (o "extract.reduceDimension.start")).bind fun ss =>
    (each env.int (o "extract.reduceDimension.end")).bind fun es => dimensionOps (o "extract.reduceDimension.name") ss es
  else .ok []

/-- src/binSrc/fimex.cc:516-520: the loop over the dimensions with positions; `int` becomes `size_t`.  The positions are a set. -/
def pickLoop (env : Env R T P) : List String → List String → Res (List (ExtrOp R T))
  | [], _ => .ok []
  | _ :: _, [] => .throws
  | n :: ns, l :: ls =>
      (env.ints l).bind fun pos => (pickLoop env ns ls).bind fun ops => .ok (.pick n (pos.map Extractor.toSizeT) :: ops)

/-- src/binSrc/fimex.cc:510-521: dimensions with positions. -/
def pickOps (env : Env R T P) (o : Opts) : Res (List (ExtrOp R T)) :=
  if isSet o "extract.pickDimension.name" then pickLoop env (o "extract.pickDimension.name") (o "extract.pickDimension.list") else .ok []

/-- src/binSrc/fimex.cc:523-538: a limit of the time, or the one there is otherwise. -/
def limit (env : Env R T P) (o : Opts) (k : String) (otherwise : T) : Res T :=
  if isSet o k then (match env.time (env.value (o k)) with | some t => .ok t | none => .throws) else .ok otherwise

/-- src/binSrc/fimex.cc:522-540: times. -/
def timeOps (env : Env R T P) (o : Opts) : Res (List (ExtrOp R T)) :=
  if isSet o "extract.reduceTime.start" || isSet o "extract.reduceTime.end" then
    (limit env o "extract.reduceTime.start" env.minTime).bind fun s =>
    (limit env o "extract.reduceTime.end" env.maxTime).bind fun e => .ok [.time s e]
  else .ok []

/-- src/binSrc/fimex.cc:541-550: the vertical axis. -/
def verticalOps (env : Env R T P) (o : Opts) : Res (List (ExtrOp R T)) :=
  if isSet o "extract.reduceVerticalAxis.unit" then
    if isSet o "extract.reduceVerticalAxis.start" && isSet o "extract.reduceVerticalAxis.end" then
      (env.real (env.value (o "extract.reduceVerticalAxis.start"))).bind fun s =>
      (env.real (env.value (o "extract.reduceVerticalAxis.end"))).bind fun e =>
      .ok [.vertical (env.value (o "extract.reduceVerticalAxis.unit")) s e]
    else .throws
  else .ok []

/-- src/binSrc/fimex.cc:556-562: one side of the bounding box. -/
def side (env : Env R T P) (o : Opts) (k : String) : Res R :=
  if isSet o k then env.real (env.value (o k)) else .throws

/-- src/binSrc/fimex.cc:551-565: the bounding box. -/
def boxOps (env : Env R T P) (o : Opts) : Res (List (ExtrOp R T)) :=
  if isSet o "extract.reduceToBoundingBox.south" || isSet o "extract.reduceToBoundingBox.north" ||
      isSet o "extract.reduceToBoundingBox.west" || isSet o "extract.reduceToBoundingBox.east" then
    (side env o "extract.reduceToBoundingBox.south").bind fun s =>
    (side env o "extract.reduceToBoundingBox.north").bind fun n =>
    (side env o "extract.reduceToBoundingBox.west").bind fun w =>
    (side env o "extract.reduceToBoundingBox.east").bind fun e => .ok [.box s n w e]
  else .ok []

/-- src/binSrc/fimex.cc:566-575: variables. -/
def variableOps (o : Opts) : List (ExtrOp R T) :=
  (if isSet o "extract.selectVariables" then
    [.select (o "extract.selectVariables") (!isSet o "extract.selectVariables.noAuxiliary")] else []) ++
  (o "extract.removeVariable").map .remove

/-- src/binSrc/fimex.cc:489-575: all operations. -/
def extractOps (env : Env R T P) (o : Opts) : Res (List (ExtrOp R T)) :=
  (reduceOps env o).bind fun a =>
  (pickOps env o).bind fun b =>
  (timeOps env o).bind fun c =>
  (verticalOps env o).bind fun d =>
  (boxOps env o).bind fun e => .ok (a ++ (b ++ (c ++ (d ++ (e ++ variableOps o)))))

/-- src/binSrc/fimex.cc:481-487: whether there is an extractor.  `extract.reduceTime.start` is asked for twice. -/
def wantsExtractor (o : Opts) : Bool :=
  isSet o "extract.reduceDimension.name" || isSet o "extract.pickDimension.name" || isSet o "extract.removeVariable" ||
  isSet o "extract.selectVariables" || isSet o "extract.reduceTime.start" || isSet o "extract.reduceTime.start" ||
  isSet o "extract.reduceVerticalAxis.unit" || isSet o "extract.reduceToBoundingBox.south" ||
  isSet o "extract.reduceToBoundingBox.north" || isSet o "extract.reduceToBoundingBox.west" || isSet o "extract.reduceToBoundingBox.east"

/-- src/binSrc/fimex.cc:479-579 `getCDMExtractor`. -/
def extractor (env : Env R T P) (o : Opts) (r : Reader R T P) : Act (Log R T P) (Reader R T P) :=
  if wantsExtractor o then do
    let e ← lift ((extractOps env o).bind fun ops => made env (.extractor ops r))
    printed env o "extract" e
    pure e
  else pure r

/-! ## Times (src/binSrc/fimex.cc:596-608) -/

/-- src/binSrc/fimex.cc:596-608 `getCDMTimeInterpolator`. -/
def times (env : Env R T P) (o : Opts) (r : Reader R T P) : Act (Log R T P) (Reader R T P) :=
  if isSet o "timeInterpolate.timeSpec" then do
    let t ← lift (made env (.times (env.value (o "timeInterpolate.timeSpec")) r))
    printed env o "timeInterpolate" t
    pure t
  else pure r

/-! ## Horizontal interpolation (src/binSrc/fimex.cc:692-796) -/

/-- src/binSrc/fimex.cc:692-710 `createCDMInterpolator`. -/
def setup (env : Env R T P) (o : Opts) : Res (Setup P) :=
  (optional env.process (textOpt env o "interpolate.preprocess")).bind fun pre =>
  (optional env.process (textOpt env o "interpolate.postprocess")).bind fun post =>
  .ok ⟨textOpt env o "interpolate.latitudeName", textOpt env o "interpolate.longitudeName", pre, post⟩

/-- src/binSrc/fimex.cc:718-733: a projection with axes. -/
def toProjection (env : Env R T P) (o : Opts) : Res (Setup P × Target R) :=
  if isSet o "interpolate.xAxisUnit" && isSet o "interpolate.yAxisUnit" && isSet o "interpolate.xAxisValues" &&
      isSet o "interpolate.yAxisValues" then
    (setup env o).bind fun s =>
    (optional env.real (textOpt env o "interpolate.distanceOfInterest")).bind fun d =>
    .ok (s, .projection (env.value (o "interpolate.projString")) (env.value (o "interpolate.xAxisValues"))
      (env.value (o "interpolate.yAxisValues")) (env.value (o "interpolate.xAxisUnit")) (env.value (o "interpolate.yAxisUnit"))
      (typeOf env o "interpolate.xAxisType") (typeOf env o "interpolate.yAxisType") d)
  else .throws

/-- src/binSrc/fimex.cc:772-774: `count` points from a position on; `lonVals.at(…)` and `latVals.at(…)` throw. -/
def pointsFrom (lon lat : List R) (position : Nat) : Nat → Res (List (R × R))
  | 0 => .ok []
  | count + 1 =>
      match lon[position]?, lat[position]? with
      | some x, some y => (pointsFrom lon lat (position + 1) count).bind fun ps => .ok ((x, y) :: ps)
      | _, _ => .throws

/-- src/binSrc/fimex.cc:767-777: the loop over the cross sections; `pointNo.at(i)` is there, both lists are of one length. -/
def cut (lon lat : List R) (position : Nat) : List String → List Nat → Res (List (String × List (R × R)))
  | n :: ns, c :: cs =>
      (pointsFrom lon lat position c).bind fun ps =>
      (cut lon lat (position + c) ns cs).bind fun r => .ok ((n, ps) :: r)
  | [], _ => .ok []
  | _ :: _, [] => .throws

/-- One step of `std::accumulate(…, 0)`: the sum is an `int` (src/binSrc/fimex.cc:758). -/
def intSum (acc : Int) (n : Nat) : Int := (acc + n).bmod (2 ^ 32)

/-- src/binSrc/fimex.cc:758: `size_t pointSum = std::accumulate(…, 0)`. -/
def pointSum (counts : List Nat) : Nat := Extractor.toSizeT (counts.foldl intSum 0)

/-- src/binSrc/fimex.cc:750-777: the cross sections. -/
def sections (env : Env R T P) (o : Opts) : Res (List (String × List (R × R))) :=
  (env.sizes (env.value (o "interpolate.vcrossNoPoints"))).bind fun counts =>
  (env.reals (env.value (o "interpolate.latitudeValues"))).bind fun lat =>
  (env.reals (env.value (o "interpolate.longitudeValues"))).bind fun lon =>
  if (env.names (env.value (o "interpolate.vcrossNames"))).length ≠ counts.length then .throws
  else if pointSum counts ≠ lat.length then .throws
  else if lat.length ≠ lon.length then .throws
  else cut lon lat 0 (env.names (env.value (o "interpolate.vcrossNames"))) counts

/-- src/binSrc/fimex.cc:737-779: vertical cross sections. -/
def toSections (env : Env R T P) (o : Opts) : Res (Setup P × Target R) :=
  if isSet o "interpolate.vcrossNoPoints" && isSet o "interpolate.longitudeValues" && isSet o "interpolate.latitudeValues" then
    (sections env o).bind fun csd => (setup env o).bind fun s => .ok (s, .sections csd)
  else .throws

/-- src/binSrc/fimex.cc:780-788: points. -/
def toPoints (env : Env R T P) (o : Opts) : Res (Setup P × Target R) :=
  if isSet o "interpolate.longitudeValues" then
    (env.reals (env.value (o "interpolate.latitudeValues"))).bind fun lat =>
    (env.reals (env.value (o "interpolate.longitudeValues"))).bind fun lon => (setup env o).bind fun s => .ok (s, .points lon lat)
  else .throws

/-- src/binSrc/fimex.cc:715-791: which of them; nothing if there is no interpolation. -/
def target (env : Env R T P) (o : Opts) : Option (Res (Setup P × Target R)) :=
  if isSet o "interpolate.projString" then some (toProjection env o)
  else if isSet o "interpolate.template" then
    some ((setup env o).bind fun s => .ok (s, .template (env.value (o "interpolate.template"))))
  else if isSet o "interpolate.vcrossNames" then some (toSections env o)
  else if isSet o "interpolate.latitudeValues" then some (toPoints env o)
  else none

/-- src/binSrc/fimex.cc:712-796 `getCDMInterpolator`. -/
def interpolator (env : Env R T P) (o : Opts) (r : Reader R T P) : Act (Log R T P) (Reader R T P) :=
  match target env o with
  | none => pure r
  | some t => do
      let i ← lift (t.bind fun st => made env (.interpolator (methodOf env o "interpolate.method") st.1 st.2 r))
      printed env o "interpolate" i
      pure i

/-! ## Vertical interpolation (src/binSrc/fimex.cc:610-661) -/

/-- src/binSrc/fimex.cc:612-616: a configuration with NcML before the interpolation. -/
def verticalNcml (env : Env R T P) (o : Opts) (r : Reader R T P) : Res (Reader R T P) :=
  if text env o "verticalInterpolate.config" ≠ "" then made env (.ncml (text env o "verticalInterpolate.config") r) else .ok r

/-- src/binSrc/fimex.cc:617-625: conversions. -/
def conversions (env : Env R T P) (o : Opts) (r : Reader R T P) : Res (Reader R T P) :=
  if isSet o "verticalInterpolate.dataConversion" then made env (.pressure (o "verticalInterpolate.dataConversion") r) else .ok r

/-- src/binSrc/fimex.cc:633-650: the levels. -/
def levels (env : Env R T P) (o : Opts) : Res (Levels R) :=
  if isSet o "verticalInterpolate.toAxis" then .ok (.axis (env.value (o "verticalInterpolate.toAxis")))
  else if isSet o "verticalInterpolate.templateVar" then .ok (.template (env.value (o "verticalInterpolate.templateVar")))
  else if isSet o "verticalInterpolate.level1" then
    (env.reals (env.value (o "verticalInterpolate.level1"))).bind fun l => .ok (.fixed l)
  else .throws

/-- src/binSrc/fimex.cc:630-658: the interpolation itself. -/
def verticalReader (env : Env R T P) (o : Opts) (r : Reader R T P) : Res (Reader R T P) :=
  (levels env o).bind fun l =>
  (optional env.bool (textOpt env o "verticalInterpolate.ignoreValidityMin")).bind fun mn =>
  (optional env.bool (textOpt env o "verticalInterpolate.ignoreValidityMax")).bind fun mx =>
  made env (.vertical (env.value (o "verticalInterpolate.type")) (env.value (o "verticalInterpolate.method")) l mn mx r)

/-- src/binSrc/fimex.cc:610-661 `getCDMVerticalInterpolator`. -/
def vertical (env : Env R T P) (o : Opts) (r : Reader R T P) : Act (Log R T P) (Reader R T P) := do
  let c ← lift ((verticalNcml env o r).bind fun n => conversions env o n)
  if isSet o "verticalInterpolate.type" && isSet o "verticalInterpolate.method" then do
    let v ← lift (verticalReader env o c)
    printed env o "verticalInterpolate" v
    pure v
  else pure c

/-! ## NcML (src/binSrc/fimex.cc:798-806) -/

/-- src/binSrc/fimex.cc:798-806 `getNcmlCDMReader`. -/
def ncml (env : Env R T P) (o : Opts) (r : Reader R T P) : Act (Log R T P) (Reader R T P) :=
  if text env o "ncml.config" ≠ "" then do
    let n ← lift (made env (.ncml (text env o "ncml.config") r))
    printed env o "ncml" n
    pure n
  else pure r

/-! ## Merger and the whole chain (src/binSrc/fimex.cc:808-868) -/

/-- src/binSrc/fimex.cc:810-812: whether there is a merger. -/
def wantsMerger (o : Opts) : Bool :=
  isSet o "merge.inner.file" || isSet o "merge.inner.type" || isSet o "merge.inner.config" || isSet o "merge.smoothing" || isSet o "merge.method"

/-- src/binSrc/fimex.cc:839-850: the grid. -/
def mergeGrid (env : Env R T P) (o : Opts) : Res (Option Grid) :=
  if isSet o "merge.projString" then
    if isSet o "merge.xAxisUnit" && isSet o "merge.yAxisUnit" && isSet o "merge.xAxisValues" && isSet o "merge.yAxisValues" then
      .ok (some ⟨env.value (o "merge.projString"), env.value (o "merge.xAxisValues"), env.value (o "merge.yAxisValues"),
        env.value (o "merge.xAxisUnit"), env.value (o "merge.yAxisUnit"), typeOf env o "merge.xAxisType", typeOf env o "merge.yAxisType"⟩)
    else .throws
  else .ok none

/-- src/binSrc/fimex.cc:825-850: the merger over both readers. -/
def mergeReader (env : Env R T P) (o : Opts) (inside outside : Reader R T P) : Res (Reader R T P) :=
  (optional env.smoothing (textOpt env o "merge.smoothing")).bind fun s =>
  (mergeGrid env o).bind fun g =>
  made env (.merger s (isSet o "merge.keepOuterVariables") (methodOf env o "merge.method") g inside outside)

/-- src/binSrc/fimex.cc:817-823: what is done to the inner reader; `again` is `applyFimexStreamTasks`. -/
def innerTasks (env : Env R T P) (again : Opts → Reader R T P → Act (Log R T P) (Reader R T P)) (o : Opts) (i : Reader R T P) :
    Act (Log R T P) (Reader R T P) :=
  if isSet o "merge.inner.cfg" then do
    let m ← lift (env.config (o "merge.inner.cfg"))
    again m i
  else pure i

/-- src/binSrc/fimex.cc:808-854 `getCDMMerger`. -/
def merger (env : Env R T P) (again : Opts → Reader R T P → Act (Log R T P) (Reader R T P)) (o : Opts) (r : Reader R T P) :
    Act (Log R T P) (Reader R T P) :=
  if wantsMerger o then do
    let i ← fileReader env o "merge.inner"
    let j ← innerTasks env again o i
    let m ← lift (mergeReader env o j r)
    printed env o "merge" m
    pure m
  else pure r

/-- src/binSrc/fimex.cc:856-868 `applyFimexStreamTasks`.  It calls itself through the merger; the first argument is the number of calls there
is room for on the stack. -/
def tasks (env : Env R T P) : Nat → Opts → Reader R T P → Act (Log R T P) (Reader R T P)
  | 0, _, _ => lift .ub
  | depth + 1, o, r0 => do
      let r1 ← lift (processor env o r0)
      let r2 ← quality env o "qualityExtract" r1
      let r3 ← extractor env o r2
      let r4 ← times env o r3
      let r5 ← interpolator env o r4
      let r6 ← vertical env o r5
      let r7 ← merger env (tasks env depth) o r6
      let r8 ← quality env o "qualityExtract2" r7
      ncml env o r8

/-! ## The end of the program (src/binSrc/fimex.cc:870-899, 1100-1103) -/

/-- src/binSrc/fimex.cc:870-881 `fillWriteCDM`. -/
def fillWrite (env : Env R T P) (o : Opts) (r : Reader R T P) : Act (Log R T P) Unit :=
  if isSet o "output.fillFile" then emit env (.fill (env.value (o "output.fillFile")) (text env o "output.config") r) else pure ()

/-- src/binSrc/fimex.cc:883-899 `writeCDM`. -/
def writeOut (env : Env R T P) (o : Opts) (r : Reader R T P) : Act (Log R T P) Unit := do
  printed env o "output" r
  if isSet o "output.file" then
    emit env (.write (text env o "output.type") (env.value (o "output.file")) (text env o "output.config") r)

/-- src/binSrc/fimex.cc:1100-1103: from the input to the output. -/
def run (env : Env R T P) (depth : Nat) (o : Opts) : Act (Log R T P) Unit := do
  let f ← fileReader env o "input"
  let r ← tasks env depth o f
  fillWrite env o r
  writeOut env o r

end Fimex.Command
