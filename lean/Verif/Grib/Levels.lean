import Verif.Grib.GridModel
import Verif.Scale.Model

/-!
# Levels and parameters of GRIB messages

Model of the parts of the GRIB writers that set the level, the parameter and the values of a message
(`src/io/grib/GribApiCDMWriter_ImplAbstract.cc`, `src/io/grib/GribApiCDMWriter_Impl1.cc`, `src/io/grib/GribApiCDMWriter_Impl2.cc`), and of
`readValuesFromXPath_` of `src/io/grib/GribCDMIndexer.cc`, which makes the coefficients of hybrid levels from those in the messages.

Simplifications.  Arithmetic is exact; a number that is not finite is `none`.  The configuration is its elements and attributes: an
XPath with a name in quotes selects the elements with that name, texts of numbers are numbers.  Numbers of levels are below 2^31.
-/

namespace Fimex.GribLevels
open Fimex.GribGrid

variable {K : Type} [Field K] [LinearOrder K]

/-! ## Coefficients of hybrid levels, writing -/

/-- An access to `p[i]` with `p` pointing at position `base` of an array. -/
def readZ {α : Type} (a : List α) (i : ℤ) : Res α := if i < 0 then .ub else readAt a i.toNat

/-- `p[i] = v`. -/
def writeZ {α : Type} (a : List α) (i : ℤ) (v : α) : Res (List α) :=
  if i < 0 ∨ a.length ≤ i.toNat then .ub else .ok (a.set i.toNat v)

/-- src/io/grib/GribApiCDMWriter_Impl2.cc:424-427: the loop; `pvB` points at position n + 1 of `pv`. -/
def pvLoop (ap b : List K) (n : ℕ) (di : ℤ) : ℕ → ℤ → List K → Res (List K)
  | 0, _, pv => .ok pv
  | j + 1, i, pv => do
    let a ← readZ ap i
    let p ← readZ pv (i - di)
    let pv ← writeZ pv i (2 * a - p)
    let c ← readZ b i
    let q ← readZ pv ((n : ℤ) + 1 + (i - di))
    let pv ← writeZ pv ((n : ℤ) + 1 + i) (2 * c - q)
    pvLoop ap b n di j (i + di) pv

/-- src/io/grib/GribApiCDMWriter_Impl2.cc:401-427: the vector `pv` of a hybrid axis with coefficients `ap` and `b`. -/
def hybridPv (ap b : List K) : Res (List K) :=
  let n := ap.length
  if b.length ≠ n then .throws
  else do
    let first ← readZ b 0
    let last ← readZ b ((b.length : ℤ) - 1)
    let pv := List.replicate (2 * (n + 1)) (0 : K)
    if first < last then pvLoop ap b n (-1) n ((n : ℤ) - 1) pv
    else pvLoop ap b n 1 n 1 pv

/-! ## Coefficients of hybrid levels, reading -/

/-- An element `values` of the configuration of the reader. -/
inductive Mode (K : Type) where
  /-- `inline` or no mode -/
  | inline (vs : List K)
  /-- `extraLevel1`, `extraLevel2` (true) -/
  | extra (second : Bool)
  /-- `extraHalvLevel1`, `extraHalvLevel2` (true) -/
  | half (second : Bool)
  /-- `hybridSigmaCalc(ap,b,p0)` with the data of these variables -/
  | sigma (ap b p0 : List K)
  | other

/-- src/io/grib/GribCDMIndexer.cc:381-393: one level of `extraLevel`. -/
def extraValue (second : Bool) (pv : List K) (lv : ℕ) : Res K :=
  let pos := (if second then pv.length / 2 else 0) + lv
  if pos < pv.length then (if pos = 0 then readAt pv 0 else readAt pv (pos - 1)) else .throws

/-- src/io/grib/GribCDMIndexer.cc:402-416: one level of `extraHalvLevel`; the position 0 − 1 is the largest number. -/
def halfValue (second : Bool) (pv : List K) (lv : ℕ) : Res K :=
  let off := if second then pv.length / 2 else 0
  if off + lv = 0 then .throws
  else
    let pos := off + lv - 1
    if pos < pv.length then
      if pos + 1 < pv.length then do
        let x ← readAt pv pos
        let y ← readAt pv (pos + 1)
        .ok ((x + y) / 2)
      else readAt pv (pv.length - 1)
    else .throws

/-- src/io/grib/GribCDMIndexer.cc:420-429: `hybridSigmaCalc`. -/
def sigmaValues (ap b p0 : List K) : Res (List K) :=
  (List.range ap.length).mapM fun i => do
    let a ← readAt ap i
    let p ← readAt p0 0
    let c ← readAt b i
    .ok (a / p + c)

/-- src/io/grib/GribCDMIndexer.cc:375-432: the values of one element. -/
def modeValues (pv : List K) (lv : List ℕ) : Mode K → Res (List K)
  | .inline vs => .ok vs
  | .extra s => lv.mapM (extraValue s pv)
  | .half s => if pv.length / 2 < lv.length then .throws else lv.mapM (halfValue s pv)
  | .sigma ap b p0 => sigmaValues ap b p0
  | .other => .throws

/-- src/io/grib/GribCDMIndexer.cc:369-438: the loop over the elements; a scale factor multiplies all values collected so far. -/
def collect (pv : List K) (lv : List ℕ) : List (Mode K × Option K) → List K → Res (List K)
  | [], acc => .ok acc
  | (m, s) :: rest, acc => do
    let vs ← modeValues pv lv m
    let acc := acc ++ vs
    collect pv lv rest (match s with | some k => acc.map (· * k) | none => acc)

/-- src/io/grib/GribCDMIndexer.cc:359-441 `readValuesFromXPath_`. -/
def readValues (nodes : List (Mode K × Option K)) (pv : List K) (lv : List ℕ) : Res (List K) :=
  if nodes = [] then .ok (lv.map (fun (i : ℕ) => (i : K))) else collect pv lv nodes []

/-! ## Levels, writing -/

/-- An element `grib1` or `grib2` of a `vertical_axis` of the configuration of the writer. -/
structure Entry (K : Type) where
  id : ℤ
  value : Option K := none
  units : Option String := none
  scale : Option K := none
  offset : Option K := none

/-- An element `vertical_axis` with its entries of the edition written. -/
structure AxisConfig (K : Type) where
  standardName : Option String := none
  compatibleTo : Option String := none
  entries : List (Entry K)

/-- The vertical axis of a variable: data, packing, `standard_name` and `units`. -/
structure Axis (K : Type) where
  data : List K
  scale : K
  offset : K
  standardName : Option String := none
  units : Option String := none

/-- `Units::areConvertible` and `Units::convert`. -/
structure Units (K : Type) where
  compatible : String → String → Bool
  convert : String → String → Res (K × K)

/-- src/io/grib/GribApiCDMWriter_ImplAbstract.cc:420-442, src/io/grib/GribApiCDMWriter_Impl1.cc:356-378,
src/io/grib/GribApiCDMWriter_Impl2.cc:365-390: the entries for an axis; no axis has the standard name "". -/
def entriesFor (U : Units K) (cfg : List (AxisConfig K)) : Option (Axis K) → Res (List (Entry K))
  | none => .ok ((cfg.filter fun a => a.standardName = some "").flatMap (·.entries))
  | some ax =>
    match ax.standardName with
    | some n => .ok ((cfg.filter fun a => a.standardName = some n).flatMap (·.entries))
    | none =>
      match ax.units with
      | some u =>
        if U.compatible u "m" then .ok ((cfg.filter fun a => a.compatibleTo = some "m").flatMap (·.entries))
        else if U.compatible u "Pa" then .ok ((cfg.filter fun a => a.compatibleTo = some "Pa").flatMap (·.entries))
        else .throws
      | none => .throws

/-- src/io/grib/GribApiCDMWriter_ImplAbstract.cc:70-77 `UnScale`: the factor 0 gives numbers that are not finite. -/
def unscale (s o x : K) : Option K := if s = 0 then none else some (x * (1 / s) + -1 * o / s)

/-- src/io/grib/GribApiCDMWriter_ImplAbstract.cc:408-489 `getLevels`. -/
def getLevels (U : Units K) (cfg : List (AxisConfig K)) (axis : Option (Axis K)) : Res (List (Option K)) := do
  let es ← entriesFor U cfg axis
  let raw : List K := match axis with | some a => a.data.map (fun x => x * a.scale + a.offset) | none => []
  match es with
  | [e] =>
    let vals : List K ← match raw with
      | [] => match e.value with | some v => .ok [v] | none => .throws
      | x :: xs => .ok (x :: xs)
    let vals : List K ← match e.units, axis.bind (·.units) with
      | some g, some u => do
        let c ← U.convert u g
        .ok (vals.map (fun x => x * c.1 + c.2))
      | _, _ => .ok vals
    .ok (vals.map (unscale (e.scale.getD 1) (e.offset.getD 0)))
  | [] => .ok (raw.map some)
  | _ => .throws

section
variable [FloorRing K]

/-- `static_cast<long>` of a level. -/
def levelLong : Option K → Res ℤ
  | some x => toLong x
  | none => .ub

/-- src/io/grib/GribApiCDMWriter_Impl1.cc:351-391 `setLevel`. -/
def setLevel1 (U : Units K) (cfg : List (AxisConfig K)) (axis : Option (Axis K)) (level : Option K) : Sets K :=
  need (entriesFor U cfg axis) fun es =>
    match es with
    | [e] => put "indicatorOfTypeOfLevel" (.long e.id) (need (levelLong level) fun l => put "level" (.long l) done)
    | _ => raise

/-- src/io/grib/GribApiCDMWriter_Impl2.cc:360-446 `setLevel`; `hybrid` are the coefficients of a complete hybrid sigma
transformation of the variable. The array is `hybridPv`; of it only the presence is set here. -/
def setLevel2 (U : Units K) (cfg : List (AxisConfig K)) (axis : Option (Axis K)) (hybrid : Option (List K × List K)) (level : Option K)
    (pos : ℕ) : Sets K :=
  need (entriesFor U cfg axis) fun es =>
    match es with
    | [e] => put "levelType" (.long e.id) <|
      if e.id = 105 then
        match hybrid with
        | some (ap, b) => need (hybridPv ap b) fun _ => put "PVPresent" (.long 1) (put "level" (.long ((pos : ℤ) + 1)) done)
        | none => put "level" (.long ((pos : ℤ) + 1)) done
      else need (levelLong level) fun l => put "level" (.long l) done
    | _ => raise

/-! ## Parameters -/

/-- An element `grib1` or `grib2` of a `parameter`, with the attribute `level` of the latter. -/
structure Param (K : Type) where
  level : Option K := none
  number : Option ℤ := none
  category : Option ℤ := none
  discipline : Option ℤ := none
  table : Option ℤ := none
  units : Option String := none
  attrs : List (String × Val K) := []

/-- The elements `parameter` of the configuration by name and by standard name. -/
structure ParamConfig (K : Type) where
  byName : String → List (Param K)
  byStd : String → List (Param K)

/-- src/io/grib/GribApiCDMWriter_ImplAbstract.cc:536-561 `hasNodePtr`: by name, then by standard name. -/
def nodesOf (C : ParamConfig K) (name : String) (std : Option String) : List (Param K) :=
  if C.byName name ≠ [] then C.byName name
  else match std with
    | some s => C.byStd s
    | none => []

/-- src/io/grib/GribApiCDMWriter_ImplAbstract.cc:563-593 `getNodePtr`. A level that is not a number matches nothing. -/
def getNode (C : ParamConfig K) (name : String) (std : Option String) (level : Option K) : Res (Param K) :=
  match nodesOf C name std with
  | [n] =>
    match n.level with
    | none => .ok n
    | some x =>
      match level with
      | some l => if |l - x| < 1 / 1000000 * l then .ok n else .throws
      | none => .throws
  | _ => .throws

/-- A number that must be there. -/
def present (x : Option ℤ) : Res ℤ :=
  match x with
  | some v => .ok v
  | none => .throws

/-- `setNodesAttributes`. -/
def putAll : List (String × Val K) → Sets K
  | [] => done
  | kv :: rest => put kv.1 kv.2 (putAll rest)

/-- src/io/grib/GribApiCDMWriter_Impl1.cc:50-62 and src/io/grib/GribApiCDMWriter_Impl2.cc:66-84 `setParameter`; in edition 1 a missing
number is found after the settings before it. -/
def setParameter (edition : ℕ) (C : ParamConfig K) (name : String) (std : Option String) (level : Option K) : Sets K :=
  need (getNode C name std level) fun n =>
    if edition = 1 then
      need (present n.number) fun p => put "indicatorOfParameter" (.long p) <|
        need (present n.table) fun t => put "gribTablesVersionNo" (.long t) (putAll n.attrs)
    else
      match n.number, n.category, n.discipline with
      | some p, some c, some d =>
        put "parameterNumber" (.long p) (put "parameterCategory" (.long c) (put "discipline" (.long d) (putAll n.attrs)))
      | _, _, _ => raise

end

/-- src/io/grib/GribApiCDMWriter_Impl1.cc:393-425 and src/io/grib/GribApiCDMWriter_Impl2.cc:448-482 `handleTypeScaleAndMissingData`: the
values written, with the fill value and packing of the variable; `unit` is the conversion to the unit of the parameter. -/
def messageValues [FloorRing K] (t : Scale.DType) (fill : Option K) (scale offset : K) (unit : Option (K × K)) (data : List (Option K)) :
    Res (List (Option K)) :=
  match unit with
  | some (slope, uOffset) => Scale.convertDataType t .real fill (scale * slope) (offset * slope + uOffset) none fill 1 0 data
  | none => Scale.convertDataType t .real fill scale offset none fill 1 0 data

end Fimex.GribLevels
