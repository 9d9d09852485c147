import Verif.Cdm.Model
import Mathlib.Data.Nat.Notation

/-!
# Pressure conversions: operations and new variables

Model of `src/CDMPressureConversions.cc`: how an operation is read from its text, and which variables and converters it
makes. Constructing the object raises as a whole, so an exception has no state. What `match` of the factories does with
the environment is nothing; names and text are strings, `std::map` is a list of pairs with different keys.
-/

namespace Fimex.Pressure

open Fimex.Cdm

/-! ## Operations -/

/-- `std::map::insert`: an existing key keeps its value. -/
def insert {α : Type} (m : List (String × α)) (k : String) (v : α) : List (String × α) :=
  if m.any (fun p => p.1 == k) then m else m ++ [(k, v)]

/-- `std::map::find`. -/
def find {α : Type} (m : List (String × α)) (k : String) : Option α := (m.find? fun p => p.1 == k).map (·.2)

/-- The text before the first `c` and the text after it, `std::string::find`. -/
def cut (c : Char) : List Char → Option (List Char × List Char)
  | [] => none
  | x :: l => if x = c then some ([], l) else (cut c l).map fun p => (x :: p.1, p.2)

theorem cut_length {c : Char} {l a b : List Char} (h : cut c l = some (a, b)) : b.length < l.length := by
  induction l generalizing a b with
  | nil => simp [cut] at h
  | cons x l ih =>
    unfold cut at h
    split at h
    · simp at h; obtain ⟨rfl, rfl⟩ := h; simp
    · cases h' : cut c l with
      | none => rw [h'] at h; simp at h
      | some p =>
        rw [h'] at h
        simp at h
        obtain ⟨rfl, rfl⟩ := h
        have := ih (a := p.1) (b := p.2) h'
        simp; omega

/-- src/CDMPressureConversions.cc:646-664, the loop over the options; the argument is the text after the separator at
`pos_sep`. -/
def readOptions (l : List Char) (m : List (String × String)) : List (String × String) :=
  if l.isEmpty then m
  else
    match _h : cut '=' l with
    | none => insert m (String.ofList l) ""
    | some (key, r) =>
      match _h' : cut ';' r with
      | none => insert m (String.ofList key) (String.ofList r)
      | some (val, rest) => readOptions rest (insert m (String.ofList key) (String.ofList val))
termination_by l.length
decreasing_by exact Nat.lt_trans (cut_length _h') (cut_length _h)

/-- src/CDMPressureConversions.cc:130-139 `Operation`. -/
structure Oper where
  conversion : String
  options : List (String × String)
deriving DecidableEq

/-- src/CDMPressureConversions.cc:639-666: an operation from its text. -/
def readOper (s : String) : Oper :=
  match cut ';' s.toList with
  | none => ⟨s, []⟩
  | some (c, rest) => ⟨String.ofList c, readOptions rest []⟩

/-! ## New variables -/

variable {P V : Type}

/-- A coordinate system: the variables it is complete for, the shapes of its axes and its pressure converter;
`getConverter` may raise, may return null, and the converter has a shape. -/
structure Sys where
  complete : String → Bool
  x : Option (List String)
  y : Option (List String)
  z : Option (List String)
  t : Option (List String)
  hasTransformation : Bool
  converter : Res (Option (List String))

/-- src/CDMPressureConversions.cc:112-128 `Environment`, without the output; and the values used in attributes and new
variables. -/
structure Env (P V : Type) where
  input : CDM P V Unit
  systems : List Sys
  /-- `regex_match` of a name with the text of an attribute. -/
  isName : String → V → Bool
  text : String → V
  /-- The payload of a variable with the same type and nothing else. -/
  plain : P → P
  short : P
  float : P
  validMin : V
  validMax : V
  scale : V
  /-- Whether warnings are written. -/
  warns : Bool

/-- What a converter works with. -/
inductive Source where
  | theta (theta : String)
  | humidity (specific temperature : String)
  | omega (omega temperature : String)
  | pressure4D (shape : List String)
deriving DecidableEq

/-- src/CDMPressureConversions.cc:96-109 `Converter` and its subclasses. -/
structure Conv where
  name : String
  sys : Sys
  source : Source

abbrev Out (P V : Type) := CDM P V Unit × List Conv

/-- src/CDMPressureConversions.cc:158-183 `findVariables`. -/
def findVars (e : Env P V) (o : Oper) (key pattern : String) : List String :=
  match find o.options key with
  | some n => if hasVariable e.input n then [n] else []
  | none => Cdm.findVariables e.input [("standard_name", e.isName pattern)] []

/-- src/CDMPressureConversions.cc:185-198 `deriveVariableName`: the result of `regex_replace` is thrown away. -/
def deriveName (o : Oper) (key : String) : String := (find o.options key).getD key

/-- An exception ends the constructor. -/
def done (r : CDM P V Unit × Res Unit) : Res (CDM P V Unit) :=
  match r.2 with
  | .ok _ => .ok r.1
  | .throws => .throws
  | .ub => .ub

/-- src/CoordinateSystem.cc:531-538 `findCompleteCoordinateSystemFor`. -/
def systemFor (e : Env P V) (v : String) : Option Sys := e.systems.find? fun s => s.complete v

/-- src/CDMPressureConversions.cc:258-287: one potential temperature. -/
def thetaStep (e : Env P V) (o : Oper) (s : Out P V) (theta : String) : Res (Out P V) :=
  match systemFor e theta with
  | none => .ok s
  | some cs =>
    let t := deriveName o "air_temperature"
    if hasVariable s.1 t then .ok s
    else do
      let v ← getVariable e.input theta
      let c ← done (addVariable s.1 ⟨t, v.shape, e.plain v.payload⟩)
      let c ← done (addAttributes c t ((getAttributes e.input theta).filter fun a =>
        !(a.name == "standard_name") && !(a.name == "long_name")))
      let c ← done (addAttribute c t ⟨"standard_name", e.text "air_temperature"⟩)
      .ok (removeVariable c theta, s.2 ++ [⟨t, cs, .theta theta⟩])

/-- src/CDMPressureConversions.cc:254-289. -/
def theta2T (e : Env P V) (o : Oper) (out : CDM P V Unit) : Res (Out P V) :=
  (findVars e o "air_potential_temperature" "air_potential_temperature").foldlM (thetaStep e o) (out, [])

/-- The attributes that the relative humidity does not take over, src/CDMPressureConversions.cc:380-383. -/
def notKept : List String :=
  ["standard_name", "long_name", "units", "scale_factor", "add_offset", "_FillValue", "valid_min", "valid_max", "valid_range"]

/-- src/CDMPressureConversions.cc:366-395: the variable and the converter for one pair. -/
def addHumidity (e : Env P V) (o : Oper) (s : Out P V) (cs : Sys) (sh temp : String) : Res (Out P V) :=
  let r := deriveName o "relative_humidity"
  if hasVariable s.1 r then .ok s
  else do
    let v ← getVariable s.1 sh
    let c ← done (addVariable s.1 ⟨r, v.shape, e.short⟩)
    let c ← done (addAttributes c r ((getAttributes s.1 sh).filter fun a => !notKept.contains a.name))
    let c ← done (addAttributes c r [⟨"standard_name", e.text "relative_humidity"⟩,
      ⟨"long_name", e.text ("relative humidity derived from " ++ sh ++ " and " ++ temp)⟩, ⟨"units", e.text "1"⟩,
      ⟨"valid_min", e.validMin⟩, ⟨"valid_max", e.validMax⟩, ⟨"scale_factor", e.scale⟩])
    .ok (c, s.2 ++ [⟨r, cs, .humidity sh temp⟩])

/-- src/CDMPressureConversions.cc:354-396: one specific humidity. Line 358 advances the iterator of the outer loop, for
ever; line 360 uses the end of the temperatures in its message. -/
def humidityStep (e : Env P V) (o : Oper) (temps : List String) (s : Out P V) (sh : String) : Res (Out P V) :=
  match systemFor e sh with
  | none => .ok s
  | some cs =>
    match temps with
    | [] => if e.warns then .ub else .ok s
    | t :: _ => if cs.complete t then addHumidity e o s cs sh t else .ub

/-- src/CDMPressureConversions.cc:348-399. -/
def specific2relative (e : Env P V) (o : Oper) (out : CDM P V Unit) : Res (Out P V) :=
  (findVars e o "specific_humidity" "specific_humidity").foldlM
    (humidityStep e o (findVars e o "air_temperature" "air_temperature")) (out, [])

/-- src/CDMPressureConversions.cc:94 `OMEGA_REGEX`. -/
def omegaPattern : String :=
  "(omega|lagrangian_tendency_of_air_pressure|vertical_air_velocity_expressed_as_tendency_of_pressure)"

/-- src/CDMPressureConversions.cc:478-481: the coordinates are looked up for the new name. -/
def copyCoordinates (e : Env P V) (c : CDM P V Unit) (w : String) : Res (CDM P V Unit) :=
  match getAttribute e.input w "coordinates" with
  | .ok a => done (addAttribute c w a)
  | .throws => .ok c
  | .ub => .ub

/-- src/CDMPressureConversions.cc:462-486. -/
def addWind (e : Env P V) (o : Oper) (out : CDM P V Unit) (omega temp : String) : Res (Out P V) :=
  match systemFor e omega with
  | none => .ok (out, [])
  | some cs =>
    let w := deriveName o "upward_air_velocity"
    if !cs.complete temp then .ok (out, [])
    else if hasVariable out w then .ok (out, [])
    else do
      let v ← getVariable e.input omega
      let c ← done (addVariable out ⟨w, v.shape, e.float⟩)
      let c ← done (addAttribute c w ⟨"standard_name", e.text "upward_air_velocity"⟩)
      let c ← done (addAttribute c w ⟨"units", e.text "m/s"⟩)
      let c ← copyCoordinates e c w
      .ok (removeVariable c omega, [⟨w, cs, .omega omega temp⟩])

/-- src/CDMPressureConversions.cc:448-487. -/
def omega2vwind (e : Env P V) (o : Oper) (out : CDM P V Unit) : Res (Out P V) :=
  match findVars e o "omega" omegaPattern, findVars e o "air_temperature" "air_temperature" with
  | [omega], [temp] => addWind e o out omega temp
  | _, _ => .ok (out, [])

/-- `front()` and `[0]`. -/
def front (l : List String) : Res String :=
  match l with
  | [] => .ub
  | d :: _ => .ok d

/-- src/CDMPressureConversions.cc:580-592: whether the converter has other dimensions that are longer than 1. -/
def hasOther (e : Env P V) (ps : List String) : List String → Res Bool
  | [] => .ok false
  | d :: l => do
    if ps.contains d then hasOther e ps l
    else do
      let n ← getDimension e.input d
      let r ← hasOther e ps l
      .ok (decide (1 < n.length) || r)

/-- The system that was taken so far: length of the vertical dimension, shape, system. -/
abbrev Best := Option (ℕ × List String × Sys)

/-- src/CDMPressureConversions.cc:550-551. -/
def notLarger (b : Best) (n : ℕ) : Bool :=
  match b with
  | none => false
  | some p => decide (n ≤ p.1)

/-- src/CDMPressureConversions.cc:553-597: a system with all four axes and a larger vertical dimension. After an
exception line 579 uses a null pointer. -/
def fourTry (e : Env P V) (b : Best) (s : Sys) (n : ℕ) (x y z t : List String) : Res Best :=
  if !s.hasTransformation then .ok b
  else
    match s.converter with
    | .ok none => .ok b
    | .ok (some shape) => do
      let dx ← front x
      let dy ← front y
      let dz ← front z
      let dt ← front t
      let other ← hasOther e [dx, dy, dz, dt] shape
      if other then .ok b else .ok (some (n, [dx, dy, dz, dt], s))
    | .throws => .ub
    | .ub => .ub

/-- src/CDMPressureConversions.cc:540-598: one coordinate system. -/
def fourStep (e : Env P V) (b : Best) (s : Sys) : Res Best :=
  match s.x, s.y, s.z, s.t with
  | some x, some y, some z, some t => do
    let dz ← front z
    let d ← getDimension e.input dz
    if notLarger b d.length then .ok b else fourTry e b s d.length x y z t
  | _, _, _, _ => .ok b

/-- src/CDMPressureConversions.cc:533-606. -/
def add4Dpressure (e : Env P V) (o : Oper) (out : CDM P V Unit) : Res (Out P V) :=
  let p := deriveName o "air_pressure4D"
  if hasVariable out p then .ok (out, [])
  else do
    let b ← e.systems.foldlM (fourStep e) none
    match b with
    | none => .throws
    | some (_, shape, s) => do
      let c ← done (addVariable out ⟨p, shape, e.float⟩)
      let c ← done (addAttribute c p ⟨"units", e.text "hPa"⟩)
      let c ← done (addAttribute c p ⟨"standard_name", e.text "air_pressure"⟩)
      .ok (c, [⟨p, s, .pressure4D shape⟩])

/-- src/CDMPressureConversions.cc:668-680, 685-687 and the `match` of the factories (248, 342, 442, 527): the factory for a
conversion. -/
def runFactory (e : Env P V) (o : Oper) (out : CDM P V Unit) : Res (Out P V) :=
  if o.conversion = "specific2relative" then specific2relative e o out
  else if o.conversion = "theta2T" then theta2T e o out
  else if o.conversion = "omega2vwind" then omega2vwind e o out
  else if o.conversion = "add4Dpressure" then add4Dpressure e o out
  else .throws

/-- src/CDMPressureConversions.cc:638-688: one operation; its converters are put into the map. -/
def operate (e : Env P V) (s : CDM P V Unit × List (String × Conv)) (op : String) :
    Res (CDM P V Unit × List (String × Conv)) := do
  let r ← runFactory e (readOper op) s.1
  .ok (r.1, r.2.foldl (fun m c => insert m c.name c) s.2)

/-- src/CDMPressureConversions.cc:630-689, the constructor: the new dataset and the map of converters. -/
def construct (e : Env P V) (ops : List String) : Res (CDM P V Unit × List (String × Conv)) :=
  ops.foldlM (operate e) (e.input, [])

/-- src/CDMPressureConversions.cc:693-701 `getDataSlice`. -/
def getDataSlice {α : Type} (m : List (String × Conv)) (rd : String → ℕ → Res α) (convert : Conv → ℕ → Res α)
    (v : String) (p : ℕ) : Res α :=
  match find m v with
  | none => rd v p
  | some c => convert c p

end Fimex.Pressure
