import Verif.Grib.GridModel

/-!
# Messages of a GRIB file that is written

Model of `GribApiCDMWriter_ImplAbstract::run` (`src/io/grib/GribApiCDMWriter_ImplAbstract.cc`).  One message of the GRIB library is kept
through the whole run: settings change it, and a copy of it goes to the file.

The settings for a projection, a time, a level and a parameter are lists of keys (`Sets`), as in `Verif.Grib.GridModel` and
`Verif.Grib.Levels`; the values of a message are kept beside the keys.  Times are seconds, no time is `none`.

Simplifications.  What the library does to keys that depend on others is left out.  All exceptions raised while a field is made are taken
as `CDMException` (others end the run).  The slice builder (C69) is reduced to the positions of reference time, time and level.
Dimensions that are none of these or horizontal are cut to their first position by the code, and are left out here.
-/

namespace Fimex.GribRun
open Fimex.GribGrid

variable {K : Type}

/-- A message in the file. -/
structure Msg (K : Type) where
  keys : Handle K
  values : List (Option K)
deriving DecidableEq

/-- The message of the library, and the file. -/
structure St (K : Type) where
  h : Handle K
  file : List (Msg K) := []

/-- Where a slice of a variable is: positions of reference time, time and level (if there is a vertical axis). -/
structure Slice where
  ref : ℕ
  time : ℕ
  level : Option ℕ
deriving DecidableEq

/-- A coordinate system with what `run` gets of it. -/
structure System (K : Type) where
  /-- `isSimpleSpatialGridded` -/
  simple : Bool
  /-- the variables it is complete for that are in the configuration, in the order of the dataset -/
  vars : List String
  /-- a time axis -/
  hasTime : Bool
  /-- the reference times of the axis; or the one of the dataset; or none -/
  refs : List (Option ℤ)
  /-- the times for a position of the reference time -/
  times : ℕ → List ℤ
  /-- a vertical axis -/
  hasZ : Bool
  /-- `getLevels` of the first variable -/
  levels : Res (List (Option K))

/-- What is set for fields, and the data of variables. -/
structure Env (K : Type) where
  projection : String → Sets K
  time : Option ℤ → Option ℤ → String → Sets K
  level : String → Option K → ℕ → Sets K
  parameter : String → Option K → Sets K
  data : String → Slice → Res (List (Option K))
  fill : String → Res (Option K)
  missing : String → Sets K
  values : String → Option K → List (Option K) → Res (List (Option K))
  /-- `gribSeconds2stepUnits` -/
  unit : ℤ → String
  omitEmpty : Bool

/-- An action on the message and the file. -/
abbrev Act (K : Type) := St K → St K × Res Unit

/-- Settings, then the rest; an exception is caught. -/
def attempt (s : Sets K) (k : Act K) : Act K := fun st =>
  match s.out with
  | .ok _ => k { st with h := apply st.h s }
  | .throws => ({ st with h := apply st.h s }, .ok ())
  | .ub => ({ st with h := apply st.h s }, .ub)

/-- A value, then the rest; an exception is caught. -/
def attemptRes {α : Type} (r : Res α) (k : α → Act K) : Act K := fun st =>
  match r with
  | .ok a => k a st
  | .throws => (st, .ok ())
  | .ub => (st, .ub)

/-- Settings, then the rest; an exception ends the run. -/
def must (s : Sets K) (k : Act K) : Act K := fun st =>
  match s.out with
  | .ok _ => k { st with h := apply st.h s }
  | .throws => ({ st with h := apply st.h s }, .throws)
  | .ub => ({ st with h := apply st.h s }, .ub)

/-- One action after the other, until one does not end well. -/
def seq : List (Act K) → Act K
  | [], st => (st, .ok ())
  | a :: as, st =>
    match a st with
    | (st, .ok _) => seq as st
    | r => r

section
variable [DecidableEq K]

/-- src/io/grib/GribApiCDMWriter_ImplAbstract.cc:309-312: `count` of the fill value; NaN is equal to nothing. -/
def allFill (fill : Option K) (d : List (Option K)) : Bool :=
  match fill with
  | none => false
  | some f => d.all fun x => decide (x = some f)

/-- src/io/grib/GribApiCDMWriter_ImplAbstract.cc:301-324: the field of a variable at a level. -/
def field (E : Env K) (v : String) (lv : Option K) (pos : ℕ) (sl : Slice) : Act K :=
  attempt (E.level v lv pos) <| attempt (E.parameter v lv) <| attemptRes (E.data v sl) fun d =>
    if d = [] then fun st => (st, .ok ())
    else attemptRes (E.fill v) fun f =>
      if E.omitEmpty ∧ allFill f d then fun st => (st, .ok ())
      else attempt (E.missing v) <| attemptRes (E.values v lv d) fun vals => fun st => ({ st with file := st.file ++ [⟨st.h, vals⟩] }, .ok ())

/-- src/io/grib/GribApiCDMWriter_ImplAbstract.cc:296-325: the levels. -/
def overLevels (E : Env K) (S : System K) (levels : List (Option K)) (v : String) (ref time : ℕ) : Act K :=
  seq (levels.zipIdx.map fun lp => field E v lp.1 lp.2 ⟨ref, time, if S.hasZ then some lp.2 else none⟩)

/-- src/io/grib/GribApiCDMWriter_ImplAbstract.cc:294-326: the variables; `setTime` is not guarded. -/
def overVars (E : Env K) (S : System K) (levels : List (Option K)) (r t : Option ℤ) (unit : String) (ref time : ℕ) : Act K :=
  seq (S.vars.map fun v => must (E.time r t unit) (overLevels E S levels v ref time))

/-- src/io/grib/GribApiCDMWriter_ImplAbstract.cc:289-327: the times; the position is set if there is more than one. -/
def overTimes (E : Env K) (S : System K) (levels : List (Option K)) (r : Option ℤ) (unit : String) (ts : List (Option ℤ)) (ref at0 : ℕ) : Act K :=
  seq (ts.zipIdx.map fun tp => overVars E S levels r tp.1 unit ref (if 1 < ts.length then tp.2 else at0))

/-- The position of the time after that loop. -/
def lastTime (ts : List (Option ℤ)) (at0 : ℕ) : ℕ := if 1 < ts.length then ts.length - 1 else at0

/-- src/io/grib/GribApiCDMWriter_ImplAbstract.cc:240-242 and 285-287: the unit of steps by the first two times. -/
def stepUnit (E : Env K) (ts : List ℤ) (before : String) : String :=
  match ts with
  | a :: b :: _ => E.unit (b - a)
  | _ => before

/-- src/io/grib/GribApiCDMWriter_ImplAbstract.cc:272-328: the reference times; `rtPos` stays 0. If there are several, the times are read
again, with the slice builder at its one position `at0`. -/
def overRefs (E : Env K) (S : System K) (levels : List (Option K)) (ts : List (Option ℤ)) : List (Option ℤ) → String → ℕ → Act K
  | [], _, _, st => (st, .ok ())
  | r :: rs, unit, at0, st =>
    let again : Res (List (Option ℤ) × String) :=
      if 1 < S.refs.length then
        match (S.times 0)[at0]? with
        | some t => .ok ([some t], stepUnit E [t] unit)
        | none => .throws
      else .ok (ts, unit)
    match again with
    | .ok (ts', unit') =>
      match overTimes E S levels r unit' ts' 0 at0 st with
      | (st', .ok _) => overRefs E S levels ts rs unit' (lastTime ts' at0) st'
      | r' => r'
    | .throws => (st, .throws)
    | .ub => (st, .ub)

/-- src/io/grib/GribApiCDMWriter_ImplAbstract.cc:206-257: times and unit before the loops. With a time axis the builder is put at the
first time, which must exist. -/
def initialTimes (E : Env K) (S : System K) : Res (List (Option ℤ) × String) :=
  if S.hasTime then
    if S.refs = [] then .throws
    else if S.times 0 = [] then .throws
    else .ok ((S.times 0).map some, stepUnit E (S.times 0) "s")
  else .ok (S.refs.take 1, "s")

/-- src/io/grib/GribApiCDMWriter_ImplAbstract.cc:172-332: one coordinate system. -/
def system (E : Env K) (S : System K) : Act K := fun st =>
  if S.simple then
    match S.vars with
    | [] => (st, .ok ())
    | v :: _ => attempt (E.projection v) (fun st =>
      match initialTimes E S, S.levels with
      | .ok (ts, unit), .ok levels => overRefs E S levels ts S.refs unit 0 st
      | .ub, _ => (st, .ub)
      | .ok _, .ub => (st, .ub)
      | _, _ => (st, .throws)) st
  else (st, .ok ())

/-- src/io/grib/GribApiCDMWriter_ImplAbstract.cc:151-339 `run`; `globals` are the attributes set first. -/
def run (E : Env K) (globals : Sets K) (systems : List (System K)) : Act K := must globals (seq (systems.map (system E)))

end
end Fimex.GribRun
