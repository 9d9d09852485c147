import Verif.Cdm.Model
import Verif.CoordSys.ChangeModel
import Verif.Text.Props

/-!
# The dataset of an aggregation

Model of how `AggregationReader` (`src/AggregationReader.cc`) builds its dataset from those of the readers, and of how `NcmlAggregationReader`
(`src/NcmlAggregationReader.cc`) adds readers to it.  Reading is modelled in `Verif.Aggregation.Model`.

A reader is its dataset.  What a variable holds besides name and shape is its data, if there are any in memory, and the rest.  The sets `joinVars` and
`unionReaders_` are lists; only membership and `lookup` are used.  What a call has done before it raises an error stays done.
-/

namespace Fimex.AggSet

open Cdm

/-- What a variable holds: data in memory, and everything else. -/
structure Body (R D : Type) where
  rest : R
  data : Option D
deriving DecidableEq, Repr

variable {R D V CS : Type}

/-- A dataset. -/
abbrev DS (R D V CS : Type) := CDM (Body R D) V CS

/-- include/fimex/AggregationReader.h `AggType`. -/
inductive Kind where
  | existing
  | new
  | union
deriving DecidableEq, Repr

/-- src/AggregationReader.cc:47-58 `aggTypeFromText`. -/
def kindOf (text : String) : Res Kind :=
  if text = "joinExisting" then .ok .existing
  else if text = "joinNew" then .ok .new
  else if text = "union" then .ok .union
  else .throws

/-- The members of `AggregationReader`: `cdm_`, `readers_`, `joinVars`, `unionReaders_`, `readerUdimPos_`, `joinCoordValues`. -/
structure State (R D V CS : Type) where
  cdm : DS R D V CS
  readers : List (DS R D V CS)
  join : List String
  provider : List (String × ℕ)
  ends : List ℕ
  coords : List String

/-- `tokenize(coordValue)`, written as `words`, to which it is equal by `C26_tokenize_is_words`. -/
def tokens (text : String) : List String := (Text.words (fun c => c = ' ') text.toList).map String.ofList

/-- The last end position, 0 if there is none. -/
def lastEnd (ends : List ℕ) : ℕ := ends.getLast?.getD 0

/-- `cdm_->getDimension(name).setLength(k)` for the first unlimited dimension, if there is one. -/
def setUnlimited (k : ℕ) (c : DS R D V CS) : DS R D V CS :=
  match getUnlimitedDim c with
  | none => c
  | some d => { c with dims := Change.setFirstLength d.name k c.dims }

/-- src/AggregationReader.cc:160-179 `extendJoinedUnLimDimBy`. -/
def extendBy (len : ℕ) (coordValue : String) (s : State R D V CS) : State R D V CS × Res Unit :=
  let e := lastEnd s.ends + len
  let s := { s with ends := s.ends ++ [e], cdm := setUnlimited e s.cdm }
  if coordValue = "" then (s, .ok ())
  else if (tokens coordValue).length ≠ len then (s, .throws)
  else ({ s with coords := s.coords ++ tokens coordValue }, .ok ())

/-- `setData(nullptr)`. -/
def noData (v : Var (Body R D)) : Var (Body R D) := { v with payload := { v.payload with data := none } }

/-- `getShape`, `push_back` and `setShape`. -/
def longer (d : String) (v : Var (Body R D)) : Var (Body R D) := { v with shape := v.shape ++ [d] }

/-- src/AggregationReader.cc:151-157: the variables that are not joined come from the first reader. -/
def firstProviders (r : State R D V CS × Res Unit) : State R D V CS × Res Unit :=
  match r with
  | (s, .ok ()) =>
    ({ s with provider := s.provider ++ (s.cdm.vars.filter fun v => !s.join.contains v.name).map fun v => (v.name, 0) }, .ok ())
  | r => r

/-- src/AggregationReader.cc:130-133: the first unlimited dimension is limited from now on. -/
def limit : List Dim → List Dim
  | [] => []
  | d :: l => if d.unlimited then { d with unlimited := false } :: l else d :: limit l

/-- src/AggregationReader.cc:106-158 `addFirstReader`; `jd` is `joinNewDim`. -/
def addFirst (t : Kind) (jd coordValue : String) (r : DS R D V CS) (s : State R D V CS) : State R D V CS × Res Unit :=
  let s := { s with cdm := r }
  match t with
  | .existing =>
    match getUnlimitedDim r with
    | some u =>
      let s := { s with
        cdm := { r with vars := r.vars.map fun v => if hasUnlimitedDim r v then noData v else v }
        join := s.join ++ (r.vars.filter fun v => hasUnlimitedDim r v).map (·.name) }
      firstProviders (extendBy u.length coordValue s)
    | none => firstProviders (extendBy 0 "" s)
  | .new =>
    let c := { r with dims := limit r.dims }
    match addDimension c ⟨jd, 0, true⟩ with
    | (c, .ok ()) =>
      let c := { c with vars := c.vars.map fun v => if s.join.contains v.name then longer jd v else v }
      firstProviders (extendBy 1 coordValue { s with cdm := c })
    | (c, .throws) => ({ s with cdm := c }, .throws)
    | (c, .ub) => ({ s with cdm := c }, .ub)
  | .union => firstProviders (s, .ok ())

/-- src/AggregationReader.cc:183-194 `copyVar` and `copyAttributes`. -/
def copyVar (r : DS R D V CS) (v : Var (Body R D)) (c : DS R D V CS) : DS R D V CS × Res Unit :=
  match addVariable c v with
  | (c, .ok ()) => addAttributes c v.name (getAttributes r v.name)
  | p => p

/-- The dimension of a name. -/
def findDim (c : DS R D V CS) (n : String) : Option Dim := c.dims.find? fun d => d.name == n

/-- src/AggregationReader.cc:232-243: the loop over the dimensions of a variable to join; `u` is the unlimited dimension. -/
def joinDims (r : DS R D V CS) (u : String) : List String → DS R D V CS → Bool → DS R D V CS × Res Bool
  | [], c, b => (c, .ok b)
  | n :: l, c, b =>
    if n = u then joinDims r u l c b
    else match findDim r n with
      | none => (c, .throws)
      | some d =>
        match findDim c n with
        | none => joinDims r u l (addDimension c d).1 b
        | some e => joinDims r u l c (b && decide (e.length = d.length))

/-- src/AggregationReader.cc:227-253: the loop over the variables of a reader with the same unlimited dimension `u`. -/
def joinExistingVars (r : DS R D V CS) (u : String) : List (Var (Body R D)) → State R D V CS → State R D V CS × Res Unit
  | [], s => (s, .ok ())
  | v :: l, s =>
    if hasVariable s.cdm v.name then joinExistingVars r u l s
    else if hasUnlimitedDim r v then
      match joinDims r u v.shape s.cdm true with
      | (c, .ok true) =>
        match copyVar r v c with
        | (c, .ok ()) =>
          joinExistingVars r u l { s with
            cdm := { c with vars := c.vars.map fun w => if w.name = v.name then noData w else w }
            join := s.join ++ [v.name] }
        | (c, q) => ({ s with cdm := c }, q)
      | (c, .ok false) => joinExistingVars r u l { s with cdm := c }
      | (c, .throws) => ({ s with cdm := c }, .throws)
      | (c, .ub) => ({ s with cdm := c }, .ub)
    else joinExistingVars r u l s

/-- src/AggregationReader.cc:259-269: the loop over the variables of a reader for a new dimension. -/
def joinNewVars (r : DS R D V CS) (jd : String) : List (Var (Body R D)) → State R D V CS → State R D V CS × Res Unit
  | [], s => (s, .ok ())
  | v :: l, s =>
    if !hasVariable s.cdm v.name && s.join.contains v.name then
      match copyVar r (longer jd v) s.cdm with
      | (c, .ok ()) => joinNewVars r jd l { s with cdm := c }
      | (c, q) => ({ s with cdm := c }, q)
    else joinNewVars r jd l s

/-- src/AggregationReader.cc:291-309: the loop over the dimensions of a variable that is not joined. -/
def unionDims (r : DS R D V CS) : List String → DS R D V CS → Bool → DS R D V CS × Res Bool
  | [], c, b => (c, .ok b)
  | n :: l, c, b =>
    match findDim r n with
    | none => (c, .throws)
    | some d =>
      match findDim c n with
      | some e => unionDims r l c (b && decide (e.unlimited = d.unlimited ∧ d.length = e.length))
      | none =>
        if d.unlimited && (getUnlimitedDim c).isSome then unionDims r l c false
        else unionDims r l (addDimension c d).1 b

/-- src/AggregationReader.cc:277-315: the loop over the variables that are not joined; `k` is the number of the reader. -/
def unionVars (r : DS R D V CS) (k : ℕ) : List (Var (Body R D)) → State R D V CS → State R D V CS × Res Unit
  | [], s => (s, .ok ())
  | v :: l, s =>
    if s.join.contains v.name then unionVars r k l s
    else if (s.provider.lookup v.name).isSome then unionVars r k l s
    else
      match unionDims r v.shape s.cdm true with
      | (c, .ok true) =>
        match copyVar r v c with
        | (c, .ok ()) => unionVars r k l { s with cdm := c, provider := s.provider ++ [(v.name, k)] }
        | (c, q) => ({ s with cdm := c, provider := s.provider ++ [(v.name, k)] }, q)
      | (c, .ok false) => unionVars r k l { s with cdm := c }
      | (c, .throws) => ({ s with cdm := c }, .throws)
      | (c, .ub) => ({ s with cdm := c }, .ub)

/-- Continue if there was no error. -/
def andThen (r : State R D V CS × Res Unit) (f : State R D V CS → State R D V CS × Res Unit) : State R D V CS × Res Unit :=
  match r with
  | (s, .ok ()) => f s
  | r => r

/-- src/AggregationReader.cc:206-256: joining along the dimension that exists. -/
def joinExisting (coordValue : String) (r : DS R D V CS) (s : State R D V CS) : State R D V CS × Res Unit :=
  match getUnlimitedDim r with
  | none => extendBy 0 "" s
  | some u =>
    match getUnlimitedDim s.cdm with
    | some a =>
      if u.name ≠ a.name then extendBy 0 "" s
      else andThen (joinExistingVars r u.name r.vars s) (extendBy u.length coordValue)
    | none =>
      match addDimension s.cdm u with
      | (c, .ok ()) => andThen (joinExistingVars r u.name r.vars { s with cdm := c }) (extendBy u.length coordValue)
      | (c, q) => ({ s with cdm := c }, q)

/-- src/AggregationReader.cc:198-316 `addOtherReader`, after the reader has been added. -/
def addOther (t : Kind) (jd coordValue : String) (r : DS R D V CS) (s : State R D V CS) : State R D V CS × Res Unit :=
  andThen
    (match t with
      | .existing => joinExisting coordValue r s
      | .new => andThen (joinNewVars r jd r.vars s) (extendBy 1 coordValue)
      | .union => (s, .ok ()))
    (unionVars r (s.readers.length - 1) r.vars)

/-- src/AggregationReader.cc:91-104 `addReader`. -/
def addReader (t : Kind) (jd : String) (r : DS R D V CS × String) (s : State R D V CS) : State R D V CS × Res Unit :=
  let s := { s with readers := s.readers ++ [r.1] }
  if s.readers.length = 1 then addFirst t jd r.2 r.1 s else addOther t jd r.2 r.1 s

/-- A new aggregation; `joinNewVars(jd, jv)` has been called for a new dimension. -/
def start (c : DS R D V CS) (t : Kind) (jv : List String) : State R D V CS :=
  ⟨c, [], if t = .new then jv else [], [], [], []⟩

/-- Adding readers, each with its coordinate values, until one raises an error. -/
def addReaders (t : Kind) (jd : String) : List (DS R D V CS × String) → State R D V CS → State R D V CS × Res Unit
  | [], s => (s, .ok ())
  | r :: l, s => andThen (addReader t jd r s) (addReaders t jd l)

/-- How data are made of texts: `numbers` is `initDataByArray` for doubles, `texts` the one for strings, `rest` gives the rest of a variable with such
data, and `ofType` makes data of the type of an existing variable. -/
structure Make (R D : Type) where
  numbers : List String → Option D
  texts : List String → D
  rest : Bool → R
  ofType : R → List String → Res D

/-- src/AggregationReader.cc:318-344 `initAggregation`. -/
def init (M : Make R D) (t : Kind) (jd : String) (s : State R D V CS) : State R D V CS × Res Unit :=
  if s.coords = [] then (s, .ok ())
  else
    match t with
    | .new =>
      let b : Body R D :=
        match M.numbers s.coords with
        | some d => ⟨M.rest true, some d⟩
        | none => ⟨M.rest false, some (M.texts s.coords)⟩
      ({ s with cdm := (addVariable s.cdm ⟨jd, [jd], b⟩).1 }, (addVariable s.cdm ⟨jd, [jd], b⟩).2)
    | .existing =>
      match getUnlimitedDim s.cdm with
      | none => (s, .ub)
      | some u =>
        match s.cdm.vars.find? fun v => v.name == u.name with
        | none => (s, .ok ())
        | some w =>
          match M.ofType w.payload.rest s.coords with
          | .ok d =>
            ({ s with cdm := { s.cdm with vars := s.cdm.vars.map fun v =>
                if v.name = u.name then { v with payload := { v.payload with data := some d } } else v } }, .ok ())
          | .throws => (s, .throws)
          | .ub => (s, .ub)
    | .union => (s, .ok ())

/-! ## NcML -/

/-- A `netcdf` element within an aggregation: its reader and its `coordValue`. -/
structure Node (R D V CS : Type) where
  reader : Res (DS R D V CS)
  coordValue : String

/-- src/NcmlAggregationReader.cc:118-126: the coordinate values of the `idx`-th element. -/
def nodeCoord (t : Kind) (idx : ℕ) (coordValue : String) : String :=
  if coordValue = "" ∧ t = .new then "location_" ++ toString idx else coordValue

/-- src/NcmlAggregationReader.cc:113-133: the loop over the elements. -/
def addNodes (t : Kind) (jd : String) : List (Node R D V CS) → ℕ → State R D V CS → State R D V CS × Res Unit
  | [], _, s => (s, .ok ())
  | n :: l, idx, s =>
    match n.reader with
    | .ok r => andThen (addReader t jd (r, nodeCoord t idx n.coordValue) s) (addNodes t jd l (idx + 1))
    | .throws => (s, .throws)
    | .ub => (s, .ub)

/-- src/NcmlAggregationReader.cc:159-169: the loop over the files of the `idx`-th scan; errors of files are only logged.  The value is kept for the
next file. -/
def addFiles (t : Kind) (jd : String) (idx : ℕ) : List (Res (DS R D V CS)) → State R D V CS → State R D V CS × Res Unit
  | [], s => (s, .ok ())
  | f :: l, s =>
    match f with
    | .ok r =>
      match addReader t jd (r, if t = .new then "location_" ++ toString idx else "") s with
      | (s, .ub) => (s, .ub)
      | (s, _) => addFiles t jd idx l s
    | .throws => addFiles t jd idx l s
    | .ub => (s, .ub)

/-- src/NcmlAggregationReader.cc:136-171: the loop over the scans. -/
def addScans (t : Kind) (jd : String) : List (List (Res (DS R D V CS))) → ℕ → State R D V CS → State R D V CS × Res Unit
  | [], _, s => (s, .ok ())
  | fs :: l, idx, s => andThen (addFiles t jd idx fs s) (addScans t jd l (idx + 1))

/-- An `aggregation` element: type, `dimName`, names of `variableAgg`, elements, and for each scan what is read of the files found. -/
structure Aggregation (R D V CS : Type) where
  type : String
  dimName : String
  vars : List String
  nodes : List (Node R D V CS)
  scans : List (List (Res (DS R D V CS)))

/-- src/NcmlAggregationReader.cc:69-177, for a document with the root element: the aggregations in it and the reader of its location, if it has one; `empty` is the
dataset without anything. -/
def ncml (M : Make R D) (empty : DS R D V CS) (aggs : List (Aggregation R D V CS)) (location : Option (Res (DS R D V CS))) :
    Res (DS R D V CS) :=
  match aggs with
  | [] =>
    match location with
    | none => .ok empty
    | some r => r
  | _ :: _ :: _ => .ok empty
  | [a] => do
    let t ← kindOf a.type
    let s := start empty t a.vars
    match andThen (andThen (addNodes t a.dimName a.nodes 0 s) (addScans t a.dimName a.scans 0)) (init M t a.dimName) with
    | (s, .ok ()) => .ok s.cdm
    | (_, .throws) => .throws
    | (_, .ub) => .ub

end Fimex.AggSet
