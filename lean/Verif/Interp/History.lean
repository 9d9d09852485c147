import Verif.CoordSys.BestModel

/-!
# The interpolator over several changes of the projection

State of `CDMInterpolator` (`src/CDMInterpolator.cc`) over any number of calls: the dataset that is read, the own description of it, the
variables that are interpolated with the key of their grid, and the interpolations and matrices for vectors that are kept for the keys.
Each call either comes to its end or leaves with an exception; the state then is what has been changed so far, and the caller may go on
with other calls.

What the calls compute is not modelled here but given as functions of their arguments (`Env`): the systems of a dataset (C99), the new
datasets (C100, C117), the coordinates that are added to the dataset that is read (C108), interpolations (C116) and matrices (C101).  Only
what a call reads and writes of the state is part of the model.  Functions that change a dataset also say what is left if they fail.
-/

namespace Fimex.History

open Cf (lookup)

/-! ## Calls that may fail after they have changed the state -/

/-- A call: the state afterwards, in any case, and how it ended. -/
def Act (S α : Type) : Type := S → S × Res α

/-- What follows a call; nothing if it has failed. -/
def andThen {S α β : Type} (f : α → Act S β) : S × Res α → S × Res β
  | (s, .ok a) => f a s
  | (s, .throws) => (s, .throws)
  | (s, .ub) => (s, .ub)

/-- One call after another. -/
def Act.bind {S α β : Type} (x : Act S α) (f : α → Act S β) : Act S β := fun s => andThen f (x s)

instance {S : Type} : Monad (Act S) where
  pure a := fun s => (s, .ok a)
  bind := Act.bind

/-- A computation that does not change the state. -/
def lift {S α : Type} (r : Res α) : Act S α := fun s => (s, r)

/-- The state itself. -/
def get {S : Type} : Act S S := fun s => (s, .ok s)

/-- A change of the state. -/
def modify {S : Type} (f : S → S) : Act S Unit := fun s => (f s, .ok ())

/-- A change of the state that says how it ended. -/
def update {S α : Type} (f : S → S × Res α) : Act S α := f

/-- `map[key] = value`; the order of the keys is of no importance here. -/
def put {α : Type} (k : String) (a : α) (m : List (String × α)) : List (String × α) := (k, a) :: m.filter fun p => p.1 != k

/-! ## What is computed -/

/-- A variable as far as the interpolator looks at it: whether its data are in memory, and the other component if it is a vector in the
direction of x or y (`src/CDMInterpolator.cc:204, 231-236`). -/
structure Info where
  name : String
  memory : Bool
  pair : Option String
deriving DecidableEq

/-- The kinds of methods (`src/CDMInterpolator.cc:434-453`). -/
inductive Kind where
  | projection
  | coordinates
  | forward
  | other
deriving DecidableEq

/-- The functions the calls use.  `Rd` are the readers, `D` the descriptions of datasets, `Sys` coordinate systems, `Req` and `Pts` new grids,
given as axes or as points, `Sec` lists of cross sections, `I` interpolations, `M` matrices. -/
structure Env (Rd D Sys Req Pts Sec I M : Type) where
  /-- the dataset of the reader -/
  dataset : Rd → D
  /-- the variables of a dataset -/
  vars : D → List Info
  /-- `removeVariable` -/
  without : D → String → D
  /-- `generateProjectionCoordinates` changes the reader (`src/CDMReaderUtils.cc:201-239`) -/
  coordinates : Rd → Rd × Res Unit
  /-- `findBestHorizontalCoordinateSystems`: the variables that are interpolated, and the systems with their keys and the variables that are
  incompatible, or an exception (also if there is no system) -/
  systems : Bool → Rd → List (String × String) × Res (List (String × Sys) × List String)
  /-- `changeCDM` -/
  change : Req → List (String × Sys) → D × List (String × String) → (D × List (String × String)) × Res Unit
  /-- `changeCDMToLatLonTemplate` -/
  changePoints : Pts → List (String × Sys) → D × List (String × String) → (D × List (String × String)) × Res Unit
  /-- the axes of a system can be read -/
  readable : Rd → Sys → Res Unit
  /-- unit, scale factor and offset of a vector and its other component are asked for (`src/CDMInterpolator.cc:1726-1732`) -/
  comparable : D → Info → Res Unit
  /-- the interpolation to a new grid (C116) -/
  grid : Kind → Req → Rd → Sys → Res I
  /-- the interpolation to points (C116) -/
  gridPoints : Pts → Rd → Sys → Res I
  /-- the matrix for vectors -/
  matrix : Req → Sys → Res M
  /-- the matrix for vectors at points -/
  matrixPoints : Pts → Sys → Res M
  /-- axes without values or without type are refused -/
  refused : Req → Bool
  /-- the numbers of longitudes and latitudes differ -/
  uneven : Pts → Bool
  /-- the points of cross sections; dimensions and variables for their names and bounds are added to the dataset (C104) -/
  sections : Sec → Rd → List (String × Sys) → D → D × Res Pts

section
variable {Rd D Sys Req Pts Sec I M : Type} (E : Env Rd D Sys Req Pts Sec I M)

/-- The state of a `CDMInterpolator`: `p_->dataReader`, `*cdm_`, `p_->projectionVariables`, `p_->cachedInterpolation`,
`p_->cachedVectorReprojection`. -/
structure State (Rd D I M : Type) where
  rd : Rd
  cdm : D
  vars : List (String × String)
  grids : List (String × I)
  vecs : List (String × M)

/-- src/CDMInterpolator.cc:124-134: a new interpolator. -/
def fresh (rd : Rd) : State Rd D I M := ⟨rd, E.dataset rd, [], [], []⟩

/-- src/CDMInterpolator.cc:1710-1745 `hasXYSpatialVectors`. -/
def hasVectors (d : D) (m : List (String × String)) : List Info → Res Bool
  | [] => .ok false
  | i :: l =>
    if i.pair.isSome ∧ (lookup m i.name).isSome then do
      let _ ← E.comparable d i
      let _ ← hasVectors d m l
      .ok true
    else hasVectors d m l

/-- src/CDMInterpolator.cc:696-699: without projection, coordinates are added to the dataset that is read. -/
def ensureCoordinates (withProjection : Bool) : Act (State Rd D I M) Unit :=
  if withProjection then pure () else update fun s => ({ s with rd := (E.coordinates s.rd).1 }, (E.coordinates s.rd).2)

/-- src/CDMInterpolator.cc:694-724 `findBestCoordinateSystemsAndProjectionVars`. -/
def best (withProjection : Bool) : Act (State Rd D I M) (List (String × Sys)) := do
  ensureCoordinates E withProjection
  let r ← update fun s => ({ s with vars := (E.systems withProjection s.rd).1 }, (E.systems withProjection s.rd).2)
  modify fun s => { s with cdm := r.2.foldl E.without s.cdm }
  pure r.1

/-- The matrix of one system is kept if there are vectors (`src/CDMInterpolator.cc:1405-1417, 1670-1679`). -/
def storeMatrix (matrix : Option (Sys → Res M)) (k : String) (s : Sys) : Act (State Rd D I M) Unit :=
  match matrix with
  | none => pure ()
  | some f => do
    let st ← get
    let v ← lift (hasVectors E st.cdm st.vars (E.vars st.cdm))
    if v then do
      let m ← lift (f s)
      modify fun st => { st with vecs := put k m st.vecs }
    else pure ()

/-- The interpolations of all systems are kept, those with a projection together with a matrix (`src/CDMInterpolator.cc:1211-1272, 1294-1350,
1371-1418, 1634-1680`). -/
def store (grid : Rd → Sys → Res I) (matrix : Option (Sys → Res M)) : List (String × Sys) → Act (State Rd D I M) Unit
  | [] => pure ()
  | (k, s) :: l => do
    let st ← get
    let g ← lift (grid st.rd s)
    modify fun st => { st with grids := put k g st.grids }
    storeMatrix E matrix k s
    store grid matrix l

/-- The dataset and the variables that are interpolated are changed. -/
def rewrite (f : D × List (String × String) → (D × List (String × String)) × Res Unit) : Act (State Rd D I M) Unit :=
  update fun s => ({ s with cdm := (f (s.cdm, s.vars)).1.1, vars := (f (s.cdm, s.vars)).1.2 }, (f (s.cdm, s.vars)).2)

/-- src/CDMInterpolator.cc:1357-1419 `changeProjectionByProjectionParameters`. -/
def byProjection (r : Req) : Act (State Rd D I M) Unit := do
  let ss ← best E true
  rewrite (E.change r ss)
  store E (E.grid .projection r) (some (E.matrix r)) ss

/-- src/CDMInterpolator.cc:1193-1276, 1279-1355 `changeProjectionByForwardInterpolation` and `changeProjectionByCoordinates`: vectors only
give a warning. -/
def byCoordinates (k : Kind) (r : Req) : Act (State Rd D I M) Unit := do
  let ss ← best E false
  rewrite (E.change r ss)
  store E (E.grid k r) none ss
  let st ← get
  let _ ← lift (hasVectors E st.cdm st.vars (E.vars st.cdm))
  pure ()

/-- The axes of all systems are read (`src/CDMInterpolator.cc:1595-1610`). -/
def readAll (rd : Rd) : List (String × Sys) → Res Unit
  | [] => .ok ()
  | p :: l => do
    let _ ← E.readable rd p.2
    readAll rd l

/-- src/CDMInterpolator.cc:1580-1681 `changeProjectionByProjectionParametersToLatLonTemplate`.  All systems have a projection (C99). -/
def toPoints (p : Pts) : Act (State Rd D I M) Unit := do
  let ss ← best E true
  let st ← get
  lift (readAll E st.rd ss)
  rewrite (E.changePoints p ss)
  store E (E.gridPoints p) (some (E.matrixPoints p)) ss

/-- src/CDMInterpolator.cc:457-490 `changeProjection` for lists of longitudes and latitudes. -/
def points (k : Kind) (p : Pts) : Act (State Rd D I M) Unit :=
  if E.uneven p then pure ()
  else
    match k with
    | .projection => toPoints E p
    | _ => lift .throws

/-- The calls; a template is given by its points, or by the exception that it raises when it is read. -/
inductive Call (Req Pts Sec : Type) where
  | axes (k : Kind) (r : Req)
  | points (k : Kind) (p : Pts)
  | template (k : Kind) (p : Res Pts)
  | sections (k : Kind) (x : Sec)

/-- src/CDMInterpolator.cc:423-455 `changeProjection` for axes. -/
def axes (k : Kind) (r : Req) : Act (State Rd D I M) Unit :=
  if E.refused r then lift .throws
  else do
    modify fun s => { s with cdm := E.dataset s.rd, vars := [] }
    match k with
    | .projection => byProjection E r
    | .coordinates => byCoordinates E .coordinates r
    | .forward => byCoordinates E .forward r
    | .other => lift .throws

/-- src/CDMInterpolator.cc:623-692 `changeProjection` for a template. -/
def template (k : Kind) (p : Res Pts) : Act (State Rd D I M) Unit := do
  modify fun s => ⟨s.rd, E.dataset s.rd, [], [], []⟩
  match k with
  | .projection => do
    let p ← lift p
    toPoints E p
  | _ => lift .throws

/-- src/CDMInterpolator.cc:492-613 `changeProjectionToCrossSections`. -/
def crossSections (k : Kind) (x : Sec) : Act (State Rd D I M) Unit := do
  let ss ← best E true
  let p ← update fun s => ({ s with cdm := (E.sections x s.rd ss s.cdm).1 }, (E.sections x s.rd ss s.cdm).2)
  points E k p

/-- One call. -/
def run (s : State Rd D I M) : Call Req Pts Sec → State Rd D I M × Res Unit
  | .axes k r => axes E k r s
  | .points k p => points E k p s
  | .template k p => template E k p s
  | .sections k x => crossSections E k x s

/-- Any number of calls, also after some of them have failed. -/
def runAll (s : State Rd D I M) (l : List (Call Req Pts Sec)) : State Rd D I M := l.foldl (fun s c => (run E s c).1) s

/-! ## Reading data -/

/-- Where the values of a variable come from. -/
inductive Source (I M : Type) where
  | memory
  | forwarded
  | interpolated (g : I) (rotated : Option (String × M))
deriving DecidableEq

/-- The matrix of a vector (`src/CDMInterpolator.cc:231-263`). -/
def rotation (s : State Rd D I M) (i : Info) (k : String) : Option (String × M) :=
  match i.pair with
  | none => none
  | some c => if lookup s.vars c = some k then (lookup s.vecs k).map fun m => (c, m) else none

/-- src/CDMInterpolator.cc:201-266 `getDataSlice`: the decisions; the values follow from the reader, the dataset and the source. -/
def source (s : State Rd D I M) (n : String) : Res (Source I M) :=
  match (E.vars s.cdm).find? fun i => i.name == n with
  | none => .throws
  | some i =>
    if i.memory then .ok .memory
    else
      match lookup s.vars n with
      | none => .ok .forwarded
      | some k =>
        match lookup s.grids k with
        | none => .throws
        | some g => .ok (.interpolated g (rotation s i k))

end

end Fimex.History
