import Verif.CoordSys.VecModel
import Verif.Interp.Vector

/-!
# Rotated vectors of the processor

Model of the calls of `CDMProcessor` that turn vectors and directions to latitude and longitude or back
(`src/CDMProcessor.cc:113-157`, `406-512`) and of what `getDataSlice` gives for the variables they name (`src/CDMProcessor.cc:644-709`).

The dataset is that of C98.  What the systems of the dataset are (`findBestHorizontalCoordinateSystems`, C99), the axes, the matrices of
`src/reproject.cc` (C78), the data of the reader and the conversions of data to numbers and back (C59) are parameters.  A call that throws
leaves what it has done before, so calls give the state beside the result.
-/

namespace Fimex.Rotate

open Cdm Vectors Interp
open Cf (Lib)
open Fill (forN writeAt)

variable {V CS K D Pr : Type}

/-! ## Parameters and state -/

/-- What the processor reads. -/
structure World (V K D : Type) where
  /-- the keys of `coordSysMap` after `findBestHorizontalCoordinateSystems(true, …)` -/
  systems : List String
  /-- `projectionVariables` after the same call -/
  system : String → Option String
  /-- `getProjection()->isDegree()` of a system -/
  isDegree : String → Bool
  /-- name of `getGeoXAxis()` -/
  xAxis : String → String
  /-- name of `getGeoYAxis()` -/
  yAxis : String → String
  /-- `getScaledDataInUnit(name, unit)` of the reader -/
  axis : String → String → Res (List K)
  /-- `get_vector_reproject_matrix_field` from the projection of a system to latitude and longitude -/
  fieldMatrix : String → List K → List K → Nat → Nat → Res (List (Rotation K))
  /-- `get_vector_reproject_matrix` from latitude and longitude to the projection of a system -/
  axisMatrix : String → List K → List K → Nat → Nat → Res (List (Rotation K))
  /-- `getDataSlice` of the reader -/
  raw : String → Nat → Res (List D)
  /-- the slice after the added variables, accumulation and deaccumulation (src/CDMProcessor.cc:558-642) -/
  pre : String → Nat → Res (List D)
  /-- `data2InterpolationArray` with the fill value of the variable, for one value -/
  num : String → D → Option K
  /-- `interpolationArray2Data` with type and fill value of the variable, for one number -/
  cell : String → Option K → D
  /-- `scale_factor` of a variable -/
  scale : String → K
  /-- `add_offset` of a variable -/
  offset : String → K
  /-- `CDMAttribute(name, text)` -/
  value : String → V

/-- `CachedVectorReprojection`: the matrix with its sizes. -/
structure Cached (K : Type) where
  matrix : List (Rotation K)
  sizeX : Nat
  sizeY : Nat

/-- src/CDMProcessor.cc:90-112: the members used by rotations, with the dataset of the processor. -/
structure State (V CS K : Type) where
  cdm : CDM Vec V CS
  vecX : String → Option (String × String) := fun _ => none
  vecY : String → Option (String × String) := fun _ => none
  dir : String → Option String := fun _ => none
  cache : String → Option (Cached K) := fun _ => none

/-- `map[key] = value`. -/
def upd {β : Type} (f : String → Option β) (k : String) (b : β) : String → Option β := fun n => if n = k then some b else f n

/-- Statements one after the other; nothing is undone by an exception. -/
def andThen {S : Type} (p : S × Res Unit) (f : S → S × Res Unit) : S × Res Unit :=
  match p with
  | (s, .ok ()) => f s
  | (s, .throws) => (s, .throws)
  | (s, .ub) => (s, .ub)

/-! ## Matrices -/

/-- src/CDMProcessor.cc:139-144: the fields of the coordinates of all grid points. -/
def fields (xs ys : List K) (zero : K) : Res (List K × List K) :=
  forN (fun i p => forN (fun j (p : List K × List K) => do
      let x ← readAt xs i
      let y ← readAt ys j
      let a ← writeAt p.1 (xs.length * j + i) x
      let b ← writeAt p.2 (xs.length * j + i) y
      .ok (a, b)) 0 ys.length p) 0 xs.length
    (List.replicate (xs.length * ys.length) zero, List.replicate (xs.length * ys.length) zero)

/-- src/CDMProcessor.cc:113-157 `makeCachedVectorReprojection`.  New arrays are filled with zeros here; they are overwritten before use. -/
def makeCached [Zero K] (W : World V K D) (id : String) (toLatLon : Bool) : Res (Cached K) := do
  let unit := if W.isDegree id then "radian" else "m"
  let xs ← W.axis (W.xAxis id) unit
  let ys ← W.axis (W.yAxis id) unit
  if toLatLon then do
    let f ← fields xs ys 0
    let m ← W.fieldMatrix id f.1 f.2 xs.length ys.length
    .ok ⟨m, xs.length, ys.length⟩
  else do
    let m ← W.axisMatrix id xs ys xs.length ys.length
    .ok ⟨m, xs.length, ys.length⟩

/-- src/CDMProcessor.cc:478-482 and 506-510: the matrix of a system is made once. -/
def ensure [Zero K] (W : World V K D) (toLatLon : Bool) (id : String) (s : State V CS K) : State V CS K × Res Unit :=
  match s.cache id with
  | some _ => (s, .ok ())
  | none =>
    match makeCached W id toLatLon with
    | .ok m => ({ s with cache := upd s.cache id m }, .ok ())
    | .throws => (s, .throws)
    | .ub => (s, .ub)

/-! ## Configuration -/

/-- src/CDMProcessor.cc:459-464: the new standard name, if there is one. -/
def setName (W : World V K D) (n : String) (name : Option String) (s : State V CS K) : State V CS K × Res Unit :=
  match name with
  | none => (s, .ok ())
  | some t =>
    let r := addOrReplaceAttribute s.cdm n ⟨"standard_name", W.value t⟩
    ({ s with cdm := r.1 }, r.2)

/-- `cdm_->getVariable(name).setAsSpatialVector(counterpart, direction)`. -/
def setDirection (n p : String) (d : Dir) (s : State V CS K) : State V CS K × Res Unit :=
  if hasVariable s.cdm n then ({ s with cdm := setVec s.cdm n p d }, .ok ()) else (s, .throws)

/-- src/CDMProcessor.cc:466-472: directions of the two components. -/
def directions (toLatLon : Bool) : Dir × Dir := if toLatLon then (.lon, .lat) else (.x, .y)

/-- src/CDMProcessor.cc:453-485: one pair of components. -/
def rotatePair [Zero K] (W : World V K D) (toLatLon : Bool) (x y : String) (sx sy : Option String) (s : State V CS K) :
    State V CS K × Res Unit :=
  match W.system x, W.system y with
  | some p, some q =>
    andThen (setName W x sx s) fun s =>
    andThen (setName W y sy s) fun s =>
    andThen (setDirection x y (directions toLatLon).1 s) fun s =>
    andThen (setDirection y x (directions toLatLon).2 s) fun s =>
    if p ≠ q then (s, .throws)
    else
      andThen (ensure W toLatLon p s) fun s =>
      ({ s with vecX := upd s.vecX x (y, p), vecY := upd s.vecY y (x, p) }, .ok ())
  | _, _ => (s, .throws)

/-- src/CDMProcessor.cc:452-485: the loop. -/
def rotatePairs [Zero K] (W : World V K D) (toLatLon : Bool) :
    List String → List String → List String → List String → State V CS K → State V CS K × Res Unit
  | x :: xs, y :: ys, sx, sy, s =>
    andThen (rotatePair W toLatLon x y sx.head? sy.head? s) fun s => rotatePairs W toLatLon xs ys sx.tail sy.tail s
  | _, _, _, _, s => (s, .ok ())

/-- src/CDMProcessor.cc:434-486 `rotateVectorToLatLon`. -/
def rotateVectors [Zero K] (W : World V K D) (toLatLon : Bool) (xs ys sx sy : List String) (s : State V CS K) : State V CS K × Res Unit :=
  if xs.length ≠ ys.length then (s, .throws)
  else if xs = [] then (s, .ok ())
  else if W.systems = [] then (s, .throws)
  else rotatePairs W toLatLon xs ys sx sy s

/-- src/CDMProcessor.cc:501-511: the loop over the directions. -/
def rotateEach [Zero K] (W : World V K D) (toLatLon : Bool) : List String → State V CS K → State V CS K × Res Unit
  | v :: vs, s =>
    match W.system v with
    | none => (s, .throws)
    | some id => andThen (ensure W toLatLon id { s with dir := upd s.dir v id }) fun s => rotateEach W toLatLon vs s
  | [], s => (s, .ok ())

/-- src/CDMProcessor.cc:488-512 `rotateDirectionToLatLon`. -/
def rotateDirections [Zero K] (W : World V K D) (toLatLon : Bool) (vs : List String) (s : State V CS K) : State V CS K × Res Unit :=
  if vs = [] then (s, .ok ()) else if W.systems = [] then (s, .throws) else rotateEach W toLatLon vs s

/-- src/CDMProcessor.cc:419-423 and 425-429: the new standard name of a component. -/
def newName (L : Lib V Pr) (c : CDM Vec V CS) (toLatLon : Bool) (n : String) : String :=
  (if toLatLon then "LATLON_ROTATED_" else "GRID_ROTATED_") ++
    match getAttribute c n "standard_name" with
    | .ok a => L.text a.value
    | _ => n

/-- src/CDMProcessor.cc:415-417: the vectors that are turned. -/
def candidates (c : CDM Vec V CS) (toLatLon : Bool) : List (Var Vec) :=
  c.vars.filter fun v => isVector v && v.payload.direction == (if toLatLon then .x else .lon)

/-- src/CDMProcessor.cc:406-432 `rotateAllVectorsToLatLon`. -/
def rotateAll [Zero K] (L : Lib V Pr) (W : World V K D) (toLatLon : Bool) (s : State V CS K) : State V CS K × Res Unit :=
  let c := enhance L s.cdm
  let vs := candidates c toLatLon
  rotateVectors W toLatLon (vs.map (·.name)) (vs.map (·.payload.counterpart)) (vs.map fun v => newName L c toLatLon v.name)
    (vs.map fun v => newName L c toLatLon v.payload.counterpart) { s with cdm := c }

/-- The calls of the configuration. -/
inductive Call where
  | vectors (toLatLon : Bool) (xs ys sx sy : List String)
  | directions (toLatLon : Bool) (vs : List String)
  | all (toLatLon : Bool)

/-- One call. -/
def call [Zero K] (L : Lib V Pr) (W : World V K D) (s : State V CS K) : Call → State V CS K × Res Unit
  | .vectors b xs ys sx sy => rotateVectors W b xs ys sx sy s
  | .directions b vs => rotateDirections W b vs s
  | .all b => rotateAll L W b s

/-- Calls one after the other; exceptions are caught by the caller. -/
def calls [Zero K] (L : Lib V Pr) (W : World V K D) (s : State V CS K) (cs : List Call) : State V CS K :=
  cs.foldl (fun s c => (call L W s c).1) s

/-! ## Reading -/

section Reading

variable [Field K] [LinearOrder K]

/-- `cvr->…` for a pointer of the map, which may be null. -/
def deref (p : Option (Cached K)) : Res (Cached K) :=
  match p with
  | some m => .ok m
  | none => .ub

/-- src/CDMProcessor.cc:644-687: the components of vectors. -/
def readVector (W : World V K D) (s : State V CS K) (v : String) (pos : Nat) (data : List D) : Res (List D) :=
  match s.vecX v with
  | some (y, id) => do
    let yd ← W.raw y pos
    if data.length ≠ yd.length then .throws
    else do
      let m ← deref (s.cache id)
      let r ← reprojectValues m.matrix m.sizeX m.sizeY (data.map (W.num v)) (yd.map (W.num y)) data.length
      .ok (r.1.map (W.cell v))
  | none =>
    match s.vecY v with
    | some (x, id) => do
      let xd ← W.raw x pos
      if xd.length ≠ data.length then .throws
      else do
        let m ← deref (s.cache id)
        let r ← reprojectValues m.matrix m.sizeX m.sizeY (xd.map (W.num x)) (data.map (W.num v)) xd.length
        .ok (r.2.map (W.cell v))
    | none => .ok data

/-- src/CDMProcessor.cc:514-524 `ScaleOffset`. -/
def scaled (W : World V K D) (v : String) (o : Option K) : Option K := o.map fun a => W.scale v * a + W.offset v

/-- src/CDMProcessor.cc:526-536 `UnScaleOffset`. -/
def unscaled (W : World V K D) (v : String) (o : Option K) : Option K := o.map fun a => 1 / W.scale v * (a - W.offset v)

/-- src/CDMProcessor.cc:689-706: directions. -/
def readDirection (W : World V K D) (s : State V CS K) (v : String) (data : List D) : Res (List D) :=
  match s.dir v with
  | some id => do
    let m ← deref (s.cache id)
    let a ← reprojectDirections m.matrix m.sizeX m.sizeY ((data.map (W.num v)).map (scaled W v)) data.length
    .ok ((a.map (unscaled W v)).map (W.cell v))
  | none => .ok data

/-- src/CDMProcessor.cc:558-709 `getDataSlice`. -/
def read (W : World V K D) (s : State V CS K) (v : String) (pos : Nat) : Res (List D) := do
  let d ← W.pre v pos
  let d ← readVector W s v pos d
  readDirection W s v d

end Reading

end Fimex.Rotate
