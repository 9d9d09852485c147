import Verif.CoordSys.BestModel
import Verif.ReaderUtils.Names

/-!
# The dataset after a change of the grid

Model of `changeCDM` (`src/CDMInterpolator.cc:734-904`), of what is done before (`findBestCoordinateSystemsAndProjectionVars`, 694-724) and of
`CDM::generateProjectionCoordinates` (`src/CDM.cc:660-702`), by which `CDMInterpolator` describes the dataset on the new grid.

The projection library is a parameter.  `createData` is a parameter that does not fail (it does for the type `CDM_NAT`).  A failed `assert` and the
use of a null pointer are undefined behaviour.  Logging is left out.
-/

namespace Fimex.Change

open Cdm CoordSys Cf

/-- include/fimex/CDMVariable.h: type, values in memory with their type, and what else there is (the direction of vectors). -/
structure Pay (T α O : Type) where
  dtype : T
  data : Option (T × List α)
  other : Option O
deriving DecidableEq, Repr

/-- What is taken from elsewhere. -/
structure Ext (V Pr T α : Type) where
  /-- texts and projections as for coordinate systems -/
  lib : Lib V Pr
  /-- the value of `CDMAttribute(name, text)` -/
  value : String → V
  /-- `Projection::createByProj4(text)->getParameters()` -/
  parameters : String → Res (List (Attr V))
  /-- `createData(type, begin, end)` -/
  cast : T → List α → List α
  int : T
  double : T
  /-- `reproject_axes` from a projection to longitude and latitude -/
  lonLat : Pr → List α → List α → Res (List α × List α)

variable {V CS Pr T α O : Type}

/-- The dataset after a call; only what it raises is kept otherwise. -/
def after {β P : Type} : CDM P V CS × Res β → Res (CDM P V CS)
  | (c, .ok _) => .ok c
  | (_, .throws) => .throws
  | (_, .ub) => .ub

/-! ## Name of the projection -/

/-- `std::regex_search` with `\+proj=(\S+)`: the first match. -/
def projWord : List Char → Option (List Char)
  | [] => none
  | ch :: s =>
    if "+proj=".toList.isPrefixOf (ch :: s) then
      let w := ((ch :: s).drop 6).takeWhile fun ch => !isSpace ch
      if w = [] then projWord s else some w
    else projWord s

/-- src/CDMInterpolator.cc:312-325 `getProjectionName`. -/
def projectionName (s : String) : Res String :=
  match projWord s.toList with
  | none => .throws
  | some w =>
    let n := String.ofList w
    .ok (if n = "latlon" ∨ n = "latlong" ∨ n = "lonlat" ∨ n = "longlat" then "latlong" else n)

/-! ## Old grids -/

/-- `map.erase(key)`. -/
def erase {β : Type} (k : String) (m : List (String × β)) : List (String × β) := m.filter fun p => p.1 ≠ k

/-- A variable is removed from the dataset and from the variables to be interpolated. -/
def drop {P : Type} (s : CDM P V CS × List (String × String)) (n : String) : CDM P V CS × List (String × String) :=
  (removeVariable s.1 n, erase n s.2)

/-- src/CDMInterpolator.cc:743-751. -/
def dropMappings {P : Type} (L : Lib V Pr) (s : System Pr) (c : CDM P V CS) (m : List (String × String)) : CDM P V CS × List (String × String) :=
  if s.proj.isSome then (findVariables c [("grid_mapping_name", fun v => dotStar (L.text v))] []).foldl drop (c, m) else (c, m)

/-- src/CDMInterpolator.cc:753-763: the dimensions (or axes) of the grid. -/
def gridAxes {P : Type} (c : CDM P V CS) (s : System Pr) : Res (String × String) :=
  match geoX s, geoY s with
  | some x, some y =>
    if hasAxisType s .lon && (findAxisOfType s.axes .lon).map (·.name) == some x.name then do
      let v ← getVariable c x.name
      match v.shape with
      | [a, b] => .ok (a, b)
      | _ => .ok (x.name, y.name)
    else .ok (x.name, y.name)
  | _, _ => .ub

/-- `std::replace`. -/
def replace (old new : String) (sh : List String) : List String := sh.map fun d => if d = old then new else d

/-- Change of the first variable with a name. -/
def modifyFirst {P : Type} (n : String) (f : Var P → Var P) : List (Var P) → List (Var P)
  | [] => []
  | v :: l => if v.name == n then f v :: l else v :: modifyFirst n f l

/-- `getVariable(name)`, followed by a call that changes the variable. -/
def modifyVar {P : Type} (c : CDM P V CS) (n : String) (f : Var P → Var P) : Res (CDM P V CS) :=
  match getVariable c n with
  | .ok _ => .ok { c with vars := modifyFirst n f c.vars }
  | .throws => .throws
  | .ub => .ub

/-- src/CDMInterpolator.cc:769-776. -/
def reshapeAll {P : Type} (ox nx oy ny : String) : List (String × String) → CDM P V CS → Res (CDM P V CS)
  | [], c => .ok c
  | p :: m, c => do
    let c ← modifyVar c p.1 fun v => { v with shape := replace oy ny (replace ox nx v.shape) }
    reshapeAll ox nx oy ny m c

/-- src/CDMInterpolator.cc:783-792. -/
def dropLonLat {P : Type} (s : System Pr) (c : CDM P V CS) (m : List (String × String)) : CDM P V CS × List (String × String) :=
  if hasAxisType s .lat && hasAxisType s .lon then
    match findAxisOfType s.axes .lat, findAxisOfType s.axes .lon with
    | some a, some b => drop (drop (c, m) a.name) b.name
    | _, _ => (c, m)
  else (c, m)

/-- src/CDMInterpolator.cc:793-796. -/
def dropDims {P : Type} (ox oy nx : String) (c : CDM P V CS) : Res (CDM P V CS) :=
  if ox ≠ nx then do
    let c ← after (removeDimension c ox false)
    after (removeDimension c oy false)
  else .ok c

/-- The state of the loop: dataset, variables to be interpolated, names of the new axes. -/
structure St (P V CS : Type) where
  cdm : CDM P V CS
  mapped : List (String × String)
  x : String
  y : String

/-- src/CDMInterpolator.cc:764-781: the axes of the first grid are used for all. -/
def unify {P : Type} (x y : String) (st : St P V CS) : Res (St P V CS) :=
  if st.x = "" then .ok { st with x := x, y := y }
  else do
    let c ← reshapeAll x st.x y st.y st.mapped st.cdm
    let r := drop (drop (c, st.mapped) x) y
    .ok { st with cdm := r.1, mapped := r.2 }

/-- src/CDMInterpolator.cc:741-798, for one coordinate system. -/
def changeSystem {P : Type} (L : Lib V Pr) (st : St P V CS) (s : System Pr) : Res (St P V CS) := do
  let r := dropMappings L s st.cdm st.mapped
  let xy ← gridAxes r.1 s
  let st ← unify xy.1 xy.2 { st with cdm := r.1, mapped := r.2 }
  let r := dropLonLat s st.cdm st.mapped
  let c ← dropDims xy.1 xy.2 st.x r.1
  .ok { st with cdm := c, mapped := r.2 }

/-- src/CDMInterpolator.cc:741-798, for all coordinate systems. -/
def changeSystems {P : Type} (L : Lib V Pr) : List (System Pr) → St P V CS → Res (St P V CS)
  | [], st => .ok st
  | s :: l, st => do
    let st ← changeSystem L st s
    changeSystems L l st

/-! ## New grid -/

/-- src/CDMReaderUtils.cc:176-183 `findUniqueVarName`, as in C45; the number of steps is enough. -/
def uniqueVarName {P : Type} (c : CDM P V CS) (n : String) : Res String :=
  match Names.findUniqueName (c.vars.map (·.name)) n (c.vars.length + 2) with
  | some m => .ok m
  | none => .ub

/-- src/CDMInterpolator.cc:803-814: the variable with the parameters of the projection. -/
def addProjection (E : Ext V Pr T α) (newProj projString : String) (c : CDM (Pay T α O) V CS) : Res (CDM (Pay T α O) V CS × String) :=
  if newProj ≠ "latlong" then do
    let n ← uniqueVarName c ("projection_" ++ newProj)
    let c ← after (addVariable c ⟨n, [], ⟨E.int, some (E.int, []), none⟩⟩)
    let as ← E.parameters projString
    let c ← after (addAttributes c n as)
    .ok (c, n)
  else .ok (c, "latlong")

/-- Standard names and units of the axes. -/
structure AxisText where
  xName : String
  yName : String
  xUnit : String
  yUnit : String
deriving DecidableEq, Repr

/-- src/CDMInterpolator.cc:825-845. -/
def axisText (newProj newProjection xUnit yUnit : String) : AxisText :=
  if newProj = "latlong" then
    ⟨"longitude", "latitude", if xUnit = "degree" then "degrees_east" else xUnit, if yUnit = "degree" then "degrees_north" else yUnit⟩
  else if newProjection = "projection_rotated_latitude_longitude" then ⟨"grid_longitude", "grid_latitude", xUnit, yUnit⟩
  else ⟨"projection_x_coordinate", "projection_y_coordinate", xUnit, yUnit⟩

/-- src/CDMVariable.cc:71-76 `setDataType`. -/
def setDataType [DecidableEq T] (t : T) (v : Var (Pay T α O)) : Var (Pay T α O) :=
  { v with payload := { v.payload with
      dtype := t
      data := match v.payload.data with | some d => if t ≠ d.1 then none else some d | none => none } }

/-- src/CDMInterpolator.cc:846-853: the variable of an axis. -/
def ensureAxis [DecidableEq T] (n : String) (t : T) (c : CDM (Pay T α O) V CS) : Res (CDM (Pay T α O) V CS) :=
  if !hasVariable c n then after (addVariable c ⟨n, [n], ⟨t, none, none⟩⟩) else modifyVar c n (setDataType t)

/-- src/CDMVariable.cc:78-85 `setData`, of a variable found by its name. -/
def setVarData [DecidableEq T] (n : String) (d : T × List α) (c : CDM (Pay T α O) V CS) : Res (CDM (Pay T α O) V CS) :=
  match getVariable c n with
  | .ok v =>
    if v.payload.dtype ≠ d.1 then .throws
    else .ok { c with vars := modifyFirst n (fun v => { v with payload := { v.payload with data := some d } }) c.vars }
  | .throws => .throws
  | .ub => .ub

/-- Change of the length of the first dimension with a name. -/
def setFirstLength (n : String) (k : Nat) : List Dim → List Dim
  | [] => []
  | d :: l => if d.name == n then { d with length := k } :: l else d :: setFirstLength n k l

/-- `getDimension(name).setLength(k)`. -/
def setLength {P : Type} (n : String) (k : Nat) (c : CDM P V CS) : Res (CDM P V CS) :=
  match getDimension c n with
  | .ok _ => .ok { c with dims := setFirstLength n k c.dims }
  | .throws => .throws
  | .ub => .ub

/-- A new axis: name, values, unit and type. -/
structure NewAxis (T α : Type) where
  values : List α
  unit : String
  dtype : T

/-- src/CDMInterpolator.cc:823-869: attributes, values and lengths of the new axes. -/
def setAxes [DecidableEq T] (E : Ext V Pr T α) (x y : String) (ax ay : NewAxis T α) (t : AxisText) (c : CDM (Pay T α O) V CS) :
    Res (CDM (Pay T α O) V CS) := do
  let c := removeAttribute (removeAttribute c x "long_name") y "long_name"
  let c ← ensureAxis x ax.dtype c
  let c ← ensureAxis y ay.dtype c
  let c ← after (addOrReplaceAttribute c x ⟨"standard_name", E.value t.xName⟩)
  let c ← after (addOrReplaceAttribute c y ⟨"standard_name", E.value t.yName⟩)
  let c ← after (addOrReplaceAttribute c x ⟨"units", E.value t.xUnit⟩)
  let c ← after (addOrReplaceAttribute c y ⟨"units", E.value t.yUnit⟩)
  let c ← setVarData x (ax.dtype, E.cast ax.dtype ax.values) c
  let c ← setVarData y (ay.dtype, E.cast ay.dtype ay.values) c
  let c ← setLength x ax.values.length c
  setLength y ay.values.length c

/-- src/CDM.cc:668-677: the values of an axis, as many as the dimension is long. -/
def axisValues (c : CDM (Pay T α O) V CS) (n : String) : Res (List α) := do
  let v ← getVariable c n
  let d ← getDimension c n
  match v.payload.data with
  | some w => if w.2.length = d.length then .ok w.2 else .ub
  | none => .ub

/-- src/CDM.cc:660-702 `generateProjectionCoordinates`. -/
def generateCoordinates (E : Ext V Pr T α) (p : Pr) (x y lon lat : String) (c : CDM (Pay T α O) V CS) : Res (CDM (Pay T α O) V CS) := do
  let xs ← axisValues c x
  let ys ← axisValues c y
  let v ← E.lonLat p xs ys
  let c ← after (addVariable c ⟨lon, [x, y], ⟨E.double, some (E.double, v.1), none⟩⟩)
  let c ← after (addVariable c ⟨lat, [x, y], ⟨E.double, some (E.double, v.2), none⟩⟩)
  let c ← after (addAttributes c lon [⟨"units", E.value "degree_east"⟩, ⟨"long_name", E.value "longitude"⟩, ⟨"standard_name", E.value "longitude"⟩])
  after (addAttributes c lat [⟨"units", E.value "degree_north"⟩, ⟨"long_name", E.value "latitude"⟩, ⟨"standard_name", E.value "latitude"⟩])

/-- src/CDMInterpolator.cc:871-877: longitude and latitude of the new grid. -/
def addLonLat (E : Ext V Pr T α) (newProj newProjection x y lonName latName : String) (c : CDM (Pay T α O) V CS) :
    Res (CDM (Pay T α O) V CS × String × String) :=
  if newProj ≠ "latlong" then do
    let lon ← uniqueVarName c lonName
    let lat ← uniqueVarName c latName
    let p ← E.lib.createProj (getAttributes c newProjection)
    let c ← generateCoordinates E p x y lon lat c
    .ok (c, lon, lat)
  else .ok (c, lonName, latName)

/-- src/CDMInterpolator.cc:879-890: attributes of the variables that are interpolated. -/
def describe {P : Type} (E : Ext V Pr T α) (newProj newProjection lon lat : String) :
    List (String × String) → CDM P V CS → Res (CDM P V CS)
  | [], c => .ok c
  | p :: m, c =>
    if newProj ≠ "latlong" then do
      let c ← after (addOrReplaceAttribute c p.1 ⟨"coordinates", E.value (lon ++ " " ++ lat)⟩)
      let c ← after (addOrReplaceAttribute c p.1 ⟨"grid_mapping", E.value newProjection⟩)
      describe E newProj newProjection lon lat m c
    else describe E newProj newProjection lon lat m (removeAttribute (removeAttribute c p.1 "coordinates") p.1 "grid_mapping")

/-- `conv.find("CF-") == npos` is false. -/
def saysCF (s : String) : Bool := s.toList.tails.any fun t => "CF-".toList.isPrefixOf t

/-- src/CDMInterpolator.cc:891-903: global attributes. -/
def setGlobals {P : Type} (E : Ext V Pr T α) (c : CDM P V CS) : Res (CDM P V CS) := do
  let v := match getAttribute c globalNS "Conventions" with
    | .ok a => if saysCF (E.lib.text a.value) then a.value else E.value (E.lib.text a.value ++ " CF-1.4")
    | _ => E.value "CF-1.4"
  let c ← after (addOrReplaceAttribute c globalNS ⟨"Conventions", v⟩)
  match getAttribute c globalNS "MAP_PROJ" with
  | .ok _ => .ok (removeAttribute c globalNS "MAP_PROJ")
  | _ => .ok c

/-- What is asked for: the text for the projection library, the axes, and names of longitude and latitude. -/
structure Target (T α : Type) where
  projString : String
  x : NewAxis T α
  y : NewAxis T α
  lonName : String
  latName : String

/-- src/CDMInterpolator.cc:799-904: after the loop. -/
def newGrid [DecidableEq T] (E : Ext V Pr T α) (g : Target T α) (newProj : String) (st : St (Pay T α O) V CS) : Res (CDM (Pay T α O) V CS) :=
  if st.x = "" ∨ st.y = "" then .ub
  else do
    let r ← addProjection E newProj g.projString st.cdm
    let c ← setAxes E st.x st.y g.x g.y (axisText newProj r.2 g.x.unit g.y.unit) r.1
    let q ← addLonLat E newProj r.2 st.x st.y g.lonName g.latName c
    let c ← describe E newProj r.2 q.2.1 q.2.2 st.mapped q.1
    setGlobals E c

/-- src/CDMInterpolator.cc:734-904 `changeCDM`: the new dataset and the variables that are interpolated. -/
def changeCDM [DecidableEq T] (E : Ext V Pr T α) (g : Target T α) (systems : List (String × System Pr)) (m : List (String × String))
    (c : CDM (Pay T α O) V CS) : Res (CDM (Pay T α O) V CS × List (String × String)) := do
  let newProj ← projectionName g.projString
  let st ← changeSystems E.lib (systems.map (·.2)) ⟨c, m, "", ""⟩
  let c ← newGrid E g newProj st
  .ok (c, st.mapped)

/-- src/CDMInterpolator.cc:694-724 `findBestCoordinateSystemsAndProjectionVars`, for the coordinate systems `l` of the dataset `r` that is read;
`c` is the own description of the dataset, a copy of `r` in `changeProjection`. -/
def prepare {P : Type} (withProjection : Bool) (l : List (System Pr)) (r c : CDM P V CS) : Res (Best Pr × CDM P V CS) := do
  let b ← findBest withProjection l r
  if b.systems.isEmpty then .throws else .ok (b, b.incompatible.foldl removeVariable c)

/-- `changeProjection` with an interpolation that needs a projection, as far as the description of the dataset is concerned: the coordinate
systems are found, then the dataset is changed. -/
def change [DecidableEq T] (E : Ext V Pr T α) (g : Target T α) (withProjection : Bool) (l : List (System Pr)) (c : CDM (Pay T α O) V CS) :
    Res (CDM (Pay T α O) V CS × List (String × String)) := do
  let r ← prepare withProjection l c c
  changeCDM E g r.1.systems r.1.mapped r.2

end Fimex.Change
