import Verif.CoordSys.ChangeModel
import Verif.Tables.DataType
import Mathlib.Algebra.Field.Defs

/-!
# Coordinate systems of WRF datasets

Model of `WRFCoordSysBuilder` (`src/coordSys/WRFCoordSysBuilder.cc:63-481`), for a reader (without one nothing is listed, `466-476`).

Listing changes the dataset, also if it raises, so a step gives the new dataset together with its outcome.  Numbers are those of a field, or undefined;
rounding to `float` is left out.  Texts of numbers, projections and the number values of attributes are parameters.  Logging is left out.  The branch
that reads `Times` is for a null reader (`334`, `355-381`); the reader is asserted not to be null (`107`), so that it is never taken.
-/

namespace Fimex.Wrf

open Cdm CoordSys Cf Change Tables

/-- A call that changes a state and returns, raises or is undefined. -/
def Eff (S β : Type) := S → S × Res β

/-- One call after the other; what is done before an exception stays done. -/
def Eff.bind {S β γ : Type} (m : Eff S β) (f : β → Eff S γ) : Eff S γ := fun s =>
  match m s with
  | (s', .ok b) => f b s'
  | (s', .throws) => (s', .throws)
  | (s', .ub) => (s', .ub)

instance {S : Type} : Monad (Eff S) where
  pure b := fun s => (s, .ok b)
  bind := Eff.bind

/-- A query. -/
def Eff.read {S β : Type} (f : S → Res β) : Eff S β := fun s => (s, f s)

variable {V CS Pr K O : Type}

/-- What the builder takes from elsewhere. -/
structure Ext (V Pr K : Type) where
  /-- `CDMAttribute::getStringValue` -/
  text : V → String
  /-- `getData()->asDouble()[0]`, undefined behaviour for empty data -/
  num : V → Res (Option K)
  /-- `getData()->asInt()[0]` -/
  int : V → Res Int
  /-- a number written to a stream -/
  str : Option K → String
  /-- `(1 + fabs(sin(deg_to_rad(lat)))) / 2.` -/
  scale : Option K → Option K
  /-- `deg_to_rad` and `rad_to_deg`, include/fimex/MathUtils.h:157-162 and 193-198 -/
  toRad : Option K → Option K
  toDeg : Option K → Option K
  /-- `Projection::createByProj4` -/
  create : String → Res Pr
  /-- `reproject_values` from longitude and latitude (in radians) to a projection, for one point -/
  reproject : String → Option K × Option K → Res (Option K × Option K)
  /-- `CDMAttribute(name, text)` -/
  value : String → V

/-- A dataset. -/
abbrev Ds (V CS K O : Type) := CDM (Pay DataType (Option K) O) V CS

/-- src/coordSys/WRFCoordSysBuilder.cc:94-102 `findAttributeDouble`. -/
def attrNum (E : Ext V Pr K) (n : String) : Eff (Ds V CS K O) (Option K) := Eff.read fun c =>
  match getAttribute c globalNS n with
  | .ok a => E.num a.value
  | _ => .ok none

/-- `cdm.getAttribute(cdm.globalAttributeNS(), n)`, which raises, with its value. -/
def globalAttr {β : Type} (f : V → Res β) (n : String) : Eff (Ds V CS K O) β := Eff.read fun c => do
  let a ← getAttribute c globalNS n
  f a.value

/-- Arithmetic with undefined values. -/
def minus [Field K] (a b : Option K) : Option K := do some ((← a) - (← b))

/-- src/coordSys/WRFCoordSysBuilder.cc:120-159: the text of the projection and whether it is one of longitude and latitude; nothing for an unknown one. -/
def projText [Field K] (E : Ext V Pr K) : Eff (Ds V CS K O) (Option (String × Bool)) := do
  let lat1 ← attrNum E "TRUELAT1"
  let lat2 ← attrNum E "TRUELAT2"
  let cenLat ← attrNum E "CEN_LAT"
  let cenLon ← attrNum E "CEN_LON"
  let lon ← attrNum E "STAND_LON"
  let lat ← attrNum E "MOAD_CEN_LAT"
  let poleLat ← attrNum E "POLE_LAT"
  let poleLon ← attrNum E "POLE_LON"
  let id ← globalAttr E.int "MAP_PROJ"
  let tail := " +R=6370000 +no_defs"
  if id = 1 then pure (some ("+proj=lcc +lon_0=" ++ E.str lon ++ " +lat_0=" ++ E.str lat ++ " +lat_1=" ++ E.str lat1 ++ " +lat_2=" ++ E.str lat2 ++ tail, false))
  else if id = 2 then
    let lon0 := if lon.isNone then cenLon else lon
    let lat0 := if cenLat.isNone then lat2 else cenLat
    pure (some ("+proj=stere +lon_0=" ++ E.str lon0 ++ " +lat_0=" ++ E.str lat0 ++ " +k=" ++ E.str (E.scale lat1) ++ tail, false))
  else if id = 3 then pure (some ("+proj=merc +lon_0=" ++ E.str lon ++ " +lat_0=" ++ E.str lat ++ tail, false))
  else if id = 6 then
    pure (some ("+proj=ob_tran +o_proj=longlat +lon_0=" ++ E.str (lon.map fun x => -1 * x) ++ " +o_lon_p=" ++ E.str (minus (some 180) poleLon) ++ " +o_lat_p=" ++
      E.str poleLat ++ tail, true))
  else pure none

/-- src/coordSys/WRFCoordSysBuilder.cc:160-167: the projection and the centre of the grid in it. -/
def centre (E : Ext V Pr K) (t : String) (latLon : Bool) : Eff (Ds V CS K O) (Pr × Option K × Option K) := do
  let p ← Eff.read fun _ => E.create t
  let lon ← attrNum E "CEN_LON"
  let lat ← attrNum E "CEN_LAT"
  let xy ← Eff.read fun _ => E.reproject t (E.toRad lon, E.toRad lat)
  pure (p, if latLon then (E.toDeg xy.1, E.toDeg xy.2) else xy)

/-- A call that adds a variable. -/
def newVariable (v : Var (Pay DataType (Option K) O)) : Eff (Ds V CS K O) Unit := fun c => addVariable c v

/-- Calls that add attributes to a variable. -/
def newAttributes (E : Ext V Pr K) (n : String) (l : List (String × String)) : Eff (Ds V CS K O) Unit := fun c =>
  addAttributes c n (l.map fun a => ⟨a.1, E.value a.2⟩)

/-- `if (!cdm.hasVariable(n))`. -/
def unlessVariable (n : String) (m : Eff (Ds V CS K O) Unit) : Eff (Ds V CS K O) Unit := fun c => if !hasVariable c n then m c else (c, .ok ())

/-- `if (cdm.hasDimension(n))`. -/
def ifDimension {β : Type} (n : String) (m : Eff (Ds V CS K O) β) : Eff (Ds V CS K O) (Option β) := fun c =>
  if hasDimension c n then (m >>= fun b => pure (some b)) c else (c, .ok none)

/-- `cdm.getVariable(n).setData(d)`. -/
def giveData (n : String) (d : DataType × List (Option K)) : Eff (Ds V CS K O) Unit := fun c =>
  match setVarData n d c with
  | .ok c => (c, .ok ())
  | .throws => (c, .throws)
  | .ub => (c, .ub)

/-- `CoordinateAxis(cdm.getVariable(n))` with `setAxisType` and `setExplicit`. -/
def mkAxis (n : String) (t : AxisType) : Eff (Ds V CS K O) Axis := Eff.read fun c => do
  let v ← getVariable c n
  .ok { name := v.name, type := t, isExplicit := true, shape := v.shape }

/-- src/coordSys/WRFCoordSysBuilder.cc:182-187: values around the centre. -/
def spread [Field K] (centre d : Option K) (n : Nat) : List (Option K) :=
  (List.range n).map fun (i : Nat) => do some ((← centre) - (← d) * ((n : K) - 1) / 2 + i * (← d))

/-- A new variable for an axis, with its attributes and values. -/
def newAxisVariable (E : Ext V Pr K) (n : String) (attrs : List (String × String)) (vals : List (Option K)) : Eff (Ds V CS K O) Unit := do
  newVariable ⟨n, [n], ⟨.float, none, none⟩⟩
  newAttributes E n attrs
  giveData n (.float, vals)

/-- src/coordSys/WRFCoordSysBuilder.cc:174-201 (and 202-229, 230-259, 260-289): a horizontal axis, if the dimension exists. -/
def horizontal [Field K] (E : Ext V Pr K) (latLon : Bool) (centre : Option K) (n delta metres degrees : String) (t : AxisType) :
    Eff (Ds V CS K O) (Option Axis) :=
  ifDimension n do
    unlessVariable n do
      let d ← globalAttr E.num delta
      let dim ← Eff.read fun c => getDimension c n
      newAxisVariable E n (if latLon then [("units", "degree"), ("standard_name", degrees)] else [("units", "m"), ("standard_name", metres)])
        (spread centre (if latLon then (E.toDeg d).map fun x => x / 6370000 else d) dim.length)
    mkAxis n t

/-- src/coordSys/WRFCoordSysBuilder.cc:290-306 (and 307-323): a vertical axis, if the dimension exists. -/
def vertical [Field K] (E : Ext V Pr K) (n : String) : Eff (Ds V CS K O) (Option Axis) :=
  ifDimension n do
    unlessVariable n do
      let dim ← Eff.read fun c => getDimension c n
      newAxisVariable E n [("units", "1")] ((List.range dim.length).map fun (i : Nat) => some (i : K))
    mkAxis n .geoZ

/-- src/coordSys/WRFCoordSysBuilder.cc:336-340 (and 390-394): the unit of a date `day_time`; too few words raise (`vector::at`). -/
def sinceDate (E : Ext V Pr K) (n : String) : Eff (Ds V CS K O) String := do
  let s ← globalAttr (fun v => .ok (E.text v)) n
  Eff.read fun _ =>
    match Text.tokenize (s.length + 1) s.toList ['_'] with
    | some (.ok (a :: b :: _)) => .ok ("hours since " ++ String.ofList a ++ " " ++ String.ofList b ++ " +0000")
    | _ => .throws

/-- src/coordSys/WRFCoordSysBuilder.cc:328-384: time variable with equal steps. -/
def addTime [Field K] (E : Ext V Pr K) : Eff (Ds V CS K O) Unit := do
  let dim ← Eff.read fun c => getDimension c "Time"
  let units ← sinceDate E "START_DATE"
  let step ← Eff.read fun (c : Ds V CS K O) =>
    match getAttribute c globalNS "TIME_STEP_MN" with
    | .ok a => E.num a.value
    | _ => .ok (some 180)
  newAxisVariable E "Time" [("units", units)] ((List.range dim.length).map fun (i : Nat) => do some ((← step) / 60 * i))

/-- src/coordSys/WRFCoordSysBuilder.cc:386-400: the reference time, an integer variable with a `float` value. -/
def addReferenceTime [Field K] (E : Ext V Pr K) : Eff (Ds V CS K O) Unit := do
  newVariable ⟨"forecast_reference_time", [], ⟨.int, none, none⟩⟩
  let units ← sinceDate E "SIMULATION_START_DATE"
  newAttributes E "forecast_reference_time" [("units", units), ("standard_name", "forecast_reference_time")]
  giveData "forecast_reference_time" (.float, [some 0])

/-- src/coordSys/WRFCoordSysBuilder.cc:325-401: the variables of the time. -/
def timeVariables [Field K] (E : Ext V Pr K) : Eff (Ds V CS K O) Unit := fun c =>
  if hasDimension c "Time" && !hasVariable c "Time" then (addTime E >>= fun _ => unlessVariable "forecast_reference_time" (addReferenceTime E)) c
  else (c, .ok ())

/-- src/coordSys/WRFCoordSysBuilder.cc:325-404: the time axis. -/
def time [Field K] (E : Ext V Pr K) : Eff (Ds V CS K O) Axis := do
  timeVariables E
  mkAxis "Time" .time

/-- The axes, null pointers if the dimension does not exist. -/
structure Axes where
  west : Option Axis
  stagWest : Option Axis
  north : Option Axis
  stagNorth : Option Axis
  bottom : Option Axis
  stagBottom : Option Axis
  time : Axis

/-- src/coordSys/WRFCoordSysBuilder.cc:172-404: all axes. -/
def allAxes [Field K] (E : Ext V Pr K) (latLon : Bool) (cx cy : Option K) : Eff (Ds V CS K O) Axes := do
  let west ← horizontal E latLon cx "west_east" "DX" "projection_x_axis" "grid_longitude" .geoX
  let stagWest ← horizontal E latLon cx "west_east_stag" "DX" "projection_x_axis" "grid_longitude" .geoX
  let north ← horizontal E latLon cy "south_north" "DY" "projection_y_axis" "grid_latitude" .geoY
  let stagNorth ← horizontal E latLon cy "south_north_stag" "DY" "projection_y_axis" "grid_latitude" .geoY
  let bottom ← vertical E "bottom_top"
  let stagBottom ← vertical E "bottom_top_stag"
  let t ← time E
  pure ⟨west, stagWest, north, stagNorth, bottom, stagBottom, t⟩

/-- src/coordSys/WRFCoordSysBuilder.cc:435-448: the axis of another dimension. -/
def other [Field K] (n : String) : Eff (Ds V CS K O) Axis := do
  unlessVariable n do
    newVariable ⟨n, [n], ⟨.int, none, none⟩⟩
    let dim ← Eff.read fun c => getDimension c n
    giveData n (.float, (List.range dim.length).map fun (i : Nat) => some (i : K))
  mkAxis n .undefined

/-- A pointer that must not be null. -/
def nonNull {β : Type} (a : Option β) : Eff (Ds V CS K O) β := Eff.read fun _ =>
  match a with
  | some a => .ok a
  | none => .ub

/-- src/coordSys/WRFCoordSysBuilder.cc:419-446: the axis of a dimension. -/
def axisOf [Field K] (A : Axes) (n : String) : Eff (Ds V CS K O) Axis :=
  if n = "west_east" then nonNull A.west
  else if n = "west_east_stag" then nonNull A.stagWest
  else if n = "south_north" then nonNull A.north
  else if n = "south_north_stag" then nonNull A.stagNorth
  else if n = "Time" then pure A.time
  else if n = "bottom_top" then nonNull A.bottom
  else if n = "bottom_top_stag" then nonNull A.stagBottom
  else other n

/-- src/coordSys/WRFCoordSysBuilder.cc:418-450: the axes of a coordinate system. -/
def setAxes [Field K] (A : Axes) : List String → System Pr → Eff (Ds V CS K O) (System Pr)
  | [], s => pure s
  | n :: ns, s => do
    let a ← axisOf A n
    match CoordSys.setAxis s.axes a with
    | (cs, .ok ()) => setAxes A ns { s with axes := cs, deps := if n = "Time" then setInsert "Times" s.deps else s.deps }
    | (_, .throws) => Eff.read fun _ => .throws
    | (_, .ub) => Eff.read fun _ => .ub

/-- src/coordSys/WRFCoordSysBuilder.cc:412-413: a variable on both horizontal directions. -/
def isGrid (shape : List String) : Bool :=
  (shape.contains "west_east" || shape.contains "west_east_stag") && (shape.contains "south_north" || shape.contains "south_north_stag")

/-- src/coordSys/WRFCoordSysBuilder.cc:414 `join(shape.begin(), shape.end())`. -/
def shapeId (shape : List String) : String := String.ofList (Text.join (shape.map String.toList) [','])

/-- src/coordSys/WRFCoordSysBuilder.cc:454-456: the variable belongs to the system of its shape. -/
def markVariable (k n : String) (m : List (String × System Pr)) : List (String × System Pr) :=
  m.map fun e => if e.1 = k then (e.1, { e.2 with isFor := setInsert n e.2.isFor, complete := setInsert n e.2.complete }) else e

/-- src/coordSys/WRFCoordSysBuilder.cc:407-458. -/
def systems [Field K] (p : Pr) (A : Axes) : List (Var (Pay DataType (Option K) O)) → List (String × System Pr) →
    Eff (Ds V CS K O) (List (String × System Pr))
  | [], m => pure m
  | v :: vs, m =>
    if !isGrid v.shape then systems p A vs m
    else if m.any fun e => e.1 == shapeId v.shape then systems p A vs (markVariable (shapeId v.shape) v.name m)
    else do
      let s ← setAxes A v.shape { convention := "WRF", proj := some p }
      systems p A vs (markVariable (shapeId v.shape) v.name (insertSystem (shapeId v.shape) { s with simple := true } m))

/-- src/coordSys/WRFCoordSysBuilder.cc:105-465 `wrfListCoordinateSystems`. -/
def listWrf [Field K] (E : Ext V Pr K) : Eff (Ds V CS K O) (List (System Pr)) := fun c =>
  if !wrfIsMine c then (c, .ok [])
  else (projText E >>= fun t =>
    match t with
    | none => pure []
    | some (t, latLon) => do
      let pc ← centre E t latLon
      let A ← allAxes E latLon pc.2.1 pc.2.2
      let m ← fun c => systems pc.1 A c.vars [] c
      pure (m.map (·.2))) c

end Fimex.Wrf
