import Verif.CoordSys.CfModel

/-!
# Horizontal coordinate systems

Model of `findBestHorizontalCoordinateSystems` (`src/coordSys/CoordinateSystem.cc:362-449`), for the list of coordinate systems that
`listCoordinateSystems` has found.  The maps and the vector that are passed by reference are empty before the call, as in all callers
(`src/CDMInterpolator.cc:701-705`, `src/CDMProcessor.cc:439-444` and `488-493`).  A null pointer that is used is undefined behaviour.
-/

namespace Fimex.Cf

open Cdm CoordSys

variable {P V CS Pr : Type}

/-- src/coordSys/CoordinateSystem.cc:166-179 `horizontalId`. -/
def horizontalId (s : System Pr) : String :=
  match geoX s, geoY s with
  | some x, some y => x.name ++ "," ++ y.name
  | some x, none => x.name
  | none, some y => y.name
  | none, none => ""

/-- `map[key] = value`. -/
def assign {α : Type} (k : String) (a : α) : List (String × α) → List (String × α)
  | [] => [(k, a)]
  | (k', a') :: m => if k < k' then (k, a) :: (k', a') :: m else if k = k' then (k, a) :: m else (k', a') :: assign k a m

/-- `map.find(key)`. -/
def lookup {α : Type} (m : List (String × α)) (k : String) : Option α := (m.find? fun p => p.1 == k).map (·.2)

/-- src/coordSys/CoordinateSystem.cc:370-371. -/
def usable (withProjection : Bool) (s : System Pr) : Bool :=
  (!withProjection || (s.simple && s.proj.isSome)) && (withProjection || (hasAxisType s .lat && hasAxisType s .lon))

/-- src/coordSys/CoordinateSystem.cc:369-376. -/
def systemMap (withProjection : Bool) (l : List (System Pr)) : List (String × System Pr) :=
  l.foldl (fun m s => if usable withProjection s then assign (horizontalId s) s m else m) []

/-- src/coordSys/CoordinateSystem.cc:382-390. -/
def mapVariables (l : List (System Pr)) (m : List (String × System Pr)) (vars : List (Var P)) : List (String × String) :=
  vars.foldl (fun r v =>
    match findComplete l v.name with
    | some s => if (lookup m (horizontalId s)).isSome then assign v.name (horizontalId s) r else r
    | none => r) []

/-- src/coordSys/CoordinateSystem.cc:394-420, for one system.  `set_intersection` of a set and a sorted shape is empty exactly if
no name is in both. -/
def incompatibleWith (c : CDM P V CS) (mapped : List (String × String)) (s : System Pr) : Res (List String) :=
  match geoX s, geoY s with
  | some x, some y => do
    let xv ← getVariable c x.name
    let yv ← getVariable c y.name
    let geo := xv.shape ++ yv.shape
    .ok ((c.vars.filter fun v =>
      !((getAxes s.axes).any fun a => a.name == v.name) && !(lookup mapped v.name).isSome && v.shape.any fun d => geo.contains d).map
        fun v : Var P => v.name)
  | _, _ => .ub

/-- The call of `setAxis` with a pointer that may be null. -/
def setAxisPtr (cs : CoordSys.CS) : Option Axis → Res CoordSys.CS
  | none => .ub
  | some a =>
    match setAxis cs a with
    | (cs, .ok ()) => .ok cs
    | (_, .throws) => .throws
    | (_, .ub) => .ub

/-- src/coordSys/CoordinateSystem.cc:430-437, for longitude and latitude. -/
def setIfAny (s : System Pr) (t : AxisType) (cs : CoordSys.CS) : Res CoordSys.CS :=
  if hasAxisType s t then setAxisPtr cs (findAxisOfType s.axes t) else .ok cs

/-- src/coordSys/CoordinateSystem.cc:423-446, for one system. -/
def minimal (mapped : List (String × String)) (s : System Pr) : Res (System Pr) := do
  let a ← setAxisPtr ⟨[], []⟩ (geoX s)
  let a ← setAxisPtr a (geoY s)
  let a ← setIfAny s .lon a
  let a ← setIfAny s .lat a
  let r : System Pr := { convention := s.convention, axes := a, proj := s.proj }
  .ok { r with isFor := mapped.foldl (fun f v => if horizontalId r = v.2 then setInsert v.1 f else f) [] }

/-- What `findBestHorizontalCoordinateSystems` gives. -/
structure Best (Pr : Type) where
  systems : List (String × System Pr)
  mapped : List (String × String)
  incompatible : List String

/-- src/coordSys/CoordinateSystem.cc:362-449 `findBestHorizontalCoordinateSystems`; the number it returns is the one of the systems. -/
def findBest (withProjection : Bool) (l : List (System Pr)) (c : CDM P V CS) : Res (Best Pr) :=
  let m := systemMap withProjection l
  if m.isEmpty then .ok ⟨[], [], []⟩
  else do
    let mapped := mapVariables l m c.vars
    let inc ← each (fun p => incompatibleWith c mapped p.2) m
    let sys ← each (fun p => do
      let s ← minimal mapped p.2
      .ok (p.1, s)) m
    .ok ⟨sys, mapped, inc.flatten⟩

end Fimex.Cf
