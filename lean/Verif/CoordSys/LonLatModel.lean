import Verif.CoordSys.ChangeModel

/-!
# Longitude and latitude for all grids

Model of `generateProjectionCoordinates(CDMReader_p)` (`src/CDMReaderUtils.cc:194-240`), by which `CDMInterpolator` makes sure that longitude and
latitude exist for all grids with a projection, before it interpolates by coordinates (`src/CDMInterpolator.cc:696-699`).

The coordinate systems of the dataset are an argument (`Cf.listCF` for CF datasets).  Logging is left out.
-/

namespace Fimex.LonLat

open Cdm CoordSys Cf Change

variable {V CS Pr T α O : Type}

/-- src/CDMReaderUtils.cc:194-199 `CoordsInformation`. -/
structure Group (Pr : Type) where
  x : String
  y : String
  proj : Pr
  vars : List String

/-- src/CDMReaderUtils.cc:208-209: a simple grid with a projection, not with both longitude and latitude. -/
def wanted (s : System Pr) : Bool := s.simple && s.proj.isSome && !(hasAxisType s .lat && hasAxisType s .lon)

/-- src/CDMReaderUtils.cc:215-223: `coords[key]`, changed or, if there is none, created; the map is sorted by keys. -/
def enter (k : String) (x y : String) (p : Pr) (ns : List String) : List (String × Group Pr) → List (String × Group Pr)
  | [] => [(k, ⟨x, y, p, ns.foldl (fun s n => setInsert n s) []⟩)]
  | (k', g) :: m =>
    if k < k' then (k, ⟨x, y, p, ns.foldl (fun s n => setInsert n s) []⟩) :: (k', g) :: m
    else if k = k' then (k', ⟨x, y, p, ns.foldl (fun s n => setInsert n s) g.vars⟩) :: m
    else (k', g) :: enter k x y p ns m

/-- src/CDMReaderUtils.cc:207-225: the grids.  A missing axis (`assert`) is undefined behaviour. -/
def collect (names : List String) : List (System Pr) → List (String × Group Pr) → Res (List (String × Group Pr))
  | [], m => .ok m
  | s :: l, m =>
    if wanted s then
      match geoX s, geoY s, s.proj with
      | some x, some y, some p =>
        collect names l (enter (x.name ++ "_" ++ y.name) x.name y.name p (names.filter fun n => s.complete.contains n && s.isFor.contains n) m)
      | _, _, _ => .ub
    else collect names l m

/-- src/CDMReader.cc:148-168 `getData`: the values in memory, or those that are read. -/
def getData (read : String → Res (T × List α)) (c : CDM (Pay T α O) V CS) (n : String) : Res (T × List α) := do
  let v ← getVariable c n
  match v.payload.data with
  | some d => .ok d
  | none => read n

/-- src/CDMReaderUtils.cc:230-231: the values of an axis are kept in memory. -/
def keepAxis [DecidableEq T] (read : String → Res (T × List α)) (n : String) (c : CDM (Pay T α O) V CS) : Res (CDM (Pay T α O) V CS) := do
  let d ← getData read c n
  setVarData n d c

/-- src/CDMReaderUtils.cc:233-235. -/
def pointTo {P : Type} (E : Ext V Pr T α) (lon lat : String) : List String → CDM P V CS → Res (CDM P V CS)
  | [], c => .ok c
  | n :: ns, c => do
    let c ← after (addOrReplaceAttribute c n ⟨"coordinates", E.value (lon ++ " " ++ lat)⟩)
    pointTo E lon lat ns c

/-- src/CDMReaderUtils.cc:228-235, for one grid. -/
def addGrid [DecidableEq T] (E : Ext V Pr T α) (read : String → Res (T × List α)) (g : Group Pr) (c : CDM (Pay T α O) V CS) :
    Res (CDM (Pay T α O) V CS) := do
  let lon ← Names.findUniqueDimVarName (c.vars.map (·.name)) (c.dims.map (·.name)) "lon"
  let lat ← Names.findUniqueDimVarName (c.vars.map (·.name)) (c.dims.map (·.name)) "lat"
  let c ← keepAxis read g.x c
  let c ← keepAxis read g.y c
  let c ← generateCoordinates E g.proj g.x g.y lon lat c
  pointTo E lon lat g.vars c

/-- src/CDMReaderUtils.cc:227-236. -/
def addGrids [DecidableEq T] (E : Ext V Pr T α) (read : String → Res (T × List α)) :
    List (Group Pr) → CDM (Pay T α O) V CS → Res (CDM (Pay T α O) V CS)
  | [], c => .ok c
  | g :: gs, c => do
    let c ← addGrid E read g c
    addGrids E read gs c

/-- src/CDMReaderUtils.cc:201-238 `generateProjectionCoordinates(CDMReader_p)`, for the coordinate systems `l` of the dataset. -/
def generateAll [DecidableEq T] (E : Ext V Pr T α) (read : String → Res (T × List α)) (l : List (System Pr)) (c : CDM (Pay T α O) V CS) :
    Res (CDM (Pay T α O) V CS) := do
  let m ← collect (c.vars.map (·.name)) l []
  addGrids E read (m.map (·.2)) c

end Fimex.LonLat
