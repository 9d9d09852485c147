import Verif.CoordSys.ChangeChain

/-!
# The dataset after interpolation to the points of a template

Model of `addLonLatWithData` and `changeCDMToLatLonTemplate` (`src/CDMInterpolator.cc:1422-1569`), by which `CDMInterpolator` describes the dataset
on the grid of a template: axes `x` and `y`, and `longitude` and `latitude` on both.  The parameters are those of `Verif/CoordSys/ChangeModel.lean`;
logging is left out.
-/

namespace Fimex.Template

open Cdm CoordSys Cf Change

variable {V CS Pr T α O P : Type}

/-- src/CDMInterpolator.cc:1476-1487: the new axes in the shapes of all variables to be interpolated. -/
def renameDims (x y : String) (m : List (String × String)) (c : CDM P V CS) : Res (CDM P V CS) :=
  if x ≠ "x" ∨ y ≠ "y" then reshapeAll x "x" y "y" m c else .ok c

/-- src/CDMInterpolator.cc:1500-1507: the old axes and dimensions are removed. -/
def dropOld (x y : String) (r : CDM P V CS × List (String × String)) : Res (CDM P V CS × List (String × String)) :=
  if "x" ≠ x ∧ "y" ≠ y then do
    let r := drop (drop r x) y
    let c ← after (removeDimension r.1 x false)
    let c ← after (removeDimension c y false)
    .ok (c, r.2)
  else .ok r

/-- src/CDMInterpolator.cc:1452-1508, for one coordinate system. -/
def templateSystem (L : Lib V Pr) (st : CDM P V CS × List (String × String)) (s : System Pr) : Res (CDM P V CS × List (String × String)) := do
  let r := dropMappings L s st.1 st.2
  let xy ← gridAxes r.1 s
  let c ← renameDims xy.1 xy.2 r.2 r.1
  dropOld xy.1 xy.2 (dropLonLat s c r.2)

/-- src/CDMInterpolator.cc:1452-1508, for all coordinate systems. -/
def templateSystems (L : Lib V Pr) : List (System Pr) → CDM P V CS × List (String × String) → Res (CDM P V CS × List (String × String))
  | [], st => .ok st
  | s :: l, st => do
    let st ← templateSystem L st s
    templateSystems L l st

/-- src/CDMInterpolator.cc:1522-1529 and 1536-1543: dimension and variable of an axis. -/
def ensureDim [DecidableEq T] (n : String) (t : T) (len : Nat) (c : CDM (Pay T α O) V CS) : Res (CDM (Pay T α O) V CS) :=
  if !hasVariable c n then do
    let c ← after (addDimension c ⟨n, len, false⟩)
    after (addVariable c ⟨n, [n], ⟨t, none, none⟩⟩)
  else do
    let c ← setLength n len c
    modifyVar c n (setDataType t)

/-- src/CDMInterpolator.cc:1522-1534 and 1536-1548: one axis; `axis` is its name in lower case. -/
def templateAxis [DecidableEq T] (E : Ext V Pr T α) (n longName standardName : String) (a : NewAxis T α) (c : CDM (Pay T α O) V CS) :
    Res (CDM (Pay T α O) V CS) := do
  let c ← ensureDim n a.dtype a.values.length c
  let c ← after (addOrReplaceAttribute c n ⟨"axis", E.value n⟩)
  let c ← after (addOrReplaceAttribute c n ⟨"long_name", E.value longName⟩)
  let c ← after (addOrReplaceAttribute c n ⟨"standard_name", E.value standardName⟩)
  let c ← after (addOrReplaceAttribute c n ⟨"units", E.value a.unit⟩)
  setVarData n (a.dtype, E.cast a.dtype a.values) c

/-- src/CDMInterpolator.cc:1424-1425. -/
def ensureCoord (E : Ext V Pr T α) (n : String) (shape : List String) (c : CDM (Pay T α O) V CS) : Res (CDM (Pay T α O) V CS) :=
  if !hasVariable c n then after (addVariable c ⟨n, shape, ⟨E.double, none, none⟩⟩) else .ok c

/-- src/CDMInterpolator.cc:1431-1436: values of the type of the variable, or both as double. -/
def coordData [DecidableEq T] (E : Ext V Pr T α) (n : String) (d : T × List α) (c : CDM (Pay T α O) V CS) : Res (CDM (Pay T α O) V CS) := do
  let v ← getVariable c n
  if v.payload.dtype = d.1 then setVarData n d c
  else do
    let c ← modifyVar c n (setDataType E.double)
    setVarData n (E.double, E.cast E.double d.2) c

/-- src/CDMInterpolator.cc:1422-1437 `addLonLatWithData`. -/
def addWithData [DecidableEq T] (E : Ext V Pr T α) (n : String) (shape : List String) (d : T × List α) (c : CDM (Pay T α O) V CS) :
    Res (CDM (Pay T α O) V CS) := do
  let c ← ensureCoord E n shape c
  let c ← after (addOrReplaceAttribute c n ⟨"standard_name", E.value n⟩)
  let c ← after (addOrReplaceAttribute c n ⟨"long_name", E.value n⟩)
  let c ← modifyVar c n fun v => { v with shape := shape }
  coordData E n d c

/-- src/CDMInterpolator.cc:1553-1560: a coordinate with its unit. -/
def templateCoord [DecidableEq T] (E : Ext V Pr T α) (n unit : String) (d : T × List α) (c : CDM (Pay T α O) V CS) : Res (CDM (Pay T α O) V CS) := do
  let c ← addWithData E n ["x", "y"] d c
  after (addOrReplaceAttribute c n ⟨"units", E.value unit⟩)

/-- src/CDMInterpolator.cc:1563-1567. -/
def describeAll (E : Ext V Pr T α) : List (String × String) → CDM P V CS → Res (CDM P V CS)
  | [], c => .ok c
  | p :: m, c => do
    let c ← after (addOrReplaceAttribute c p.1 ⟨"coordinates", E.value "longitude latitude"⟩)
    describeAll E m (removeAttribute c p.1 "grid_mapping")

/-- The axes and coordinates of a template; coordinates have a type and values. -/
structure Points (T α : Type) where
  projString : String
  x : NewAxis T α
  y : NewAxis T α
  lon : T × List α
  lat : T × List α

/-- src/CDMInterpolator.cc:1510-1569: after the loop. -/
def newPoints [DecidableEq T] (E : Ext V Pr T α) (g : Points T α) (m : List (String × String)) (c : CDM (Pay T α O) V CS) :
    Res (CDM (Pay T α O) V CS) := do
  let c ← templateAxis E "x" "x-coordinate in Cartesian system" "projection_x_coordinate" g.x (removeAttribute (removeAttribute c "x" "long_name") "y" "long_name")
  let c ← templateAxis E "y" "y-coordinate in Cartesian system" "projection_y_coordinate" g.y c
  let c ← templateCoord E "latitude" "degree_north" g.lat c
  let c ← templateCoord E "longitude" "degree_east" g.lon c
  let c ← describeAll E m c
  let c ← after (removeDimension c "longitude" false)
  after (removeDimension c "latitude" false)

/-- src/CDMInterpolator.cc:1439-1569 `changeCDMToLatLonTemplate`. -/
def changeToTemplate [DecidableEq T] (E : Ext V Pr T α) (g : Points T α) (systems : List (String × System Pr)) (m : List (String × String))
    (c : CDM (Pay T α O) V CS) : Res (CDM (Pay T α O) V CS × List (String × String)) := do
  let p ← projectionName g.projString
  if p ≠ "latlong" then .throws
  else do
    let st ← templateSystems E.lib (systems.map (·.2)) (c, m)
    let c ← newPoints E g st.2 st.1
    .ok (c, st.2)

end Fimex.Template
