import Verif.Cdm.Model
import Verif.CoordSys.Axes
import Verif.Text.Model

/-!
# Coordinate systems of a CF dataset

Model of `CF1_xCoordSysBuilder` (`src/coordSys/CF1_xCoordSysBuilder.cc:56-553`) and of the functions of `CoordinateSystem` it uses.

The dataset is the `CDM` of `Verif.Cdm.Model`.  Libraries are parameters: the text of an attribute (`getStringValue`), convertibility of units
(udunits; unknown units are not convertible, `src/Units.cc:223-239`) and `Projection::create`.  Logging is left out.
A `std::set<string>` is a sorted list without repetition, a `std::map` a list of pairs sorted by key.
-/

namespace Fimex.Cf

open Cdm CoordSys

/-- What the builder takes from elsewhere. -/
structure Lib (V Pr : Type) where
  /-- `CDMAttribute::getStringValue` -/
  text : V → String
  /-- `Units::areConvertible` -/
  convertible : String → String → Bool
  /-- `Projection::create` -/
  createProj : List (Attr V) → Res Pr
  /-- the value of `CDMAttribute("grid_mapping_name", "latitude_longitude")` -/
  latLonValue : V

variable {P V CS Pr : Type}

/-! ## Sets, texts -/

/-- `std::set<string>::insert`. -/
def setInsert (a : String) : List String → List String
  | [] => [a]
  | b :: l => if a < b then a :: b :: l else if a = b then b :: l else b :: setInsert a l

/-- `std::set<string>(v.begin(), v.end())`. -/
def toSet (l : List String) : List String := l.foldl (fun s a => setInsert a s) []

/-- src/StringUtils.cc:51-58 `string2lowerCase`; `std::tolower` in the C locale. -/
def lower (s : String) : String := String.ofList (s.toList.map Char.toLower)

/-- src/CDM.cc:430-442 `getAttribute(varName, attrName, retAttribute)`, followed by `getStringValue`. -/
def attrText (L : Lib V Pr) (c : CDM P V CS) (n a : String) : Option String :=
  match getAttribute c n a with
  | .ok b => some (L.text b.value)
  | _ => none

/-- `tokenize(text, " ")`; C26 shows that the number of steps is enough and that nothing is raised. -/
def blankWords (s : String) : List String :=
  match Text.tokenize (s.length + 1) s.toList [' '] with
  | some (.ok ts) => ts.map String.ofList
  | _ => []

/-- src/coordSys/CF1_xCoordSysBuilder.cc:108-117 `getCoordinateNamesCF1_x`. -/
def coordinateNames (L : Lib V Pr) (c : CDM P V CS) (v : String) : List String :=
  match attrText L c v "coordinates" with
  | some t => toSet (blankWords t)
  | none => []

/-- src/coordSys/CF1_xCoordSysBuilder.cc:126-135 `getCoordinateAxesNamesCF1_x`. -/
def axesNames (L : Lib V Pr) (c : CDM P V CS) (v : Var P) : List String :=
  (coordinateNames L c v.name).foldl (fun s a => setInsert a s) (toSet v.shape)

/-! ## Type of an axis -/

/-- src/coordSys/CF1_xCoordSysBuilder.cc:141-170: by `standard_name`. -/
def typeOfStandardName (sname : String) : Option AxisType :=
  let lc := lower sname
  if lc = "longitude" then some .lon
  else if lc = "latitude" then some .lat
  else if lc = "forecast_reference_time" then some .referenceTime
  else if lc = "realization" then some .realization
  else if lc = "projection_x_coordinate" ∨ lc = "grid_longitude" then some .geoX
  else if lc = "projection_y_coordinate" ∨ lc = "grid_latitude" then some .geoY
  else if lc = "atmosphere_sigma_coordinate" ∨ lc = "atmosphere_hybrid_sigma_pressure_coordinate" ∨
      lc = "atmosphere_hybrid_height_coordinate" ∨ lc = "atmosphere_sleve_coordinate" ∨ lc = "ocean_sigma_coordinate" ∨
      lc = "ocean_s_coordinate" ∨ lc = "ocean_sigma_z_coordinate" ∨ lc = "ocean_double_sigma_coordinate" ∨
      lc = "ocean_s_coordinate_g1" ∨ lc = "ocean_s_coordinate_g2" then some .geoZ
  else none

/-- src/Units.cc:240-243 `isTime`. -/
def isTime (L : Lib V Pr) (u : String) : Bool := L.convertible u "seconds since 1970-01-01 00:00:00"

/-- src/coordSys/CF1_xCoordSysBuilder.cc:171-202: by `units`. -/
def typeOfUnit (L : Lib V Pr) (unit : String) : Option AxisType :=
  let lc := lower unit
  if lc = "degrees_east" ∨ lc = "degrees_e" ∨ lc = "degreese" ∨ lc = "degree_east" ∨ lc = "degree_e" ∨ lc = "degreee" then some .lon
  else if lc = "degrees_north" ∨ lc = "degrees_n" ∨ lc = "degreesn" ∨ lc = "degree_north" ∨ lc = "degree_n" ∨ lc = "degreen" then some .lat
  else if isTime L unit then some .time
  else if L.convertible "mbar" unit then some .pressure
  else if lc = "level" ∨ lc = "layer" ∨ lc = "sigma_level" then some .geoZ
  else none

/-- src/coordSys/CF1_xCoordSysBuilder.cc:204-217: by `positive` and `units`. -/
def typeOfPositive (L : Lib V Pr) (positive : String) (units : Option String) : AxisType :=
  match units with
  | some u => if L.convertible "m" u then (if positive = "up" then .height else .depth) else .geoZ
  | none => .geoZ

/-- src/coordSys/CF1_xCoordSysBuilder.cc:219-240: by `axis` and `units`. -/
def typeOfAxis (L : Lib V Pr) (axis : String) (units : Option String) : Option AxisType :=
  let lc := lower axis
  if lc = "x" then some .geoX
  else if lc = "y" then some .geoY
  else if lc = "z" then
    match units with
    | some u => if L.convertible u "mbar" then some .pressure else if L.convertible u "m" then some .height else some .geoZ
    | none => some .geoZ
  else if lc = "t" then some .time
  else none

/-- src/coordSys/CF1_xCoordSysBuilder.cc:138-243 `getAxisTypeCF1_x`. -/
def axisType (L : Lib V Pr) (c : CDM P V CS) (n : String) : AxisType :=
  match (attrText L c n "standard_name").bind typeOfStandardName with
  | some t => t
  | none =>
    match (attrText L c n "units").bind (typeOfUnit L) with
    | some t => t
    | none =>
      match attrText L c n "positive" with
      | some p => typeOfPositive L p (attrText L c n "units")
      | none =>
        match attrText L c n "axis" with
        | some a => (typeOfAxis L a (attrText L c n "units")).getD .undefined
        | none => .undefined

/-! ## Coordinate systems -/

/-- The vertical transformations made by the builder, with the arguments of their constructors. -/
inductive VTran where
  | height (axis : String) (isAltitude : Bool)
  | depth (axis : String)
  | pressure (axis : String)
  | hybridSigmaPressure1 (ap b ps p0 : String)
  | hybridSigmaPressure2 (a b ps p0 : String)
  | lnPressure (lev p0 : String)
  | atmosphereSigma (sigma ptop ps : String)
  | oceanSG1 (s C depth depthC eta : String)
  | oceanSG2 (s C depth depthC eta : String)
  | atmosphereHybridHeight (a b orog : String)
deriving DecidableEq, Repr

/-- src/coordSys/CoordSysImpl.h:38-48. -/
structure System (Pr : Type) where
  convention : String
  simple : Bool := false
  isFor : List String := []
  complete : List String := []
  axes : CoordSys.CS := ⟨[], []⟩
  deps : List String := []
  proj : Option Pr := none
  vtran : Option VTran := none

/-- src/coordSys/CoordinateSystem.cc:159-164 `id`.  The names are different (C46), so the sorted names are the set of the names. -/
def System.id (s : System Pr) : String :=
  s.convention ++ ":" ++ String.ofList (Text.join ((toSet ((getAxes s.axes).map (·.name))).map String.toList) [','])

/-- src/coordSys/CoordinateSystem.cc:278-281 `getGeoXAxis`. -/
def geoX (s : System Pr) : Option Axis := findAxisOfTypes s.axes [.geoX, .lon]
/-- src/coordSys/CoordinateSystem.cc:283-286 `getGeoYAxis`. -/
def geoY (s : System Pr) : Option Axis := findAxisOfTypes s.axes [.geoY, .lat]
/-- src/coordSys/CoordinateSystem.cc:288-291 `getGeoZAxis`. -/
def geoZ (s : System Pr) : Option Axis := findAxisOfTypes s.axes [.geoZ, .height, .depth, .pressure]
/-- src/coordSys/CoordinateSystem.cc:293-296 `getTimeAxis`. -/
def timeAxis (s : System Pr) : Option Axis := findAxisOfTypes s.axes [.time]

/-- src/coordSys/CoordinateSystem.cc:255-258 `hasAxisType`. -/
def hasAxisType (s : System Pr) (t : AxisType) : Bool := (findType t s.axes.axes).isSome || (findType t s.axes.aux).isSome

/-- src/coordSys/CoordinateSystem.cc:76-82 `set_insert_erase`. -/
def insertErase (s : List String) (n : String) (b : Bool) : List String := if b then setInsert n s else s.filter fun m => m ≠ n

/-- src/coordSys/CoordinateSystem.cc:211-214 `isCSAndCompleteFor`. -/
def isCSAndCompleteFor (s : System Pr) (n : String) : Bool := s.isFor.contains n && s.complete.contains n

/-- src/coordSys/CoordinateSystem.cc:531-538 `findCompleteCoordinateSystemFor`. -/
def findComplete (l : List (System Pr)) (n : String) : Option (System Pr) := l.find? fun s => isCSAndCompleteFor s n

/-- `std::regex_match` with `.*`: a dot is not a line break (ECMAScript). -/
def dotStar (t : String) : Bool := t.toList.all fun ch => ch ≠ '\n' ∧ ch ≠ '\r'

/-- src/coordSys/CF1_xCoordSysBuilder.cc:287-297: names of dimensions, and names in attributes `coordinates`. -/
def allAxesNames (L : Lib V Pr) (c : CDM P V CS) : List String :=
  ((findVariables c [("coordinates", fun v => dotStar (L.text v))] []).flatMap
      fun v => blankWords ((attrText L c v "coordinates").getD "")).foldl (fun s a => setInsert a s)
    (c.dims.foldl (fun s d => setInsert d.name s) [])

/-- src/coordSys/CF1_xCoordSysBuilder.cc:285-321, steps 1 and 2: the axis with a name, if it is in `coordinateAxes`. -/
def axisOf (L : Lib V Pr) (c : CDM P V CS) (n : String) : Option Axis :=
  if n ∈ allAxesNames L c then
    some
      { name := n
        type := axisType L c n
        isExplicit := c.dims.any fun d => d.name == n
        shape := match getVariable c n with | .ok v => v.shape | _ => [n] }
  else none

/-- src/coordSys/CF1_xCoordSysBuilder.cc:335-351: the axes of one coordinate system. -/
def addAxes (find : String → Option Axis) (coords : List String) : CoordSys.CS → List String → Res CoordSys.CS
  | cs, [] => .ok cs
  | cs, n :: ns =>
    match find n with
    | none => addAxes find coords cs ns
    | some a =>
      match if a.name ∈ coords then setAuxiliaryAxis cs a else setAxis cs a with
      | (cs, .ok ()) => addAxes find coords cs ns
      | (_, .throws) => .throws
      | (_, .ub) => .ub

/-- `std::map<string, CoordinateSystem_p>::insert`: nothing is changed if the key is there. -/
def insertSystem (k : String) (s : System Pr) : List (String × System Pr) → List (String × System Pr)
  | [] => [(k, s)]
  | (k', s') :: m => if k < k' then (k, s) :: (k', s') :: m else if k = k' then (k', s') :: m else (k', s') :: insertSystem k s m

/-- src/coordSys/CF1_xCoordSysBuilder.cc:326-354, step 3. -/
def findSystems (L : Lib V Pr) (c : CDM P V CS) :
    List (Var P) → List (String × System Pr) → Res (List (String × System Pr))
  | [], m => .ok m
  | v :: vs, m =>
    if (axisOf L c v.name).isSome then findSystems L c vs m
    else if axesNames L c v = [] then findSystems L c vs m
    else do
      let axes ← addAxes (axisOf L c) (coordinateNames L c v.name) ⟨[], []⟩ (axesNames L c v)
      let s : System Pr := { convention := "CF-1.X", axes := axes }
      findSystems L c vs (insertSystem s.id s m)

/-- `std::includes(a.begin(), a.end(), b.begin(), b.end())` on sorted ranges without repetition. -/
def includes (a b : List String) : Bool := b.all fun n => a.contains n

/-- src/coordSys/CF1_xCoordSysBuilder.cc:360-378, for one system. -/
def mark (L : Lib V Pr) (c : CDM P V CS) (s : System Pr) : System Pr :=
  let csAxes := toSet ((getAxes s.axes).map (·.name))
  c.vars.foldl (fun s v =>
    let varAxes := axesNames L c v
    { s with
      complete := insertErase s.complete v.name (includes varAxes csAxes)
      isFor := insertErase s.isFor v.name (includes csAxes varAxes) }) s

/-- src/coordSys/CF1_xCoordSysBuilder.cc:386-397: explicit and one-dimensional. -/
def simpleAxis : Option Axis → Bool
  | some a => a.isExplicit && a.shape.length == 1
  | none => false

/-- src/coordSys/CF1_xCoordSysBuilder.cc:380-400, for one system. -/
def setSimple (s : System Pr) : System Pr := { s with simple := simpleAxis (geoX s) && simpleAxis (geoY s) }

/-- src/coordSys/CF1_xCoordSysBuilder.cc:421-428: the axes themselves are longitude and latitude. -/
def isLatLon (s : System Pr) : Bool :=
  s.simple && hasAxisType s .lon && hasAxisType s .lat &&
    (geoX s).map (·.name) == (findAxisOfType s.axes .lon).map (·.name) &&
    (geoY s).map (·.name) == (findAxisOfType s.axes .lat).map (·.name)

/-- src/coordSys/CF1_xCoordSysBuilder.cc:405-432, for one system: the projection of the first matching variable. -/
def setProj (L : Lib V Pr) (c : CDM P V CS) : List (Var P) → System Pr → Res (System Pr)
  | [], s => .ok s
  | v :: vs, s =>
    if s.proj.isSome then .ok s
    else if isCSAndCompleteFor s v.name then
      match attrText L c v.name "grid_mapping" with
      | some m =>
        if hasVariable c m then do
          let p ← L.createProj (getAttributes c m)
          setProj L c vs { s with proj := some p, deps := setInsert m s.deps }
        else setProj L c vs s
      | none =>
        if isLatLon s then do
          let p ← L.createProj [⟨"grid_mapping_name", L.latLonValue⟩]
          setProj L c vs { s with proj := some p }
        else setProj L c vs s
    else setProj L c vs s

/-! ## Vertical transformation -/

/-- src/coordSys/CF1_xCoordSysBuilder.cc:60-70 `is_altitude_name`. -/
def isAltitudeName (n : String) : Bool :=
  (n.toList.tails.any fun t => "altitude".toList.isPrefixOf t) ||
    ["height_above_msl", "height_above_mean_sea_level", "height_above_geopotential_datum", "height_above_reference_ellipsoid"].contains n

/-- `\s` in the C locale. -/
def isSpace (ch : Char) : Bool := ch = ' ' ∨ ch = '\t' ∨ ch = '\n' ∨ ch = '\x0b' ∨ ch = '\x0c' ∨ ch = '\r'

/-- `\s*:\s*(\S+)` at the start of the text: the word and the rest. -/
def colonWord (s : List Char) : Option (List Char × List Char) :=
  match s.dropWhile isSpace with
  | ':' :: r =>
    let r := r.dropWhile isSpace
    let w := r.takeWhile fun ch => !isSpace ch
    if w = [] then none else some (w, r.dropWhile fun ch => !isSpace ch)
  | _ => none

/-- `(\S+)\s*:\s*(\S+)` at the start of the text: `k` characters for the first word or, if that does not match, fewer. -/
def termAt (s : List Char) : Nat → Option (List Char × List Char × List Char)
  | 0 => none
  | k + 1 =>
    match colonWord (s.drop (k + 1)) with
    | some (w, r) => some (s.take (k + 1), w, r)
    | none => termAt s k

/-- `std::regex_search` with `(\S+)\s*:\s*(\S+)`: the first position that matches. -/
def termSearch : List Char → Option (List Char × List Char × List Char)
  | [] => none
  | ch :: s =>
    match termAt (ch :: s) ((ch :: s).takeWhile fun ch => !isSpace ch).length with
    | some r => some r
    | none => termSearch s

/-- src/coordSys/CF1_xCoordSysBuilder.cc:466-479: all pairs; `fuel` is the number of searches (one more than the length is enough). -/
def formulaTerms : Nat → List Char → List (String × String)
  | 0, _ => []
  | fuel + 1, s =>
    match termSearch s with
    | some (t, w, r) => (String.ofList t, String.ofList w) :: formulaTerms fuel r
    | none => []

/-- `terms[key]`: the last pair with that key, or the empty text. -/
def term (terms : List (String × String)) (k : String) : String := ((terms.reverse.find? fun p => p.1 == k).map (·.2)).getD ""

/-- src/coordSys/CF1_xCoordSysBuilder.cc:255-281 `isCSForTerm`. -/
def isCSForTerm (L : Lib V Pr) (c : CDM P V CS) (s : System Pr) (t : String) : Res Bool :=
  if t = "" then .ok true
  else do
    let v ← getVariable c t
    .ok ((axesNames L c v).all fun n =>
      match getDimension c n with
      | .ok d => d.length == 1 || ((getAxes s.axes).map (·.name)).contains n
      | _ => true)

/-- `a && b` of two calls: the second is not made if the first is false. -/
def andThen (a b : Res Bool) : Res Bool := do if ← a then b else .ok false

/-- src/coordSys/CF1_xCoordSysBuilder.cc:481-524: the transformation by standard name, from the terms that name variables. -/
def transformOf (L : Lib V Pr) (c : CDM P V CS) (s : System Pr) (terms : List (String × String)) (sn : String) : Res (Option VTran) :=
  let ok := fun k => isCSForTerm L c s (term terms k)
  let t := term terms
  if sn = "atmosphere_hybrid_sigma_pressure_coordinate" then do
    if ← andThen (ok "p") (andThen (ok "ps") (ok "p0")) then
      if t "ap" = "" then
        if ← ok "a" then .ok (some (.hybridSigmaPressure2 (t "a") (t "b") (t "ps") (t "p0"))) else .ok none
      else
        if ← ok "ap" then .ok (some (.hybridSigmaPressure1 (t "ap") (t "b") (t "ps") (t "p0"))) else .ok none
    else .ok none
  else if sn = "atmosphere_ln_pressure_coordinate" then do
    if ← andThen (ok "lev") (ok "p0") then .ok (some (.lnPressure (t "lev") (t "p0"))) else .ok none
  else if sn = "atmosphere_sigma_coordinate" then do
    if ← andThen (ok "sigma") (andThen (ok "ptop") (ok "ps")) then .ok (some (.atmosphereSigma (t "sigma") (t "ptop") (t "ps"))) else .ok none
  else if sn = "ocean_s_coordinate_g1" ∨ sn = "ocean_s_coordinate_g2" then do
    if ← andThen (ok "s") (andThen (ok "C") (andThen (ok "depth") (andThen (ok "depth_c") (ok "eta")))) then
      if sn = "ocean_s_coordinate_g1" then .ok (some (.oceanSG1 (t "s") (t "C") (t "depth") (t "depth_c") (t "eta")))
      else .ok (some (.oceanSG2 (t "s") (t "C") (t "depth") (t "depth_c") (t "eta")))
    else .ok none
  else if sn = "atmosphere_hybrid_height_coordinate" then do
    if ← andThen (ok "a") (andThen (ok "b") (ok "orog")) then .ok (some (.atmosphereHybridHeight (t "a") (t "b") (t "orog"))) else .ok none
  else .ok none

/-- src/coordSys/CF1_xCoordSysBuilder.cc:466-479: the pairs of `formula_terms` whose variable exists. -/
def knownTerms (L : Lib V Pr) (c : CDM P V CS) (z : String) : List (String × String) :=
  match attrText L c z "formula_terms" with
  | some f => (formulaTerms (f.length + 1) f.toList).filter fun p => p.2 ≠ "" ∧ hasVariable c p.2 = true
  | none => []

/-- src/coordSys/CF1_xCoordSysBuilder.cc:443-455: a height axis is an altitude by its name or else by its standard name. -/
def isAltitude (L : Lib V Pr) (c : CDM P V CS) (z : String) : Bool :=
  if isAltitudeName z then true
  else
    match attrText L c z "computed_standard_name" with
    | some n => isAltitudeName n
    | none =>
      match attrText L c z "standard_name" with
      | some n => isAltitudeName n
      | none => false

/-- src/coordSys/CF1_xCoordSysBuilder.cc:462-525, for one system: the transformation given by formula terms. -/
def setFormula (L : Lib V Pr) (c : CDM P V CS) (s : System Pr) (z : String) : Res (System Pr) :=
  let terms := knownTerms L c z
  let s := { s with deps := terms.foldl (fun d p => setInsert p.2 d) s.deps }
  match attrText L c z "standard_name" with
  | some sn => do
    let t ← transformOf L c s terms sn
    .ok { s with vtran := t }
  | none => .ok s

/-- src/coordSys/CF1_xCoordSysBuilder.cc:436-529, for one system (without a transformation so far). -/
def setVertical (L : Lib V Pr) (c : CDM P V CS) (s : System Pr) : Res (System Pr) :=
  match geoZ s with
  | none => .ok s
  | some z =>
    if hasVariable c z.name then
      match z.type with
      | .height => .ok { s with vtran := some (.height z.name (isAltitude L c z.name)) }
      | .depth => .ok { s with vtran := some (.depth z.name) }
      | .pressure => .ok { s with vtran := some (.pressure z.name) }
      | _ => setFormula L c s z.name
    else .ok s

/-- src/coordSys/CF1_xCoordSysBuilder.cc:531-546, for one system: the bounds of its axes. -/
def addBounds (L : Lib V Pr) (c : CDM P V CS) (s : System Pr) : System Pr :=
  { s with
    deps := (getAxes s.axes).foldl (fun d a =>
      if hasVariable c a.name then
        match attrText L c a.name "bounds" with
        | some b => if hasVariable c b then setInsert b d else d
        | none => d
      else d) s.deps }

/-- The phases that look at one system after the other, src/coordSys/CF1_xCoordSysBuilder.cc:402-546. -/
def each {α β : Type} (f : α → Res β) : List α → Res (List β)
  | [] => .ok []
  | a :: l => do
    let b ← f a
    let bs ← each f l
    .ok (b :: bs)

/-- src/coordSys/CF1_xCoordSysBuilder.cc:283-553 `listCoordinateSystems(CDM&)`. -/
def listCF (L : Lib V Pr) (c : CDM P V CS) : Res (List (System Pr)) := do
  let m ← findSystems L c c.vars []
  let l := m.map fun p => setSimple (mark L c p.2)
  let l ← each (setProj L c c.vars) l
  let l ← each (setVertical L c) l
  .ok (l.map (addBounds L c))

/-! ## All builders -/

/-- src/coordSys/CF1_xCoordSysBuilder.cc:82-99 `isMine`. -/
def cfIsMine (L : Lib V Pr) (c : CDM P V CS) : Bool :=
  let conventions :=
    match attrText L c globalNS "Conventions" with
    | some t => t
    | none => (attrText L c globalNS "conventions").getD ""
  let has := fun (w : String) => conventions.toList.tails.any fun t => w.toList.isPrefixOf t
  has "CF-1." || has "cf-1." || has "COARDS"

/-- src/coordSys/WRFCoordSysBuilder.cc:63-73 `isMine`. -/
def wrfIsMine (c : CDM P V CS) : Bool :=
  hasDimension c "south_north" && (match getAttribute c globalNS "MAP_PROJ" with | .ok _ => true | _ => false)

/-- src/coordSys/CoordinateSystem.cc:484-507 `listCoordinateSystems(CDMReader_p)`, with the result of the WRF builder; the version for a
`CDM` alone (454-482) is the one where the WRF builder gives nothing (`src/coordSys/WRFCoordSysBuilder.cc:466-476`). -/
def listSystems (L : Lib V Pr) (wrf : Res (List (System Pr))) (c : CDM P V CS) : Res (List (System Pr)) := do
  let a ← if cfIsMine L c then listCF L c else .ok []
  let b ← if wrfIsMine c then wrf else .ok []
  if a ++ b = [] then listCF L c else .ok (a ++ b)

end Fimex.Cf
