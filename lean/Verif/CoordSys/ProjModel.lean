import Verif.CoordSys.CfModel
import Verif.Interp.Longitude

/-!
# Model of the map projections and their texts

`ProjectionImpl`, `Projection::create`, `Projection::createByProj4` and the seventeen projections of src/coordSys, as
translations between attributes of a grid mapping (CF) and texts like `+proj=lcc +lat_1=63 +lon_0=15`.

Numbers are of an ordered field; reading and printing them are parameters of the model, no claim is made about the digits
that survive (`setprecision(16)` and the six digits of a plain `operator<<` are two different parameters).  NaN is not a
number of the model.  Log messages are left out.  `toString` and `operator==` are not modelled.
-/

namespace Fimex.Proj

open Fimex.Cf (isSpace)

abbrev Text := List Char

/-- The value of an attribute: `CDM_STRING` (include/fimex/CDMDataType.h), or numbers, seen through `Data::asDouble`. -/
inductive Val (K : Type) where
  | text (t : Text)
  | nums (v : List K)
  deriving DecidableEq, Repr

/-- include/fimex/CDMAttribute.h:43-90 `CDMAttribute`: a name and data. -/
structure Attr (K : Type) where
  name : String
  val : Val K
  deriving DecidableEq, Repr

/-- Reading and printing of numbers.  `string2type` include/fimex/String2Type.h:64-84, `strtod` of the C library,
`tokenizeDotted<double>(…, ",")` include/fimex/TokenizeDotted.h, `print` the `MaxPrecisionFormatter` of
src/coordSys/ProjectionImpl.cc:137-142, `print6` plain `operator<<` for `double`, `ofText` `Data::asDouble` of a text,
`textOf` `CDMAttribute::getStringValue` of numbers, `sqrt` of the C library. -/
structure Lib (K : Type) where
  string2type : Text → Res K
  strtod : Text → K
  dotted : Text → Res (List K)
  print : K → Text
  print6 : K → Text
  ofText : Text → List K
  textOf : List K → Text
  sqrt : K → K

variable {K : Type}

/-- `CDMAttribute::getStringValue`. -/
def Attr.str (L : Lib K) (a : Attr K) : Text := match a.val with | .text t => t | .nums v => L.textOf v

/-- `getData()->asDouble()` with `getData()->size()`. -/
def Val.doubles (L : Lib K) : Val K → List K
  | .text t => L.ofText t
  | .nums v => v

/-! ## Regular expressions -/

/-- A match of `p(x+)` at the start of the text, `x` the characters satisfying `ok`: the part in parentheses. -/
def wordAt (ok : Char → Bool) (p s : Text) : Option Text :=
  if p.isPrefixOf s then
    let w := (s.drop p.length).takeWhile ok
    if w = [] then none else some w
  else none

/-- `std::regex_search` for `(?:p₁|p₂|…)(x+)`: the part in the last parentheses of the first match. -/
def search (ok : Char → Bool) (ps : List Text) : Text → Option Text
  | [] => none
  | c :: s =>
    match ps.findSome? fun p => wordAt ok p (c :: s) with
    | some w => some w
    | none => search ok ps s

/-- `\S`. -/
def noSpace (c : Char) : Bool := !isSpace c

/-- `\d`. -/
def isDigit (c : Char) : Bool := '0' ≤ c && c ≤ '9'

/-- `"\\+" + key + "="`. -/
def plus (key : String) : Text := '+' :: (key.toList ++ ['='])

/-- `std::regex_search(proj4Str, what, std::regex("\\+key=(\\S+)"))`, `what[1]`. -/
def word (key : String) (s : Text) : Option Text := search noSpace [plus key] s

/-- `std::regex_search` for a text without anything special in it. -/
def occurs (p s : Text) : Bool := s.tails.any fun t => p.isPrefixOf t

/-! ## `ProjectionImpl` -/

/-- include/fimex/CDMNamedEntity.h `find_if` with `CDMNameEqual`. -/
def find (name : String) (ps : List (Attr K)) : Option (Attr K) := ps.find? fun a => a.name = name

/-- src/coordSys/ProjectionImpl.cc:102-107 `removeParameter`. -/
def remove (name : String) (ps : List (Attr K)) : List (Attr K) := ps.eraseP fun a => a.name = name

/-- src/coordSys/ProjectionImpl.cc:73. -/
def semiSet : List String := ["semi_major_axis", "semi_minor_axis", "inverse_flattening"]

/-- src/coordSys/ProjectionImpl.cc:86-92: the first parameter of that name gets replaced. -/
def replace (a : Attr K) : List (Attr K) → List (Attr K)
  | [] => [a]
  | b :: ps => if b.name = a.name then a :: ps else b :: replace a ps

/-- src/coordSys/ProjectionImpl.cc:62-93 `addParameter`, of a projection of that name. -/
def addParameter (L : Lib K) (name : Text) (a : Attr K) (ps : List (Attr K)) : Res (List (Attr K)) :=
  if a.name = "grid_mapping_name" ∧ a.str L ≠ name then .throws
  else
    let ps := if a.name = "earth_radius" then semiSet.foldl (fun ps n => remove n ps) ps else ps
    let ps := semiSet.foldl (fun ps n => if a.name = n then remove "earth_radius" ps else ps) ps
    .ok (replace a ps)

/-- src/coordSys/ProjectionImpl.cc:95-100 `addParameters`. -/
def addParameters (L : Lib K) (name : Text) : List (Attr K) → List (Attr K) → Res (List (Attr K))
  | [], ps => .ok ps
  | a :: as, ps => addParameter L name a ps >>= addParameters L name as

/-- include/fimex/StringUtils.h:60-78 `join_formatted`. -/
def joined (sep : Text) : List Text → Text
  | [] => []
  | [x] => x
  | x :: y :: xs => x ++ sep ++ joined sep (y :: xs)

/-- src/coordSys/ProjectionImpl.cc:183-198 `addParameterToStream`: what is written, nothing when `none` (returns `false`).
`replaceName` is never empty in the callers. -/
def toStream (L : Lib K) (ps : List (Attr K)) (name : String) (replaceName : String) : Option Text :=
  match find name ps with
  | none => none
  | some a =>
    match a.val with
    | .text t => some (replaceName.toList ++ t)
    | .nums [] => none
    | .nums (x :: xs) => some (replaceName.toList ++ joined [','] ((x :: xs).map L.print))

/-- What is written by `addParameterToStream` when the result is ignored. -/
def streamed (L : Lib K) (ps : List (Attr K)) (name : String) (replaceName : String) : Text :=
  (toStream L ps name replaceName).getD []

variable [Field K] [LinearOrder K]

/-- src/coordSys/ProjectionImpl.cc:144-154 `getInverseFlatteningValue`. -/
def inverseFlattening (L : Lib K) (ps : List (Attr K)) : K :=
  match find "inverse_flattening" ps with
  | none => -1
  | some a => match a.val.doubles L with | [x] => x | _ => -1

/-- src/coordSys/ProjectionImpl.cc:157-181 `getProj4EarthString`. -/
def earthString (L : Lib K) (ps : List (Attr K)) : Text :=
  (match toStream L ps "earth_radius" " +a=" with
    | some t => t ++ " +e=0".toList
    | none =>
      match toStream L ps "semi_major_axis" " +a=" with
      | some t =>
        t ++ " ".toList ++ streamed L ps "semi_minor_axis" " +b=" ++
          (if inverseFlattening L ps > 0 then " +rf=".toList ++ L.print (inverseFlattening L ps) else []) ++
          (if inverseFlattening L ps ≤ 0 ∧ toStream L ps "semi_minor_axis" " +b=" = none then " +e=0".toList else [])
      | none => " +a=6371000 +e=0".toList) ++
  streamed L ps "towgs84" " +towgs84="

/-- src/coordSys/ProjectionImpl.cc:214-222 `proj4ProjectionMatchesName`. -/
def matchesName (s : Text) (name : String) : Bool := word "proj" s = some name.toList

omit [Field K] [LinearOrder K] in
/-- An attribute of a single number. -/
def num (name : String) (v : K) : Attr K := ⟨name, .nums [v]⟩

omit [Field K] [LinearOrder K] in
/-- An attribute of a text. -/
def txt (name : String) (t : Text) : Attr K := ⟨name, .text t⟩

/-- The attributes of an ellipse of two axes. -/
def axes (a b : K) : List (Attr K) := [num "semi_major_axis" a, num "semi_minor_axis" b]

/-- src/coordSys/ProjectionImpl.cc:255-284: ellipsoid for a name. -/
def ellipsoid (n : Text) : List (Attr K) :=
  let n := n.map Char.toLower
  if n = "wgs84".toList then axes 6378137 (63567523142 / 10000)
  else if n = "nad83".toList then axes 6378137 (63567523 / 10)
  else if n = "grs80".toList ∨ n = "etrs89".toList then axes 6378137 (63567523141 / 10000)
  else if n = "nad27".toList then axes (63782064 / 10) (63565838 / 10)
  else if n = "wgs72".toList then axes 6378135 (635675052 / 100)
  else if n = "iers89".toList then axes 6378136 (6356751302 / 1000)
  else if n = "iers03".toList then axes (63781366 / 10) (63567519 / 10)
  else if n = "intl".toList then axes 6378388 6356909
  else if n = "bessel".toList then
    [num "semi_major_axis" (6377397155 / 1000), num "inverse_flattening" (2991528128 / 10000000)]
  else []

/-- src/coordSys/ProjectionImpl.cc:292-298: `vector::resize` to 3, 6 or 7. -/
def bursaWolff (v : List K) : List K :=
  let n := if v.length ≤ 3 then 3 else if v.length ≤ 6 then 6 else 7
  v.take n ++ List.replicate (n - v.length) 0

/-- src/coordSys/ProjectionImpl.cc:229-231 and 232-234: push the attribute if the key is found. -/
def pushed (L : Lib K) (key attr : String) (s : Text) : Res (List (Attr K)) :=
  match word key s with
  | none => .ok []
  | some w => L.string2type w >>= fun v => .ok [num attr v]

/-- src/coordSys/ProjectionImpl.cc:237-251: axes of the earth. -/
def axesFrom (L : Lib K) (s : Text) : Res (List (Attr K)) :=
  match search noSpace [plus "a", plus "R"] s with
  | none => .ok []
  | some w =>
    L.string2type w >>= fun a =>
      (match word "e" s with
        | some e => if e = "0".toList then .ok none else L.string2type e >>= fun e => .ok (some (axes a (L.sqrt (a * a * (1 - e * e)))))
        | none => .ok none) >>= fun r =>
      match r with
      | some l => .ok (num "semi_major_axis" a :: l)
      | none =>
        match word "b" s with
        | some b => L.string2type b >>= fun b => .ok (num "semi_major_axis" a :: axes a b)
        | none => .ok [num "semi_major_axis" a, num "earth_radius" a]

/-- src/coordSys/ProjectionImpl.cc:254-255. -/
def ellipsoidName (s : Text) : Option Text :=
  match word "ellps" s with
  | some w => some w
  | none => word "datum" s

/-- src/coordSys/ProjectionImpl.cc:287-315: `towgs84`. -/
def towgs84From (L : Lib K) (s : Text) : Res (List (Attr K)) :=
  match word "towgs84" s with
  | some w => L.dotted w >>= fun v => .ok [⟨"towgs84", .nums (bursaWolff v)⟩]
  | none =>
    match word "datum" s with
    | some d =>
      .ok [⟨"towgs84", .nums (if d.map Char.toLower = "ggrs87".toList then [-19987 / 100, 7479 / 100, 24662 / 100] else [0, 0, 0])⟩]
    | none => .ok []

/-- One after the other, each may throw; what they push. -/
def collect : List (Res (List (Attr K))) → Res (List (Attr K))
  | [] => .ok []
  | r :: rs => r >>= fun x => collect rs >>= fun y => .ok (x ++ y)

/-- src/coordSys/ProjectionImpl.cc:224-316 `proj4GetEarthAttributes`: what is pushed. -/
def earthAttributes (L : Lib K) (s : Text) : Res (List (Attr K)) :=
  collect [pushed L "x_0" "false_easting" s, pushed L "y_0" "false_northing" s, axesFrom L s,
    .ok (match ellipsoidName s with | some n => ellipsoid n | none => []), towgs84From L s]

/-! ## The projections -/

inductive Kind where
  | albers | azimuthalEquidistant | geostationary | lambertAzimuthal | lambertConformal | lambertCylindrical | latLong
  | mercator | obliqueMercator | orthographic | polarStereographic | rotated | sinusoidal | stereographic
  | transverseMercator | verticalPerspective | unknown
  deriving DecidableEq, Repr

/-- `grid_mapping_name`, from the constructors: src/coordSys/AlbersConicalEqualAreaProjection.cc:37 and the like. -/
def Kind.name : Kind → String
  | albers => "albers_conical_equal_area"
  | azimuthalEquidistant => "azimuthal_equidistant"
  | geostationary => "geostationary"
  | lambertAzimuthal => "lambert_azimuthal_equal_area"
  | lambertConformal => "lambert_conformal_conic"
  | lambertCylindrical => "lambert_cylindrical_equal_area"
  | latLong => "latitude_longitude"
  | mercator => "mercator"
  | obliqueMercator => "oblique_mercator"
  | orthographic => "orthographic"
  | polarStereographic => "polar_stereographic"
  | rotated => "rotated_latitude_longitude"
  | sinusoidal => "sinusoidal"
  | stereographic => "stereographic"
  | transverseMercator => "transverse_mercator"
  | verticalPerspective => "vertical_perspective"
  | unknown => "unknown_to_fgdc"

/-- A projection: its class, and `params_`. -/
structure Projection (K : Type) where
  kind : Kind
  params : List (Attr K)
  deriving DecidableEq, Repr

/-- src/coordSys/Projection.cc:116-152: the chain of names. -/
def kindOfName (n : Text) : Option Kind :=
  if n = "albers_conical_equal_area".toList then some .albers
  else if n = "azimuthal_equidistant".toList then some .azimuthalEquidistant
  else if n = "geostationary".toList then some .geostationary
  else if n = "lambert_azimuthal_equal_area".toList then some .lambertAzimuthal
  else if n = "lambert_conformal_conic".toList then some .lambertConformal
  else if n = "lambert_cylindrical_equal_area".toList then some .lambertCylindrical
  else if n = "latitude_longitude".toList then some .latLong
  else if n = "mercator".toList then some .mercator
  else if n = "oblique_mercator".toList then some .obliqueMercator
  else if n = "orthographic".toList then some .orthographic
  else if n = "polar_stereographic".toList then some .polarStereographic
  else if n = "rotated_latitude_longitude".toList then some .rotated
  else if n = "sinusoidal".toList then some .sinusoidal
  else if n = "stereographic".toList then some .stereographic
  else if n = "transverse_mercator".toList then some .transverseMercator
  else if n = "vertical_perspective".toList then some .verticalPerspective
  else if n = "unknown_to_fgdc".toList then some .unknown
  else none

/-- src/coordSys/ProjectionImpl.cc:47-53: a new projection, the earth a sphere of 6371000 m (`MIFI_EARTH_RADIUS_M`,
include/fimex/mifi_constants.h). -/
def fresh (k : Kind) : Projection K := ⟨k, [num "earth_radius" 6371000]⟩

/-- src/coordSys/Projection.cc:108-156 `Projection::create`. -/
def create (L : Lib K) (attrs : List (Attr K)) : Res (Projection K) :=
  (match find "grid_mapping_name" attrs with
    | none => .ok Kind.latLong
    | some a => match kindOfName (a.str L) with | some k => .ok k | none => .throws) >>= fun k =>
  addParameters L k.name.toList attrs (fresh k).params >>= fun ps => .ok ⟨k, ps⟩

/-- src/coordSys/OrthographicProjection.cc:39-46 `extractProj4InitValue`, and the same lines written out in the others
(e.g. src/coordSys/AzimuthalEquidistantProjection.cc:56-60): a number, 0 if it is not given; push the attribute. -/
def pushed0 (L : Lib K) (key attr : String) (s : Text) : Res (List (Attr K)) :=
  (match word key s with
    | some w => L.string2type w
    | none => .ok 0) >>= fun v => .ok [num attr v]

/-- src/coordSys/StereographicProjection.cc:60-63: push the attribute if the key is found, read with `strtod`. -/
def pushedC (L : Lib K) (key attr : String) (s : Text) : List (Attr K) :=
  match word key s with
  | none => []
  | some w => [num attr (L.strtod w)]

/-- src/coordSys/AlbersConicalEqualAreaProjection.cc:57-69, src/coordSys/LambertConformalConicProjection.cc:55-67. -/
def parallelsFrom (L : Lib K) (s : Text) : Res (List (Attr K)) :=
  match word "lat_1" s with
  | none => .ok []
  | some w =>
    L.string2type w >>= fun l1 =>
      match word "lat_2" s with
      | some w2 => L.string2type w2 >>= fun l2 => .ok [⟨"standard_parallel", .nums [l1, l2]⟩]
      | none => .ok [num "standard_parallel" l1]

/-- src/coordSys/PolarStereographicProjection.cc:39-51 `acceptsProj4`. -/
def acceptsPolar (L : Lib K) (s : Text) : Res Bool :=
  if matchesName s "stere" then
    match word "lat_0" s with
    | some w => L.string2type w >>= fun v => .ok (decide (|(|v| - 90)| < 1 / 10000))
    | none => .ok false
  else .ok false

/-- src/coordSys/RotatedLatitudeLongitudeProjection.cc:48-60 `acceptsProj4`. -/
def acceptsRotated (s : Text) : Bool :=
  matchesName s "ob_tran" && (word "o_proj" s = some "latlong".toList || word "o_proj" s = some "longlat".toList)

/-- `acceptsProj4` of the classes: src/coordSys/AlbersConicalEqualAreaProjection.cc:43-46,
src/coordSys/AzimuthalEquidistantProjection.cc:42-45, src/coordSys/GeostationaryProjection.cc:42-45,
src/coordSys/LambertAzimuthalEqualAreaProjection.cc:40-43, src/coordSys/LambertConformalConicProjection.cc:41-44,
src/coordSys/LambertCylindricalEqualAreaProjection.cc:42-45, src/coordSys/LatitudeLongitudeProjection.cc:45-48,
src/coordSys/MercatorProjection.cc:41-44, src/coordSys/ObliqueMercatorProjection.cc:45-48,
src/coordSys/OrthographicProjection.cc:55-58, src/coordSys/SinusoidalProjection.cc:45-48,
src/coordSys/StereographicProjection.cc:46-49, src/coordSys/TransverseMercatorProjection.cc:45-49,
src/coordSys/VerticalPerspectiveProjection.cc:42-45, src/coordSys/UnknownToFgdcProjection.cc:44-47. -/
def accepts (L : Lib K) (s : Text) : Kind → Res Bool
  | .albers => .ok (matchesName s "aea")
  | .azimuthalEquidistant => .ok (matchesName s "aeqd")
  | .geostationary => .ok (matchesName s "geos")
  | .lambertAzimuthal => .ok (matchesName s "laea")
  | .lambertConformal => .ok (matchesName s "lcc")
  | .lambertCylindrical => .ok (matchesName s "cea")
  | .latLong => .ok (matchesName s "latlong" || matchesName s "longlat")
  | .mercator => .ok (matchesName s "merc")
  | .obliqueMercator => .ok (matchesName s "omerc")
  | .orthographic => .ok (matchesName s "ortho")
  | .polarStereographic => acceptsPolar L s
  | .rotated => .ok (acceptsRotated s)
  | .sinusoidal => .ok (matchesName s "sinu")
  | .stereographic => .ok (matchesName s "stere")
  | .transverseMercator =>
    .ok (matchesName s "tmerc" || matchesName s "utm" || matchesName s "gstmerc" || matchesName s "etmerc")
  | .verticalPerspective => .ok (matchesName s "nsper")
  | .unknown => .ok (word "proj" s).isSome

omit [Field K] [LinearOrder K] in
/-- `attrs.push_back(CDMAttribute("grid_mapping_name", …))`. -/
def gridMapping (k : Kind) : Res (List (Attr K)) := .ok [txt "grid_mapping_name" k.name.toList]

/-- src/coordSys/StereographicProjection.cc:51-80 `parametersFromProj4`. -/
def stereographicFrom (L : Lib K) (s : Text) : Res (List (Attr K)) :=
  collect [gridMapping .stereographic, .ok (pushedC L "lon_0" "longitude_of_projection_origin" s),
    .ok (pushedC L "lat_0" "latitude_of_projection_origin" s),
    .ok (if (word "lat_ts" s).isSome then pushedC L "lat_ts" "standard_parallel" s
      else pushedC L "k" "scale_factor_at_projection_origin" s),
    earthAttributes L s]

/-- src/coordSys/PolarStereographicProjection.cc:63-73: replace the first attribute of a name. -/
def renamed (name : String) (a : Attr K) : List (Attr K) → Res (List (Attr K))
  | [] => .throws
  | b :: as => if b.name = name then .ok (a :: as) else renamed name a as >>= fun r => .ok (b :: r)

/-- src/coordSys/PolarStereographicProjection.cc:53-76 `parametersFromProj4`.  The attribute of the longitude comes from
`pushedC`, it has one number. -/
def polarFrom (L : Lib K) (s : Text) : Res (List (Attr K)) :=
  stereographicFrom L s >>= fun as =>
  renamed "grid_mapping_name" (txt "grid_mapping_name" Kind.polarStereographic.name.toList) as >>= fun as =>
  match find "longitude_of_projection_origin" as with
  | none => .throws
  | some a =>
    match a.val.doubles L with
    | [] => .ub
    | v :: _ => renamed "longitude_of_projection_origin" (num "straight_vertical_longitude_from_pole" v) as

/-- src/coordSys/RotatedLatitudeLongitudeProjection.cc:69-81: a number with a default. -/
def numberOr (L : Lib K) (d : K) (key : String) (s : Text) : Res K :=
  match word key s with
  | some w => L.string2type w
  | none => .ok d

/-- include/fimex/MathUtils.h:140-150 `normalizeLongitude180`, with as many rounds as given: running out of them stands for
a loop that does not end. -/
def pole (fuel : ℕ) (x : K) : Res K :=
  match Longitude.normalizeExact fuel (180 + x) with
  | some y => .ok y
  | none => .ub

/-- src/coordSys/RotatedLatitudeLongitudeProjection.cc:62-90 `parametersFromProj4`. -/
def rotatedFrom (L : Lib K) (fuel : ℕ) (s : Text) : Res (List (Attr K)) :=
  numberOr L 90 "o_lat_p" s >>= fun lat =>
  numberOr L 0 "o_lon_p" s >>= fun gridLon =>
  numberOr L 0 "lon_0" s >>= fun lon =>
  pole fuel lon >>= fun poleLon =>
  earthAttributes L s >>= fun e =>
  .ok ([txt "grid_mapping_name" Kind.rotated.name.toList, num "grid_north_pole_longitude" poleLon,
    num "grid_north_pole_latitude" lat] ++
    (if gridLon > 1 / 10000 then [num "north_pole_grid_longitude" gridLon] else []) ++ e)

omit [Field K] [LinearOrder K] in
/-- The number of a row of digits. -/
def digitsValue (w : Text) : ℕ := w.foldl (fun n c => 10 * n + (c.toNat - '0'.toNat)) 0

/-- src/coordSys/TransverseMercatorProjection.cc:65-71: zone.  `string2type<short>` throws above 32767. -/
def zoneFrom (s : Text) : Res (List (Attr K)) :=
  match search isDigit [plus "zone"] s with
  | none => .ok []
  | some w =>
    if digitsValue w > 32767 then .throws
    else
      let z : ℤ := digitsValue w
      let z := if z ≤ 0 then 1 else if z > 60 then 60 else z
      .ok [num "longitude_of_central_meridian" ((((z - 1) * 6 - 180 + 3 : ℤ)) : K)]

/-- src/coordSys/TransverseMercatorProjection.cc:73-76: of `\d+|\d+\.\d+` the first alternative matches whenever the second
does. -/
def utmLongitude (L : Lib K) (s : Text) : Res (List (Attr K)) :=
  match search isDigit [plus "lon_0"] s with
  | none => .ok []
  | some w => L.string2type w >>= fun v => .ok [num "longitude_of_central_meridian" v]

/-- src/coordSys/TransverseMercatorProjection.cc:51-105 `parametersFromProj4`. -/
def transverseFrom (L : Lib K) (s : Text) : Res (List (Attr K)) :=
  if matchesName s "utm" then
    collect [gridMapping .transverseMercator,
      .ok [num "scale_factor_at_central_meridian" (9996 / 10000), num "latitude_of_projection_origin" 0,
        num "false_easting" 500000],
      zoneFrom s, utmLongitude L s,
      .ok (if occurs "+south".toList s then [num "false_northing" 10000000] else []),
      earthAttributes L s]
  else
    collect [gridMapping .transverseMercator, pushed0 L "lon_0" "longitude_of_central_meridian" s,
      pushed L "lat_0" "latitude_of_projection_origin" s, pushed L "k" "scale_factor_at_central_meridian" s,
      earthAttributes L s]

/-- `parametersFromProj4` of the classes, for a text the class accepts:
src/coordSys/AlbersConicalEqualAreaProjection.cc:48-85, src/coordSys/AzimuthalEquidistantProjection.cc:47-70,
src/coordSys/GeostationaryProjection.cc:47-82, src/coordSys/LambertAzimuthalEqualAreaProjection.cc:45-68,
src/coordSys/LambertConformalConicProjection.cc:46-83, src/coordSys/LambertCylindricalEqualAreaProjection.cc:47-73,
src/coordSys/LatitudeLongitudeProjection.cc:50-60, src/coordSys/MercatorProjection.cc:46-73,
src/coordSys/ObliqueMercatorProjection.cc:50-96, src/coordSys/OrthographicProjection.cc:60-71,
src/coordSys/SinusoidalProjection.cc:50-68, src/coordSys/VerticalPerspectiveProjection.cc:47-77,
src/coordSys/UnknownToFgdcProjection.cc:58-69. -/
def parameters (L : Lib K) (fuel : ℕ) (s : Text) : Kind → Res (List (Attr K))
  | .albers =>
    collect [gridMapping .albers, parallelsFrom L s, pushed0 L "lon_0" "longitude_of_central_meridian" s,
      pushed0 L "lat_0" "latitude_of_projection_origin" s, earthAttributes L s]
  | .azimuthalEquidistant =>
    collect [gridMapping .azimuthalEquidistant, pushed0 L "lon_0" "longitude_of_projection_origin" s,
      pushed0 L "lat_0" "latitude_of_projection_origin" s, earthAttributes L s]
  | .geostationary =>
    collect [gridMapping .geostationary, pushed0 L "lon_0" "longitude_of_projection_origin" s,
      pushed0 L "lat_0" "latitude_of_projection_origin" s, pushed0 L "h" "perspective_point_height" s,
      .ok [txt "sweep_axis" ((word "sweep" s).getD "y".toList)], earthAttributes L s]
  | .lambertAzimuthal =>
    collect [gridMapping .lambertAzimuthal, pushed0 L "lon_0" "longitude_of_projection_origin" s,
      pushed0 L "lat_0" "latitude_of_projection_origin" s, earthAttributes L s]
  | .lambertConformal =>
    collect [gridMapping .lambertConformal, parallelsFrom L s, pushed0 L "lon_0" "longitude_of_central_meridian" s,
      pushed0 L "lat_0" "latitude_of_projection_origin" s, earthAttributes L s]
  | .lambertCylindrical =>
    collect [gridMapping .lambertCylindrical, pushed0 L "lon_0" "longitude_of_central_meridian" s,
      pushed L "lat_ts" "standard_parallel" s, pushed L "k" "scale_factor_at_projection_origin" s, earthAttributes L s]
  | .latLong => collect [gridMapping .latLong, earthAttributes L s]
  | .mercator =>
    collect [gridMapping .mercator, pushed0 L "lon_0" "longitude_of_projection_origin" s,
      pushed L "lat_ts" "standard_parallel" s, pushed L "k" "scale_factor_at_projection_origin" s, earthAttributes L s]
  | .obliqueMercator =>
    collect [gridMapping .obliqueMercator, pushed0 L "lonc" "longitude_of_projection_origin" s,
      pushed L "lat_0" "latitude_of_projection_origin" s, pushed0 L "alpha" "azimuth_of_central_line" s,
      pushed0 L "gamma" "gamma" s, pushed L "k" "scale_factor_at_projection_origin" s,
      .ok (if occurs "+no_rot".toList s then [txt "no_rotation" []] else []), earthAttributes L s]
  | .orthographic =>
    collect [gridMapping .orthographic, pushed0 L "lon_0" "longitude_of_projection_origin" s,
      pushed0 L "lat_0" "latitude_of_projection_origin" s, earthAttributes L s]
  | .polarStereographic => polarFrom L s
  | .rotated => rotatedFrom L fuel s
  | .sinusoidal =>
    collect [gridMapping .sinusoidal, pushed0 L "lon_0" "longitude_of_projection_origin" s, earthAttributes L s]
  | .stereographic => stereographicFrom L s
  | .transverseMercator => transverseFrom L s
  | .verticalPerspective =>
    collect [gridMapping .verticalPerspective, pushed0 L "lon_0" "longitude_of_projection_origin" s,
      pushed0 L "lat_0" "latitude_of_projection_origin" s, pushed0 L "h" "perspective_point_height" s,
      earthAttributes L s]
  | .unknown => collect [gridMapping .unknown, earthAttributes L s, .ok [txt "proj4" s]]

/-- src/coordSys/Projection.cc:161-196: the classes in the order they are asked. -/
def asked : List Kind :=
  [.albers, .azimuthalEquidistant, .geostationary, .lambertAzimuthal, .lambertConformal, .lambertCylindrical, .latLong,
   .mercator, .obliqueMercator, .orthographic, .polarStereographic, .rotated, .sinusoidal, .stereographic,
   .transverseMercator, .verticalPerspective, .unknown]

/-- The first class that accepts the text, src/coordSys/Projection.cc:161-196. -/
def firstOf (L : Lib K) (s : Text) : List Kind → Res (Option Kind)
  | [] => .ok none
  | k :: ks => accepts L s k >>= fun b => if b then .ok (some k) else firstOf L s ks

/-- src/coordSys/Projection.cc:158-203 `Projection::createByProj4`.  `parametersFromProj4` asks `acceptsProj4` again and
returns no attributes otherwise; that is not modelled. -/
def createByProj4 (L : Lib K) (fuel : ℕ) (s : Text) : Res (Projection K) :=
  firstOf L s asked >>= fun k =>
  match k with
  | none => .throws
  | some k => parameters L fuel s k >>= fun as => if as = [] then .throws else create L as

/-- src/coordSys/AlbersConicalEqualAreaProjection.cc:90-102, src/coordSys/LambertConformalConicProjection.cc:88-100:
the standard parallels.  Reading the first of no numbers is undefined. -/
def parallelsPart (L : Lib K) (ps : List (Attr K)) : Res Text :=
  match find "standard_parallel" ps with
  | none => .ok " +lat_1=0 +lat_2=0".toList
  | some a =>
    match a.val.doubles L with
    | [] => .ub
    | x :: xs =>
      .ok (" +lat_1=".toList ++ L.print6 x ++ " +lat_2=".toList ++
        (match xs with
          | y :: _ :: _ => L.print6 y
          | _ => L.print6 x))

/-- src/coordSys/RotatedLatitudeLongitudeProjection.cc:95-100. -/
def polePart (L : Lib K) (ps : List (Attr K)) : Text :=
  match find "grid_north_pole_longitude" ps with
  | none => []
  | some a =>
    match a.val.doubles L with
    | [] => []
    | x :: _ => " +lon_0=".toList ++ L.print6 (x - 180)

/-- `getProj4ProjectionPart` of the classes: src/coordSys/AlbersConicalEqualAreaProjection.cc:87-107,
src/coordSys/AzimuthalEquidistantProjection.cc:72-79, src/coordSys/GeostationaryProjection.cc:84-93,
src/coordSys/LambertAzimuthalEqualAreaProjection.cc:70-77, src/coordSys/LambertConformalConicProjection.cc:85-105,
src/coordSys/LambertCylindricalEqualAreaProjection.cc:75-83, src/coordSys/LatitudeLongitudeProjection.cc:62-65,
src/coordSys/MercatorProjection.cc:75-82, src/coordSys/ObliqueMercatorProjection.cc:98-108,
src/coordSys/OrthographicProjection.cc:73-80, src/coordSys/StereographicProjection.cc:82-91 (also polar),
src/coordSys/RotatedLatitudeLongitudeProjection.cc:92-104, src/coordSys/SinusoidalProjection.cc:70-75,
src/coordSys/TransverseMercatorProjection.cc:107-120 (`PJ_VERSION` comes from a header that is not included: it counts as 0),
src/coordSys/VerticalPerspectiveProjection.cc:79-87, src/coordSys/UnknownToFgdcProjection.cc:71-75. -/
def projectionPart (L : Lib K) (ps : List (Attr K)) : Kind → Res Text
  | .albers =>
    parallelsPart L ps >>= fun t =>
    .ok ("+proj=aea".toList ++ t ++ streamed L ps "longitude_of_central_meridian" " +lon_0=" ++
      streamed L ps "latitude_of_projection_origin" " +lat_0=")
  | .azimuthalEquidistant =>
    .ok ("+proj=aeqd".toList ++ streamed L ps "longitude_of_projection_origin" " +lon_0=" ++
      streamed L ps "latitude_of_projection_origin" " +lat_0=")
  | .geostationary =>
    .ok ("+proj=geos".toList ++ streamed L ps "longitude_of_projection_origin" " +lon_0=" ++
      streamed L ps "latitude_of_projection_origin" " +lat_0=" ++ streamed L ps "perspective_point_height" " +h=" ++
      streamed L ps "sweep_angle_axis" " +sweep=")
  | .lambertAzimuthal =>
    .ok ("+proj=laea".toList ++ streamed L ps "longitude_of_projection_origin" " +lon_0=" ++
      streamed L ps "latitude_of_projection_origin" " +lat_0=")
  | .lambertConformal =>
    parallelsPart L ps >>= fun t =>
    .ok ("+proj=lcc".toList ++ t ++ streamed L ps "longitude_of_central_meridian" " +lon_0=" ++
      streamed L ps "latitude_of_projection_origin" " +lat_0=")
  | .lambertCylindrical =>
    .ok ("+proj=cea".toList ++ streamed L ps "longitude_of_central_meridian" " +lon_0=" ++
      streamed L ps "standard_parallel" " +lat_ts=" ++ streamed L ps "scale_factor_at_projection_origin" " +k=")
  | .latLong => .ok "+proj=latlong".toList
  | .mercator =>
    .ok ("+proj=merc".toList ++ streamed L ps "longitude_of_projection_origin" " +lon_0=" ++
      streamed L ps "standard_parallel" " +lat_ts=" ++ streamed L ps "scale_factor_at_projection_origin" " +k_0=")
  | .obliqueMercator =>
    .ok ("+proj=omerc".toList ++ streamed L ps "longitude_of_projection_origin" " +lonc=" ++
      streamed L ps "latitude_of_projection_origin" " +lat_0=" ++ streamed L ps "azimuth_of_central_line" " +alpha=" ++
      streamed L ps "gamma" " +gamma=" ++ streamed L ps "scale_factor_at_projection_origin" " +k_0=" ++
      streamed L ps "no_rotation" " +no_rot")
  | .orthographic =>
    .ok ("+proj=ortho".toList ++ streamed L ps "longitude_of_projection_origin" " +lon_0=" ++
      streamed L ps "latitude_of_projection_origin" " +lat_0=")
  | .polarStereographic | .stereographic =>
    .ok ("+proj=stere".toList ++ streamed L ps "latitude_of_projection_origin" " +lat_0=" ++
      streamed L ps "straight_vertical_longitude_from_pole" " +lon_0=" ++
      streamed L ps "longitude_of_projection_origin" " +lon_0=" ++
      streamed L ps "scale_factor_at_projection_origin" " +k=" ++ streamed L ps "standard_parallel" " +lat_ts=")
  | .rotated =>
    .ok ("+proj=ob_tran +o_proj=longlat".toList ++ polePart L ps ++
      streamed L ps "grid_north_pole_latitude" " +o_lat_p=" ++ streamed L ps "north_pole_grid_longitude" " +o_lon_p=")
  | .sinusoidal => .ok ("+proj=sinu".toList ++ streamed L ps "longitude_of_projection_origin" " +lon_0=")
  | .transverseMercator =>
    .ok ("+proj=tmerc".toList ++ streamed L ps "longitude_of_central_meridian" " +lon_0=" ++
      streamed L ps "latitude_of_projection_origin" " +lat_0=" ++
      streamed L ps "scale_factor_at_central_meridian" " +k_0=")
  | .verticalPerspective =>
    .ok ("+proj=nsper".toList ++ streamed L ps "longitude_of_projection_origin" " +lon_0=" ++
      streamed L ps "latitude_of_projection_origin" " +lat_0=" ++ streamed L ps "perspective_point_height" " +h=")
  | .unknown => .throws

/-- src/coordSys/ProjectionImpl.cc:119-134 `getProj4String`, and src/coordSys/UnknownToFgdcProjection.cc:49-56. -/
def proj4String (L : Lib K) (P : Projection K) : Res Text :=
  match P.kind with
  | .unknown =>
    match find "proj4" P.params with
    | none => .throws
    | some a => .ok (a.str L)
  | k =>
    projectionPart L P.params k >>= fun t =>
    .ok (t ++ streamed L P.params "false_easting" " +x_0=" ++ streamed L P.params "false_northing" " +y_0=" ++
      " ".toList ++ earthString L P.params ++ " +no_defs".toList)

/-! ## Another earth -/

/-- src/coordSys/Projection.cc:214-219. -/
def earthParts : List Text := ["+a=", "+b=", "+e=", "+R=", "+ellps=", "+datum="].map String.toList

/-- src/coordSys/Projection.cc:205-224 `replaceProj4Earthfigure`.  `tokenize(proj4, " ")`, src/StringUtils.cc:87-105, splits
at spaces and leaves empty words out (C26). -/
def replaceEarth (s new : Text) : Text :=
  if new = [] then s
  else joined [' '] (((s.splitOn ' ').filter (· ≠ [])).filter (fun p => ¬ earthParts.any fun e => occurs e p) ++ [new])

end Fimex.Proj
