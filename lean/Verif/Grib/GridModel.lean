import Verif.Basic
import Mathlib.Algebra.Order.Floor.Ring
import Mathlib.Algebra.Order.Field.Basic
import Mathlib.Algebra.Order.Round
import Mathlib.Data.Rat.Floor

/-!
# Grids in GRIB messages

Model of `setProjection` of the GRIB writers (`src/io/grib/GribApiCDMWriter_Impl1.cc`, `src/io/grib/GribApiCDMWriter_Impl2.cc`),
which sets the keys of a message describing the grid of a variable, and of the functions of `src/io/grib/GribFileIndex.cc` and
`src/io/grib/GribCDMIndexer.cc` reading the grid of a message and making axes of it.

Simplifications.  Arithmetic is exact.  The GRIB library is a store of keys: a value set is the value got (the packing of angles
to 0.001 or 0.000001 degrees is left out), keys naming the same entry are aliases (`canon`), `GRIB_CHECK` (which ends the process
when the library refuses a value) always succeeds.  A projection read is kept by its parameters instead of its text; a number goes
into that text with the digits an output stream writes, which is the parameter `print`.  The figure of the earth is left out.
A NaN found in a message is not followed further: reading it counts as an error.
-/

namespace Fimex.GribGrid

/-! ## Messages as stores of keys -/

/-- A value of a key; a double may be NaN. -/
inductive Val (K : Type) where
  | long (i : ℤ)
  | dbl (x : Option K)
  | text (s : String)
deriving DecidableEq

/-- The keys of a message, the one set last first. -/
abbrev Handle (K : Type) := List (String × Val K)

/-- The GRIB library's names for the two numbers of points. -/
def canon (k : String) : String :=
  if k = "numberOfPointsAlongAParallel" ∨ k = "numberOfPointsAlongXAxis" ∨ k = "Nx" then "Ni"
  else if k = "numberOfPointsAlongAMeridian" ∨ k = "numberOfPointsAlongYAxis" ∨ k = "Ny" then "Nj"
  else k

variable {K : Type}

/-- `grib_set_long`, `grib_set_double`, `grib_set_string`. -/
def set (h : Handle K) (k : String) (v : Val K) : Handle K := (canon k, v) :: h

/-- What is stored for a key. -/
def get (h : Handle K) (k : String) : Option (Val K) := h.lookup (canon k)

/-- src/io/grib/GribFileIndex.cc:115-128 `grib_get` for `long`; a double is not asked for as long. -/
def getLong (h : Handle K) (k : String) : Res ℤ :=
  match get h k with
  | some (.long i) => .ok i
  | _ => .throws

/-- src/io/grib/GribFileIndex.cc:100-108 `grib_get` for `double`. -/
def getDouble [IntCast K] (h : Handle K) (k : String) : Res K :=
  match get h k with
  | some (.long i) => .ok (i : K)
  | some (.dbl (some x)) => .ok x
  | _ => .throws

/-- src/io/grib/GribFileIndex.cc:84-92 `grib_get` for texts. -/
def getText (h : Handle K) (k : String) : Res String :=
  match get h k with
  | some (.text s) => .ok s
  | _ => .throws

/-- The settings made by a call, in order, and its outcome: an exception keeps the settings made before it. -/
structure Sets (K : Type) where
  keys : List (String × Val K)
  out : Res Unit

/-- Nothing more to do. -/
def done : Sets K := ⟨[], .ok ()⟩
/-- `throw CDMException`. -/
def raise : Sets K := ⟨[], .throws⟩
/-- One setting. -/
def put (k : String) (v : Val K) (s : Sets K) : Sets K := ⟨(k, v) :: s.keys, s.out⟩
/-- A value is computed, then the rest is done. -/
def need {α : Type} (r : Res α) (f : α → Sets K) : Sets K :=
  match r with
  | .ok a => f a
  | .throws => raise
  | .ub => ⟨[], .ub⟩

/-- The message after the settings. -/
def apply (h : Handle K) (s : Sets K) : Handle K := s.keys.foldl (fun h kv => set h kv.1 kv.2) h

/-! ## Loops over angles -/

section loops
variable [Field K] [LinearOrder K]

/-- `while (x < bound) x += step` with at most so many rounds. -/
def up (bound step : K) : ℕ → K → K
  | 0, x => x
  | n + 1, x => if x < bound then up bound step n (x + step) else x

/-- `while (x > bound) x -= step` with at most so many rounds. -/
def down (bound step : K) : ℕ → K → K
  | 0, x => x
  | n + 1, x => if bound < x then down bound step n (x - step) else x

variable [FloorRing K]

/-- As many rounds as a loop with steps of at least 1 can need (`C110_loops`). -/
def rounds (bound x : K) : ℕ := ⌈|bound - x|⌉.toNat

/-- src/io/grib/GribApiCDMWriter_Impl1.cc:165-170: `while (lon0 < 0) lon0 += 360`. -/
def upward (x : K) : K := up 0 360 (rounds 0 x) x

/-- src/io/grib/GribApiCDMWriter_Impl2.cc:43-52 `clamp_lon`. -/
def clampLon (x : K) : K := down 360 360 (rounds 360 (upward x)) (upward x)

/-- include/fimex/MathUtils.h:141-150 `normalizeLongitude180`. -/
def norm180 (x : K) : K :=
  let y := up (-180) 360 (rounds (-180) x) x
  down 180 360 (rounds 180 y) y

/-- src/io/grib/GribApiCDMWriter_Impl1.cc:226-229 and src/io/grib/GribApiCDMWriter_Impl2.cc:235-238. -/
def southLat (north : K) : K := up (-90) 180 (rounds (-90) (-1 * north)) (-1 * north)

/-- `static_cast<long>`: the digits before the point; undefined when they do not fit. -/
def toLong (x : K) : Res ℤ :=
  let t := if 0 ≤ x then ⌊x⌋ else ⌈x⌉
  if -2 ^ 63 ≤ t ∧ t < 2 ^ 63 then .ok t else .ub

end loops

/-! ## Writing -/

/-- A projection: name and parameters. -/
structure Projection (K : Type) where
  name : String
  params : List (String × List K)

/-- Longitudes and latitudes of a variable in degrees, and as stored. -/
structure LonLat (K : Type) where
  lon : Res (List K)
  lat : Res (List K)
  lonRaw : Res (List K)
  latRaw : Res (List K)

/-- What `setProjection` asks about a variable: `getProjectionOf`, the horizontal axes (`getScaledDataInUnit` for metres and for
degrees), longitude and latitude if `getLatitudeLongitude` finds them. -/
structure Source (K : Type) where
  proj : Option (Projection K)
  xm : Res (List K)
  ym : Res (List K)
  xdeg : Res (List K)
  ydeg : Res (List K)
  lonlat : Option (LonLat K)

variable [Field K] [LinearOrder K] [FloorRing K]

/-- `find_if(… CDMNameEqual …)`: the values of a parameter. -/
def Projection.find (p : Projection K) (n : String) : Option (List K) := p.params.lookup n

/-- `ait->getData()->asDouble()[0]` if there is the parameter, else the default. -/
def Projection.first (p : Projection K) (n : String) (dflt : K) : Res K :=
  match p.find n with
  | none => .ok dflt
  | some l => readAt l 0

/-- `asin` in degrees: NaN outside of [-1, 1]. -/
def arc (asinDeg : K → K) (x : K) : Option K := if -1 ≤ x ∧ x ≤ 1 then some (asinDeg x) else none

/-- src/io/grib/GribApiCDMWriter_Impl1.cc:106-131 and src/io/grib/GribApiCDMWriter_Impl2.cc:111-129: the latitude by the scale
factor; `x <= 1 || x >= -1` holds for every number. -/
def latOfScale (asinDeg : K → K) (dflt : K) (p : Projection K) : Res (Option K) :=
  match p.find "scale_factor_at_projection_origin" with
  | none => .ok (some dflt)
  | some l => do
    let scale ← readAt l 0
    let x := 2 * scale - 1
    if x ≤ 1 ∨ x ≥ -1 then .ok (arc asinDeg (2 * scale - 1)) else .throws

/-- src/io/grib/GribApiCDMWriter_Impl1.cc:76-112 (`polar` is "polar_stereographic", `dflt` is 60) and
src/io/grib/GribApiCDMWriter_Impl2.cc:98-134 ("polar_stereograhpic", 90): latitude where the distances hold, orientation. -/
def stereoAngles (asinDeg : K → K) (polar : String) (dflt : K) (p : Projection K) : Res (Option K × K) :=
  if p.name = polar then do
    let o ← p.first "straight_vertical_longitude_from_pole" 0
    .ok (some dflt, o)
  else do
    let lat ← p.first "latitude_of_projection_origin" 90
    if |lat| < 899995 / 10000 then .throws
    else
      let ts ← latOfScale asinDeg dflt p
      let o ← p.first "longitude_of_projection_origin" 0
      .ok (ts, o)

/-- The sizes and the first two values of two axes. -/
structure Steps (K : Type) where
  nx : ℕ
  ny : ℕ
  dx : K
  dy : K

/-- `size() < 2` raises; else sizes and `a[1] - a[0]`. -/
def steps (xs ys : List K) : Res (Steps K) :=
  if xs.length < 2 ∨ ys.length < 2 then .throws
  else do
    let x0 ← readAt xs 0
    let x1 ← readAt xs 1
    let y0 ← readAt ys 0
    let y1 ← readAt ys 1
    .ok ⟨xs.length, ys.length, x1 - x0, y1 - y0⟩

/-- src/io/grib/GribApiCDMWriter_Impl2.cc:95-160: polar stereographic grids, edition 2. -/
def stereo2 (asinDeg : K → K) (s : Source K) (p : Projection K) : Sets K :=
  need (stereoAngles asinDeg "polar_stereograhpic" 90 p) fun a =>
  put "typeOfGrid" (.text "polar_stereographic") <|
  need s.xm fun xs => need s.ym fun ys => need (steps xs ys) fun st =>
  put "numberOfPointsAlongXAxis" (.long st.nx) <| put "numberOfPointsAlongYAxis" (.long st.ny) <|
  put "DxInMetres" (.dbl (some st.dx)) <| put "DyInMetres" (.dbl (some st.dy)) <|
  match s.lonlat with
  | none => raise
  | some ll =>
    need ll.lon fun lons => need (readAt lons 0) fun lon =>
    need ll.lat fun lats => need (readAt lats 0) fun lat =>
    put "latitudeOfFirstGridPointInDegrees" (.dbl (some lat)) <|
    put "longitudeOfFirstGridPointInDegrees" (.dbl (some (clampLon lon))) <|
    put "orientationOfTheGridInDegrees" (.dbl (some (clampLon a.2))) <|
    put "latitudeWhereDxAndDyAreSpecifiedInDegrees" (.dbl a.1) done

/-- src/io/grib/GribApiCDMWriter_Impl1.cc:73-141: polar stereographic grids, edition 1. -/
def stereo1 (asinDeg : K → K) (s : Source K) (p : Projection K) : Sets K :=
  need (stereoAngles asinDeg "polar_stereographic" 60 p) fun a =>
  put "typeOfGrid" (.text "polar_stereographic") <|
  need s.xm fun xs => need s.ym fun ys => need (steps xs ys) fun st =>
  put "numberOfPointsAlongXAxis" (.long st.nx) <| put "numberOfPointsAlongYAxis" (.long st.ny) <|
  need (toLong st.dx) fun dx => put "DxInMetres" (.long dx) <|
  need (toLong st.dy) fun dy => put "DyInMetres" (.long dy) <|
  match s.lonlat with
  | none => raise
  | some ll =>
    need ll.latRaw fun lats => need (readAt lats 0) fun lat =>
    put "latitudeOfFirstGridPointInDegrees" (.dbl (some lat)) <|
    need ll.lonRaw fun lons => need (readAt lons 0) fun lon =>
    put "longitudeOfFirstGridPointInDegrees" (.dbl (some lon)) <|
    put "orientationOfTheGridInDegrees" (.dbl (some a.2)) <|
    match a.1 with
    | none => done
    | some ts => if 1 / 100000 < |ts - 60| then raise else done

/-- src/io/grib/GribApiCDMWriter_Impl1.cc:177-190, src/io/grib/GribApiCDMWriter_Impl2.cc:192-205 and the like: the directions. -/
def scans (dx dy : K) : Sets K :=
  put "jScansPositively" (.long (if dy < 0 then 0 else 1)) <| put "iScansNegatively" (.long (if dx < 0 then 1 else 0)) done

/-- src/io/grib/GribApiCDMWriter_Impl2.cc:161-205: regular grids, edition 2. -/
def regular2 (s : Source K) : Sets K :=
  match s.lonlat with
  | none => raise
  | some ll =>
    need ll.lon fun lons => need ll.lat fun lats => need (steps lons lats) fun st =>
    need (readAt lats 0) fun lat0 => need (readAt lats (st.ny - 1)) fun latX =>
    need (readAt lons 0) fun lon0 => need (readAt lons (st.nx - 1)) fun lonX =>
    put "typeOfGrid" (.text "regular_ll") <|
    put "numberOfPointsAlongAParallel" (.long st.nx) <| put "numberOfPointsAlongAMeridian" (.long st.ny) <|
    put "iDirectionIncrementInDegrees" (.dbl (some |st.dx|)) <| put "jDirectionIncrementInDegrees" (.dbl (some |st.dy|)) <|
    put "latitudeOfFirstGridPointInDegrees" (.dbl (some lat0)) <|
    put "longitudeOfFirstGridPointInDegrees" (.dbl (some (clampLon lon0))) <|
    put "latitudeOfLastGridPointInDegrees" (.dbl (some latX)) <|
    put "longitudeOfLastGridPointInDegrees" (.dbl (some (clampLon lonX))) <|
    scans st.dx st.dy

/-- src/io/grib/GribApiCDMWriter_Impl1.cc:142-190: regular grids, edition 1. -/
def regular1 (s : Source K) : Sets K :=
  need s.xdeg fun lons => need s.ydeg fun lats => need (steps lons lats) fun st =>
  need (readAt lats 0) fun lat0 => need (readAt lats (st.ny - 1)) fun latX =>
  need (readAt lons 0) fun lon0 => need (readAt lons (st.nx - 1)) fun lonX =>
  put "typeOfGrid" (.text "regular_ll") <|
  put "Ni" (.long st.nx) <| put "Nj" (.long st.ny) <|
  put "iDirectionIncrementInDegrees" (.dbl (some |st.dx|)) <| put "jDirectionIncrementInDegrees" (.dbl (some |st.dy|)) <|
  put "latitudeOfFirstGridPointInDegrees" (.dbl (some lat0)) <|
  put "longitudeOfFirstGridPointInDegrees" (.dbl (some (upward lon0))) <|
  put "latitudeOfLastGridPointInDegrees" (.dbl (some latX)) <|
  put "longitudeOfLastGridPointInDegrees" (.dbl (some (upward lonX))) <|
  scans st.dx st.dy

/-- A parameter that must be there. -/
def Projection.must (p : Projection K) (n : String) : Res K :=
  match p.find n with
  | none => .throws
  | some l => readAt l 0

/-- src/io/grib/GribApiCDMWriter_Impl1.cc:191-260 (`c` adds 360 to negative longitudes) and
src/io/grib/GribApiCDMWriter_Impl2.cc:206-267 (`c` is `clamp_lon`): rotated grids. -/
def rotated (c : K → K) (s : Source K) (p : Projection K) : Sets K :=
  need s.xdeg fun lons => need s.ydeg fun lats => need (steps lons lats) fun st =>
  need (readAt lats 0) fun lat0 => need (readAt lats (st.ny - 1)) fun latX =>
  need (readAt lons 0) fun lon0 => need (readAt lons (st.nx - 1)) fun lonX =>
  need (p.must "grid_north_pole_longitude") fun npLon => need (p.must "grid_north_pole_latitude") fun npLat =>
  put "typeOfGrid" (.text "rotated_ll") <|
  put "numberOfPointsAlongAParallel" (.long st.nx) <| put "numberOfPointsAlongAMeridian" (.long st.ny) <|
  put "iDirectionIncrementInDegrees" (.dbl (some |st.dx|)) <| put "jDirectionIncrementInDegrees" (.dbl (some |st.dy|)) <|
  need (toLong (southLat npLat)) fun spLat => put "latitudeOfSouthernPoleInDegrees" (.long spLat) <|
  need (toLong (c (npLon - 180))) fun spLon => put "longitudeOfSouthernPoleInDegrees" (.long spLon) <|
  put "latitudeOfFirstGridPointInDegrees" (.dbl (some lat0)) <|
  put "longitudeOfFirstGridPointInDegrees" (.dbl (some (c lon0))) <|
  put "latitudeOfLastGridPointInDegrees" (.dbl (some latX)) <|
  put "longitudeOfLastGridPointInDegrees" (.dbl (some (c lonX))) <|
  scans st.dx st.dy

/-- src/io/grib/GribApiCDMWriter_Impl1.cc:270-287 and src/io/grib/GribApiCDMWriter_Impl2.cc:269-286: the parallels. -/
def parallels (p : Projection K) : Res (K × K) :=
  match p.find "standard_parallel" with
  | none => .throws
  | some [] => .ok (60, 60)
  | some [a] => .ok (a, a)
  | some (a :: b :: _) => .ok (a, b)

/-- src/io/grib/GribApiCDMWriter_Impl1.cc:261-340 (`c` is the identity) and src/io/grib/GribApiCDMWriter_Impl2.cc:268-337 (`c` is
`clamp_lon`): Lambert grids.  The latitude of the origin is read but not used. -/
def lambert (c : K → K) (s : Source K) (p : Projection K) : Sets K :=
  need (parallels p) fun ps =>
  need (p.first "longitude_of_central_meridian" 0) fun lonV =>
  need (p.first "latitude_of_projection_origin" 0) fun _ =>
  need s.xm fun xs => need s.ym fun ys => need (steps xs ys) fun st =>
  put "typeOfGrid" (.text "lambert") <|
  put "Nx" (.long st.nx) <| put "Ny" (.long st.ny) <|
  put "DxInMetres" (.dbl (some |st.dx|)) <| put "DyInMetres" (.dbl (some |st.dy|)) <|
  put "Latin1InDegrees" (.dbl (some ps.1)) <| put "Latin2InDegrees" (.dbl (some ps.2)) <|
  put "LoVInDegrees" (.dbl (some (if (p.find "longitude_of_central_meridian").isSome then c lonV else 0))) <|
  match s.lonlat with
  | none => raise
  | some ll =>
    need ll.lat fun lats => need (readAt lats 0) fun lat =>
    need ll.lon fun lons => need (readAt lons 0) fun lon =>
    put "latitudeOfFirstGridPointInDegrees" (.dbl (some lat)) <|
    put "longitudeOfFirstGridPointInDegrees" (.dbl (some (c lon))) <|
    scans st.dx st.dy

/-- src/io/grib/GribApiCDMWriter_Impl1.cc:64-349 and src/io/grib/GribApiCDMWriter_Impl2.cc:86-346 `setProjection` of the writer
for an edition. -/
def setProjection (asinDeg : K → K) (edition : ℕ) (s : Source K) : Sets K :=
  match s.proj with
  | none => raise
  | some p =>
    if p.name = "stereographic" ∨ p.name = "polar_stereographic" then
      if edition = 1 then stereo1 asinDeg s p else stereo2 asinDeg s p
    else if p.name = "latitude_longitude" then if edition = 1 then regular1 s else regular2 s
    else if p.name = "rotated_latitude_longitude" then rotated (if edition = 1 then upward else clampLon) s p
    else if p.name = "lambert_conformal_conic" then lambert (if edition = 1 then id else clampLon) s p
    else raise

/-! ## Reading -/

/-- Parameters of a projection text. -/
inductive ProjDef (K : Type) where
  | longlat
  | rotated (lon0 latp : K)
  | merc (lon0 latTs : K)
  | lcc (lat0 lon0 lat1 lat2 : K)
  | stere (lat0 lon0 latTs : K)
deriving DecidableEq

/-- include/fimex/GridDefinition.h:38-75: a grid definition; an increment may be NaN or infinite. -/
structure Grid (K : Type) where
  proj : ProjDef K
  isDegree : Bool
  xSize : ℤ
  ySize : ℤ
  xIncr : Option K
  yIncr : Option K
  xStart : K
  yStart : K
deriving DecidableEq

/-- Output streams and the projection library. -/
structure Env (K : Type) where
  /-- The number read from the text of a number written to a stream (six digits). -/
  print : K → K
  /-- src/io/grib/GribFileIndex.cc:145-150 `projConvert`: projected coordinates of a longitude and latitude. -/
  project : ProjDef K → K → K → Res (K × K)

/-- src/io/grib/GribUtils.cc:51-73 `gribGetGridOrientation`: `ScanStartRight` and `ScanStartBottom`; the other two keys must be
there. -/
def orientation (h : Handle K) : Res (Bool × Bool) := do
  let i ← getLong h "iScansNegatively"
  let j ← getLong h "jScansPositively"
  let _ ← getLong h "jPointsAreConsecutive"
  let _ ← getLong h "alternativeRowScanning"
  .ok (decide (i ≠ 0), decide (j ≠ 0))

/-- `(end - start) / n`: not a number for n = 0. -/
def quotient (start stop : K) (n : ℤ) : Option K := if n = 0 then none else some ((stop - start) / (n : K))

/-- src/io/grib/GribFileIndex.cc:268-284: the increment by first and last point, unless it differs from the signed increment of
the message. -/
def chooseIncr (byEnds : Option K) (given : K) : Option K :=
  match byEnds with
  | none => none
  | some q => if 1 / 1000 < |given - q| then some given else some q

/-- src/io/grib/GribFileIndex.cc:250-289 `getGridDefRegularLL`. -/
def readRegular (h : Handle K) : Res (Grid K) := do
  let nx ← getLong h "Ni"
  let ny ← getLong h "Nj"
  let x0 ← getDouble h "longitudeOfFirstGridPointInDegrees"
  let y0 ← getDouble h "latitudeOfFirstGridPointInDegrees"
  let o ← orientation h
  let g ← getLong h "ijDirectionIncrementGiven"
  let x1 ← getDouble h "longitudeOfLastGridPointInDegrees"
  let y1 ← getDouble h "latitudeOfLastGridPointInDegrees"
  let qx := quotient x0 x1 (nx - 1)
  let qy := quotient y0 y1 (ny - 1)
  if g ≠ 0 then
    let dx ← getDouble h "iDirectionIncrementInDegrees"
    let dy ← getDouble h "jDirectionIncrementInDegrees"
    let dx := if o.1 then dx * -1 else dx
    let dy := if o.2 then dy else dy * -1
    .ok ⟨.longlat, true, nx, ny, chooseIncr qx dx, chooseIncr qy dy, x0, y0⟩
  else .ok ⟨.longlat, true, nx, ny, qx, qy, x0, y0⟩

/-- src/io/grib/GribFileIndex.cc:291-327 `getGridDefRotatedLL`. -/
def readRotated (E : Env K) (h : Handle K) : Res (Grid K) := do
  let nx ← getLong h "Ni"
  let ny ← getLong h "Nj"
  let x0 ← getDouble h "longitudeOfFirstGridPointInDegrees"
  let y0 ← getDouble h "latitudeOfFirstGridPointInDegrees"
  let lonRot ← getDouble h "longitudeOfSouthernPoleInDegrees"
  let latRot ← getDouble h "latitudeOfSouthernPoleInDegrees"
  let o ← orientation h
  let g ← getLong h "ijDirectionIncrementGiven"
  let proj := ProjDef.rotated (E.print (norm180 lonRot)) (E.print (-1 * latRot))
  if g = 0 then
    let x1 ← getDouble h "longitudeOfLastGridPointInDegrees"
    let y1 ← getDouble h "latitudeOfLastGridPointInDegrees"
    .ok ⟨proj, true, nx, ny, quotient x0 x1 nx, quotient y0 y1 ny, x0, y0⟩
  else
    let dx ← getDouble h "iDirectionIncrementInDegrees"
    let dy ← getDouble h "jDirectionIncrementInDegrees"
    .ok ⟨proj, true, nx, ny, some (if o.1 then dx * -1 else dx), some (if o.2 then dy else dy * -1), x0, y0⟩

/-- src/io/grib/GribFileIndex.cc:329-337 `GribMetricDef`. -/
structure Metric (K : Type) where
  nx : ℤ
  ny : ℤ
  dx : K
  dy : K
  lon : K
  lat : K

/-- A key, or another one if it cannot be got. -/
def orElse (a b : Res K) : Res K :=
  match a with
  | .ok x => .ok x
  | _ => b

/-- src/io/grib/GribFileIndex.cc:339-357 `getGridDefMetric`. -/
def readMetric (h : Handle K) : Res (Metric K) := do
  let nx ← getLong h "Ni"
  let ny ← getLong h "Nj"
  let lon ← getDouble h "longitudeOfFirstGridPointInDegrees"
  let lat ← getDouble h "latitudeOfFirstGridPointInDegrees"
  let dx ← orElse (getDouble h "DxInMetres") (getDouble h "DiInMetres")
  let dy ← orElse (getDouble h "DyInMetres") (getDouble h "DjInMetres")
  .ok ⟨nx, ny, dx, dy, lon, lat⟩

/-- A grid in metres: the first point is projected; the directions of scanning must be there but change nothing. -/
def metricGrid (E : Env K) (h : Handle K) (m : Metric K) (proj : ProjDef K) : Res (Grid K) := do
  let xy ← E.project proj m.lon m.lat
  let _ ← orientation h
  .ok ⟨proj, false, m.nx, m.ny, some m.dx, some m.dy, xy.1, xy.2⟩

/-- src/io/grib/GribFileIndex.cc:359-378 `getGridDefMercator`. -/
def readMercator (E : Env K) (h : Handle K) : Res (Grid K) := do
  let m ← readMetric h
  let ts ← getDouble h "LaDInDegrees"
  let o ← getDouble h "orientationOfTheGridInDegrees"
  metricGrid E h m (.merc (E.print (norm180 o)) (E.print ts))

/-- src/io/grib/GribFileIndex.cc:380-407 `getGridDefLambert`. -/
def readLambert (E : Env K) (h : Handle K) : Res (Grid K) := do
  let m ← readMetric h
  let lonV ← getDouble h "LoVInDegrees"
  let lat1 ← getDouble h "Latin1InDegrees"
  let lat2 ← getDouble h "Latin2InDegrees"
  metricGrid E h m (.lcc (E.print lat1) (E.print (norm180 lonV)) (E.print lat1) (E.print lat2))

/-- src/io/grib/GribFileIndex.cc:416-424: where the distances hold, and the key for the pole. -/
def stereoKeys (edition : ℕ) (h : Handle K) : Res (K × ℤ) :=
  if edition = 1 then do
    let f ← getLong h "projectionCenterFlag"
    .ok (60, f)
  else do
    let ts ← getDouble h "latitudeWhereDxAndDyAreSpecifiedInDegrees"
    let f ← getLong h "projectionCentreFlag"
    .ok (ts, f)

/-- src/io/grib/GribFileIndex.cc:409-441 `getGridDefPolarStereographic`. -/
def readStereo (E : Env K) (edition : ℕ) (h : Handle K) : Res (Grid K) := do
  let m ← readMetric h
  let o ← getDouble h "orientationOfTheGridInDegrees"
  let k ← stereoKeys edition h
  let lat0 : K := if k.2 = 0 then 90 else -90
  metricGrid E h m (.stere (E.print lat0) (E.print (norm180 o)) (E.print k.1))

/-- src/io/grib/GribFileIndex.cc:676-693: the grid of a message. -/
def readGrid (E : Env K) (edition : ℕ) (h : Handle K) : Res (Grid K) := do
  let t ← getText h "typeOfGrid"
  if t = "regular_ll" then readRegular h
  else if t = "lambert" ∨ t = "lambert_lam" then readLambert E h
  else if t = "mercator" then readMercator E h
  else if t = "polar_stereographic" then readStereo E edition h
  else if t = "rotated_ll" then readRotated E h
  else .throws

/-- src/io/grib/GribCDMIndexer.cc:849-858: the values of the x axis. -/
def xAxis (g : Grid K) : Option (List K) :=
  g.xIncr.map fun d =>
    let start := if g.isDegree then norm180 g.xStart else g.xStart
    (List.range g.xSize.toNat).map fun (i : ℕ) => start + i * d

/-- src/io/grib/GribCDMIndexer.cc:872-877: the values of the y axis. -/
def yAxis (g : Grid K) : Option (List K) :=
  g.yIncr.map fun d => (List.range g.ySize.toNat).map fun (i : ℕ) => g.yStart + i * d

end Fimex.GribGrid
