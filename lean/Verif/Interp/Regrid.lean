import Verif.Interp.Forward

/-!
# Interpolation onto a new grid: from the axes to the data

Model of the positions computed by `CDMInterpolator::changeProjection*` (`src/CDMInterpolator.cc:342-490, 1193-1425,
1580-1681`), of `reproject_values`, `reproject_axes` and `reproject_f` (`src/reproject.cc:266-295, 408-430, 567-586`)
and of the interpolation from these positions (`src/CachedInterpolation.cc:132-337`).

The conversion of one point between two projections is the work of the PROJ library; it is a parameter here.  Numbers are
exact; a number that is not finite is `none`.  The counters of the code that are `int` or `size_t` are natural numbers.
-/

namespace Fimex.Regrid

open Fimex.Interp

variable {P K : Type} [Field K] [LinearOrder K] [FloorRing K]

/-- A point; a coordinate that is not finite is `none`. -/
abbrev Point (K : Type) := Option K × Option K

/-- src/reproject.cc:83-116, 157-214 `crs2crs`: the conversion between two projections, which the library may refuse to
set up; angles are in degrees on both sides. -/
abbrev Transform (P K : Type) := P → P → Res (K × K → Point K)

/-- A point that is not finite stays so. -/
def convert (f : K × K → Point K) : Point K → Point K
  | (some x, some y) => f (x, y)
  | _ => (none, none)

/-- src/reproject.cc:567-571 `reproject_values`. -/
def reprojectValues (tr : Transform P K) (src dst : P) (pts : List (Point K)) : Res (List (Point K)) :=
  tr src dst >>= fun f => .ok (pts.map (convert f))

/-- src/reproject.cc:578-583: the points of a grid, `[y * ix + x]`. -/
def gridPoints (xs ys : List K) : List (Point K) := ys.flatMap fun y => xs.map fun x => (some x, some y)

/-- src/reproject.cc:573-586 `reproject_axes`. -/
def reprojectAxes (tr : Transform P K) (src dst : P) (xs ys : List K) : Res (List (Point K)) :=
  reprojectValues tr src dst (gridPoints xs ys)

/-- What the interpolator uses of a coordinate system: its projection, whether that is in degrees, and the values of
the two axes in its unit. -/
structure Grid (P K : Type) where
  proj : P
  degree : Bool
  xs : List K
  ys : List K

/-- src/CDMInterpolator.cc:1200-1201, 1395-1396, 1656-1657: `MIFI_LONGITUDE` for axes in degrees. -/
def axisType (degree : Bool) : AxisType := if degree then .longitude else .other

/-- src/CDMInterpolator.cc:1266-1267, 1398-1399, 1660-1661: coordinates to positions on the two axes. -/
def positionsOf (pts : List (Point K)) (degree : Bool) (xs ys : List K) : Res (List (Option K) × List (Option K)) := do
  let px ← points2position (pts.map Prod.fst) xs (axisType degree)
  let py ← points2position (pts.map Prod.snd) ys .other
  .ok (px, py)

/-- src/CDMInterpolator.cc:1384-1399: the points of the new grid on the axes of the input. -/
def gridPositions (tr : Transform P K) (new : P) (g : Grid P K) (ox oy : List K) : Res (List (Option K) × List (Option K)) :=
  reprojectAxes tr new g.proj ox oy >>= fun pts => positionsOf pts g.degree g.xs g.ys

/-- The first `n` values of an array; reading beyond its end is undefined. -/
def firstN {α : Type} (n : ℕ) (l : List α) : Res (List α) := if l.length < n then .ub else .ok (l.take n)

/-- src/CDMInterpolator.cc:1625-1667: given points, in degrees, on the axes of the input.  The number of positions used
is that of the cells of the new grid (`outX * outY`, src/CachedInterpolation.cc:175-191, 266-273), the number of
positions computed is that of the latitudes; more latitudes than longitudes are read beyond the end (the assertion of
line 1625 is not compiled into release builds). -/
def pointPositions (tr : Transform P K) (lonlat : P) (g : Grid P K) (lon lat : List (Option K)) (outX outY : ℕ) :
    Res (List (Option K) × List (Option K)) :=
  if lon.length ≠ lat.length then .ub
  else do
    let pts ← reprojectValues tr lonlat g.proj (lon.zip lat)
    let ps ← positionsOf pts g.degree g.xs g.ys
    let px ← firstN (outX * outY) ps.1
    let py ← firstN (outX * outY) ps.2
    .ok (px, py)

/-- src/CDMInterpolator.cc:343-357 `lonLatVals2Matrix`. -/
def matrix (lon lat : List (Option K)) (nx ny : ℕ) : Res (List (Point K)) := do
  let rows ← (List.range ny).mapM fun iy : ℕ => (List.range nx).mapM fun ix : ℕ => do
    let x ← readAt lon ix
    let y ← readAt lat iy
    .ok (x, y)
  .ok rows.flatten

/-- The longitudes and latitudes of the input: their values, the number of their dimensions, and the lengths of the two
horizontal dimensions. -/
structure Coords (K : Type) where
  lon : List (Option K)
  lat : List (Option K)
  dims : ℕ
  inX : ℕ
  inY : ℕ

/-- src/CDMInterpolator.cc:1249-1258: the coordinates of all cells. -/
def Coords.points (c : Coords K) : Res (List (Point K)) :=
  if c.dims = 1 then
    matrix c.lon c.lat c.inX c.inY >>= fun m => if c.lon.length * c.lat.length ≠ c.inX * c.inY then .ub else .ok m
  else if c.dims ≠ 2 then .throws
  else if c.lat.length < c.lon.length then .ub
  else .ok (c.lon.zip c.lat)

/-- src/CDMInterpolator.cc:1249-1267: the cells of the input on the axes of the new grid. -/
def forwardPositions (tr : Transform P K) (lonlat new : P) (c : Coords K) (degree : Bool) (ox oy : List K) :
    Res (List (Option K) × List (Option K)) := do
  let pts ← c.points
  let q ← reprojectValues tr lonlat new pts
  positionsOf q degree ox oy

/-- Positions that are not numbers are converted to `int`, which is undefined. -/
def known : List (Option K) → Res (List K)
  | [] => .ok []
  | none :: _ => .ub
  | some x :: l => known l >>= fun r => .ok (x :: r)

/-- The interpolation methods of this model; bicubic interpolation has the positions in common with them. -/
inductive Method | nearest | bilinear
deriving DecidableEq

/-- src/CachedInterpolation.cc:132-147 `createCachedInterpolation` and the interpolation of a field with `inX` columns,
`inY` rows and `inZ` layers. -/
def interpolate (m : Method) (pos : List (Option K) × List (Option K)) (inX inY inZ : ℕ) (F : List (Option K)) :
    Res (List (Option K)) := do
  let px ← known pos.1
  let py ← known pos.2
  match m with
  | .bilinear => do
    let c ← createReducedDomain px py inX inY
    interpolateValues c (inputData F inX inY inZ c.origin c.inX c.inY)
  | .nearest => do
    let c ← createNN (px.zip py) inX inY
    interpolateNN c (inputData F inX inY inZ c.origin c.inX c.inY)

/-- The whole way: src/CDMInterpolator.cc:1357-1407. -/
def regrid (tr : Transform P K) (m : Method) (new : P) (g : Grid P K) (ox oy : List K) (inZ : ℕ) (F : List (Option K)) :
    Res (List (Option K)) :=
  gridPositions tr new g ox oy >>= fun pos => interpolate m pos g.xs.length g.ys.length inZ F

/-- src/reproject.cc:408-430 `reproject_f` with src/reproject.cc:266-295 `interpolate_f_functional`: the same without a
cache and without reducing the input. -/
def reprojectF (tr : Transform P K) (m : Method) (new : P) (g : Grid P K) (ox oy : List K) (inZ : ℕ) (F : List (Option K)) :
    Res (List (Option K)) := do
  let pos ← gridPositions tr new g ox oy
  let px ← known pos.1
  let py ← known pos.2
  let cols ← (px.zip py).mapM fun p : K × K =>
    match m with
    | .bilinear => bilinear F p.1 p.2 g.xs.length g.ys.length inZ
    | .nearest => getValues F p.1 p.2 g.xs.length g.ys.length inZ
  .ok ((List.range inZ).flatMap fun z => cols.map fun col => col.getD z none)

/-- src/CDMInterpolator.cc:382-390: axes are told from two-dimensional longitudes and latitudes by their lengths. -/
def boxPoints (lon lat : List (Option K)) : Res (List (Point K)) :=
  if lat.length ≠ lon.length then matrix lon lat lon.length lat.length else .ok (lon.zip lat)

/-- src/CDMInterpolator.cc:364-411: the box of the input in the new projection, used for axes without start or end;
`name` is the name of the new projection.  Coordinates that are not finite are not modelled here (undefined). -/
def boundingBox (tr : Transform P K) (lonlat new : P) (name : String) (toDegree : K → K) (lon lat : List (Option K)) :
    Res ((K × K) × (K × K)) := do
  let pts ← boxPoints lon lat
  if name ≠ "latlong" then
    let q ← reprojectValues tr lonlat new pts
    let x ← known (q.map Prod.fst)
    let y ← known (q.map Prod.snd)
    let bx ← range x
    let b_y ← range y
    if name = "ob_tran" then .ok ((toDegree bx.1, toDegree bx.2), (toDegree b_y.1, toDegree b_y.2)) else .ok (bx, b_y)
  else .throws

end Fimex.Regrid
