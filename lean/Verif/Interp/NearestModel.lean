import Verif.Basic
import Mathlib.Analysis.SpecialFunctions.Trigonometric.Inverse

/-!
# Nearest cells by coordinates

Model of `fastTranslatePointsToClosestInputCell`, `getGridDistance`, `flannTranslatePointsToClosestInputCell` and
`getMaxDistanceOfInterest` (`src/CDMInterpolator.cc`): for each point of the new grid the cell of the old grid that is next to it on the sphere.

Numbers are real numbers or NaN (`none`); there are no infinities and no rounding.  `DEG_TO_RAD` is π/180.  `std::sort` may give any sorted order,
so the sorted points are a parameter.  The kd-tree of nanoflann is a parameter as well.  Assertions are left out; so are the parallel loops,
whose order has no influence on the result.
-/

namespace Fimex.Nearest

open Real

noncomputable section

/-- A number or NaN. -/
abbrev F := Option ℝ

/-- `a > b`, which does not hold for NaN. -/
def gt : F → F → Bool
  | some a, some b => decide (b < a)
  | _, _ => false

/-- `acos`, which is NaN outside of [-1, 1]. -/
def acosF : F → F
  | some a => if -1 ≤ a ∧ a ≤ 1 then some (arccos a) else none
  | none => none

/-- include/fimex/MathUtils.h:158-162 `deg_to_rad`. -/
def degToRad (a : F) : F := a.map fun d => d * (π / 180)

/-- A place: latitude and longitude in radians. -/
structure Place where
  lat : ℝ
  lon : ℝ

/-- A place with a cell; src/CDMInterpolator.cc:1089-1106 `LL_POINT`. -/
structure Point extends Place where
  x : ℤ
  y : ℤ

/-- src/CDMInterpolator.cc:1064-1065 and 1158 and 1173: the cosine of the distance. -/
def cosD (a b : Place) : ℝ := cos a.lat * cos b.lat * cos (a.lon - b.lon) + sin a.lat * sin b.lat

/-- The place of a cell, if neither value is NaN. -/
def placeOf (lon lat : List F) (pos : ℕ) : Option Place :=
  match degToRad (lat.getD pos none), degToRad (lon.getD pos none) with
  | some la, some lo => some ⟨la, lo⟩
  | _, _ => none

/-! ## The distance of grid cells -/

/-- The positions in the order of the loops over x and y. -/
def positions (nx ny : ℕ) : List ℕ := (List.range nx).flatMap fun ix => (List.range ny).map fun iy => ix + iy * nx

/-- src/CDMInterpolator.cc:1055-1073: the largest cosine over the other cells. -/
def closest (cells : ℕ → Option Place) (p : Place) (s : ℕ) : List ℕ → ℝ → ℝ
  | [], m => m
  | q :: l, m =>
    if q = s then closest cells p s l m
    else match cells q with
      | none => closest cells p s l m
      | some r => closest cells p s l (if cosD p r > m then cosD p r else m)

/-- src/CDMInterpolator.cc:1034-1042: number of samples and cells between them. -/
def steps (n : ℕ) : ℕ × ℕ := if n > 1000 then (53, n / 53) else (n, 1)

/-- src/CDMInterpolator.cc:1033-1082: the samples. -/
def samples (cells : ℕ → Option Place) (nx ny : ℕ) : List ℝ :=
  (List.range (steps (nx * ny)).1).filterMap fun ik =>
    let s := ik * (steps (nx * ny)).2
    (cells s).map fun p => closest cells p s (positions nx ny) (-2)

/-- `std::min(a, b)` for a number `b`. -/
def minF : F → ℝ → F
  | some a, b => some (if b < a then b else a)
  | none, _ => none

/-- src/CDMInterpolator.cc:1023-1086 `getGridDistance`, for arrays with at least `nx * ny` values.  `min_element` of no samples must not be read. -/
def gridDistance (cells : ℕ → Option Place) (nx ny : ℕ) : Res F :=
  match samples cells nx ny with
  | [] => .ub
  | s :: l => .ok (minF ((acosF (some (l.foldl (fun a b => if b < a then b else a) s))).map (· * 1.414)) π)

/-! ## The search by latitude -/

/-- src/CDMInterpolator.cc:1124-1134: the known cells. -/
def points (cells : ℕ → Option Place) (nx ny : ℕ) : List Point :=
  (List.range nx).flatMap fun ix => (List.range ny).filterMap fun iy =>
    (cells (ix + iy * nx)).map fun p => { p with x := ix, y := iy }

/-- `min_cos_d`, `p.x` and `p.y`. -/
structure Best where
  cosine : F
  x : ℤ
  y : ℤ

/-- The place of a target, if neither value is NaN. -/
def target : F × F → Option Place
  | (some la, some lo) => some ⟨la, lo⟩
  | _ => none

/-- src/CDMInterpolator.cc:1151-1167 and 1169-1185: the loops, over the points from the place of the target on and over the points before it
backwards; `p` is latitude and longitude of the target in radians. -/
def walk (p : F × F) : List Point → Best → Best
  | [], s => s
  | a :: l, s =>
    if gt (p.1.map fun lat => |a.lat - lat|) (acosF s.cosine) then s
    else
      let c := (target p).map (cosD a.toPlace)
      walk p l (if gt c s.cosine then ⟨c, a.x, a.y⟩ else s)

/-- src/CDMInterpolator.cc:1142-1189: the cell for one target, given as latitude and longitude in degrees; `cosROI` is `min_grid_cos_d`. -/
def search (sorted : List Point) (cosROI : F) (t : F × F) : ℤ × ℤ :=
  let p := (degToRad t.1, degToRad t.2)
  let below := fun a : Point => gt p.1 (some a.lat)
  let s := walk p (sorted.dropWhile below) ⟨cosROI, -1, -1⟩
  let s := walk p (sorted.takeWhile below).reverse s
  (s.x, s.y)

/-- src/CDMInterpolator.cc:1108-1195 `fastTranslatePointsToClosestInputCell`, for the sorted points `sorted` and targets of latitude and longitude. -/
def fastTranslate (lon lat : List F) (nx ny : ℕ) (sorted : List Point) (targets : List (F × F)) : Res (List (ℤ × ℤ)) :=
  if lon.length < nx * ny ∨ lat.length < nx * ny then .ub
  else do
    let roi ← gridDistance (placeOf lon lat) nx ny
    .ok (targets.map fun t => search sorted (roi.map cos) t)

/-! ## The search with a tree -/

/-- A point of the unit sphere. -/
structure Vec where
  x : ℝ
  y : ℝ
  z : ℝ

/-- src/CDMInterpolator.cc:971-980 and 1001-1008. -/
def vec (p : Place) : Vec := ⟨cos p.lat * cos p.lon, cos p.lat * sin p.lon, sin p.lat⟩

/-- src/CDMInterpolator.cc:923-930 `kdtree_distance`, the square of the distance. -/
def dist2 (a b : Vec) : ℝ := (a.x - b.x) * (a.x - b.x) + (a.y - b.y) * (a.y - b.y) + (a.z - b.z) * (a.z - b.z)

/-- A kd-tree: for the cloud, a query and the square of the radius the positions and squares of distances. -/
abbrev Tree := List (Option Vec) → Vec → ℝ → List (ℕ × ℝ)

/-- src/CDMInterpolator.cc:965-986: the points of the tree, `none` where one of the coordinates is NaN. -/
def cloud (cells : ℕ → Option Place) (n : ℕ) : List (Option Vec) := (List.range n).map fun pos => (cells pos).map vec

/-- src/CDMInterpolator.cc:998-1021: the cell for one target; `radius` is the distance on the unit sphere.  A target with NaN is at no distance of
any point. -/
def kdSearch (tree : Tree) (cells : ℕ → Option Place) (nx ny : ℕ) (radius : ℝ) (t : F × F) : ℤ × ℤ :=
  match target (degToRad t.1, degToRad t.2) with
  | some p =>
    match tree (cloud cells (nx * ny)) (vec p) (radius * radius) with
    | [] => (-1000, -1000)
    | (pos, _) :: _ => ((pos % nx : ℕ), (pos / nx : ℕ))
  | none => (-1000, -1000)

/-- src/CDMInterpolator.cc:300-308: the largest step of an axis. -/
def maxStep : List ℝ → ℝ → ℝ
  | a :: b :: l, m => maxStep (b :: l) (max |b - a| m)
  | _, m => m

/-- src/CDMInterpolator.cc:295-310 `getMaxDistanceOfInterest`, for axes that are not empty; `given` is what was set. -/
def maxDistance (given : ℝ) (xs ys : List ℝ) : ℝ := if given > 0 then given else maxStep ys (maxStep xs 0)

/-- src/CDMInterpolator.cc:952-1021 `flannTranslatePointsToClosestInputCell` and the call of it, lines 1336-1341; `earth` is the radius of the earth. -/
def kdTranslate (tree : Tree) (earth : ℝ) (lon lat : List F) (nx ny : ℕ) (given : ℝ) (xs ys : List ℝ) (isDegree : Bool) (targets : List (F × F)) :
    Res (List (ℤ × ℤ)) :=
  if lon.length < nx * ny ∨ lat.length < nx * ny then .ub
  else
    let d := maxDistance given xs ys
    let d := if isDegree then d * earth else d
    .ok (targets.map fun t => kdSearch tree (placeOf lon lat) nx ny (d / earth) t)

end

end Fimex.Nearest
