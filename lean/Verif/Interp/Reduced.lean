import Verif.Interp.HorizontalProps
import Verif.MinMax.Model

/-!
# Interpolation from a reduced input domain

Model of `CachedInterpolation` (bilinear) and `CachedNNInterpolation`, `src/CachedInterpolation.cc:168-337`,
with `clamp` and `RoundAndClamp` of `include/fimex/MathUtils.h:53-61, 118-133` and `src/MathUtils.cc:30-46`.
-/

namespace Fimex.Interp

variable {K : Type} [Field K] [LinearOrder K] [FloorRing K]

/-- include/fimex/MathUtils.h:53-61. -/
def clamp (low value high : ℤ) : ℤ := if value < low then low else if value < high then value else high

/-- src/CachedInterpolation.cc:212. -/
def extendCells : ℤ := 2

/-- `long long` arithmetic and conversion of a floating point value. -/
def int64 (z : ℤ) : Res ℤ := if -2 ^ 63 ≤ z ∧ z < 2 ^ 63 then .ok z else .ub

/-- src/CachedInterpolation.cc:214-219 `clamp_ex`. -/
def clampEx (low : ℤ) (dvalue : K) (extend high : ℤ) : Res ℤ := do
  let value ← int64 ((if extend > 0 then ⌈dvalue⌉ else ⌊dvalue⌋) + extend)
  .ok (clamp low value high)

/-- What the constructor of `CachedInterpolation` stores: positions, input size and, if the domain is reduced,
its origin. -/
structure Cached (K : Type) where
  px : List K
  py : List K
  inX : ℕ
  inY : ℕ
  origin : Option (ℕ × ℕ)
deriving DecidableEq

/-- src/CachedInterpolation.cc:229-230, `*min_max_element(...).first` and `.second`; dereferencing the end of an
empty range is undefined. -/
def range (p : List K) : Res (K × K) :=
  match MinMax.minMaxElement p with
  | none => .ub
  | some r => .ok (r.1.2, r.2.2)

/-- src/CachedInterpolation.cc:221-253 `createReducedDomain`, called once from the constructor. -/
def createReducedDomain (px py : List K) (inX inY : ℕ) : Res (Cached K) := do
  let rx ← range px
  let ry ← range py
  let minX ← clampEx 0 rx.1 (-extendCells) ((inX : ℤ) - 1)
  let minY ← clampEx 0 ry.1 (-extendCells) ((inY : ℤ) - 1)
  let maxX ← clampEx 0 rx.2 extendCells ((inX : ℤ) - 1)
  let maxY ← clampEx 0 ry.2 extendCells ((inY : ℤ) - 1)
  if maxX - minX < 1 ∨ maxY - minY < 1 then .ok ⟨px, py, inX, inY, none⟩
  else .ok ⟨px.map (· - (minX : K)), py.map (· - (minY : K)), (maxX - minX + 1).toNat, (maxY - minY + 1).toNat,
    some (minX.toNat, minY.toNat)⟩

/-- src/CachedInterpolation.cc:168-205 `interpolateValues` with the bilinear function: the values of one
position for all layers are computed together and spread over the layers of the output. -/
def interpolateValues (c : Cached K) (inData : List (Option K)) : Res (List (Option K)) :=
  if c.inX * c.inY = 0 then .ub
  else do
    let inZ := inData.length / (c.inX * c.inY)
    let cols ← (c.px.zip c.py).mapM fun p : K × K => bilinear inData p.1 p.2 c.inX c.inY inZ
    .ok ((List.range inZ).flatMap fun z => cols.map fun col => col.getD z none)

/-- src/CachedInterpolation.cc:257: `~0u` is a 32-bit number. -/
def invalid : ℕ := 2 ^ 32 - 1

/-- `RoundAndClamp(0, n - 1, INVALID)`: the `int` is converted to `size_t`. -/
def roundAndClamp (n : ℕ) (x : K) : Res ℕ := do
  let r ← lroundInt x
  let r := (r % 2 ^ 64).toNat
  .ok (if r ≤ wsub n 1 then r else invalid)

/-- The ranges collected by the constructor of `CachedNNInterpolation`. -/
structure Ranges where
  minX : ℕ
  maxX : ℕ
  minY : ℕ
  maxY : ℕ
deriving DecidableEq

/-- src/CachedInterpolation.cc:276-284. -/
def Ranges.include (r : Ranges) (ix iy : ℕ) : Ranges where
  maxY := if iy > r.maxY then iy else r.maxY
  minY := if iy < r.minY then iy else r.minY
  maxX := if ix > r.maxX then ix else r.maxX
  minX := if ix < r.minX then ix else r.minX

/-- src/CachedInterpolation.cc:271-286, the loop over the target positions. -/
def nnScan (inX inY : ℕ) : List (K × K) → Ranges → Res (List ℕ × Ranges)
  | [], s => .ok ([], s)
  | p :: rest, s => do
    let ix ← roundAndClamp inX p.1
    let iy ← roundAndClamp inY p.2
    let valid := ix ≠ invalid ∧ iy ≠ invalid
    let r ← nnScan inX inY rest (if valid then s.include ix iy else s)
    .ok ((if valid then iy * inX + ix else invalid) :: r.1, r.2)

/-- What the constructor of `CachedNNInterpolation` stores. -/
structure CachedNN where
  pointsInIn : List ℕ
  inX : ℕ
  inY : ℕ
  origin : Option (ℕ × ℕ)
deriving DecidableEq

/-- src/CachedInterpolation.cc:290-299. -/
def lower (m : ℕ) : ℕ := if m > 2 then m - 2 else 0

/-- src/CachedInterpolation.cc:262-318, the constructor of `CachedNNInterpolation`. -/
def createNN (points : List (K × K)) (inX inY : ℕ) : Res CachedNN := do
  let r ← nnScan inX inY points ⟨inX, 0, inY, 0⟩
  let minInX := lower r.2.minX
  let minInY := lower r.2.minY
  let maxInX := min (wsub inX 1) (r.2.maxX + 2)
  let maxInY := min (wsub inY 1) (r.2.maxY + 2)
  if (minInX > 0 ∨ minInY > 0 ∨ maxInX < wsub inX 1 ∨ maxInY < wsub inY 1) ∧ minInX + 2 * 2 ≤ maxInX ∧
      minInY + 2 * 2 ≤ maxInY then
    let redInX := maxInX - minInX + 1
    let redInY := maxInY - minInY + 1
    .ok ⟨r.1.map fun i => if i ≠ invalid then (wsub (i / inX) minInY) * redInX + wsub (i % inX) minInX else i,
      redInX, redInY, some (minInX, minInY)⟩
  else .ok ⟨r.1, inX, inY, none⟩

/-- src/CachedInterpolation.cc:317-337 `CachedNNInterpolation::interpolateValues`. -/
def interpolateNN (c : CachedNN) (inData : List (Option K)) : Res (List (Option K)) :=
  if c.inX * c.inY = 0 then .ub
  else do
    let inLayerSize := c.inX * c.inY
    let inZ := inData.length / inLayerSize
    let layers ← (List.range inZ).mapM fun z : ℕ =>
      c.pointsInIn.mapM fun i => if i ≠ invalid then readAt inData (z * inLayerSize + i) else .ok none
    .ok layers.flatten

/-! ## Specification -/

/-- The part of a field with `w` columns from column `m` on and `h` rows from row `n` on, in all layers; this is
what a reader returns for the slice requested in `getInputDataSlice`, src/CachedInterpolation.cc:68-90. -/
def subField (F : List (Option K)) (inX inY inZ m n w h : ℕ) : List (Option K) :=
  (List.range inZ).flatMap fun z => (List.range h).flatMap fun j => (List.range w).map fun i =>
    cell F inX inY z (m + i) (n + j)

/-- The data the interpolation reads: the whole field, or the reduced domain. -/
def inputData (F : List (Option K)) (inX inY inZ : ℕ) (origin : Option (ℕ × ℕ)) (w h : ℕ) : List (Option K) :=
  match origin with
  | none => F
  | some (m, n) => subField F inX inY inZ m n w h

end Fimex.Interp
