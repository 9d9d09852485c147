import Verif.Slice.Model
import Verif.DataCopy.Model
import Verif.Search.Model
import Mathlib.Algebra.Order.Field.Basic
import Mathlib.Algebra.Order.Ring.Abs

/-!
# Model of `CDMExtractor` (src/CDMExtractor.cc)

The input reader is represented by the complete data of the variable; its `getDataSlice(var, sb)` is
slicing of that data (property C16). `assert`s are not modelled except where noted.
-/

namespace Fimex.Extractor

open Slice DataCopy

variable {α : Type}

/-- `vector::at`. -/
def atT {β : Type} (l : List β) (i : Nat) : Res β :=
  match l[i]? with
  | some v => .ok v
  | none => .throws

/-- src/CDMExtractor.cc:131-141: the loop building contiguous chunks; `i` is the loop variable, `n` the
number of iterations left. Chunks are (start, size). -/
def chunkLoop (positions : List Nat) : Nat → Nat → Nat → Nat → List (Nat × Nat) → Res (List (Nat × Nat))
  | _, 0, start, last, acc => .ok (acc ++ [(start, last - start + 1)])
  | i, n + 1, start, last, acc => do
    let p ← atT positions i
    if p = last + 1 then chunkLoop positions (i + 1) n start p acc
    else chunkLoop positions (i + 1) n p p (acc ++ [(start, last - start + 1)])

/-- src/CDMExtractor.cc:129-142. -/
def chunks (positions : List Nat) (sbStart sbSize : Nat) : Res (List (Nat × Nat)) := do
  let start ← atT positions sbStart
  chunkLoop positions (sbStart + 1) (sbSize - 1) start start []

/-- A slice builder's start and size, for the dimensions handled so far (fastest first). The dimensions
not handled yet still have their full extent. -/
abbrev Box := List (Nat × Nat)

/-- `lsb.setStartAndSize(dim, start, size)` for the next dimension (length `mx`) on every box of a list
(src/SliceBuilder.cc:109-118); raises when the end is beyond the dimension. -/
def setAllBoxes (mx start size : Nat) (boxes : List Box) : Res (List Box) :=
  match boxes with
  | [] => .ok []
  | b :: bs =>
    if mx < wadd start size then .throws
    else do
      let r ← setAllBoxes mx start size bs
      .ok ((b ++ [(start, size)]) :: r)

/-- The nested loops src/CDMExtractor.cc:144-153: chunks outside, existing boxes inside. -/
def expand (mx : Nat) (boxes : List Box) : List (Nat × Nat) → Res (List Box)
  | [] => .ok []
  | c :: cs => do
    let a ← setAllBoxes mx c.1 c.2 boxes
    let b ← expand mx boxes cs
    .ok (a ++ b)

/-- src/CDMExtractor.cc:156-164: positions `i, i+1, ...` (`n` of them) one by one. -/
def singles (positions : List Nat) : Nat → Nat → Res (List (Nat × Nat))
  | _, 0 => .ok []
  | i, n + 1 => do
    let p ← atT positions i
    let r ← singles positions (i + 1) n
    .ok ((p, 1) :: r)

/-- One dimension of the variable: its length in the source, the selected positions if it has been
reduced, and the start and size requested by the caller. -/
structure DimReq where
  length : Nat
  sel : Option (List Nat)
  start : Nat
  size : Nat
deriving DecidableEq, Repr

/-- src/CDMExtractor.cc:110-166: the body of the loop over the dimensions. -/
def stepDim (boxes : List Box) (d : DimReq) : Res (List Box) :=
  match d.sel with
  | none => setAllBoxes d.length d.start d.size boxes
  | some [] => setAllBoxes d.length d.start 0 boxes
  | some positions =>
    if boxes.length ≤ 1 then do
      let cs ← chunks positions d.start d.size
      expand d.length boxes cs
    else do
      let cs ← singles positions d.start d.size
      expand d.length boxes cs

/-- src/CDMExtractor.cc:107-167: the loop over the dimensions in the order of the shape. -/
def buildBoxes (boxes : List Box) : List DimReq → Res (List Box)
  | [] => .ok boxes
  | d :: ds => do
    let b ← stepDim boxes d
    buildBoxes b ds

/-- src/CDMExtractor.cc:87-95: the loop of `joinSlices`. The assertion on the size is kept (violation is
`ub`). -/
def joinLoop (read : Box → Res (List α)) : List Box → Nat → List α → Res (List α)
  | [], _, dst => .ok dst
  | b :: bs, p, dst => do
    let d ← read b
    if d.length ≠ (b.map (·.2)).prod then .ub
    else if d.length > 0 then do
      let dst ← copyData dst p d 0 (two64 - 1)
      joinLoop read bs (p + (b.map (·.2)).prod) dst
    else joinLoop read bs (p + (b.map (·.2)).prod) dst

/-- src/CDMExtractor.cc:67-98 `joinSlices`. -/
def joinSlices (read : Box → Res (List α)) (fill : α) (boxes : List Box) : Res (List α) :=
  match boxes with
  | [] => .ok []
  | [b] => read b
  | bs => joinLoop read bs 0 (List.replicate (bs.map fun b => (b.map (·.2)).prod).sum fill)

/-- src/CDMExtractor.cc:100-171 `getDataSlice_`: `full` is the complete data of the input variable. -/
def getDataSlice_ (full : List α) (fill : α) (ds : List DimReq) : Res (List α) := do
  let boxes ← buildBoxes [[]] ds
  joinSlices (fun b => slice full (ds.map (·.length)) (b.map (·.1)) (b.map (·.2))) fill boxes

/-! ## Reducing dimensions -/

/-- What the extractor keeps per dimension: the length shown to the user and the selected positions. -/
structure DimState where
  length : Nat
  slices : Option (List Nat)
deriving DecidableEq, Repr

/-- src/CDMExtractor.cc:259-278 `reduceDimension(dimName, slices)`; the `std::set` is given as the list
of its elements in increasing order. -/
def reduceDimension (s : DimState) (slices : List Nat) : DimState × Res Unit :=
  if slices.any fun sz => decide (sz > s.length) then (s, .throws)
  else (⟨slices.length, some slices⟩, .ok ())

/-- `std::set::insert`. -/
def setInsert (x : Nat) : List Nat → List Nat
  | [] => [x]
  | y :: ys => if x < y then x :: y :: ys else if x = y then y :: ys else y :: setInsert x ys

/-- src/CDMExtractor.cc:280-287 `reduceDimension(dimName, start, length)`. -/
def reduceDimensionStartLen (s : DimState) (start length : Nat) : DimState × Res Unit :=
  reduceDimension s ((List.range length).foldl (fun acc i => setInsert (wadd start i) acc) [])

/-- Conversion of a `long long` to `size_t`. -/
def toSizeT (z : Int) : Nat := (z % two64).toNat

/-- src/CDMExtractor.cc:289-299: the length computed by `reduceDimensionStartEnd`. -/
def startEndLength (dimLen start : Nat) (end_ : Int) : Nat :=
  if end_ > 0 then wadd (wsub (toSizeT end_) start) 1
  else wadd (wsub dimLen start) (toSizeT end_)

/-- src/CDMExtractor.cc:289-301 `reduceDimensionStartEnd`. -/
def reduceDimensionStartEnd (s : DimState) (start : Nat) (end_ : Int) : DimState × Res Unit :=
  reduceDimensionStartLen s start (startEndLength s.length start end_)

section Axis

variable {K : Type} [Field K] [LinearOrder K] [IsStrictOrderedRing K]

/-- src/CDMExtractor.cc:343-347: the rounding tolerance. -/
def roundingDelta (v : List K) : K :=
  match v with
  | a :: b :: _ => if a ≠ b then 1 / 100 * |a - b| else 1 / 100000
  | _ => 1 / 100000

/-- src/CDMExtractor.cc:354-358: the axis is taken as descending. -/
def isReverse (v : List K) : Bool :=
  match v with
  | a :: b :: _ => decide (a > b)
  | _ => false

/-- src/CDMExtractor.cc:353-377: (start position, size) of the part of axis `v` selected for the range
`[startVal, endVal]` with unit conversion `slope`, `offset`. -/
def axisRange (v : List K) (slope offset startVal endVal : K) : Nat × Nat :=
  let startX := startVal * slope + offset - roundingDelta v
  let endX := endVal * slope + offset + roundingDelta v
  let w := if isReverse v then v.reverse else v
  let lower := Search.lowerBound w startX
  let upper := Search.upperBound w endX
  let size := upper - lower   -- max(endPos - startPos, 0)
  (if isReverse v then v.length - size - lower else lower, size)

/-- Comparison of doubles: false when a value is NaN (`none`). -/
def flt (a : Option K) (b : Option K) : Bool :=
  match a, b with
  | some a, some b => decide (a < b)
  | _, _ => false

/-- src/CDMExtractor.cc:462-469: the grid point is skipped. -/
def outside (south north west east : K) (lon lat : Option K) : Bool :=
  let wrap180 := decide (west > east)
  if flt lat (some south) || flt (some north) lat then true
  else if wrap180 && flt (some east) lon && flt lon (some west) then true
  else if !wrap180 && (flt lon (some west) || flt (some east) lon) then true
  else false

/-- src/CDMExtractor.cc:459-474, inner loop: `iy`, `n` iterations left, `i` the running index. -/
def boxRow (south north west east : K) (lon lat : Nat → Option K) (ix : Nat) :
    Nat → Nat → Nat → List Nat × List Nat → List Nat × List Nat
  | 0, _, _, acc => acc
  | n + 1, iy, i, (xs, ys) =>
    boxRow south north west east lon lat ix n (iy + 1) (i + 1)
      (if outside south north west east (lon i) (lat i) then (xs, ys)
       else (setInsert ix xs, setInsert iy ys))

/-- Outer loop. -/
def boxLoop (south north west east : K) (lon lat : Nat → Option K) (ny : Nat) :
    Nat → Nat → Nat → List Nat × List Nat → List Nat × List Nat
  | 0, _, _, acc => acc
  | n + 1, ix, i, acc =>
    boxLoop south north west east lon lat ny n (ix + 1) (i + ny)
      (boxRow south north west east lon lat ix ny 0 i acc)

/-- src/CDMExtractor.cc:408-477 `reduceLatLonBoundingBox` for one coordinate system: the selected x and y
positions. `lon i`, `lat i`: result of the projection for grid point `i = ix * ny + iy`. -/
def latLonBox (south north west east : K) (nx ny : Nat) (lon lat : Nat → Option K) :
    Res (List Nat × List Nat) :=
  if south > north then .throws
  else if south < -90 ∨ south > 90 then .throws
  else if north < -90 ∨ north > 90 then .throws
  else if west < -180 ∨ west > 180 then .throws
  else if east < -180 ∨ east > 180 then .throws
  else .ok (boxLoop south north west east lon lat ny nx 0 0 ([], []))

end Axis

end Fimex.Extractor
