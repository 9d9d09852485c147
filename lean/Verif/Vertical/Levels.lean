import Verif.ArrayLoop.Named
import Verif.Interp.OneDim
import Verif.Search.Neighbours

/-!
# Vertical interpolation of one slice

Model of `CDMVerticalInterpolator::getLevelDataSlice` (src/CDMVerticalInterpolator.cc:357-565) on top of the models of
array groups, of the search for neighbours and of the one-dimensional interpolation.  The arithmetic is exact, and
`none` stands for an undefined value (NaN); heights themselves are taken as defined.  What the reader and the vertical
converters deliver is a parameter; the conversion to the type of the variable at the end (line 564) is C59.  The loop
over the levels runs in parallel in the code, with every level writing to its own places; here the levels follow one
another.
-/

namespace Fimex.Levels

open Fimex.ArrayLoop Fimex.Neighbours Fimex.Interp

variable {K : Type} [Field K] [LinearOrder K]

/-- The choices of src/CDMVerticalInterpolator.cc:382-391. -/
inductive Method
  | lin | linWeak | linNo | linConst | log | logLog | nearest
deriving DecidableEq, Repr

/-- Limits of validity from a converter: the dimensions, and the values for all of their indices. -/
structure Limits (K : Type) where
  shape : List String
  values : List K

/-- What the function works on. -/
structure Setup (K : Type) where
  /-- Lengths of the dimensions of the reader's dataset, 1 for others
  (src/coordSys/verticalTransform/VerticalTransformationUtils.cc:317-325 `getDimSizes`). -/
  sizeIn : String → ℕ
  /-- Lengths of the dimensions of the changed dataset. -/
  sizeOut : String → ℕ
  /-- The unlimited dimension of the changed dataset. -/
  unlimited : Option String
  /-- Shape of the variable before and after the change. -/
  shapeIn : List String
  shapeOut : List String
  /-- Names of the vertical axes (lines 393-394). -/
  geoZi : String
  geoZo : String
  /-- Shapes of the vertical coordinates; for fixed levels there is no converter for the output. -/
  convIn : List String
  convOut : Option (List String)
  vAxis : String
  level1 : List K
  /-- Values of the variable and of the vertical coordinates for a position of the unlimited dimension. -/
  data : ℕ → List (Option K)
  vertIn : ℕ → List K
  vertOut : ℕ → List K
  /-- Limits given by the converters. -/
  maxOut : Option (Limits K)
  minOut : Option (Limits K)
  maxIn : Option (Limits K)
  minIn : Option (Limits K)
  ignoreMax : Bool
  ignoreMin : Bool
  method : Method
  /-- Logarithm and the constant of the double logarithm. -/
  log : K → K
  e : K
  /-- Largest value of the floating point type. -/
  largest : K
  validMin : Option K
  validMax : Option K

/-- src/coordSys/verticalTransform/VerticalTransformationUtils.cc:387-403 `makeArrayDims`. -/
def makeDims (size : String → ℕ) (names : List String) : Res Dims := mkDims names (names.map size)

/-- src/coordSys/verticalTransform/VerticalTransformationUtils.cc:357-385 `forceUnLimDimLength1`, for one array. -/
def forceLength1 (unlimited : Option String) (a : Dims) : Res Dims :=
  match unlimited with
  | some u => a.setLength (a.dimIndex u) 1
  | none => .ok a

/-- include/fimex/ArrayLoop.h:44-48 `length`. -/
def lengthOf (a : Dims) (n : String) : ℕ :=
  match a.dimIndex n with
  | some i => if i < a.rank then a.length.getD i 1 else 1
  | none => 1

/-- include/fimex/ArrayLoop.h:38-42 `delta`. -/
def stepOf (a : Dims) (n : String) : ℕ := a.deltaAt (a.dimIndex n)

/-- src/CDMVerticalInterpolator.cc:411-467: the limits in use, those of the output converter if it has any that is
not ignored, else those of the input converter. -/
def limits (s : Setup K) : Option (Limits K) × Option (Limits K) :=
  let outMax := if s.convOut.isSome && !s.ignoreMax then s.maxOut else none
  let outMin := if s.convOut.isSome && !s.ignoreMin then s.minOut else none
  if outMax.isNone && outMin.isNone then
    (if s.ignoreMax then none else s.maxIn, if s.ignoreMin then none else s.minIn)
  else (outMax, outMin)

/-- The array of limits added to the group; the lengths are those of the changed dataset. -/
def limitDims (s : Setup K) : Option (Limits K) → Res (List Dims)
  | none => .ok []
  | some l => do
    let a ← makeDims s.sizeOut l.shape
    let a ← forceLength1 s.unlimited a
    .ok [a]

/-- The arrays of a call. -/
structure Arrays where
  iData : Dims
  iVert : Dims
  oData : Dims
  oVert : Dims
deriving DecidableEq

/-- src/CDMVerticalInterpolator.cc:402-406. -/
def outVertical (s : Setup K) : Res Dims :=
  match s.convOut with
  | some names => makeDims s.sizeIn names
  | none => emptyDims.add s.vAxis s.level1.length

/-- src/CDMVerticalInterpolator.cc:396-409. -/
def arraysOf (s : Setup K) : Res Arrays := do
  let iData ← makeDims s.sizeIn s.shapeIn
  let iVert ← makeDims s.sizeIn s.convIn
  let oData ← makeDims s.sizeOut s.shapeOut
  let oVert ← outVertical s
  let iData := iData.setNotShared (iData.dimIndex s.geoZi)
  let iVert := iVert.setNotShared (iVert.dimIndex s.geoZi)
  let oData := oData.setNotShared (oData.dimIndex s.geoZo)
  let oVert := oVert.setNotShared (oVert.dimIndex s.geoZo)
  let iData ← forceLength1 s.unlimited iData
  let iVert ← forceLength1 s.unlimited iVert
  let oData ← forceLength1 s.unlimited oData
  let oVert ← forceLength1 s.unlimited oVert
  .ok ⟨iData, iVert, oData, oVert⟩

/-- src/CDMVerticalInterpolator.cc:411-467: the group with the limits. -/
def levelGroup (a : Arrays) (maxDims minDims : List Dims) : Res Group := do
  let g ← groupOf [a.iData, a.iVert, a.oData, a.oVert]
  let g ← g.minimizeShared 0
  (maxDims ++ minDims).foldlM Group.add g

/-- Reading at an offset of the loop. -/
def readInt {α : Type} (l : List α) (i : ℤ) : Res α := if 0 ≤ i then readAt l i.toNat else .ub

/-- Writing at an offset of the loop. -/
def writeInt {α : Type} (l : List α) (i : ℤ) (v : α) : Res (List α) :=
  if 0 ≤ i ∧ i.toNat < l.length then .ok (l.set i.toNat v) else .ub

/-- src/CDMVerticalInterpolator.cc:504-529; `atMin` and `atMax` are the numbers of the arrays in the group. -/
def inLimits (mn mx : Option (Limits K)) (atMin atMax : ℕ) (idx : List ℤ) (x : K) : Res Bool :=
  match mn, mx with
  | some mn, some mx => do
    let lo ← readInt mn.values (idx.getD atMin 0)
    if lo ≤ x then do
      let hi ← readInt mx.values (idx.getD atMax 0)
      .ok (decide (x ≤ hi))
    else .ok false
  | some mn, none => do
    let lo ← readInt mn.values (idx.getD atMin 0)
    .ok (decide (lo ≤ x))
  | none, some mx => do
    let hi ← readInt mx.values (idx.getD atMax 0)
    .ok (decide (x ≤ hi))
  | none, none => .ok true

/-- src/leap_iterator.h:38-95, src/CDMVerticalInterpolator.cc:532-534: the values from `start` to `start + n` steps
of length `step`. With steps of length 0 the beginning is the end. -/
def column {α : Type} (l : List α) (start : ℤ) (step n : ℕ) : Res (List α) :=
  if step = 0 then .ok [] else (List.range n).mapM fun k : ℕ => readInt l (start + (k : ℤ) * step)

/-- src/CDMVerticalInterpolator.cc:382-391 and 540: the call for one value. -/
def intFunc (s : Setup K) (u v : Option K) (a b x : K) : Res (List (Option K)) :=
  match s.method with
  | .lin => linear [u] [v] 1 a b x
  | .linWeak => linearWeak [u] [v] 1 a b x
  | .linNo => linearNo [u] [v] 1 a b x
  | .linConst => linearConst [u] [v] 1 a b x
  | .log => logInterp s.log [u] [v] 1 a b x
  | .logLog => logLogInterp s.log s.e [u] [v] 1 a b x
  | .nearest => Interp.nearest [u] 1

/-- src/CDMVerticalInterpolator.cc:531-549: the value for a level; the outer `none` stands for a place that is left as
it was, because the return code of the interpolation is not looked at. -/
def levelValue (s : Setup K) (vert : List K) (data : List (Option K)) (vertAt dataAt : ℤ) (vertStep dataStep nzi : ℕ)
    (x : K) : Res (Option (Option K)) := do
  let col ← column vert vertAt vertStep nzi
  let p := findNeighbours s.largest col x
  if p.1 ≠ p.2 then do
    let u ← readInt data (dataAt + (dataStep : ℤ) * p.1)
    let v ← readInt data (dataAt + (dataStep : ℤ) * p.2)
    let a ← readInt vert (vertAt + (p.1 : ℤ) * vertStep)
    let b ← readInt vert (vertAt + (p.2 : ℤ) * vertStep)
    match intFunc s u v a b x with
    | .ok l =>
      match l with
      | w :: _ => .ok (some w)
      | [] => .ub
    | .throws => .ok none
    | .ub => .ub
  else .ok (some none)

/-- src/CDMVerticalInterpolator.cc:493-550, the body of the loop for the level `k` at one visit. -/
def levelStep (s : Setup K) (p : ℕ) (a : Arrays) (mn mx : Option (Limits K)) (k : ℕ) (idx : List ℤ)
    (out : List (Option K)) : Res (List (Option K)) := do
  let x ← readInt (if s.convOut.isSome then s.vertOut p else s.level1) (idx.getD 3 0 + (k : ℤ) * stepOf a.oVert s.geoZo)
  let range ← inLimits mn mx (if mx.isSome then 5 else 4) 4 idx x
  let w ← if range then
      levelValue s (s.vertIn p) (s.data p) (idx.getD 1 0) (idx.getD 0 0) (stepOf a.iVert s.geoZi) (stepOf a.iData s.geoZi)
        (lengthOf a.iData s.geoZi) x
    else .ok (some none)
  match w with
  | some v => writeInt out (idx.getD 2 0 + (k : ℤ) * stepOf a.oData s.geoZo) v
  | none => .ok out

/-- The loop `do ... while (loop.next())`, at most `n` visits; a loop that goes on is outside the model. -/
def doLoop {S : Type} (g : Group) (body : List ℤ → S → Res S) : ℕ → State → S → Res S
  | 0, _, _ => .ub
  | n + 1, st, x => do
    let x ← body st.idx x
    let r := next g st
    if r.2 then doLoop g body n r.1 x else .ok x

/-- src/CDMVerticalInterpolator.cc:486-552: the levels from `k` on, `n` of them. -/
def levelLoop (s : Setup K) (p : ℕ) (a : Arrays) (mn mx : Option (Limits K)) (g : Group) :
    ℕ → ℕ → List (Option K) → Res (List (Option K))
  | 0, _, out => .ok out
  | n + 1, k, out => do
    let out ← doLoop g (levelStep s p a mn mx k) g.lengths.prod (start g) out
    levelLoop s p a mn mx g n (k + 1) out

/-- src/CDMVerticalInterpolator.cc:554-563: values below the smallest and above the largest valid value. -/
def toValid (validMin validMax : Option K) (v : Option K) : Option K :=
  let v := match validMin, v with
    | some m, some w => if w < m then some m else some w
    | _, v => v
  match validMax, v with
  | some m, some w => if w > m then some m else some w
  | _, v => v

/-- src/CDMVerticalInterpolator.cc:357-565 `getLevelDataSlice` up to the conversion to the type of the variable, for
the position `p` of the unlimited dimension. `junk` is what is in the new array of floats (line 478) before it is
written to. -/
def levelSlice (s : Setup K) (p : ℕ) (junk : ℕ → Option K) : Res (List (Option K)) := do
  let a ← arraysOf s
  let (mx, mn) := limits s
  let maxDims ← limitDims s mx
  let minDims ← limitDims s mn
  let g ← levelGroup a maxDims minDims
  let out ← levelLoop s p a mn mx g (lengthOf a.oData s.geoZo) 0 ((List.range a.oData.volume).map junk)
  .ok (out.map (toValid s.validMin s.validMax))

end Fimex.Levels
