import Verif.SliceBuilder.Props
import Verif.ArrayLoop.Model

/-!
# Shapes and slices of vertical converters

Model of `ShapeMerger` and of the slice builders in `src/coordSys/verticalTransform/VerticalTransformationUtils.cc`.

The data model is given by two parameters: the shapes of the variables and the lengths of the dimensions, both
absent if there is no such variable or dimension. An axis of the coordinate system is the name of its variable.
-/

namespace Fimex.Shapes

open Fimex.SB

/-- What is looked up in the `CDM`. -/
structure Cdm where
  shapeOf : String → Option (List String)
  dimLength : String → Option Nat

/-- `CDM::getVariable(name).getShape()`, src/CDM.cc:160-168: raises for an unknown variable. -/
def getShape (c : Cdm) (v : String) : Res (List String) :=
  match c.shapeOf v with
  | some s => .ok s
  | none => .throws

/-- `CDM::getDimension(name).getLength()`, src/CDM.cc:268-276: raises for an unknown dimension. -/
def getLength (c : Cdm) (d : String) : Res Nat :=
  match c.dimLength d with
  | some n => .ok n
  | none => .throws

/-- The axes of the coordinate system, `nullptr` is `none`. -/
structure Axes where
  x : Option String
  y : Option String
  z : Option String
  t : Option String

/-- VerticalTransformationUtils.cc:122-125 `axisDim`: `front` of an empty shape is undefined. -/
def axisDim (c : Cdm) (axis : String) : Res String := do
  let s ← getShape c axis
  match s with
  | d :: _ => .ok d
  | [] => .ub

/-- VerticalTransformationUtils.cc:127-133 `findAxis`; `none` is `shape_.end()`. -/
def findAxis (c : Cdm) (shape : List String) : Option String → Res (Option Nat)
  | some a => do
    let d ← axisDim c a
    .ok (shape.findIdx? (· == d))
  | none => .ok none

/-- VerticalTransformationUtils.cc:135-138 `equalsAxisDim`. -/
def equalsAxisDim (c : Cdm) (dim : String) : Option String → Res Bool
  | some a => do
    let d ← axisDim c a
    .ok (dim == d)
  | none => .ok false

/-- VerticalTransformationUtils.cc:179-200 (after x, else before z, else first) for the y axis. -/
def placeY (c : Cdm) (ax : Axes) (shape : List String) : Res Nat := do
  match ← findAxis c shape ax.x with
  | some i => .ok (i + 1)
  | none =>
    match ← findAxis c shape ax.z with
    | some i => .ok i
    | none => .ok 0

/-- VerticalTransformationUtils.cc:205-226 (after y, else after x, else first) for the z axis. -/
def placeZ (c : Cdm) (ax : Axes) (shape : List String) : Res Nat := do
  match ← findAxis c shape ax.y with
  | some i => .ok (i + 1)
  | none =>
    match ← findAxis c shape ax.x with
    | some i => .ok (i + 1)
    | none => .ok 0

/-- VerticalTransformationUtils.cc:234-243 (before time, else last) for other dimensions. -/
def placeOther (c : Cdm) (ax : Axes) (shape : List String) : Res Nat := do
  match ← findAxis c shape ax.t with
  | some i => .ok i
  | none => .ok shape.length

/-- VerticalTransformationUtils.cc:166-243: where a new dimension is inserted. -/
def insertAt (c : Cdm) (ax : Axes) (shape : List String) (d : String) : Res Nat := do
  if ← equalsAxisDim c d ax.x then .ok 0
  else if ← equalsAxisDim c d ax.y then placeY c ax shape
  else if ← equalsAxisDim c d ax.z then placeZ c ax shape
  else if ← equalsAxisDim c d ax.t then .ok shape.length
  else placeOther c ax shape

/-- VerticalTransformationUtils.cc:155-158: whether the dimension is left out for its length. -/
def skipped (c : Cdm) (skip : Bool) (d : String) : Res Bool :=
  if skip then do
    let n ← getLength c d
    .ok (n == 1)
  else .ok false

/-- VerticalTransformationUtils.cc:154-245: one appended dimension. -/
def mergeDim (c : Cdm) (ax : Axes) (skip : Bool) (shape : List String) (d : String) : Res (List String) := do
  if ← skipped c skip d then .ok shape
  else if d ∈ shape then .ok shape
  else do
    let i ← insertAt c ax shape d
    .ok (shape.take i ++ d :: shape.drop i)

/-- VerticalTransformationUtils.cc:142-252 `merge(shape, skipLength1)`. -/
def mergeShape (c : Cdm) (ax : Axes) (shape append : List String) (skip : Bool) : Res (List String) :=
  append.foldlM (mergeDim c ax skip) shape

/-- VerticalTransformationUtils.cc:109-115 `merge(varName, skipLength1)`: an empty name is ignored. -/
def mergeVar (c : Cdm) (ax : Axes) (shape : List String) (v : String × Bool) : Res (List String) :=
  if v.1 = "" then .ok shape
  else do
    let s ← getShape c v.1
    mergeShape c ax shape s v.2

/-- A chain of `merge` calls on a new `ShapeMerger`, as in the `getShape` functions of the converters, e.g.
HybridSigmaToPressureConverter.cc:55-63. -/
def mergeAll (c : Cdm) (ax : Axes) (vs : List (String × Bool)) : Res (List String) :=
  vs.foldlM (mergeVar c ax) []

/-! ## Slice builders -/

/-- VerticalTransformationUtils.cc:317-325 `getDimSizes`: unknown dimensions have length 1. -/
def getDimSizes (c : Cdm) (names : List String) : List Nat := names.map fun d => (c.dimLength d).getD 1

/-- VerticalTransformationUtils.cc:327-331 `createSliceBuilder`; SliceBuilder.cc:47-51. -/
def createSliceBuilder (c : Cdm) (names : List String) : Res Builder :=
  init names (getDimSizes c names) (names.map fun _ => false)

/-- SliceBuilder.cc:53-71, without enlarging of the unlimited dimension. -/
def builderFor (c : Cdm) (v : String) : Res Builder := do
  let shape ← getShape c v
  let sizes ← shape.mapM (getLength c)
  init shape sizes (shape.map fun _ => false)

/-- VerticalTransformationUtils.cc:265-283, the body of the loop in `copySliceBuilder`; the call on `sbVar` in the
other branch has no effect but for raising. -/
def copyDim (src : Builder) (orgNames : List String) (b : Builder) (d : String) : Res Builder :=
  if d ∈ orgNames then do
    let r ← getStartAndSize src d
    match setStartAndSize b d r.1 r.2 with
    | (b', .ok _) => .ok b'
    | (_, .throws) => .throws
    | (_, .ub) => .ub
  else do
    let _ ← getStartAndSize b d
    .ok b

/-- VerticalTransformationUtils.cc:256-284 `copySliceBuilder`. -/
def copySliceBuilder (b src : Builder) : Res Builder := do
  let varNames ← getDimensionNames b.dimPos
  let orgNames ← getDimensionNames src.dimPos
  varNames.foldlM (copyDim src orgNames) b

/-- VerticalTransformationUtils.cc:286-291 `adaptSliceBuilder` for a variable. -/
def adaptVar (c : Cdm) (v : String) (src : Builder) : Res Builder := do
  let b ← builderFor c v
  copySliceBuilder b src

/-- VerticalTransformationUtils.cc:293-299 `adaptSliceBuilder` for a converter with the given shape. -/
def adaptConverter (c : Cdm) (shape : List String) (src : Builder) : Res Builder := do
  let b ← createSliceBuilder c shape
  copySliceBuilder b src

/-- VerticalTransformationUtils.cc:338-346 `setUnLimDimPos`; `unl`: the unlimited dimension if there is one. -/
def setUnLimDimPos (unl : Option String) (b : Builder) (p : Nat) : Res Builder :=
  match unl with
  | none => .ok b
  | some u => do
    let names ← getDimensionNames b.dimPos
    if u ∈ names then
      match setStartAndSize b u p 1 with
      | (b', .ok _) => .ok b'
      | (_, .throws) => .throws
      | (_, .ub) => .ub
    else .ok b

/-- VerticalTransformationUtils.cc:434-439 `verticalData4D`: the slice asked from the converter. -/
def sliceAtPosition (c : Cdm) (unl : Option String) (shape : List String) (p : Nat) : Res Builder := do
  let b ← createSliceBuilder c shape
  setUnLimDimPos unl b p

end Fimex.Shapes
