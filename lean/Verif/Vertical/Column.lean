import Verif.Vertical.ShapesProps
import Mathlib.Order.Defs.LinearOrder

/-!
# Columns of vertical converters (C134): model

`src/coordSys/verticalTransform/ToVLevelConverterAdapter.cc` and `src/coordSys/CoordSysUtils.cc`.  An axis is the list of its dimensions, `none` the null pointer; names of
dimensions are not empty.
-/

namespace Fimex.Column
open Fimex.SB Fimex.Shapes

/-- src/coordSys/verticalTransform/ToVLevelConverterAdapter.cc:50-80: the members `varGeoX_`, `varGeoY_`, `varTime_` and `unlimitedTimePos_`; none is the empty name, and `NOTSET`. -/
structure Adapter where
  x : Option String
  y : Option String
  t : Option String
  pos : Option Nat
deriving DecidableEq

/-- src/coordSys/verticalTransform/ToVLevelConverterAdapter.cc:55-72: the first dimension of an axis, if it is one of the converter; `front` of no dimensions is undefined. -/
def dimOf (shape : List String) : Option (List String) → Res (Option String)
  | none => .ok none
  | some [] => .ub
  | some (d :: _) => .ok (if d ∈ shape then some d else none)

/-- src/coordSys/verticalTransform/ToVLevelConverterAdapter.cc:48 `NOTSET`. -/
def notSet : Nat := two64 - 1

/-- src/coordSys/verticalTransform/ToVLevelConverterAdapter.cc:50-80, the constructor; `unlimited` tells of a dimension whether it is so. -/
def adapter (c : Cdm) (unlimited : String → Bool) (shape : List String) (x y t : Option (List String)) (p : Nat) : Res Adapter := do
  let dx ← dimOf shape x
  let dy ← dimOf shape y
  let dt ← dimOf shape t
  match dt with
  | none => .ok ⟨dx, dy, none, none⟩
  | some d => do
    let _ ← getLength c d
    .ok ⟨dx, dy, some d, if unlimited d ∧ p ≠ notSet then some p else none⟩

/-- src/coordSys/verticalTransform/ToVLevelConverterAdapter.cc:105-109, 111-115: one position of a dimension, if there is that dimension. -/
def setOne (b : Builder) (d : Option String) (i : Nat) : Res Builder :=
  match d with
  | none => .ok b
  | some n =>
    match setStartAndSize b n i 1 with
    | (b', .ok _) => .ok b'
    | (_, .throws) => .throws
    | (_, .ub) => .ub

/-- src/coordSys/verticalTransform/ToVLevelConverterAdapter.cc:100-117 `prepareSliceBuilder`. -/
def prepare (c : Cdm) (shape : List String) (a : Adapter) (x y t : Nat) : Res Builder := do
  let b ← createSliceBuilder c shape
  let b ← setOne b a.x x
  let b ← setOne b a.y y
  setOne b a.t (a.pos.getD t)

/-- src/coordSys/verticalTransform/ToVLevelConverterAdapter.cc:82-89: the values of a column; `&array[0]` of no data is not modelled. -/
def column {V : Type} (c : Cdm) (shape : List String) (a : Adapter) (get : Builder → Res (List V)) (x y t : Nat) : Res (List V) := do
  let b ← prepare c shape a x y t
  get b

/-- src/coordSys/verticalTransform/ToVLevelConverterAdapter.cc:91-98 `isValid`; limits are none if the converter has no such data. Values are ordered linearly, so NaN is left out; limits without any value are not modelled. -/
def isValid {V : Type} [LinearOrder V] (c : Cdm) (shape : List String) (a : Adapter) (mx mn : Builder → Res (Option V)) (v : V) (x y t : Nat) : Res Bool := do
  let b ← prepare c shape a x y t
  let hi ← mx b
  let lo ← mn b
  .ok ((match hi with | none => true | some h => decide (v ≤ h)) && (match lo with | none => true | some l => decide (l ≤ v)))

/-! ## Simple axes -/

/-- src/coordSys/CoordSysUtils.cc:48-53, 58-66: the length of an axis of one dimension, 1 without axis. -/
def sizeOf (c : Cdm) : Option (List String) → Res Nat
  | none => .ok 1
  | some [d] => getLength c d
  | some _ => .throws

/-- The output arguments of `getSimpleAxes`, src/coordSys/CoordSysUtils.cc:41-42. -/
structure Sizes where
  nx : Nat
  ny : Nat
  nz : Nat
  nt : Nat
  unlimited : Bool

/-- src/coordSys/CoordSysUtils.cc:41-94 `getSimpleAxes`; a null pointer for the vertical axis is excluded by an assertion only. -/
def simpleAxes (c : Cdm) (unlimited : String → Bool) (x y z t : Option (List String)) : Res Sizes :=
  match z with
  | none => .ub
  | some z => do
    let nz ← sizeOf c (some z)
    let nx ← sizeOf c x
    let ny ← sizeOf c y
    let nt ← sizeOf c t
    .ok ⟨nx, ny, nz, nt, match t with | some (d :: _) => unlimited d | _ => false⟩

/-- src/coordSys/CoordSysUtils.cc:96-109: the times from `t0` to before `t1`. -/
def times (s : Sizes) (p : Nat) : Nat × Nat := if s.unlimited then (p, wadd p 1) else (0, s.nt)

end Fimex.Column
