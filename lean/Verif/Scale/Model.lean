import Verif.Basic
import Mathlib.Algebra.Order.Field.Basic
import Mathlib.Algebra.Order.Floor.Ring
import Mathlib.Algebra.Order.Ring.Abs

/-!
# Model of value scaling and type conversion

`ScaleValue`, `ScaleValueUnits`, `ChangeMissingValue` (include/fimex/DataUtils.h:38-114),
`round`, `data_caster` (include/fimex/MathUtils.h:40-105), `DataImpl<C>::convertDataType`
(src/DataImpl.h:284-331), `convertValues` (src/Data.cc:219-241), `CDMReader::scaleDataOf`,
`scaleDataToUnitOf` (src/CDMReader.cc:177-216), `CDMReaderWriter::unscaleDataOf`,
`unscaleDataFromUnitOf` (src/CDMReaderWriter.cc:60-97), the unit converters (src/Units.cc:69-158).

Numbers are elements of an ordered field `K` with floor (exact arithmetic instead of binary
floating point); a floating point value is `Option K` with `none` for NaN. Infinities are not
modelled. Integer values are integers within the range of their type, embedded in `K`.
-/

namespace Fimex.Scale

/-- A numeric element type: an integer type of `bits` bits, or a floating point type. -/
inductive DType where
  | int (bits : Nat) (signed : Bool)
  | real
deriving DecidableEq, Repr

/-- Smallest value of an integer type. -/
def lo (bits : Nat) (signed : Bool) : Int := if signed then -(2 ^ (bits - 1)) else 0
/-- Largest value of an integer type. -/
def hi (bits : Nat) (signed : Bool) : Int := if signed then 2 ^ (bits - 1) - 1 else 2 ^ bits - 1

/-- C++ conversion of an integer to an integer type (modulo `2^bits`). -/
def wrap (bits : Nat) (signed : Bool) (z : Int) : Int :=
  (z - lo bits signed) % 2 ^ bits + lo bits signed

variable {K : Type} [Field K] [LinearOrder K] [IsStrictOrderedRing K] [FloorRing K]

/-- `::lround`: nearest integer, halves away from zero. -/
def lround (x : K) : Int := if 0 ≤ x then ⌊x + 1 / 2⌋ else -⌊-x + 1 / 2⌋

/-- Truncation towards zero, as done by `static_cast` to an integer type. -/
def trunc (x : K) : Int := if 0 ≤ x then ⌊x⌋ else -⌊-x⌋

/-- `static_cast<T>(double)`: for integer types undefined for NaN and outside the range. -/
def staticCast (t : DType) (x : Option K) : Res (Option K) :=
  match t, x with
  | .real, x => .ok x
  | .int _ _, none => .ub
  | .int b s, some x =>
    if lo b s ≤ trunc x ∧ trunc x ≤ hi b s then .ok (some ((trunc x : Int) : K)) else .ub

/-- `data_caster<OUT, double>` (include/fimex/MathUtils.h:40-105): for integer `OUT` the value goes
through `int round(double)`, i.e. `lround` to a 64 bit `long`, narrowed to 32 bits, then to `OUT`.
`lround` of NaN or outside `long` has an unspecified result, modelled as `ub`. -/
def castRound (t : DType) (x : Option K) : Res (Option K) :=
  match t, x with
  | .real, x => .ok x
  | .int _ _, none => .ub
  | .int b s, some x =>
    if lo 64 true ≤ lround x ∧ lround x ≤ hi 64 true then
      .ok (some ((wrap b s (wrap 32 true (lround x)) : Int) : K))
    else .ub

/-- Floating point equality: NaN is different from everything. -/
def feq (a b : Option K) : Bool :=
  match a, b with
  | some a, some b => decide (a = b)
  | _, _ => false

/-- include/fimex/DataUtils.h:38-62 `ScaleValue<IN, OUT>`, constructor and call. -/
def scaleValue (tin tout : DType) (oldFill : Option K) (oldScale oldOffset : K) (newFill : Option K)
    (newScale newOffset : K) (x : Option K) : Res (Option K) := do
  let oldFill ← staticCast tin oldFill
  let newFill ← staticCast tout newFill
  if feq x oldFill ∨ x = none then .ok newFill
  else
    castRound tout
      (x.map fun v => oldScale / newScale * v + (oldOffset - newOffset) / newScale)

/-- include/fimex/DataUtils.h:67-95 `ScaleValueUnits<IN, OUT>`; `conv` is `UnitsConverter::convert`. -/
def scaleValueUnits (tin tout : DType) (oldFill : Option K) (oldScale oldOffset : K)
    (conv : K → K) (newFill : Option K) (newScale newOffset : K) (x : Option K) :
    Res (Option K) := do
  let oldFill ← staticCast tin oldFill
  let newFill ← staticCast tout newFill
  if feq x oldFill ∨ x = none then .ok newFill
  else
    castRound tout
      (x.map fun v => (conv (oldScale * v + oldOffset) - newOffset) * (1 / newScale))

/-- `data_caster<OUT, IN>` (include/fimex/MathUtils.h:93-105): rounding only when a floating point
value becomes an integer; between integer types the value is taken modulo `2^bits`. -/
def castValue (tin tout : DType) (x : Option K) : Res (Option K) :=
  match tin, tout, x with
  | .real, tout, x => castRound tout x
  | .int _ _, .real, x => .ok x
  | .int b s, .int b' s', some x =>
    if (b, s) = (b', s') then .ok (some x) else .ok (some ((wrap b' s' (trunc x) : Int) : K))
  | .int _ _, .int _ _, none => .ub

/-- src/DataImpl.h:299-331 `convertDataType` for one array (`conv = none`: no unit converter).
The conversion is skipped (lines 303-304) when the encodings are equal. -/
def convertDataType (tin tout : DType) (oldFill : Option K) (oldScale oldOffset : K)
    (conv : Option (K → K)) (newFill : Option K) (newScale newOffset : K) (data : List (Option K)) :
    Res (List (Option K)) :=
  match conv with
  | none =>
    if feq oldFill newFill ∧ oldScale = newScale ∧ oldOffset = newOffset then
      data.mapM (castValue tin tout)
    else data.mapM (scaleValue tin tout oldFill oldScale oldOffset newFill newScale newOffset)
  | some f =>
    data.mapM (scaleValueUnits tin tout oldFill oldScale oldOffset f newFill newScale newOffset)

/-- A unit converter: its function and what `isLinear` / `getScaleOffset` report. -/
structure Converter (K : Type) where
  convert : K → K
  linear : Option (K × K)

/-- src/Units.cc:69-96 `LinearUnitsConverter`. -/
def linearConverter (a b : K) : Converter K := ⟨fun x => a * x + b, some (a, b)⟩

/-- src/Units.cc:121-142 `Ud2UnitsConverter::isLinear`, for a converter with finite values. -/
def ud2IsLinear (f : K → K) : Bool :=
  let offset := f 0
  let slope := f 1 - offset
  let off (v : K) : Bool := decide (|f v - (v * slope + offset)| > 1 / 100000)
  !(off 10) && !(off 100) && !(off 1000) && !(off (-1000))

/-- src/Units.cc:144-158 `Ud2UnitsConverter::getScaleOffset`. -/
def ud2ScaleOffset (f : K → K) : K × K :=
  let offset := f 0
  let scale := f 1 - offset
  if scale ≠ 0 ∧ offset ≠ 0 then
    let temp := -offset / scale
    let scale2 := (f temp - offset) / temp
    if |scale - scale2| < 1 / 1000 then (scale2, offset) else (scale, offset)
  else (scale, offset)

/-- The converter for two different unit names, from the udunits function `f`. -/
def ud2Converter (f : K → K) : Converter K :=
  ⟨f, if ud2IsLinear f then some (ud2ScaleOffset f) else none⟩

/-- src/CDMReader.cc:177-194 `scaleDataOf` with a linear unit conversion. -/
def scaleDataLinear (t : DType) (fill : Option K) (scale offset unitScale unitOffset : K)
    (data : List (Option K)) : Res (List (Option K)) :=
  convertDataType t .real fill (scale * unitScale) (unitScale * offset + unitOffset) none none 1 0 data

/-- src/CDMReader.cc:194-202 `scaleDataOf` with a general converter. -/
def scaleDataConv (t : DType) (fill : Option K) (scale offset : K) (f : K → K)
    (data : List (Option K)) : Res (List (Option K)) :=
  convertDataType t .real fill scale offset (some f) none 1 0 data

/-- src/CDMReader.cc:204-216 `scaleDataToUnitOf`. -/
def scaleDataToUnit (t : DType) (fill : Option K) (scale offset : K) (uc : Converter K)
    (data : List (Option K)) : Res (List (Option K)) :=
  match uc.linear with
  | some (a, b) => scaleDataLinear t fill scale offset a b data
  | none => scaleDataConv t fill scale offset uc.convert data

/-- src/CDMReaderWriter.cc:60-97 `unscaleDataFromUnitOf`: double data in the unit of the caller back to
the packed type `t` of the variable. -/
def unscaleDataFromUnit (t : DType) (fill : Option K) (scale offset : K) (uc : Converter K)
    (data : List (Option K)) : Res (List (Option K)) :=
  match uc.linear with
  | some (a, b) => convertDataType .real t none a b none fill scale offset data
  | none => convertDataType .real t none 1 0 (some uc.convert) fill scale offset data

end Fimex.Scale
