import Verif.Pressure.Model
import Verif.Vertical.Formulas
import Verif.Vertical.Converters
import Mathlib.Analysis.SpecialFunctions.Pow.Real

/-!
# Pressure conversions: data

Model of the `getDataSlice` of the converters in `src/CDMPressureConversions.cc`. A number is a real number or NaN
(`none`); rounding and infinity are not modelled.
-/

namespace Fimex.Pressure

open Fimex.Vertical Fimex.Shapes Fimex.Converters

abbrev Cell := Option ℝ

/-- What is read: data in a unit, data as stored, `add_offset` of a variable, slices of the pressure of a coordinate
system. -/
structure Input where
  dims : Shapes.Cdm
  unlimited : Option String
  scaled : String → String → ℕ → Res (Option (List Cell))
  raw : String → ℕ → Res (Option (List Cell))
  addOffset : String → ℝ
  pressure : Sys → Converters.Source Cell

/-- What is returned. -/
inductive Slice where
  | floats (l : List Cell)
  | shorts (l : List ℤ)

/-- VerticalTransformationUtils.cc:421-426 `verticalData4D` with the converter. -/
def slice4D (i : Input) (s : Sys) (shape : List String) (p : ℕ) : Res (Option (List Cell)) := do
  let b ← sliceAtPosition i.dims i.unlimited shape p
  i.pressure s b

/-- VerticalTransformationUtils.cc:412-419 and 428-431 `verticalConverter`, `verticalData4D`. -/
def pressureData (i : Input) (s : Sys) (p : ℕ) : Res (Option (List Cell)) :=
  if !s.hasTransformation then .throws
  else
    match s.converter with
    | .ok (some shape) => slice4D i s shape p
    | .ok none => .throws
    | .throws => .throws
    | .ub => .ub

/-- A pointer that is used without a test. -/
def deref (d : Option (List Cell)) : Res (List Cell) :=
  match d with
  | none => .ub
  | some l => .ok l

/-- VerticalTransformationUtils.cc:433-445 `checkSize`, `checkData`. -/
def checkData (d : Option (List Cell)) (n : ℕ) : Res (List Cell) :=
  match d with
  | none => .throws
  | some l => if l.length = n then .ok l else .throws

/-- A loop over places of arrays. -/
def loop {α : Type} (n : ℕ) (f : ℕ → Res α) : Res (List α) := (List.range n).mapM f

/-- src/CDMPressureConversions.cc:229-233 and include/fimex/mifi_constants.h:235-239. -/
noncomputable def rcp : ℝ := 8.31432 / 0.0289644 / 1004

/-- src/CDMPressureConversions.cc:236. -/
noncomputable def thetaCell (off : ℝ) (theta p : Cell) : Cell :=
  match theta, p with
  | some x, some p => some ((x + off) * (p * (1 / 1000)) ^ rcp - off)
  | _, _ => none

/-- src/CDMPressureConversions.cc:220-239, with the name that the reference `theta_` gives. -/
noncomputable def thetaSlice (i : Input) (s : Sys) (name : Res String) (p : ℕ) : Res (Option Slice) := do
  let d ← pressureData i s p
  let pv ← deref d
  let theta ← name
  let off := i.addOffset theta
  let raw ← i.raw theta p
  let th ← checkData raw pv.length
  let out ← loop pv.length fun k => do
    let x ← readAt th k
    let q ← readAt pv k
    .ok (thetaCell off x q)
  .ok (some (.floats out))

/-- `(short)x`: the fraction is cut off, undefined if the result is no `short`. -/
noncomputable def toShort (x : Cell) : Res ℤ :=
  match x with
  | none => .ub
  | some x =>
    let n := if 0 ≤ x then ⌊x⌋ else ⌈x⌉
    if -32768 ≤ n ∧ n ≤ 32767 then .ok n else .ub

/-- src/CDMPressureConversions.cc:323-330, with `c100` = 1. -/
noncomputable def humidityCell (sh t p : Cell) : Res ℤ :=
  match sh, t, p with
  | some sh, some t, some p => toShort (some (25000 * (specificToRelative sh t (p * 1) / 1) + 0.5))
  | _, _, _ => toShort none

/-- src/CDMPressureConversions.cc:313-333. -/
noncomputable def humiditySlice (i : Input) (s : Sys) (specific temperature : String) (p : ℕ) : Res (Option Slice) := do
  let d ← pressureData i s p
  let pv ← deref d
  let a ← i.scaled specific "1" p
  let sh ← checkData a pv.length
  let b ← i.scaled temperature "K" p
  let t ← checkData b pv.length
  let out ← loop pv.length fun k => do
    let x ← readAt sh k
    let y ← readAt t k
    let z ← readAt pv k
    humidityCell x y z
  .ok (some (.shorts out))

/-- src/vertical_coordinate_transformations.c:187-216, the loop of `mifi_omega_to_vertical_wind_f`. -/
noncomputable def omegaCell (o p t : Cell) : Cell :=
  match o, p, t with
  | some o, some p, some t => some (-BF * o * t / p)
  | _, _, _ => none

/-- src/CDMPressureConversions.cc:423-433. -/
noncomputable def omegaSlice (i : Input) (s : Sys) (omega temperature : String) (p : ℕ) : Res (Option Slice) := do
  let d ← pressureData i s p
  let pv ← deref d
  let a ← i.scaled temperature "K" p
  let t ← checkData a pv.length
  let b ← i.scaled omega "hPa/s" p
  let o ← checkData b pv.length
  let out ← loop pv.length fun k => do
    let x ← readAt o k
    let y ← readAt pv k
    let z ← readAt t k
    .ok (omegaCell x y z)
  .ok (some (.floats out))

/-- src/CDMPressureConversions.cc:509-518: the shapes are compared for a message only. -/
def pressureSlice (i : Input) (s : Sys) (p : ℕ) : Res (Option Slice) :=
  match s.converter with
  | .ok (some shape) => do
    let d ← slice4D i s shape p
    .ok (d.map .floats)
  | _ => .ub

/-- The `getDataSlice` of a converter. `theta_` refers to a string of the vector `thetaV`
(src/CDMPressureConversions.cc:217, 257, 286), which ends with the factory. -/
noncomputable def convert (i : Input) (c : Conv) (p : ℕ) : Res (Option Slice) :=
  match c.source with
  | .theta _ => thetaSlice i c.sys .ub p
  | .humidity sh t => humiditySlice i c.sys sh t p
  | .omega o t => omegaSlice i c.sys o t p
  | .pressure4D _ => pressureSlice i c.sys p

end Fimex.Pressure
