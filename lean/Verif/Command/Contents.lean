import Verif.Basic
import Mathlib.Algebra.Order.Field.Basic
import Mathlib.Algebra.Order.Floor.Ring
import Mathlib.Data.List.Sort
import Mathlib.Data.Rat.Floor

/-!
# Contents of files (C133): model

The program `src/binSrc/fiXYcontents.cc`: which slices of a variable are shown, and their statistics.  Values are of an ordered field (no rounding), `none` is not a
number; the root of the variance is not taken.  A slice is its positions in time, layer and the other dimensions; both horizontal axes are always whole.
-/

namespace Fimex.Contents

/-! ## Statistics -/

section Stats
variable {K : Type} [Field K] [LinearOrder K] [IsStrictOrderedRing K] [FloorRing K]

/-- src/binSrc/fiXYcontents.cc:107-112 `quantile`; `nth_element` puts that value to position `n` that is there in the sorted vector, and has nothing to do at the end. -/
def quantile (v : List K) (quant : K) : Res K :=
  let n := ⌊(v.length : K) * quant⌋
  if n < 0 ∨ (v.length : Int) < n then .ub
  else
    match (v.insertionSort (· ≤ ·))[n.toNat]? with
    | some x => .ok x
    | none => .throws

/-- src/binSrc/fiXYcontents.cc:117-130: the loop that counts and removes what is not a number. -/
def split : List (Option K) → Nat × List K → Nat × List K
  | [], s => s
  | none :: l, s => split l (s.1 + 1, s.2)
  | some x :: l, s => split l (s.1, s.2 ++ [x])

/-- Sum of squares, largest and smallest value of the loop. -/
def loop (mean : K) : List K → K × K × K → K × K × K
  | [], s => s
  | x :: l, s => loop mean l (s.1 + (x - mean) * (x - mean), max s.2.1 x, min s.2.2 x)

/-- The numbers of the map; the variance is none if it is 0/0. -/
structure Numbers (K : Type) where
  variance : Option K
  median : K
  sum : K
  mean : K
  min : K
  max : K
deriving DecidableEq

structure Stats (K : Type) where
  undefs : Nat
  defs : Nat
  numbers : Option (Numbers K)
deriving DecidableEq

/-- src/binSrc/fiXYcontents.cc:114-150 `calcStats`. -/
def calcStats (data : List (Option K)) : Res (Stats K) :=
  let s := split data (0, [])
  match s.2 with
  | [] => .ok ⟨s.1, data.length - s.1, none⟩
  | x :: _ =>
    let vec := s.2
    let sum : K := vec.foldl (· + ·) 0
    let mean : K := sum / (vec.length : K)
    let r := loop mean vec (0, x, x)
    (quantile vec (1 / 2)).bind fun median =>
    .ok ⟨s.1, data.length - s.1, some ⟨if vec.length = 1 then none else some (r.1 / ((vec.length - 1 : Nat) : K)), median, sum, mean, r.2.2, r.2.1⟩⟩

end Stats

/-! ## Slices -/

structure Slice where
  time : Nat
  layer : Option Nat
  others : List (String × Nat)
deriving DecidableEq

/-- `static_cast<long>` of a number: towards zero. -/
def trunc (q : ℚ) : Int := if 0 ≤ q then ⌊q⌋ else ⌈q⌉

/-- src/binSrc/fiXYcontents.cc:265-284: one slice for each time; `times` is none without time axis, `hours` are the hours of the option. -/
def timeSlices (times : Option (List ℚ)) (hours : Option (List ℚ)) : List Slice :=
  match times with
  | none => []
  | some ts =>
    let wanted := (hours.getD []).map fun h => trunc (h * 60)
    (List.range ts.length).filterMap fun i =>
      if wanted ≠ [] ∧ trunc (ts.getD i 0 * 60) ∉ wanted then none else some ⟨i, none, []⟩

/-- src/binSrc/fiXYcontents.cc:286-315: the layers; `zs` is none without vertical axis. -/
def layerSlices (zs : Option (List ℚ)) (positions : Option (List Nat)) (values : Option (List ℚ)) (sbs : List Slice) : List Slice :=
  match zs with
  | none => sbs
  | some z =>
    let pos := positions.getD []
    let val := (values.getD []).map fun v => trunc (10 * v)
    sbs.flatMap fun s => (List.range z.length).filterMap fun i =>
      if pos ≠ [] ∧ i ∉ pos then none
      else if val ≠ [] ∧ trunc (z.getD i 0 * 10) ∉ val then none
      else some { s with layer := some i }

/-- src/binSrc/fiXYcontents.cc:317-332: all positions of the other dimensions. -/
def otherSlices : List (String × Nat) → List Slice → List Slice
  | [], sbs => sbs
  | d :: ds, sbs => otherSlices ds (sbs.flatMap fun s => (List.range d.2).map fun i => { s with others := s.others ++ [(d.1, i)] })

/-- All slices of a variable. -/
def slices (times hours : Option (List ℚ)) (zs : Option (List ℚ)) (positions : Option (List Nat)) (values : Option (List ℚ)) (others : List (String × Nat)) : List Slice :=
  otherSlices others (layerSlices zs positions values (timeSlices times hours))

/-! ## Vertical layers -/

/-- The kind of vertical layer asked for. -/
inductive Kind where
  | no
  | unit (name : List Char)
  | std (name : List Char)
deriving DecidableEq

/-- src/binSrc/fiXYcontents.cc:176-193. -/
def kindOf (vl : List Char) : Kind :=
  if vl = "no".toList then .no
  else if vl.take 6 = "units:".toList then .unit (vl.drop 6)
  else .std vl

/-- An axis: number of values, and the attributes `units` and `standard_name`. -/
structure Axis where
  size : Nat
  units : Option (List Char)
  stdName : Option (List Char)

/-- src/binSrc/fiXYcontents.cc:207-230: whether a variable with this horizontal and this vertical axis is used; the axis asked is that of `getGeoXAxis`. -/
def use (convertible : List Char → List Char → Bool) (option : Option (List Char)) (x _z : Option Axis) : Bool :=
  match option with
  | none => true
  | some vl =>
    match kindOf vl with
    | .no => match x with | none => true | some a => decide (a.size ≤ 1)
    | .unit n => match x with | none => false | some a => match a.units with | some u => convertible u n | none => false
    | .std n => match x with | none => false | some a => match a.stdName with | some s => decide (n <:+: s) | none => false

end Fimex.Contents
