import Verif.Basic

/-!
# Model of `DataIndex` and the index part of `IndexedData`

src/DataIndex.cc:33-42, include/fimex/DataIndex.h:39-67, src/IndexedData.cc:68-78.
Numbers are natural numbers (no `size_t` wrap; the theorems are about arrays that exist in memory,
whose number of elements is below 2^64).
-/

namespace Fimex.DataIndex

/-- The two private members. -/
structure Index where
  dims : List Nat
  slices : List Nat
deriving DecidableEq, Repr

/-- include/fimex/DataIndex.h:42 `MIN_DIMS`. -/
def minDims : Nat := 10

/-- src/DataIndex.cc:39-41: the loop `slices_.at(i) = slices_.at(i-1) * dims_.at(i-1)` for
`i = from .. rank-1`; `n` counts the remaining iterations. -/
def fillSlices (dims : List Nat) : Nat → Nat → List Nat → List Nat
  | 0, _, slices => slices
  | n + 1, i, slices =>
    fillSlices dims n (i + 1) (slices.set i (slices.getD (i - 1) 0 * dims.getD (i - 1) 0))

/-- src/DataIndex.cc:33-42, the constructor. -/
def mk (dims : List Nat) : Index :=
  let slices := List.replicate (max dims.length minDims) 0
  let slices := if 0 < dims.length then slices.set 0 1 else slices
  ⟨dims, fillSlices dims (dims.length - 1) 1 slices⟩

/-- `vector::at`: raises outside. -/
def at' (l : List Nat) (i : Nat) : Res Nat :=
  match l[i]? with
  | some v => .ok v
  | none => .throws

/-- include/fimex/DataIndex.h:63 `getPos(vector)`. -/
def getPos (ix : Index) (p : List Nat) : Res Nat :=
  let rec go : Nat → List Nat → Nat → Res Nat
    | _, [], acc => .ok acc
    | i, a :: as, acc => do
      let s ← at' ix.slices i
      go (i + 1) as (acc + a * s)
  go 0 p 0

/-- include/fimex/DataIndex.h:64 -/
def getPos1 (_ : Index) (a : Nat) : Res Nat := .ok a
/-- include/fimex/DataIndex.h:65 -/
def getPos2 (ix : Index) (a b : Nat) : Res Nat := do
  let s1 ← at' ix.slices 1
  .ok (a + b * s1)
/-- include/fimex/DataIndex.h:66 -/
def getPos3 (ix : Index) (a b c : Nat) : Res Nat := do
  let s1 ← at' ix.slices 1
  let s2 ← at' ix.slices 2
  .ok (a + b * s1 + c * s2)
/-- include/fimex/DataIndex.h:67 -/
def getPos4 (ix : Index) (a b c d : Nat) : Res Nat := do
  let s1 ← at' ix.slices 1
  let s2 ← at' ix.slices 2
  let s3 ← at' ix.slices 3
  .ok (a + b * s1 + c * s2 + d * s3)

/-- src/IndexedData.cc:68-78 `setDims`: which index the data of `n` values gets.
`product` (src/MathUtils.cc:48-53) of an empty list is 1. -/
def setDims (n : Nat) (dims : List Nat) : Res Index :=
  if dims.prod = n then .ok (mk dims)
  else if n = 0 then .ok (mk [])
  else .throws

end Fimex.DataIndex
