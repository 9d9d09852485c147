import Verif.Basic

/-!
# Model of array slicing

`DataImpl<C>::slice` (src/DataImpl.h:239-273) and `recursiveCopyMultiDimData`
(include/fimex/RecursiveSliceCopy.h:46-67).

The C++ arrays are lists. Pointers into the source are offsets; pointer movement and reads are
checked, leaving the array is `ub`. The destination pointer only ever moves forward over what was
just written, so the destination is the list of values written so far; writing more than the
allocated `outSize` values is `ub`.
`size_t` sums in the range check wrap (`wadd`); products are natural numbers
(simplification: products of dimension lengths below 2^64 are assumed by the theorems).
-/

namespace Fimex.Slice

/-- src/DataImpl.h:264-268: `orgSliceSize[0] = 1`, `orgSliceSize[n] = orgSliceSize[n-1] * orgDimSize[n-1]`.
`acc` is the value for the current dimension. -/
def sliceSizes (acc : Nat) : List Nat → List Nat
  | [] => []
  | d :: ds => acc :: sliceSizes (acc * d) ds

/-- The loop `for (i = 0; i < n; i++) body` of RecursiveSliceCopy.h:55-57, threading the two
pointers. -/
def loopN {σ : Type} (n : Nat) (body : σ → Res σ) (s : σ) : Res σ :=
  match n with
  | 0 => .ok s
  | n + 1 => do
    let s' ← body s
    loopN n body s'

/-- State of the copy: source offset and values written so far. -/
structure CopyState (α : Type) where
  org : Nat
  out : List α

/-- include/fimex/RecursiveSliceCopy.h:46-60. `cur` is `currentDim`. Vectors are read with
`getD _ 0`; the caller has made sure that all vectors have the rank as length. -/
def copyRec {α : Type} (src : List α) (outSize : Nat) (dims slices start size : List Nat) :
    Nat → CopyState α → Res (CopyState α)
  | cur, s => do
    -- line 50
    let p ← advance src s.org (start.getD cur 0 * slices.getD cur 0)
    let s' ← (match cur with
      | 0 => do
        -- lines 52-53
        let block ← readRange src p (size.getD 0 0)
        if outSize < s.out.length + block.length then .ub
        else do
          let p' ← advance src p (size.getD 0 0)
          .ok { org := p', out := s.out ++ block }
      | c + 1 =>
        -- lines 55-57
        loopN (size.getD (c + 1) 0) (copyRec src outSize dims slices start size c) { s with org := p })
    -- line 59
    let q ← advance src s'.org
      ((dims.getD cur 0 - (start.getD cur 0 + size.getD cur 0)) * slices.getD cur 0)
    .ok { s' with org := q }

/-- src/DataImpl.h:248-254: the range check per dimension, in order; `none` = all passed. The sum
is a `size_t` sum. Reading past the end of `startDims` or `outputDimSize` is undefined. -/
def checkDims : List Nat → List Nat → List Nat → Res Unit
  | [], _, _ => .ok ()
  | d :: ds, st :: sts, sz :: szs =>
    if d < wadd st sz then .throws else checkDims ds sts szs
  | _ :: _, _, _ => .ub

/-- src/DataImpl.h:239-273 `DataImpl<C>::slice`. -/
def slice {α : Type} (src : List α) (dims start size : List Nat) : Res (List α) :=
  -- lines 242-244: scalar data, `clone()`
  if dims.length = 0 then .ok src
  else do
    checkDims dims start size
    -- lines 255-256
    if dims.prod ≠ src.length then .throws
    else do
      let s ← copyRec src (size.take dims.length).prod dims (sliceSizes 1 dims) start size
        (dims.length - 1) { org := 0, out := [] }
      .ok s.out

end Fimex.Slice
