import Verif.Slice.Model
import Verif.DataCopy.Model

/-!
# Model of the generic reading functions of `CDMReader` (src/CDMReader.cc:70-168, 248-274)

`readAt i` stands for the virtual `getDataSlice(varName, i)` of the concrete reader: the data at
position `i` of the unlimited dimension, possibly empty for a position without data.
Data arrays are lists; freshly allocated, unset values are `none`.
-/

namespace Fimex.Reader

open Slice DataCopy

variable {α : Type}

/-- Result of the loop src/CDMReader.cc:112-122. -/
structure Split where
  unLimStart : Nat
  unLimSize : Nat
  dimStart : List Nat
  dimSize : List Nat
  maxDimSize : List Nat
  sliceSize : Nat
deriving DecidableEq, Repr

/-- src/CDMReader.cc:112-122: separate the unlimited dimension from the others. `at` raises when a
vector is shorter than the list of names. -/
def splitDims (ud : String) : List String → List Nat → List Nat → List Nat → Split → Res Split
  | [], _, _, _, acc => .ok acc
  | n :: ns, st :: sts, sz :: szs, mx :: mxs, acc =>
    if n = ud then splitDims ud ns sts szs mxs { acc with unLimStart := st, unLimSize := sz }
    else splitDims ud ns sts szs mxs
      { acc with
        dimStart := acc.dimStart ++ [st]
        dimSize := acc.dimSize ++ [sz]
        maxDimSize := acc.maxDimSize ++ [mx]
        sliceSize := acc.sliceSize * sz }
  | _ :: _, _, _, _, _ => .throws

/-- src/CDMReader.cc:130-140: the loop over unlimited positions, iterations `i, i+1, ...` (`n` of them).
`setValues(pos, data)` copies all values (default range). -/
def joinLoop (readSlice : Nat → Res (List α)) (s : Split) : Nat → Nat → List α → Res (List α)
  | _, 0, dst => .ok dst
  | i, n + 1, dst => do
    let d ← readSlice (i + s.unLimStart)
    if d.length ≠ 0 then do
      let d ← slice d s.maxDimSize s.dimStart s.dimSize
      if d.length ≠ s.sliceSize then .throws
      else do
        let dst ← copyData dst (i * s.sliceSize) d 0 (two64 - 1)
        joinLoop readSlice s (i + 1) n dst
    else joinLoop readSlice s (i + 1) n dst

/-- A slice request as given by a `SliceBuilder`. -/
structure Request where
  names : List String
  max : List Nat
  start : List Nat
  size : List Nat

/-- src/CDMReader.cc:99-140: `getDataSlice(varName, sb)` for a variable without data in memory that has
the unlimited dimension `ud`. -/
def getDataSliceUnlim (fill : α) (readSlice : Nat → Res (List α)) (ud : String) (r : Request) :
    Res (List α) := do
  let s ← splitDims ud r.names r.start r.size r.max ⟨0, 0, [], [], [], 1⟩
  if s.unLimSize = 0 then .ok []
  else joinLoop readSlice s 0 s.unLimSize (List.replicate (s.sliceSize * s.unLimSize) fill)

/-- src/CDMReader.cc:158-162: the loop of `getData`. -/
def getDataLoop (readSlice : Nat → Res (List α)) (sliceSize : Nat) :
    Nat → Nat → List (Option α) → Res (List (Option α))
  | _, 0, dst => .ok dst
  | i, n + 1, dst => do
    let d ← readSlice i
    let dst ← copyData dst (i * sliceSize) (d.map some) 0 sliceSize
    getDataLoop readSlice sliceSize (i + 1) n dst

/-- src/CDMReader.cc:153-163: `getData` for a variable with the unlimited dimension (length `uLen`);
`sliceSize` is the product of the other dimension lengths. -/
def getDataUnlim (readSlice : Nat → Res (List α)) (sliceSize uLen : Nat) : Res (List (Option α)) :=
  getDataLoop readSlice sliceSize 0 uLen (List.replicate (uLen * sliceSize) none)

/-- src/CDMReader.cc:90-146 `getDataSlice(varName, sb)`. `mem`: data in memory; `ud`: the unlimited
dimension if the variable has it. Without unlimited dimension the virtual call gives all data. -/
def getDataSlice (mem : Option (List α)) (fill : α) (readSlice : Nat → Res (List α)) (ud : Option String)
    (r : Request) : Res (List α) :=
  match mem, ud with
  | some d, _ => slice d r.max r.start r.size
  | none, some u => getDataSliceUnlim fill readSlice u r
  | none, none => do
    let d ← readSlice 0
    slice d r.max r.start r.size

/-- src/CDMReader.cc:248-263 `getDataSliceFromMemory(variable, unLimDimPos)` for a variable with data in
memory. -/
def getSliceFromMemory (data : List α) (hasUnlim : Bool) (sliceSize unLimPos : Nat) :
    Res (List (Option α)) :=
  if data.length = 0 then .ok []
  else if hasUnlim then createDataSlice data (unLimPos * sliceSize) sliceSize
  else .ok (data.map some)

end Fimex.Reader
