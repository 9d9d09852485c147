import Verif.Basic

/-!
# Model of copying values between data arrays

`DataImpl<C>::copyData` (src/DataImpl.h:196-208), which is the body of every
`DataImpl<C>::setValues(startPos, data, first, last)` (src/Data.cc:149-192),
`createDataSlice` (src/Data.cc:123-146), `DataImpl<C>::setValues(begin, end, pos)`
(src/DataImpl.h:275-282).

The values of the source are taken as already converted to the element type of the target
(`asChar()`, ..., `asStrings()`); source and target are different arrays. `size_t` arithmetic wraps.
-/

namespace Fimex.DataCopy

/-- Overwrite `vals.length` values of `dst` from position `p` on (`std::copy` into `&theData[p]`);
leaving the target is undefined. -/
def writeAt {α : Type} (dst : List α) (p : Nat) (vals : List α) : Res (List α) :=
  if p + vals.length ≤ dst.length then .ok (dst.take p ++ vals ++ dst.drop (p + vals.length)) else .ub

/-- src/DataImpl.h:196-208 `copyData`. -/
def copyData {α : Type} (dst : List α) (startPos : Nat) (src : List α) (first last : Nat) :
    Res (List α) :=
  if src.length < first then .throws
  else
    let last := min last src.length
    let last := min (wadd (wsub dst.length startPos) first) last
    if first < last then do
      let vals ← readRange src first (last - first)
      writeAt dst startPos vals
    else .ok dst

/-- src/Data.cc:123-146 `createDataSlice` for the numeric types and CDM_STRINGS: a new array of
`length` values, then `setValues(0, data, dataStartPos, dataStartPos + length)`. The freshly
allocated values are indeterminate, written `none`. (For `std::string` elements they are empty
strings instead.) -/
def createDataSlice {α : Type} (data : List α) (dataStartPos length : Nat) : Res (List (Option α)) :=
  copyData (List.replicate length none) 0 (data.map some) dataStartPos (wadd dataStartPos length)

/-- src/DataImpl.h:275-282: set values from an iterator range. -/
def setFromRange {α : Type} (dst : List α) (vals : List α) (dataStartPos : Nat) : Res (List α) :=
  if dst.length < wadd vals.length dataStartPos then .throws
  else writeAt dst dataStartPos vals

end Fimex.DataCopy
