import Verif.Grib.Protobuf
import Verif.Fill.Model
import Verif.Slice.Model
import Verif.Scale.Model

/-!
# Model of reading slices of GRIB variables (src/io/grib/GribCDMReader.cc)

The slice specification is given by start, size and full length of each dimension. The GRIB library and the
chunk reader are one parameter `decode`, giving the values of a message (missing values replaced) or an
exception; no values if the library finds no message. Positions are natural numbers; forming a pointer outside
the array is not counted as undefined, writing there is.
-/

namespace Fimex.Grib

open Fimex.Pb Fimex.Fill

/-- One dimension of a slice: start, size, and length of the whole dimension. -/
structure Ext where
  start : Nat
  size : Nat
  len : Nat
deriving Repr, DecidableEq

/-- The slice by role of the dimensions. -/
structure Req where
  x : Ext
  y : Ext
  e : Ext
  l : Ext
  t : Ext
deriving Repr, DecidableEq

/-- src/io/grib/GribCDMReader.cc:167-207: the roles of the dimensions. Vectors are read without check. -/
def splitDims (hasTime : Bool) (dims : List Ext) : Res Req := do
  let hasEns := dims.length == (if hasTime then 5 else 4)
  let e ← if hasEns then readAt dims 2 else .ok ⟨0, 1, 1⟩
  let i := if hasEns then 3 else 2
  let l ← readAt dims i
  let t ← if hasTime then readAt dims (i + 1) else .ok ⟨0, 1, 1⟩
  let i := if hasTime then i + 2 else i + 1
  if i ≠ dims.length then .throws
  else do
    let x ← readAt dims 0
    let y ← readAt dims 1
    .ok ⟨x, y, e, l, t⟩

variable {V : Type}

/-- Writing consecutive array elements from position `i`. -/
def writeBlock (a : List V) (i : Nat) (vals : List V) : Res (List V) :=
  if vals.length = 0 then .ok a
  else if i + vals.length ≤ a.length then .ok (a.take i ++ vals ++ a.drop (i + vals.length))
  else .ub

/-- src/io/grib/GribCDMReader.cc:245-277: one message. `readGribData` (GribFileIndex.cc:484-505) raises an
exception if the message has more values than asked for, otherwise it writes its values and returns their
number. -/
def sliceMessage (decode : Chunk → Res (List V)) (miss : V) (messages : List Chunk) (r : Req) (t l e : Nat)
    (a : List V) : Res (List V) :=
  match messages[t * r.l.len * r.e.len + l * r.e.len + e]? with
  | none => .throws
  | some msg =>
    if msg.file = 0 then .ok a
    else do
      let xySize := r.x.size * r.y.size
      let xyMax := r.x.len * r.y.len
      let idx := ((t - r.t.start) * r.l.len * r.e.len + (l - r.l.start) * r.e.len + (e - r.e.start)) * xySize
      let vals ← decode msg
      if xyMax < vals.length then .throws
      else if xyMax ≠ xySize then
        -- lines 269-276, `full_data_array`
        if vals.length ≠ xyMax then writeBlock a idx (List.replicate xySize miss)
        else do
          let c ← Slice.copyRec vals xySize [r.x.len, r.y.len] [1, r.x.len] [r.x.start, r.y.start]
            [r.x.size, r.y.size] 1 ⟨0, []⟩
          writeBlock a idx c.out
      else do
        let a ← writeBlock a idx vals
        if vals.length ≠ xyMax then writeBlock a idx (List.replicate xySize miss) else .ok a

/-- src/io/grib/GribCDMReader.cc:209-280: the array of values before conversion. -/
def sliceValues (decode : Chunk → Res (List V)) (miss : V) (messages : List Chunk) (r : Req) : Res (List V) :=
  let sliceSize := r.x.size * r.y.size * r.t.size * r.l.size * r.e.size
  forN (fun t a =>
    forN (fun l a =>
      forN (fun e a => sliceMessage decode miss messages r t l e a) r.e.start r.e.size a) r.l.start r.l.size a)
    r.t.start r.t.size (List.replicate sliceSize miss)

/-- src/io/grib/GribCDMReader.cc:145-280 `getDataSlice` for a variable with messages, before conversion. -/
def getDataSlice (decode : Chunk → Res (List V)) (miss : V) (messages : List Chunk) (hasTime : Bool)
    (dims : List Ext) : Res (List V) := do
  let r ← splitDims hasTime dims
  sliceValues decode miss messages r

/-- src/io/grib/GribCDMReader.cc:303-313 `getDataSlice` at one position of the unlimited dimension, which is the
last one; `lens` are the lengths of the dimensions. -/
def getTimeSlice (decode : Chunk → Res (List V)) (miss : V) (messages : List Chunk) (hasTime : Bool)
    (lens : List Nat) (p : Nat) : Res (List V) :=
  let all := lens.map fun n => (⟨0, n, n⟩ : Ext)
  if hasTime then
    match lens.getLast? with
    | none => .throws
    | some n =>
      if n ≤ p then .throws
      else getDataSlice decode miss messages hasTime (all.dropLast ++ [⟨p, 1, n⟩])
  else getDataSlice decode miss messages hasTime all

variable {K : Type} [Field K] [LinearOrder K] [FloorRing K]

/-- src/io/grib/GribCDMReader.cc:55-79 `RoundValue`, exact arithmetic, for a value that is not NaN. `round`
(include/fimex/MathUtils.h:40-42) goes through `lround` and is narrowed to `int`. -/
def roundValue (scale initialMissing finalMissing v : K) : Res K :=
  if v = initialMissing then .ok finalMissing
  else
    let q := Scale.lround (1 / scale * v)
    if Scale.lo 64 true ≤ q ∧ q ≤ Scale.hi 64 true then .ok (scale * (Scale.wrap 32 true q : Int))
    else .ub

end Fimex.Grib
