import Verif.Slice.Model
import Verif.DataCopy.Model
import Verif.Search.Model
import Mathlib.Data.Nat.Basic

/-!
# Model of `AggregationReader` (src/AggregationReader.cc)

One variable is considered for joins. An aggregated reader is represented by its dimensions, its
unlimited dimension, the shape of the variable (if it has it) and the complete data of the variable;
reading from it is slicing (property C16). Shapes are in storage order, fastest dimension first.
-/

namespace Fimex.Aggregation

open Slice DataCopy

variable {α : Type}

/-- An aggregated reader. -/
structure File (α : Type) where
  udim : Option String
  dims : String → Option Nat
  shape : Option (List String)
  data : List α

/-- The aggregation: unlimited dimension and other dimensions of the joined dataset, the end positions
`readerUdimPos_`, and the readers. -/
structure Agg (α : Type) where
  udim : Option String
  dims : String → Option Nat
  ends : List Nat
  files : List (File α)

/-- src/AggregationReader.cc:160-163 `extendJoinedUnLimDimBy` (positions only). -/
def extendBy (ends : List Nat) (len : Nat) : List Nat :=
  ends ++ [(ends.getLast?.getD 0) + len]

/-- Length with which a reader enters a join along an existing dimension: src/AggregationReader.cc:111-127
for the first reader, 210-220 and 253 for others; `au` is the unlimited dimension of the aggregation. -/
def joinExistingLength (au : Option String) (f : File α) : Nat :=
  match f.udim, au with
  | none, _ => 0
  | some n, none => (f.dims n).getD 0
  | some n, some m => if n ≠ m then 0 else (f.dims n).getD 0

/-- Adding readers one by one (join existing): the unlimited dimension of the aggregation is that of the
first reader which has one (110-128, 222-225). -/
def joinExistingEnds : Option String → List Nat → List (File α) → List Nat
  | _, ends, [] => ends
  | au, ends, f :: fs =>
    joinExistingEnds (au.or f.udim) (extendBy ends (joinExistingLength au f)) fs

/-- Adding readers one by one (join new): every reader adds one position (src/AggregationReader.cc:149, 271). -/
def joinNewEnds : List Nat → List (File α) → List Nat
  | ends, [] => ends
  | ends, _ :: fs => joinNewEnds (extendBy ends 1) fs

/-- src/AggregationReader.cc:346-358 `findJoinReader`: index of the reader and position inside it. -/
def findJoinReader (ends : List Nat) (p : Nat) : Option (Nat × Nat) :=
  let it := Search.upperBound ends p
  if it = ends.length then none
  else
    let before := if it = 0 then 0 else ends.getD (it - 1) 0
    some (it, p - before)

/-- src/AggregationReader.cc:360-381 `checkJoinExistingDims`; `shape` is the variable's shape in the
aggregation. -/
def checkJoinExistingDims (a : Agg α) (shape : List String) (f : File α) : Bool :=
  match f.shape with
  | none => false
  | some s => decide (s = shape) && s.all fun d => decide (f.udim = some d) || decide (a.dims d = f.dims d)

/-- src/AggregationReader.cc:383-406 `checkJoinNewDims`. -/
def checkJoinNewDims (a : Agg α) (shape : List String) (f : File α) : Bool :=
  match f.shape with
  | none => false
  | some s => decide (s = shape.dropLast) && s.all fun d => decide (a.dims d = f.dims d)

/-- Lengths of a shape in a reader. -/
def lengths (dims : String → Option Nat) (shape : List String) : List Nat :=
  shape.map fun d => (dims d).getD 0

/-- src/AggregationReader.cc:431-436: size of one slice, leaving out the unlimited dimension. -/
def otherSize (a : Agg α) (shape : List String) : Nat :=
  (lengths a.dims (shape.filter fun d => decide (a.udim ≠ some d))).prod

/-- `reader->getDataSlice(varName, unLimDimPos)` of an aggregated reader: everything in the other
dimensions, one position in its unlimited dimension. -/
def readAtUnlim (f : File α) (shape : List String) (p : Nat) : Res (List α) :=
  slice f.data (lengths f.dims shape) (shape.map fun d => if f.udim = some d then p else 0)
    (shape.map fun d => if f.udim = some d then 1 else (f.dims d).getD 0)

/-- src/AggregationReader.cc:418-440, 457: `getDataSlice(varName, unLimDimPos)` for a variable joined along an
existing dimension; `none` is the null pointer. -/
def joinExistingAt (a : Agg α) (shape : List String) (fill : α) (p : Nat) : Res (Option (List α)) :=
  match findJoinReader a.ends p with
  | none => .ok none
  | some (k, q) =>
    match a.files[k]? with
    | none => .ub
    | some f =>
      if checkJoinExistingDims a shape f then do
        let d ← readAtUnlim f shape q
        .ok (some d)
      else .ok (some (List.replicate (otherSize a shape) fill))

/-- src/AggregationReader.cc:441-453: the same for a variable joined along a new dimension. The slice of
fill values has the size of the whole joined variable, including the new dimension. -/
def joinNewAt (a : Agg α) (shape : List String) (fill : α) (p : Nat) : Res (Option (List α)) :=
  match findJoinReader a.ends p with
  | none => .ok none
  | some (k, _) =>
    match a.files[k]? with
    | none => .ub
    | some f =>
      if checkJoinNewDims a shape f then .ok (some f.data)
      else .ok (some (List.replicate (lengths a.dims shape).prod fill))

/-- One dimension of a request: name, start, size. -/
abbrev Req := List (String × Nat × Nat)

/-- src/AggregationReader.cc:509-518: the request passed on to one reader, position `q` in its unlimited
dimension. -/
def readRegion (f : File α) (ud : String) (r : Req) (q : Nat) : Res (List α) :=
  slice f.data (lengths f.dims (r.map (·.1))) (r.map fun d => if d.1 = ud then q else d.2.1)
    (r.map fun d => if d.1 = ud then 1 else d.2.2)

/-- src/AggregationReader.cc:502-537: the loop over positions of the joined dimension (join existing);
the size assertion is kept as `ub`. -/
def regionLoop (a : Agg α) (ud : String) (r : Req) (uStart sliceSize : Nat) :
    Nat → Nat → List α → Res (List α)
  | 0, _, dst => .ok dst
  | n + 1, i, dst =>
    match findJoinReader a.ends (uStart + i) with
    | none => regionLoop a ud r uStart sliceSize n (i + 1) dst
    | some (k, q) =>
      match a.files[k]? with
      | none => .ub
      | some f =>
        if checkJoinExistingDims a (r.map (·.1)) f then do
          let d ← readRegion f ud r q
          if d.length = 0 then regionLoop a ud r uStart sliceSize n (i + 1) dst
          else if d.length ≠ sliceSize then .ub
          else do
            let dst ← copyData dst (i * sliceSize) d 0 (two64 - 1)
            regionLoop a ud r uStart sliceSize n (i + 1) dst
        else regionLoop a ud r uStart sliceSize n (i + 1) dst

/-- src/AggregationReader.cc:478-497: start and size in the joined dimension (later entries win), and the
size of one slice. -/
def requestSizes (ud : String) (r : Req) : Nat × Nat × Nat :=
  r.foldl (fun (acc : Nat × Nat × Nat) d =>
    if d.1 = ud then (d.2.1, d.2.2, acc.2.2) else (acc.1, acc.2.1, acc.2.2 * d.2.2)) (0, 0, 1)

/-- src/AggregationReader.cc:469-539: `getDataSlice(varName, sb)` for a variable joined along an existing
dimension `ud`. -/
def joinExistingRegion (a : Agg α) (ud : String) (r : Req) (fill : α) : Res (List α) :=
  let s := requestSizes ud r
  if s.2.1 = 0 ∨ s.2.2 = 0 then .ok []
  else regionLoop a ud r s.1 s.2.2 s.2.1 0 (List.replicate (s.2.2 * s.2.1) fill)

/-! ## Union -/

/-- Length and unlimited flag. -/
structure Dim where
  len : Nat
  unlim : Bool
deriving DecidableEq, Repr

/-- A dataset: dimensions and variables with shapes. -/
structure Dataset where
  dims : List (String × Dim)
  vars : List (String × List String)
deriving DecidableEq, Repr

/-- The union: its dimensions, and the index of the providing dataset for each variable
(`unionReaders_`). -/
structure UnionState where
  dims : List (String × Dim)
  provider : List (String × Nat)
deriving DecidableEq, Repr

/-- src/AggregationReader.cc:293-309: the loop over the dimensions of a variable; a dimension is added even
when the variable is rejected later. -/
def checkUnionDims (d : Dataset) : List String → List (String × Dim) → Bool → Res (List (String × Dim) × Bool)
  | [], dims, ok => .ok (dims, ok)
  | n :: ns, dims, ok =>
    match d.dims.lookup n with
    | none => .throws
    | some rDim =>
      match dims.lookup n with
      | some aDim =>
        if aDim.unlim ≠ rDim.unlim then checkUnionDims d ns dims false
        else if rDim.len ≠ aDim.len then checkUnionDims d ns dims false
        else checkUnionDims d ns dims ok
      | none =>
        if rDim.unlim && dims.any fun x => x.2.unlim then checkUnionDims d ns dims false
        else checkUnionDims d ns (dims ++ [(n, rDim)]) ok

/-- src/AggregationReader.cc:277-315: the loop over the variables of dataset `k`. -/
def addUnionVars (d : Dataset) (k : Nat) : List (String × List String) → UnionState → Res UnionState
  | [], s => .ok s
  | (v, shape) :: vs, s =>
    if (s.provider.lookup v).isSome then addUnionVars d k vs s
    else do
      let (dims, ok) ← checkUnionDims d shape s.dims true
      addUnionVars d k vs ⟨dims, if ok then s.provider ++ [(v, k)] else s.provider⟩

/-- Adding datasets `k, k+1, ...` after the first. -/
def addUnion : Nat → List Dataset → UnionState → Res UnionState
  | _, [], s => .ok s
  | k, d :: ds, s => do
    let s ← addUnionVars d k d.vars s
    addUnion (k + 1) ds s

/-- src/AggregationReader.cc:106-109, 151-157 then 198-316: the union of a list of datasets. -/
def union : List Dataset → Res UnionState
  | [] => .ok ⟨[], []⟩
  | d :: ds => addUnion 1 ds ⟨d.dims, d.vars.map fun v => (v.1, 0)⟩

/-- src/AggregationReader.cc:408-416 `findUnionReader`. -/
def findUnionReader (s : UnionState) (v : String) : Option Nat := s.provider.lookup v

end Fimex.Aggregation
