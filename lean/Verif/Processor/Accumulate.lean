import Verif.Basic
import Mathlib.Algebra.Group.Basic
import Mathlib.Algebra.Group.Int.Defs
import Mathlib.Data.List.Basic
import Mathlib.Tactic.ByContra

/-!
# Accumulation and de-accumulation: model

Model of `src/CDMProcessor.cc:65-69`, `536-556`, `605-657`: `addDataP2Data` and the accumulation and de-accumulation parts of
`CDMProcessor::getDataSlice`.

Data are shared pointers to arrays, so the model has a heap of arrays and data are addresses: `asDouble()` of `double` data
returns the same array without a copy (`src/DataImpl.h:354-366`), and results are written into it.  `none` is NaN, values
are exact.  Arrays are never freed.  A reader is any object with a state.  Different sizes violate an `assert` and are
undefined here.
-/

namespace Fimex.Processor

/-! ## Heap and data -/

/-- Values of an array. -/
abbrev Arr (K : Type) := List (Option K)

/-- All arrays, by address. -/
abbrev Heap (K : Type) := List (Arr K)

/-- A `DataPtr`: the array and whether the type is `double`. -/
structure Dat where
  addr : ℕ
  dbl : Bool
deriving DecidableEq

/-- `p_->sliceCache`. -/
structure Cache where
  var : String
  pos : ℕ
  data : Dat
deriving DecidableEq

variable {K : Type} [AddCommGroup K]

/-- Addition with NaN. -/
def add : Option K → Option K → Option K
  | some a, some b => some (a + b)
  | _, _ => none

/-- Subtraction with NaN. -/
def sub : Option K → Option K → Option K
  | some a, some b => some (a - b)
  | _, _ => none

/-- `mifi_nand2bad(.., 0)` for one value. -/
def nan0 (x : Option K) : Option K := some (x.getD 0)

/-- `Data::asDouble`. -/
def asDouble (h : Heap K) (d : Dat) : Res (Heap K × ℕ) :=
  if d.dbl then .ok (h, d.addr)
  else do
    let a ← readAt h d.addr
    .ok (h ++ [a], h.length)

/-- src/CDMProcessor.cc:535-539 `replaceNanWith0` in place. -/
def replaceNan (first : Bool) (h : Heap K) (y : ℕ) : Res (Heap K) :=
  if first then do
    let b ← readAt h y
    .ok (h.set y (b.map nan0))
  else .ok h

/-- The `std::transform` in place, after conversion to `double`. -/
def transformP (op : Option K → Option K → Option K) (h : Heap K) (d dp : Dat) (first : Bool) : Res (Heap K × Dat) := do
  let (h, x) ← asDouble h d
  let (h, y) ← asDouble h dp
  let h ← replaceNan first h y
  let a ← readAt h x
  let b ← readAt h y
  .ok (h.set x (a.zipWith op b), ⟨x, true⟩)

/-- src/CDMProcessor.cc:541-556 `addDataP2Data`. -/
def addP (h : Heap K) (d dp : Dat) (first : Bool) : Res (Heap K × Dat) := do
  let a ← readAt h d.addr
  let b ← readAt h dp.addr
  if a.length ≠ 0 ∧ b.length ≠ 0 then
    if a.length ≠ b.length then .ub else transformP add h d dp first
  else if b.length ≠ 0 then .ok (h, dp)
  else .ok (h, d)

/-- src/CDMProcessor.cc:639-654, the subtraction. -/
def subP (h : Heap K) (d dp : Dat) (first : Bool) : Res (Heap K × Dat) := do
  let a ← readAt h d.addr
  let b ← readAt h dp.addr
  if a.length ≠ 0 ∧ b.length ≠ 0 then
    if a.length ≠ b.length then .ub else transformP sub h d dp first
  else .ok (h, d)

/-! ## Readers -/

/-- Continue after a call that changes the state; exceptions keep the changed state. -/
def bindO {S α β : Type} (x : S × Res α) (f : S → α → S × Res β) : S × Res β :=
  match x with
  | (s, .ok a) => f s a
  | (s, .throws) => (s, .throws)
  | (s, .ub) => (s, .ub)

/-- `getDataSlice` of a reader with own state `σ`. -/
abbrev Rdr (K σ : Type) := σ × Heap K → String → ℕ → (σ × Heap K) × Res Dat

/-- Use an operation on the heap. -/
def onHeap {σ : Type} (s : σ × Heap K) (r : Res (Heap K × Dat)) : (σ × Heap K) × Res Dat :=
  match r with
  | .ok (h, d) => ((s.1, h), .ok d)
  | .throws => (s, .throws)
  | .ub => (s, .ub)

variable {σ : Type}

/-- src/CDMProcessor.cc:622-625, for the slices listed. -/
def accLoop (rdr : Rdr K σ) (v : String) : List ℕ → σ × Heap K → Dat → (σ × Heap K) × Res Dat
  | [], s, d => (s, .ok d)
  | i :: is, s, d =>
    bindO (rdr s v i) fun s dp => bindO (onHeap s (addP s.2 d dp (i == 0))) fun s d => accLoop rdr v is s d

/-- src/CDMProcessor.cc:611-620: first slice to add, and the data so far. -/
def startOf (cache : Option Cache) (v : String) (p : ℕ) (s : σ × Heap K) (d : Dat) : ℕ × ((σ × Heap K) × Res Dat) :=
  match cache with
  | none => (0, (s, .ok d))
  | some c =>
    if c.var = v ∧ c.pos ≤ p then
      (c.pos + 1, if c.pos = p then (s, .ok c.data) else onHeap s (addP s.2 d c.data false))
    else (0, (s, .ok d))

/-- src/CDMProcessor.cc:610-625 for `p > 0`. -/
def accumulate (rdr : Rdr K σ) (cache : Option Cache) (v : String) (p : ℕ) (s : σ × Heap K) (d : Dat) :
    (σ × Heap K) × Res Dat :=
  bindO (startOf cache v p s d).2 fun s d =>
    accLoop rdr v (List.range' (startOf cache v p s d).1 (p - (startOf cache v p s d).1)) s d

/-- src/CDMProcessor.cc:599-631: read the slice and accumulate; the state has the cache. -/
def accStage (acc : String → Bool) (rdr : Rdr K σ) (s : (σ × Option Cache) × Heap K) (v : String) (p : ℕ) :
    ((σ × Option Cache) × Heap K) × Res Dat :=
  match rdr (s.1.1, s.2) v p with
  | (t, .throws) => (((t.1, s.1.2), t.2), .throws)
  | (t, .ub) => (((t.1, s.1.2), t.2), .ub)
  | (t, .ok d) =>
    if acc v = true ∧ p > 0 then
      match accumulate rdr s.1.2 v p t d with
      | (t, .throws) => (((t.1, s.1.2), t.2), .throws)
      | (t, .ub) => (((t.1, s.1.2), t.2), .ub)
      | (t, .ok d) => (((t.1, some ⟨v, p, d⟩), t.2), .ok d)
    else (((t.1, s.1.2), t.2), .ok d)

/-- src/CDMProcessor.cc:633-656. -/
def deaccStage (deacc : String → Bool) (rdr : Rdr K σ) (s : (σ × Option Cache) × Heap K) (d : Dat) (v : String) (p : ℕ) :
    ((σ × Option Cache) × Heap K) × Res Dat :=
  if deacc v = true ∧ p ≠ 0 then
    match rdr (s.1.1, s.2) v (p - 1) with
    | (t, .throws) => (((t.1, s.1.2), t.2), .throws)
    | (t, .ub) => (((t.1, s.1.2), t.2), .ub)
    | (t, .ok dp) => onHeap ((t.1, s.1.2), t.2) (subP t.2 d dp (p == 1))
  else (s, .ok d)

/-- src/CDMProcessor.cc:558-712 `CDMProcessor::getDataSlice` for a variable that is only accumulated or de-accumulated (no
vertical velocity, height or rotation): a reader again, with the cache in its state. -/
def process (acc deacc : String → Bool) (rdr : Rdr K σ) : Rdr K (σ × Option Cache) := fun s v p =>
  bindO (accStage acc rdr s v p) fun s d => deaccStage deacc rdr s d v p

/-- State after reading a list of slices. -/
def history (rdr : Rdr K σ) (s : σ × Heap K) : List (String × ℕ) → σ × Heap K
  | [] => s
  | (v, p) :: rs => history rdr (rdr s v p).1 rs

/-- A reader of a file: each slice in a new array. -/
def fileReader (src : String → ℕ → Arr K) (dbl : Bool) : Rdr K Unit := fun s v i =>
  (((), s.2 ++ [src v i]), .ok ⟨s.2.length, dbl⟩)

end Fimex.Processor
