import Verif.Interp.ReducedProps

/-!
# Forward interpolation

Model of `src/CachedForwardInterpolation.cc:54-224`: every input cell has a position on the output grid, the
values of the input cells that fall into an output cell are aggregated.
-/

namespace Fimex.Interp.Forward

open Fimex.Interp

variable {K : Type} [Field K] [LinearOrder K] [FloorRing K]

/-- The aggregators, src/CachedForwardInterpolation.cc:84-130. -/
inductive Kind where
  | sum | mean | median | max | min
deriving DecidableEq, Repr

/-- State of an aggregator: `count` and `val` of `AggSimple`, `values` of `AggMedian`.  The constructor of
`AggSimple` reads `count` before it is set; whatever it reads, `count` and `val` are zero afterwards. -/
structure Agg (K : Type) where
  count : ℕ
  val : Option K
  values : List (Option K)
deriving DecidableEq

/-- The state after construction. -/
def Agg.new : Agg K := ⟨0, some 0, []⟩

/-- `f < val`, false when one of them is NaN. -/
def olt (a b : Option K) : Prop :=
  match a, b with
  | some a, some b => a < b
  | _, _ => False

instance (a b : Option K) : Decidable (olt a b) := by
  cases a <;> cases b <;> unfold olt <;> infer_instance

/-- src/CachedForwardInterpolation.cc:74-115, the `push` functions. -/
def Agg.push (k : Kind) (a : Agg K) (f : Option K) : Agg K :=
  match k with
  | .sum | .mean => { a with count := a.count + 1, val := oadd a.val f }
  | .min => { a with val := if a.count = 0 ∨ olt f a.val then f else a.val, count := a.count + 1 }
  | .max => { a with val := if a.count = 0 ∨ olt a.val f then f else a.val, count := a.count + 1 }
  | .median => { a with values := a.values ++ [f] }

/-- src/CachedForwardInterpolation.cc:63-70 `AggSimple::reset`. -/
def Agg.reset (a : Agg K) (v : Option K) : Option K × Agg K :=
  if a.count = 0 then (none, { a with val := some 0 }) else (v, { a with val := some 0, count := 0 })

/-- `std::nth_element`: the element that a sort would put at position `n`.  Values that include NaN are not
ordered by `<`, which is undefined behaviour. -/
def nthElement (l : List (Option K)) (n : ℕ) : Res (Option K) :=
  if none ∈ l then .ub
  else readAt ((l.filterMap id).mergeSort fun a b => decide (a ≤ b)) n >>= fun v => .ok (some v)

/-- src/CachedForwardInterpolation.cc:62, 84, 119-130, the `get_and_reset` functions. -/
def Agg.getAndReset (k : Kind) (a : Agg K) : Res (Option K × Agg K) :=
  match k with
  | .sum | .min | .max => .ok (a.reset a.val)
  | .mean => .ok (a.reset (if a.count > 0 then a.val.map (· / (a.count : K)) else some 0))
  | .median =>
    if a.values = [] then .ok (none, a)
    else do
      let m ← nthElement a.values (a.values.length / 2)
      .ok (m, { a with values := [] })

/-- State of the loop over the input cells in the constructor. -/
structure Scan where
  points : List (List ℕ)
  range : Ranges
  maxPoints : ℕ
deriving DecidableEq

/-- include/fimex/min_max.h, `minimaximize` on both ranges. -/
def extend (r : Ranges) (ix iy : ℕ) : Ranges :=
  let y := MinMax.minimaximize r.minY r.maxY iy
  let x := MinMax.minimaximize r.minX r.maxX ix
  ⟨x.1, x.2, y.1, y.2⟩

/-- src/CachedForwardInterpolation.cc:145-163, one input cell `i`, at column `i % inX` of row `i / inX`. -/
def scanCell (inX outX outY i : ℕ) (p : K × K) (s : Scan) : Res Scan := do
  let px ← roundAndClamp outX p.1
  let py ← roundAndClamp outY p.2
  if px ≠ invalid ∧ py ≠ invalid then
    let range := if s.maxPoints = 0 then ⟨i % inX, i % inX, i / inX, i / inX⟩ else extend s.range (i % inX) (i / inX)
    let pi ← readAt s.points (py * outX + px)
    let pi := pi ++ [i]
    .ok { points := s.points.set (py * outX + px) pi, range := range, maxPoints := (MinMax.maximize s.maxPoints pi.length).1 }
  else .ok s

/-- src/CachedForwardInterpolation.cc:143-164, the loops over the input cells. -/
def scan (inX outX outY : ℕ) : List (K × K) → ℕ → Scan → Res Scan
  | [], _, s => .ok s
  | p :: rest, i, s => scanCell inX outX outY i p s >>= scan inX outX outY rest (i + 1)

/-- What the constructor stores. -/
structure CachedForward where
  points : List (List ℕ)
  inX : ℕ
  inY : ℕ
  origin : Option (ℕ × ℕ)
deriving DecidableEq

/-- src/CachedForwardInterpolation.cc:132-188, the constructor; `pos` are the positions of the input cells on the
output grid. -/
def create (pos : List (K × K)) (inX inY outX outY : ℕ) : Res CachedForward := do
  let s ← scan inX outX outY pos 0 ⟨List.replicate (outX * outY) [], ⟨0, 0, 0, 0⟩, 0⟩
  let minInX := lower s.range.minX
  let minInY := lower s.range.minY
  let maxInX := min (wsub inX 1) (s.range.maxX + 2)
  let maxInY := min (wsub inY 1) (s.range.maxY + 2)
  if (minInX > 0 ∨ minInY > 0 ∨ maxInX < wsub inX 1 ∨ maxInY < wsub inY 1) ∧ minInX + 2 * 2 ≤ maxInX ∧
      minInY + 2 * 2 ≤ maxInY then
    let redInX := maxInX - minInX + 1
    let redInY := maxInY - minInY + 1
    .ok ⟨s.points.map fun l => l.map fun i => wsub (i / inX) minInY * redInX + wsub (i % inX) minInX,
      redInX, redInY, some (minInX, minInY)⟩
  else .ok ⟨s.points, inX, inY, none⟩

/-- src/CachedForwardInterpolation.cc:215-219: the values of one output cell.  The index `ii` lacks the offset of
the layer. -/
def pushAll (k : Kind) (undefAggr : Bool) (inData : List (Option K)) : List ℕ → Agg K → Res (Agg K)
  | [], a => .ok a
  | ii :: rest, a => do
    let val ← readAt inData ii
    pushAll k undefAggr inData rest (if undefAggr ∨ val ≠ none then a.push k val else a)

/-- src/CachedForwardInterpolation.cc:213-221: one layer. -/
def layer (k : Kind) (undefAggr : Bool) (inData : List (Option K)) :
    List (List ℕ) → Agg K → Res (List (Option K) × Agg K)
  | [], a => .ok ([], a)
  | l :: rest, a => do
    let a ← pushAll k undefAggr inData l a
    let r ← a.getAndReset k
    let t ← layer k undefAggr inData rest r.2
    .ok (r.1 :: t.1, t.2)

/-- src/CachedForwardInterpolation.cc:211-222: `n` layers. -/
def layers (k : Kind) (undefAggr : Bool) (inData : List (Option K)) (points : List (List ℕ)) :
    ℕ → Agg K → Res (List (Option K))
  | 0, _ => .ok []
  | n + 1, a => do
    let t ← layer k undefAggr inData points a
    let rest ← layers k undefAggr inData points n t.2
    .ok (t.1 ++ rest)

/-- src/CachedForwardInterpolation.cc:203-224 `interpolateValues`. -/
def interpolateValues (k : Kind) (undefAggr : Bool) (c : CachedForward) (inData : List (Option K)) :
    Res (List (Option K)) :=
  if c.inX * c.inY = 0 then .ub
  else layers k undefAggr inData c.points (inData.length / (c.inX * c.inY)) Agg.new

/-! ## Specification -/

/-- The output cell nearest to a position on the output grid. -/
def target (outX outY : ℕ) (p : K × K) : Option (ℕ × ℕ) :=
  if Near outX p.1 ∧ Near outY p.2 then some (⌊p.1 + 1 / 2⌋.toNat, ⌊p.2 + 1 / 2⌋.toNat) else none

/-- Indices of the input cells whose nearest output cell is column `x` of row `y`. -/
def sources (pos : List (K × K)) (outX outY x y : ℕ) : List ℕ :=
  (List.range pos.length).filter fun i => (pos[i]?.bind (target outX outY)) = some (x, y)

/-- `r` is the aggregate of the values; undefined when there is none.  The median of an even number of values
is the upper one. -/
def IsAggregate (k : Kind) (vals : List K) (r : Option K) : Prop :=
  if vals = [] then r = none
  else match k with
    | .sum => r = some vals.sum
    | .mean => r = some (vals.sum / (vals.length : K))
    | .min => ∃ m, r = some m ∧ m ∈ vals ∧ ∀ v ∈ vals, m ≤ v
    | .max => ∃ m, r = some m ∧ m ∈ vals ∧ ∀ v ∈ vals, v ≤ m
    | .median => ∃ s : List K, s.Perm vals ∧ s.Pairwise (· ≤ ·) ∧ r = s[vals.length / 2]?

end Fimex.Interp.Forward
