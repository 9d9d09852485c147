import Verif.Slice.Props
import Mathlib.Algebra.Order.Field.Basic

/-!
# Cutting GRIB messages (C131): model

`src/binSrc/fiGribCut.cc`.  Numbers are of an ordered field (no rounding).  A message is what the keys give; setting keys of the copy stores what is given.
-/

namespace Fimex.GribCut

variable {K : Type} [Field K] [LinearOrder K] [IsStrictOrderedRing K]

/-- The last number before `n` that meets the test, 0 if none does: what the loops of `findFirstLastIndex` keep. -/
def lastWhere (p : Nat → Bool) (n : Nat) : Nat := (List.range n).foldl (fun r i => if p i then i else r) 0

/-- Value number `i` of linear data. -/
def value (start incr : K) (i : Nat) : K := start + i * incr

/-- src/binSrc/fiGribCut.cc:88 `1e-5`. -/
def eps : K := 1 / 100000

/-- Difference of `size_t`, of numbers below 2⁶⁴. -/
def wsub (a b : Nat) : Nat := if b ≤ a then a - b else a + two64 - b

/-- src/binSrc/fiGribCut.cc:84-115 `findFirstLastIndex`. -/
def findFirstLast (start incr : K) (n : Nat) (first last : K) : Res (Nat × Nat) :=
  let cutEnd := fun l => if n ≤ l + 1 then wsub n 1 else l + 1
  if 0 < incr then
    if last + eps < first - eps then .throws
    else .ok (lastWhere (fun i => value start incr i ≤ first - eps) n, cutEnd (lastWhere (fun i => value start incr i < last + eps) n))
  else
    if first + eps < last + eps then .throws
    else .ok (lastWhere (fun i => first + eps ≤ value start incr i) n, cutEnd (lastWhere (fun i => last + eps < value start incr i) n))

/-- A message: type of grid, the four flags of the scanning mode, first and last point, distances, numbers of points, values, parameter. -/
structure Message (K V : Type) where
  param : Int
  regular : Bool
  right : Bool
  bottom : Bool
  vertical : Bool
  alternating : Bool
  latFirst : K
  latLast : K
  latIncr : K
  nLat : Nat
  lonFirst : K
  lonLast : K
  lonIncr : K
  nLon : Nat
  values : List V

structure Box (K : Type) where
  north : K
  east : K
  south : K
  west : K

/-- src/binSrc/fiGribCut.cc:117-211 `cutBoundingBox`; `LeftLowerHorizontal` is `bottom` without other flags. -/
def cut {V : Type} (m : Message K V) (bb : Option (Box K)) : Res (Message K V) :=
  match bb with
  | none => .ok m
  | some b =>
    if !m.regular then .throws
    else if m.right || m.vertical || m.alternating then .throws
    else
      let incr := if m.bottom then -m.latIncr else m.latIncr
      (if m.bottom then findFirstLast m.latFirst incr m.nLat b.north b.south else findFirstLast m.latFirst incr m.nLat b.south b.north).bind fun la =>
      (findFirstLast m.lonFirst m.lonIncr m.nLon b.west b.east).bind fun lo =>
      if m.values.length ≠ m.nLat * m.nLon then .throws
      else
        (Slice.slice m.values [m.nLon, m.nLat] [lo.1, la.1] [wsub lo.2 lo.1, wsub la.2 la.1]).bind fun out =>
        .ok { m with
          latFirst := value m.latFirst incr la.1
          latLast := value m.latFirst incr la.2
          nLat := wsub la.2 la.1
          lonFirst := value m.lonFirst m.lonIncr lo.1
          lonLast := value m.lonFirst m.lonIncr lo.2
          nLon := wsub lo.2 lo.1
          values := out }

/-- src/binSrc/fiGribCut.cc:62-68, 213-228 `gribMatchParameters`, `gribCutHandle`: what is written. -/
def handle {V : Type} (ps : List Int) (bb : Option (Box K)) (m : Message K V) : Res (List (Message K V)) :=
  if ps = [] ∨ m.param ∈ ps then (cut m bb).bind fun c => .ok [c] else .ok []

/-- What reading the next message of a file gives: a message, a message with an error, or no message (end of file, or an error). -/
inductive Next (K V : Type) where
  | message (m : Message K V)
  | faulty (m : Message K V)
  | nothing (error : Bool)

/-- src/binSrc/fiGribCut.cc:241-265: one message of the loop over a file; errors and output so far. -/
def step {V : Type} (ps : List Int) (bb : Option (Box K)) (s : Nat × List (Message K V)) : Next K V → Res (Nat × List (Message K V))
  | .nothing _ => .ok s
  | .faulty _ => .ok (s.1 + 1, s.2)
  | .message m =>
    match handle ps bb m with
    | .ok out => .ok (s.1, s.2 ++ out)
    | .throws => .ok (s.1 + 1, s.2)
    | .ub => .ub

def steps {V : Type} (ps : List Int) (bb : Option (Box K)) : Nat × List (Message K V) → List (Next K V) → Res (Nat × List (Message K V))
  | s, [] => .ok s
  | s, r :: rs => (step ps bb s r).bind fun s' => steps ps bb s' rs

/-- src/binSrc/fiGribCut.cc:231-269 `gribCut`; a file that cannot be opened is none, and then `fclose` is called with the null pointer. -/
def gribCut {V : Type} (ps : List Int) (bb : Option (Box K)) : Nat × List (Message K V) → List (Option (List (Next K V))) → Res (Nat × List (Message K V))
  | s, [] => .ok s
  | _, none :: _ => .ub
  | s, some f :: fs => (steps ps bb s f).bind fun s' => gribCut ps bb s' fs

/-- src/binSrc/fiGribCut.cc:335-374: the box of the numbers of the option. -/
def readBox : List K → Option (Box K)
  | n :: e :: s :: w :: _ =>
    if 90 < n ∨ n < -90 then none
    else if 90 < s ∨ s < -90 then none
    else if n < s then none
    else if 180 < e ∨ e < -180 then none
    else if 180 < w ∨ w < -180 then none
    else if e < w then none
    else some ⟨n, e, s, w⟩
  | _ => none

/-- src/binSrc/fiGribCut.cc:376-389 and `exit`: what the caller of the program sees of the number of errors. -/
def exitCode (errors : Nat) : Nat := errors % 256

/-- src/binSrc/fiGribCut.cc:271-390 `main` with input files and output file given: exit code and output. -/
def main {V : Type} (ps : List Int) (box : Option (List K)) (files : List (Option (List (Next K V)))) : Res (Nat × List (Message K V)) :=
  match box with
  | none => (gribCut ps none (0, []) files).bind fun r => .ok (exitCode r.1, r.2)
  | some b =>
    match readBox b with
    | none => .ok (1, [])
    | some bb => (gribCut ps (some bb) (0, []) files).bind fun r => .ok (exitCode r.1, r.2)

end Fimex.GribCut
