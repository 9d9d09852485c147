import Verif.Felt.Arrays

/-!
# Data of Felt files (C115): model

The dataset of a Felt file has the axes x, y, ensemble_member, one axis for each type of levels, and time; its names come from a configuration and
are left out. The `assert` of src/io/felt/FeltCDMReader2.cc:725 is left out as well, as in builds that are released.
-/

namespace Fimex.Felt

variable {K : Type}

/-- Axes of the variables. -/
inductive Axis where
  | x | y | member | level | time
deriving DecidableEq

/-- src/io/felt/FeltCDMReader2.cc:580-591: whether there is a vertical axis. -/
def Arr.vertical (a : Arr K) : Bool :=
  match a.levels with
  | [] => false
  | [p] =>
    !((a.first.vcoord == 2 && (p.1 == 1000 || p.1 == 850 || p.1 == 500 || p.1 == 300)) || a.first.vcoord == 8 || a.first.vcoord == 3 ||
      a.first.vcoord == 0)
  | _ => true

/-- src/io/felt/FeltCDMReader2.cc:577-579: whether there is an axis of members. -/
def Arr.ensemble (a : Arr K) : Bool := decide (1 < a.members.length)

/-- src/io/felt/FeltCDMReader2.cc:573-594: the shape of a variable. -/
def Arr.shape (a : Arr K) : List Axis :=
  [.x, .y] ++ (if a.ensemble then [.member] else []) ++ (if a.vertical then [.level] else []) ++ (if a.times ≠ [] then [.time] else [])

/-- src/io/felt/FeltCDMReader2.cc:332, 391, 446-530: lengths of the axes, for variables with a type of levels. -/
def FeltFile.length (ff : FeltFile K) (type : ℤ) : Axis → ℕ
  | .x => ff.size.1.toNat
  | .y => ff.size.2.toNat
  | .member => ff.members.length
  | .level => (ff.levels type).length
  | .time => ff.times.length

/-- src/io/felt/FeltCDMReader2.cc:635-652: number of values of a slice. -/
def FeltFile.sliceSize (ff : FeltFile K) (a : Arr K) : ℕ := ((a.shape.filter (· ≠ .time)).map (ff.length a.first.vcoord)).prod

/-- src/io/felt/FeltCDMReader2.cc:677-691: levels of a variable. -/
def FeltFile.layers (ff : FeltFile K) (a : Arr K) : Res (List (ℤ × ℤ)) :=
  if a.vertical ∧ 0 < (ff.levels a.first.vcoord).length then .ok (ff.levels a.first.vcoord)
  else
    match a.levels with
    | [p] => .ok [p]
    | _ => .throws

/-- src/io/felt/FeltCDMReader2.cc:692-704: levels together with members. -/
def FeltFile.keys (ff : FeltFile K) (a : Arr K) (ls : List (ℤ × ℤ)) : List (ℤ × ℤ) :=
  if a.ensemble then ls.flatMap fun l => ff.members.map fun m => (l.1, m) else ls

/-- src/DataImpl.h:196-208 `copyData` with all values of the source; values not yet written are `none`. -/
def copyInto (cells : List (Option K)) (pos : ℕ) (vs : List K) : Res (List (Option K)) :=
  if pos ≤ cells.length then
    let n := min (cells.length - pos) vs.length
    .ok (cells.take pos ++ (vs.take n).map some ++ cells.drop (pos + n))
  else if vs = [] then .ok cells
  else .ub

/-- src/io/felt/FeltCDMReader2.cc:716-724: values of a level; a field that does not exist has fill values only. -/
def Arr.plane [DivisionRing K] [LinearOrder K] [Inhabited K] (a : Arr K) (delta : List K) (fill : Res K) (t : ℤ) (l : ℤ × ℤ) : Res (List K) :=
  match a.scaledSlice delta t l with
  | .ok vs => .ok vs
  | .noField => fill.bind fun v => .ok (List.replicate (a.first.nx.toNat * a.first.ny.toNat) v)
  | .throws => .throws

/-- src/io/felt/FeltCDMReader2.cc:706-728: the loop over levels. -/
def fillCells [DivisionRing K] [LinearOrder K] [Inhabited K] (a : Arr K) (delta : List K) (fill : Res K) (t : Res ℤ) :
    List (ℤ × ℤ) → List (Option K) → ℕ → Res (List (Option K))
  | [], cells, _ => .ok cells
  | k :: ks, cells, pos =>
    t.bind fun t => (a.plane delta fill t k).bind fun vs => (copyInto cells pos vs).bind fun cells => fillCells a delta fill (.ok t) ks cells (pos + vs.length)

/-- src/io/felt/FeltCDMReader2.cc:711-715: the time; the default of a file without times is of no use to anyone. -/
def FeltFile.timeAt (ff : FeltFile K) (pos : ℕ) : Res ℤ := if 0 < ff.times.length then readAt ff.times pos else .ok 0

/-- src/io/felt/FeltCDMReader2.cc:622-736 `getDataSlice` for variables of the file; `fill` is `CDM::getFillValue` of the variable. Values that are never
written are `none`. -/
def FeltFile.dataSlice [DivisionRing K] [LinearOrder K] [Inhabited K] (ff : FeltFile K) (a : Arr K) (delta : List K) (fill : Res K) (pos : ℕ) :
    Res (List (Option K)) :=
  if ff.times.length < pos then .throws
  else
    (if a.times = [] then .ok true else (readAt ff.times pos).bind fun t => .ok (decide (t ∈ a.times))).bind fun contains =>
      if !contains then .ok []
      else
        (ff.layers a).bind fun ls =>
          fillCells a delta fill (ff.timeAt pos) (ff.keys a ls) (List.replicate (ff.sliceSize a) none) 0

end Fimex.Felt
