import Verif.Basic

/-!
# Model of `ArrayDims`, `ArrayGroup` and `Loop`

include/fimex/ArrayLoop.h, src/ArrayLoop.cc. Lengths and strides are natural numbers. Array offsets
of a loop are integers: the code adds `d*singlestep` with a negative `singlestep` in wrapping
`size_t` arithmetic, which is integer arithmetic as long as the resulting offsets are in range
(simplification: `int singlestep = -(length-1)` is taken as exact, i.e. lengths below 2^31).
`INVALID_SIZE` is `none`.
-/

namespace Fimex.ArrayLoop

/-- include/fimex/ArrayLoop.h:71-75, members of `ArrayDims`. -/
structure Dims where
  name : List String
  length : List Nat
  delta : List Nat
  shared : List Bool
deriving DecidableEq, Repr

/-- src/ArrayLoop.cc:60-62, the default constructor. -/
def emptyDims : Dims := ⟨[], [], [], []⟩

/-- src/ArrayLoop.cc:84-95 `ArrayDims::add`. -/
def Dims.add (a : Dims) (name : String) (length : Nat) : Res Dims :=
  if length = 0 then .throws
  else .ok {
    name := a.name ++ [name]
    delta := a.delta ++ [if a.length = [] then 1 else a.delta.getLastD 0 * a.length.getLastD 0]
    length := a.length ++ [length]
    shared := a.shared ++ [true] }

/-- src/ArrayLoop.cc:64-82, the constructor from names and lengths: the loop of lines 77-80 over
`i = 1 .. rank-1`. `prev` is `length_[i-1]`, `d` is `delta_.back()`. -/
def deltasFrom (d prev : Nat) : List Nat → Res (List Nat)
  | [] => .ok []
  | l :: ls =>
    if prev = 0 then .throws
    else do
      let rest ← deltasFrom (d * prev) l ls
      .ok (d * prev :: rest)

/-- src/ArrayLoop.cc:64-82. -/
def mkDims (names : List String) (lengths : List Nat) : Res Dims :=
  if names.length ≠ lengths.length then .throws
  else match lengths with
    | [] => .ok ⟨names, [], [], []⟩
    | l :: ls =>
      if l = 0 then .throws
      else do
        let ds ← deltasFrom 1 l ls
        .ok ⟨names, l :: ls, 1 :: ds, (l :: ls).map fun _ => true⟩

/-- include/fimex/ArrayLoop.h:57 `rank`. -/
def Dims.rank (a : Dims) : Nat := a.length.length

/-- src/ArrayLoop.cc:103-110 `dim_index`. -/
def Dims.dimIndex (a : Dims) (n : String) : Option Nat := a.name.findIdx? (· == n)

/-- src/ArrayLoop.cc:97-101 `set_length` (strides are not recomputed). -/
def Dims.setLength (a : Dims) (i : Option Nat) (len : Nat) : Res Dims :=
  match i with
  | some i =>
    if i < a.rank then
      if len = 0 then .throws else .ok { a with length := a.length.set i len }
    else .ok a
  | none => .ok a

/-- src/ArrayLoop.cc:112-116 `set_not_shared`. -/
def Dims.setNotShared (a : Dims) (i : Option Nat) : Dims :=
  match i with
  | some i => if i < a.rank then { a with shared := a.shared.set i false } else a
  | none => a

/-- src/ArrayLoop.cc:118-124 `is_shared`. -/
def Dims.isShared (a : Dims) (i : Nat) : Bool := if i < a.rank then a.shared.getD i false else false

/-- include/fimex/ArrayLoop.h:38-39 `delta(dim_idx)`. -/
def Dims.deltaAt (a : Dims) : Option Nat → Nat
  | some i => if i < a.rank then a.delta.getD i 0 else 0
  | none => 0

/-- src/ArrayLoop.cc:126-132 `volume`. -/
def Dims.volume (a : Dims) : Nat :=
  if a.length = [] then 1 else a.delta.getLastD 0 * a.length.getLastD 0

/-- include/fimex/ArrayLoop.h:138-142 members of `ArrayGroup`; an array comes with its
`dim_index_map` (91-103). -/
structure Group where
  sharedDims : Option Nat
  sharedVolume : Nat
  dims : List String
  lengths : List Nat
  arrays : List (Dims × List (Option Nat))
deriving DecidableEq, Repr

/-- src/ArrayLoop.cc:206-210. -/
def emptyGroup : Group := ⟨none, 0, [], [], []⟩

/-- src/ArrayLoop.cc:212-218 `minimizeShared`; the product reads `lengths[0..notsame)`. -/
def Group.minimizeShared (g : Group) (n : Nat) : Res Group :=
  if (match g.sharedDims with | none => true | some k => decide (n < k)) then
    if n ≤ g.lengths.length then
      .ok { g with sharedDims := some n, sharedVolume := (g.lengths.take n).prod }
    else .ub
  else .ok g

/-- src/ArrayLoop.cc:225-232 `position`. -/
def Group.position (g : Group) (n : String) : Option Nat := g.dims.findIdx? (· == n)

/-- src/ArrayLoop.cc:240-268, the body of the loop over the dimensions of the new array `a`.
`g.arrays` holds the arrays added before; `m` is the new array's `dim_index_map`. -/
def addStep (a : Dims) (g : Group) (m : List (Option Nat)) (s : Nat) :
    Res (Group × List (Option Nat)) :=
  if a.isShared s = false then do
    let g ← g.minimizeShared s
    .ok (g, m)
  else
    let slength := a.length.getD s 0
    let sname := a.name.getD s ""
    match g.position sname with
    | some d =>
      if slength ≠ g.lengths.getD d 0 then .throws
      else
        let m := m.set d (some s)
        if d ≠ s then do
          let g ← g.minimizeShared (min s d)
          .ok (g, m)
        else .ok (g, m)
    | none =>
      let g := { g with dims := g.dims ++ [sname], lengths := g.lengths ++ [slength] }
      let m := m ++ [some s]
      if g.arrays ≠ [] then do
        let g ← g.minimizeShared s
        .ok ({ g with arrays := g.arrays.map fun o => (o.1, o.2 ++ [none]) }, m)
      else .ok (g, m)

/-- The loop `for (sdimidx = s; sdimidx < rank; ++sdimidx)`; `n` iterations are left. -/
def addLoop (a : Dims) : Nat → Nat → Group → List (Option Nat) → Res (Group × List (Option Nat))
  | 0, _, g, m => .ok (g, m)
  | n + 1, s, g, m => do
    let r ← addStep a g m s
    addLoop a n (s + 1) r.1 r.2

/-- src/ArrayLoop.cc:234-271 `ArrayGroup::add`. -/
def Group.add (g : Group) (a : Dims) : Res Group := do
  let (g, m) ← addLoop a a.rank 0 g (List.replicate g.lengths.length none)
  let g ← Group.minimizeShared g a.rank
  .ok { g with arrays := g.arrays ++ [(a, m)] }

/-- Adding a list of arrays to an empty group. -/
def groupOf (as : List Dims) : Res Group :=
  as.foldlM Group.add emptyGroup

/-- include/fimex/ArrayLoop.h:129-130 `delta(array, dim)`. -/
def deltaOf (am : Dims × List (Option Nat)) (gd : Nat) : Nat := am.1.deltaAt (am.2.getD gd none)

/-- include/fimex/ArrayLoop.h:164-169 members of `Loop`. -/
structure State where
  pos : List Nat
  idx : List Int
deriving DecidableEq, Repr

/-- include/fimex/ArrayLoop.h:148-152 constructor. -/
def start (g : Group) : State := ⟨List.replicate g.lengths.length 0, g.arrays.map fun _ => 0⟩

/-- include/fimex/ArrayLoop.h:185-188: advance every array's offset along dimension `gd`. -/
def stepIdx (g : Group) (gd : Nat) (singlestep : Int) (idx : List Int) : List Int :=
  List.zipWith (fun am i => i + (deltaOf am gd : Int) * singlestep) g.arrays idx

/-- include/fimex/ArrayLoop.h:175-189: the loop over `group_dim`, `n` dimensions left;
returns the state and `carry`. -/
def nextGo (g : Group) : Nat → Nat → State → State × Bool
  | 0, _, st => (st, true)
  | n + 1, gd, st =>
    let length := g.lengths.getD gd 0
    let p := st.pos.getD gd 0 + 1
    if p = length then
      nextGo g n (gd + 1)
        { pos := st.pos.set gd 0, idx := stepIdx g gd (-((length : Int) - 1)) st.idx }
    else ({ pos := st.pos.set gd p, idx := stepIdx g gd 1 st.idx }, false)

/-- include/fimex/ArrayLoop.h:172-191 `Loop::next`: new state and the returned boolean. -/
def next (g : Group) (st : State) : State × Bool :=
  let k := g.sharedDims.getD g.lengths.length
  let r := nextGo g (g.lengths.length - k) k st
  (r.1, !r.2)

/-- State after `n` calls of `next` on a fresh loop. -/
def after (g : Group) : Nat → State
  | 0 => start g
  | n + 1 => (next g (after g n)).1

end Fimex.ArrayLoop
