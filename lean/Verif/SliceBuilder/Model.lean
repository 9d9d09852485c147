import Verif.Basic

/-!
# Model of `SliceBuilder` (src/SliceBuilder.cc, include/fimex/SliceBuilder.h)

A call on a builder is modelled as a function returning the builder *after* the call together with
the outcome, so that the effect of a call that raises is visible.
`std::map<string, size_t>` is an association list without duplicate keys (the iteration order of
the map is a parameter where the code iterates). `std::set<string>` is a list used as a set.
`size_t` sums wrap.
-/

namespace Fimex.SB

/-- include/fimex/SliceBuilder.h:133-139, the private members. -/
structure Builder where
  dimPos : List (String × Nat)
  setDims : List String
  maxSize : List Nat
  unlimited : List Bool
  start : List Nat
  size : List Nat
deriving DecidableEq, Repr

/-- `map[k] = v` -/
def mapSet (m : List (String × Nat)) (k : String) (v : Nat) : List (String × Nat) :=
  match m with
  | [] => [(k, v)]
  | (k', v') :: m => if k' = k then (k, v) :: m else (k', v') :: mapSet m k v

/-- `map.find(k)` -/
def mapGet (m : List (String × Nat)) (k : String) : Option Nat :=
  match m with
  | [] => none
  | (k', v') :: m => if k' = k then some v' else mapGet m k

/-- src/SliceBuilder.cc:82-88, the loop over `pos` filling `dimPos_`. -/
def fillDimPos (pos : Nat) : List String → List (String × Nat) → List (String × Nat)
  | [], m => m
  | n :: ns, m => fillDimPos (pos + 1) ns (mapSet m n pos)

/-- src/SliceBuilder.cc:73-89 `init`. -/
def init (dimNames : List String) (dimSize : List Nat) (unlimited : List Bool) : Res Builder :=
  if dimNames.length ≠ dimSize.length ∨ dimNames.length ≠ unlimited.length then .throws
  else .ok {
    dimPos := fillDimPos 0 dimNames []
    setDims := []
    maxSize := dimSize
    unlimited := unlimited
    start := dimSize.map fun _ => 0
    size := dimSize }

/-- src/SliceBuilder.cc:93-100 `getDimPos`. -/
def getDimPos (b : Builder) (dimName : String) : Res Nat :=
  match mapGet b.dimPos dimName with
  | none => .throws
  | some p => .ok p

/-- `vector::at`. -/
def at' {α : Type} (l : List α) (i : Nat) : Res α :=
  match l[i]? with
  | some v => .ok v
  | none => .throws

/-- src/SliceBuilder.cc:109-118 `setStartAndSize(dimName, start, size)`; the writes of lines
115-117 happen in order, `at` may raise in between. -/
def setStartAndSize (b : Builder) (dimName : String) (start size : Nat) : Builder × Res Unit :=
  match getDimPos b dimName with
  | .throws => (b, .throws)
  | .ub => (b, .ub)
  | .ok pos =>
    match at' b.unlimited pos, at' b.maxSize pos with
    | .ok unl, .ok mx =>
      if unl = false ∧ mx < wadd start size then (b, .throws)
      else if b.start.length ≤ pos then (b, .throws)
      else
        let b := { b with start := b.start.set pos start }
        if b.size.length ≤ pos then (b, .throws)
        else
          let b := { b with size := b.size.set pos size }
          ({ b with setDims := if dimName ∈ b.setDims then b.setDims else dimName :: b.setDims },
            .ok ())
    | .ok true, .throws => (b, .throws)  -- line 112: `maxSize_` is not consulted, line 115 raises
    | _, _ => (b, .throws)

/-- src/SliceBuilder.cc:131-135 `setAll(dimName)`. -/
def setAll (b : Builder) (dimName : String) : Builder × Res Unit :=
  match getDimPos b dimName with
  | .throws => (b, .throws)
  | .ub => (b, .ub)
  | .ok pos =>
    match at' b.maxSize pos with
    | .ok mx => setStartAndSize b dimName 0 mx
    | .throws => (b, .throws)
    | .ub => (b, .ub)

/-- A public call. Axis versions (src/SliceBuilder.cc:120-129, 137-146): `axis` is `none` for a null
pointer, otherwise the axis name and whether it is explicit. -/
inductive Call where
  | set (dimName : String) (start size : Nat)
  | all (dimName : String)
  | setAxis (axis : Option (String × Bool)) (start size : Nat)
  | allAxis (axis : Option (String × Bool))
deriving DecidableEq, Repr

/-- Dispatch of the public calls. -/
def call (b : Builder) : Call → Builder × Res Unit
  | .set n st sz => setStartAndSize b n st sz
  | .all n => setAll b n
  | .setAxis none _ _ => (b, .ok ())
  | .setAxis (some (n, true)) st sz => setStartAndSize b n st sz
  | .setAxis (some (_, false)) _ _ => (b, .throws)
  | .allAxis none => (b, .ok ())
  | .allAxis (some (n, true)) => setAll b n
  | .allAxis (some (_, false)) => (b, .throws)

/-- A history of calls where the caller catches exceptions: final builder and the outcomes. -/
def run (b : Builder) : List Call → Builder × List (Res Unit)
  | [] => (b, [])
  | c :: cs =>
    let r := call b c
    let r' := run r.1 cs
    (r'.1, r.2 :: r'.2)

/-- src/SliceBuilder.cc:147-155 `getDimensionNames`. `entries` is the iteration order of the map. -/
def getDimensionNames (entries : List (String × Nat)) : Res (List String) :=
  let rec go : List (String × Nat) → List String → Res (List String)
    | [], names => .ok names
    | (k, p) :: es, names => if p < names.length then go es (names.set p k) else .throws
  go entries (List.replicate entries.length "")

/-- src/SliceBuilder.cc:157-167 `getUnsetDimensionNames`. -/
def getUnsetDimensionNames (setDims : List String) (entries : List (String × Nat)) : List String :=
  entries.filterMap fun e => if e.1 ∈ setDims then none else some e.1

/-- src/SliceBuilder.cc:102-107 `getStartAndSize`. -/
def getStartAndSize (b : Builder) (dimName : String) : Res (Nat × Nat) := do
  let pos ← getDimPos b dimName
  let st ← at' b.start pos
  let sz ← at' b.size pos
  .ok (st, sz)

end Fimex.SB
