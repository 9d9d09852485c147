import Verif.Interp.OneDim

/-!
# Filling undefined values of a field

Model of `mifi_fill2d_f`, `mifi_creepfillval2dImpl_f`, `mifi_creepfill2d_f` and `mifi_creepfillval2d_f`,
`src/interpolation.c:548-826`.  Field values are `Option K`, `none` is NaN (or a non-finite result); arithmetic is
exact.  Pointers are indices; every access outside an array is undefined behaviour, moving a pointer outside
without using it is not counted as such.
-/

namespace Fimex.Fill

open Fimex.Interp (oadd omul osub)

variable {K : Type} [Field K] [LinearOrder K]

/-- Writing an array element. -/
def writeAt {α : Type} (a : List α) (i : ℕ) (v : α) : Res (List α) :=
  if i < a.length then .ok (a.set i v) else .ub

/-- `for (i = lo; i < lo + n; i++) s = body(i, s)`. -/
def forN {S : Type} (body : ℕ → S → Res S) : ℕ → ℕ → S → Res S
  | _, 0, s => .ok s
  | lo, n + 1, s => body lo s >>= forN body (lo + 1) n

/-- Division by a number; a zero divisor gives no finite number. -/
def odiv (a : Option K) (b : K) : Option K := if b = 0 then none else a.map (· / b)

/-- Reading memory from `malloc`: using a value that was never written is undefined. -/
def readInit {α : Type} (a : List (Option α)) (i : ℕ) : Res α :=
  readAt a i >>= fun v => match v with
    | some v => .ok v
    | none => .ub

/-- src/interpolation.c:556-563 and 787-797, number of undefined values. -/
def countUndefined (field : List (Option K)) : ℕ := (field.filter fun v => v.isNone).length

/-- src/interpolation.c:556-563 and 787-797, sum of the defined values. -/
def sumDefined (field : List (Option K)) : K := (field.map fun v => v.getD 0).sum

/-! ## mifi_fill2d_f -/

/-- The working arrays: the field, the weights and the error field (not initialised). -/
structure Work (K : Type) where
  f : List (Option K)
  w : List K
  e : List (Option (Option K))
  p : ℕ

/-- src/interpolation.c:625-628, one inner cell at index `p`. -/
def relax (nx : ℕ) (s : Work K) : Res (Work K) := do
  let p := s.p + 1
  let right ← readAt s.f (p + 1)
  let left ← readAt s.f (p - 1)
  let down ← readAt s.f (p + nx)
  let up ← readAt s.f (wsub p nx)
  let c ← readAt s.f p
  let w ← readAt s.w p
  let ev := osub (omul (1 / 4) (oadd (oadd (oadd right left) down) up)) c
  let e ← writeAt s.e p (some ev)
  let f ← writeAt s.f p (oadd c (omul w ev))
  .ok { s with f := f, e := e, p := p }

/-- src/interpolation.c:620-631, one pass over the inner cells. -/
def relaxPass (nx ny : ℕ) (s : Work K) : Res (Work K) :=
  forN (fun _ s => do
    let s ← forN (fun _ s => relax nx s) 1 (nx - 1 - 1) s
    .ok { s with p := s.p + 2 }) 1 (ny - 1 - 1) { s with p := nx }

/-- src/interpolation.c:646, `fabs(*e * *w) > crtest`; false for NaN. -/
def isBad (crtest w : K) (e : Option K) : Bool :=
  match omul w e with
  | none => false
  | some d => decide (|d| > crtest)

/-- src/interpolation.c:640-651, state of the convergence test: index and `nbad`. -/
def testCell (crtest : K) (s : Work K) (_ : ℕ) (t : ℕ × Bool) : Res (ℕ × Bool) := do
  let p := t.1 + 1
  let e ← readInit s.e p
  let w ← readAt s.w p
  .ok (p, t.2 || isBad crtest w e)

/-- src/interpolation.c:641-651; after a row with a bad cell the loop is left. -/
def testRow (nx : ℕ) (crtest : K) (s : Work K) (_ : ℕ) (t : ℕ × Bool) : Res (ℕ × Bool) :=
  if t.2 then .ok t
  else do
    let t ← forN (testCell crtest s) 1 (nx - 1 - 1) t
    .ok (t.1 + 2, t.2)

/-- src/interpolation.c:633-656: is the pass the last one? -/
def converged (nx ny maxLoop n : ℕ) (crtest : K) (s : Work K) : Res Bool :=
  if n < wsub maxLoop 5 ∧ n % 10 = 0 then do
    let t ← forN (testRow nx crtest s) 1 (ny - 1 - 1) (nx, false)
    .ok (!t.2)
  else .ok false

/-- src/interpolation.c:661-667: a border cell `i` moves towards its neighbour `j`. -/
def borderCell (i j : ℕ) (s : Work K) : Res (Work K) := do
  let a ← readAt s.f j
  let b ← readAt s.f i
  let w ← readAt s.w i
  let f ← writeAt s.f i (oadd b (omul w (osub a b)))
  .ok { s with f := f }

/-- src/interpolation.c:659-668, the borders. -/
def borders (nx ny : ℕ) (s : Work K) : Res (Work K) := do
  let s ← forN (fun y s => do
    let s ← borderCell (y * nx) (y * nx + 1) s
    borderCell (y * nx + (nx - 1)) (wadd (y * nx) (wsub nx 2)) s) 1 (ny - 1 - 1) s
  forN (fun x s => do
    let s ← borderCell x (nx + x) s
    borderCell ((ny - 1) * nx + x) (wadd (wsub (ny - 1) 1 * nx) x) s) 0 nx s

/-- src/interpolation.c:618-669, the iteration; `n` passes are done, `k` remain. -/
def fillLoop (nx ny maxLoop : ℕ) (crtest : K) : ℕ → ℕ → Work K → Res (Work K)
  | _, 0, s => .ok s
  | n, k + 1, s => do
    let s ← relaxPass nx ny s
    let done ← converged nx ny maxLoop n crtest s
    if done then .ok s
    else do
      let s ← borders nx ny s
      fillLoop nx ny maxLoop crtest (n + 1) k s

/-- src/interpolation.c:605-610, the weights of the inner cells. -/
def innerWeights (nx ny : ℕ) (corrEff : K) (w : List K) : Res (List K) :=
  forN (fun y w => forN (fun x w => do
    let v ← readAt w (y * nx + x)
    writeAt w (y * nx + x) (v * corrEff)) 1 (nx - 1 - 1) w) 1 (ny - 1 - 1) w

/-- src/interpolation.c:588, the contribution of one value to `stddev`. -/
def deviation (average : K) : Option K → K
  | some v => |v - average|
  | none => 0

/-- src/interpolation.c:548-673 `mifi_fill2d_f`: the new field and the number of changed values (not set for an
empty field). -/
def fill2d (nx ny : ℕ) (field : List (Option K)) (relaxCrit corrEff : K) (maxLoop : ℕ) :
    Res (List (Option K) × Option ℕ) :=
  let totalSize := nx * ny
  if totalSize = 0 then .ok (field, none)
  else
    let nChanged := countUndefined field
    let nUnchanged := totalSize - nChanged
    if nUnchanged = 0 ∨ nChanged = 0 then .ok (field, some nChanged)
    else do
      let average := sumDefined field / (nUnchanged : K)
      let stddev := (field.map (deviation average)).sum / (nUnchanged : K)
      let w ← innerWeights nx ny corrEff (field.map fun v => if v.isNone then 1 else 0)
      let s : Work K :=
        { f := field.map (fun v => some (v.getD average)), w := w,
          e := field.map (fun _ => none), p := nx }
      let s ← fillLoop nx ny maxLoop (relaxCrit * stddev * corrEff) 0 maxLoop s
      .ok (s.f, some nChanged)

/-! ## mifi_creepfill2d_f -/

/-- Field, weights (`char`), counters (`unsigned short`), number of changes and index. -/
structure Creep (K : Type) where
  f : List (Option K)
  w : List ℤ
  r : List ℕ
  changed : ℕ
  p : ℕ

/-- Conversion of an `int` to `size_t`. -/
def asSizeT (i : ℤ) : ℕ := (i % 2 ^ 64).toNat

/-- src/interpolation.c:731-750, one inner cell. -/
def creepCell (nx rep : ℕ) (s : Creep K) : Res (Creep K) := do
  let p := s.p + 1
  let s := { s with p := p }
  let r ← readAt s.r p
  if r < rep then
    let w1 ← readAt s.w (p + 1)
    let w2 ← readAt s.w (p - 1)
    let w3 ← readAt s.w (p + nx)
    let w4 ← readAt s.w (wsub p nx)
    let wFieldSum := asSizeT (w1 + w2 + w3 + w4)
    if wFieldSum ≠ 0 then
      let c ← readAt s.f p
      let f1 ← readAt s.f (p + 1)
      let f2 ← readAt s.f (p - 1)
      let f3 ← readAt s.f (p + nx)
      let f4 ← readAt s.f (wsub p nx)
      let sum := oadd (oadd (oadd (omul (w1 : K) f1) (omul (w2 : K) f2)) (omul (w3 : K) f3)) (omul (w4 : K) f4)
      let f ← writeAt s.f p (odiv (oadd c sum) ((wadd 1 wFieldSum : ℕ) : K))
      let w ← writeAt s.w p 1
      let r ← writeAt s.r p (r + 1)
      .ok { s with f := f, w := w, r := r, changed := s.changed + 1 }
    else .ok s
  else .ok s

/-- src/interpolation.c:718-754, one round. -/
def creepPass (nx ny rep : ℕ) (s : Creep K) : Res (Creep K) :=
  forN (fun _ s => do
    let s ← forN (fun _ s => creepCell nx rep s) 1 (nx - 1 - 1) s
    .ok { s with p := s.p + 2 }) 1 (ny - 1 - 1) { s with changed := 0, p := nx }

/-- src/interpolation.c:716-755, the `while` loop; `k` is `nUnchanged - l`. -/
def creepLoop (nx ny rep : ℕ) : ℕ → Creep K → Res (Creep K)
  | 0, s => .ok s
  | k + 1, s => if s.changed > 0 then creepPass nx ny rep s >>= creepLoop nx ny rep k else .ok s

/-- src/interpolation.c:759-781, one border cell `i` with neighbour `j`. -/
def creepBorder (rep i j : ℕ) (s : Creep K) : Res (Creep K) := do
  let r ← readAt s.r i
  if r < rep then
    let a ← readAt s.f i
    let b ← readAt s.f j
    let w ← readAt s.w j
    let f ← writeAt s.f i (odiv (oadd a (omul (w : K) b)) (1 + (w : K)))
    let w ← writeAt s.w i 1
    .ok { s with f := f, w := w }
  else .ok s

/-- src/interpolation.c:757-783, the borders. -/
def creepBorders (nx ny rep : ℕ) (s : Creep K) : Res (Creep K) :=
  forN (fun _ s => do
    let s ← forN (fun y s => do
      let s ← creepBorder rep (y * nx) (y * nx + 1) s
      creepBorder rep (y * nx + (nx - 1)) (wadd (y * nx) (wsub nx 2)) s) 1 (ny - 1 - 1) s
    forN (fun x s => do
      let s ← creepBorder rep x (nx + x) s
      creepBorder rep ((ny - 1) * nx + x) (wadd (wsub (ny - 1) 1 * nx) x) s) 0 nx s) 0 rep s

/-- src/interpolation.c:675-787 `mifi_creepfillval2dImpl_f`. -/
def creepImpl (nx ny : ℕ) (field : List (Option K)) (defaultVal : Option K) (rep : ℕ) (setWeight : ℤ) (nChanged : ℕ) :
    Res (List (Option K)) :=
  let totalSize := nx * ny
  if totalSize = 0 then .ok field
  else
    let nUnchanged := totalSize - nChanged
    if nUnchanged = 0 ∨ nChanged = 0 then .ok field
    else do
      let s : Creep K :=
        { f := field.map (fun v => if v.isNone then defaultVal else v),
          w := field.map (fun v => if v.isNone then 0 else setWeight),
          r := field.map (fun v => if v.isNone then 0 else rep), changed := 1, p := nx }
      let s ← creepLoop nx ny rep nUnchanged s
      let s ← creepBorders nx ny rep s
      .ok s.f

/-- src/interpolation.c:789-812 `mifi_creepfill2d_f`. -/
def creepfill2d (nx ny : ℕ) (field : List (Option K)) (rep : ℕ) (setWeight : ℤ) :
    Res (List (Option K) × Option ℕ) :=
  if nx * ny = 0 then .ok (field, none)
  else
    let nChanged := countUndefined field
    let nUnchanged := nx * ny - nChanged
    if nUnchanged = 0 then .ok (field, some nChanged)
    else do
      let f ← creepImpl nx ny field (some (sumDefined field / (nUnchanged : K))) rep setWeight nChanged
      .ok (f, some nChanged)

/-- src/interpolation.c:813-826 `mifi_creepfillval2d_f`. -/
def creepfillval2d (nx ny : ℕ) (field : List (Option K)) (defaultVal : Option K) (rep : ℕ) (setWeight : ℤ) :
    Res (List (Option K) × Option ℕ) :=
  if nx * ny = 0 then .ok (field, none)
  else do
    let nChanged := countUndefined field
    let f ← creepImpl nx ny field defaultVal rep setWeight nChanged
    .ok (f, some nChanged)

end Fimex.Fill
