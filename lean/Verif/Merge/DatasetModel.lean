import Verif.CoordSys.BestModel
import Verif.Cdm.Props
import Verif.Merge.Auxiliary
import Verif.ReaderUtils.Shapes
import Mathlib.Data.Int.Notation

/-!
# Merged datasets

Model of `makeMergedCDM`, `is_compatible`, `checkAxesCompatibility` and `getAxisValues` (`src/CDMMergeUtils.cc`), by which `CDMOverlay` and
`CDMBorderSmoothing` describe the dataset they deliver, and of where these two take the values of a variable from.

The interpolation of the outer dataset to a grid is a parameter (its description is C100); so are the coordinate systems of both datasets (C95)
and the units of variables.  Lengths of dimensions are below 2³¹ (`axisLength` returns an `int`).  A null pointer that is used is undefined
behaviour.  Logging is left out.
-/

namespace Fimex.Merged

open Cdm CoordSys Cf

variable {P V CS Pr α : Type}

/-- What is asked of a reader: description, coordinate systems, `getUnits` (src/CDM.cc:539-546), and `getScaledDataInUnit(name, unit)` (empty
when there is no data). -/
structure Reader (P V CS Pr α : Type) where
  cdm : CDM P V CS
  systems : List (System Pr)
  units : String → String
  scaled : String → String → Res (List α)

/-! ## The grid of the inner dataset -/

/-- src/CDMMergeUtils.cc:49-66 `getAxisValues`. -/
def axisValues (r : Reader P V CS Pr α) (name unit : String) : Res (List α) :=
  if !hasDimension r.cdm name then .throws
  else do
    let d ← getDimension r.cdm name
    if d.unlimited then .throws
    else do
      let l ← r.scaled name unit
      if l.length < 2 then .throws else .ok l

/-- The arguments of `changeProjection`: projection, values and units of the axes. -/
structure Grid (Pr α : Type) where
  proj : Pr
  x : List α
  y : List α
  xUnit : String
  yUnit : String
deriving DecidableEq

/-- src/CDMMergeUtils.cc:252-259: whether the grid of a variable is taken. -/
def candidate (inner : Reader P V CS Pr α) (outer : CDM P V CS) (v : Var P) : Option (System Pr) :=
  if !hasVariable outer v.name then none
  else match findComplete inner.systems v.name with
    | none => none
    | some s => if s.proj.isSome && s.simple then some s else none

/-- src/CDMMergeUtils.cc:261-270: names of the axes and the grid; the unit of the x axis goes with both axes. -/
def gridOf (inner : Reader P V CS Pr α) (s : System Pr) : Res (String × String × Grid Pr α) :=
  match geoX s, geoY s, s.proj with
  | some x, some y, some p => do
    let xs ← axisValues inner x.name (inner.units x.name)
    let ys ← axisValues inner y.name (inner.units y.name)
    .ok (x.name, y.name, ⟨p, xs, ys, inner.units x.name, inner.units x.name⟩)
  | _, _, _ => .ub

/-- src/CDMMergeUtils.cc:250-276: the first variable that has a grid. -/
def chooseGrid (inner : Reader P V CS Pr α) (outer : CDM P V CS) : List (Var P) → Res (String × String × Grid Pr α)
  | [] => .throws
  | v :: l =>
    match candidate inner outer v with
    | none => chooseGrid inner outer l
    | some s => gridOf inner s

/-! ## Variables that can be merged -/

/-- src/CDMMergeUtils.cc:68-76 `axisLength`. -/
def axisLength (c : CDM P V CS) : Option Axis → Res ℤ
  | none => .ok (-2)
  | some a => do
    let d ← getDimension c a.name
    .ok d.length

/-- src/CDMMergeUtils.cc:78-96 `checkSingleAxisCompatibility`, the base first. -/
def checkAxis (cB cT : CDM P V CS) (aB aT : Option Axis) : Res Bool := do
  let b ← axisLength cB aB
  let t ← axisLength cT aT
  .ok (if b ≥ -1 ∧ t ≥ -1 ∧ b ≠ t then false
    else if b = -2 ∧ t = -2 then true
    else if (b = -2 ∧ t ≠ 1) ∨ (b ≠ 1 ∧ t = -2) then false
    else true)

/-- src/CDMMergeUtils.cc:100-108. -/
def checkedTypes : List AxisType := [.geoZ, .time, .pressure, .height, .depth, .referenceTime]

/-- src/CDMMergeUtils.cc:98-119 `checkAxesCompatibility`. -/
def checkAxes (cB cT : CDM P V CS) (sB sT : System Pr) : List AxisType → Res Bool
  | [] => .ok true
  | t :: l => do
    if ← checkAxis cB cT (findAxisOfType sB.axes t) (findAxisOfType sT.axes t) then checkAxes cB cT sB sT l else .ok false

/-- src/CDMMergeUtils.cc:199-206: hopping over dimensions of length one. -/
def hop (c : CDM P V CS) : List String → Res (List String)
  | [] => .ok []
  | n :: s => do
    let d ← getDimension c n
    if d.length = 1 then hop c s else .ok (n :: s)

/-- src/CDMMergeUtils.cc:214-232: two dimensions. -/
def checkDim (cB cT : CDM P V CS) (sB sT : System Pr) (b t : String) : Res Bool :=
  match geoX sB, geoX sT, geoY sB, geoY sT with
  | some xB, some xT, some yB, some yT =>
    if (b == xB.name) ≠ (t == xT.name) ∨ (b == yB.name) ≠ (t == yT.name) then .ok false
    else if !(b == xB.name || b == yB.name) then do
      let dB ← getDimension cB b
      let dT ← getDimension cT t
      .ok (dB.length = dT.length)
    else .ok true
  | _, _, _, _ => .ub

/-- src/CDMMergeUtils.cc:198-234: the loop over both shapes; `fuel` is the number of dimensions of the base. -/
def checkShapes (cB cT : CDM P V CS) (sB sT : System Pr) : ℕ → List String → List String → Res Bool
  | fuel + 1, b :: shB, t :: shT => do
    let l ← hop cB (b :: shB)
    let m ← hop cT (t :: shT)
    match l, m with
    | [], [] => .ok true
    | [], _ :: _ => .ok false
    | _ :: _, [] => .ok false
    | b :: l, t :: m => do if ← checkDim cB cT sB sT b t then checkShapes cB cT sB sT fuel l m else .ok false
  | _, _, _ => .ok true

/-- src/CDMMergeUtils.cc:164-239 `is_compatible`. -/
def isCompatible (cB cT : CDM P V CS) (sysB sysT : List (System Pr)) (n : String) : Res Bool :=
  if !(hasVariable cT n && hasVariable cB n) then .ok false
  else match findComplete sysB n, findComplete sysT n with
    | some _, none => .ok false
    | none, some _ => .ok false
    | none, none => .ok true
    | some sB, some sT => do
      if ← checkAxes cB cT sB sT checkedTypes then
        let vB ← getVariable cB n
        let vT ← getVariable cT n
        if vB.shape ≠ vT.shape then checkShapes cB cT sB sT vB.shape.length vB.shape vT.shape else .ok true
      else .ok false

/-- src/CDMMergeUtils.cc:280-284. -/
def compatibleNames (cI cO : CDM P V CS) (sysI sysO : List (System Pr)) : List String → Res (List String)
  | [] => .ok []
  | n :: l => do
    let b ← isCompatible cI cO sysI sysO n
    let r ← compatibleNames cI cO sysI sysO l
    .ok (if b then n :: r else r)

/-! ## The merged dataset -/

/-- The variables and coordinate systems that `addAuxiliary` looks at (C43). -/
def auxVars (c : CDM P V CS) : List Auxiliary.Var := c.vars.map fun v => ⟨v.name, v.shape⟩
def auxSystems (l : List (System Pr)) : List Auxiliary.CoordSys := l.map fun s => ⟨isCSAndCompleteFor s, s.deps⟩

/-- src/CDMMergeUtils.cc:285, with a number of calls that is always enough (`C43_auxiliary_closure`). -/
def withAuxiliary (c : CDM P V CS) (l : List (System Pr)) (names : List String) : Res (List String) :=
  match Auxiliary.addAuxiliary (auxVars c) (auxSystems l) ((Auxiliary.universe_ (auxVars c) (auxSystems l) names).length + 1) names with
  | some r => .ok r
  | none => .ub

/-- src/CDMMergeUtils.cc:287-295: what is not kept is removed. -/
def removeOthers (kept : List String) (c : CDM P V CS) (names : List String) : CDM P V CS :=
  names.foldl (fun c n => if kept.contains n then c else removeVariable c n) c

/-- A call on the dataset; what it raises ends everything. -/
def done {β : Type} : CDM P V CS × Res β → Res (CDM P V CS)
  | (c, .ok _) => .ok c
  | (_, .throws) => .throws
  | (_, .ub) => .ub

/-- src/CDMMergeUtils.cc:298-304. -/
def addDims : List Dim → CDM P V CS → Res (CDM P V CS)
  | [], c => .ok c
  | d :: l, c => if !hasDimension c d.name then done (addDimension c d) >>= addDims l else addDims l c

/-- src/CDMMergeUtils.cc:305-315: variables the inner dataset did not have before. -/
def addVars (inner outer : CDM P V CS) : List (Var P) → CDM P V CS → Res (CDM P V CS)
  | [], c => .ok c
  | v :: l, c =>
    if !hasVariable inner v.name then do
      let c ← done (addVariable c v)
      let c ← done (addAttributes c v.name (getAttributes outer v.name))
      addVars inner outer l c
    else addVars inner outer l c

/-- What `makeMergedCDM` gives: the dataset, the grid, the outer dataset on that grid. -/
structure Result (P V CS Pr α : Type) where
  cdm : CDM P V CS
  nameX : String
  nameY : String
  grid : Grid Pr α
  outer : CDM P V CS

/-- src/CDMMergeUtils.cc:242-319 `makeMergedCDM`; `interpolate` is the outer dataset on a grid, with its coordinate systems. -/
def merge (inner : Reader P V CS Pr α) (outer : CDM P V CS) (interpolate : Grid Pr α → Res (CDM P V CS × List (System Pr)))
    (keepAllOuter : Bool) : Res (Result P V CS Pr α) := do
  let (nx, ny, g) ← chooseGrid inner outer inner.cdm.vars
  let (out, sysO) ← interpolate g
  let names ← compatibleNames inner.cdm out inner.systems sysO (inner.cdm.vars.map (·.name))
  let kept ← withAuxiliary inner.cdm inner.systems names
  let c := removeOthers kept inner.cdm (inner.cdm.vars.map (·.name))
  let c ← if keepAllOuter then addDims out.dims c >>= addVars inner.cdm out out.vars else .ok c
  .ok ⟨c, nx, ny, g, out⟩

/-! ## Where the values come from -/

/-- The datasets that are asked for the values of a variable. -/
inductive Source
  | inner
  | outer
  | both
deriving DecidableEq, Repr

/-- src/CDMOverlay.cc:91-110: the beginning of `getDataSlice` (the rest is C41); `c` is the merged dataset. -/
def overlaySource (inner outer c : CDM P V CS) (n : String) : Res Source :=
  if hasDimension c n && hasVariable inner n then .ok .inner
  else if !hasVariable inner n then .ok .outer
  else if !hasVariable outer n then .throws
  else .ok .both

/-- src/CDMBorderSmoothing.cc:98-105: the beginning of `getDataSlice` (the rest is C40). -/
def smoothingSource (outer c : CDM P V CS) (n : String) : Res Source :=
  if !hasVariable c n then .throws
  else if hasDimension c n || !hasVariable outer n then .ok .inner
  else .ok .both

end Fimex.Merged
