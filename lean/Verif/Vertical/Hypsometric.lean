import Verif.Vertical.Converters

/-!
# Altitude by integration of the pressure

Model of `PressureIntegrationToAltitudeConverter::getDataSlice`
(src/coordSys/verticalTransform/PressureIntegrationToAltitudeConverter.cc:114-250). Numbers are reals, without rounding
to `float`; `none` is an undefined value in the input, and a value that is not a finite number in the result. The
integers of the code are taken as exact (lengths below 2^31).
-/

namespace Fimex.Hypsometric

open Fimex.SB Fimex.ArrayLoop Fimex.Shapes Fimex.Levels Fimex.Vertical Fimex.Converters

/-- Lines 148-151: the direction found in one column, if its pressures are above 0. -/
noncomputable def highStart : Option ℝ → Option ℝ → Option Bool
  | some a, some b => if 0 < a ∧ 0 < b then some (decide (b < a)) else none
  | _, _ => none

/-- Lines 144-153: the loop looking for a column with pressures; `last` is the distance from the first to the last
level. -/
noncomputable def dirLoop (g : Group) (l : List (Option ℝ)) (last : ℕ) : ℕ → State → Res (Option Bool)
  | 0, _ => .ub
  | n + 1, st => do
    let pFirst ← readInt l (st.idx.getD 0 0)
    let pLast ← readInt l (st.idx.getD 0 0 + last)
    match highStart pFirst pLast with
    | some d => .ok (some d)
    | none =>
      let r := next g st
      if r.2 then dirLoop g l last n r.1 else .ok none

/-- Lines 134-158: whether the pressure is highest at the start of the vertical axis. The dimension is marked as not
shared only after the array was copied into the group (lines 137-138), the loop runs over it, too. -/
noncomputable def direction (dims : Dims) (l : List (Option ℝ)) (last : ℕ) : Res (Option Bool) := do
  let g ← groupOf [dims]
  let g ← g.minimizeShared 0
  dirLoop g l last (loopLengths g).prod (start g)

/-- src/vertical_coordinate_transformations.c:161-165 with values that may be undefined. -/
noncomputable def thickness : Option ℝ → Option ℝ → Option ℝ → Option ℝ
  | some a, some b, some t => if b ≠ 0 ∧ 0 < a / b then some (layerThickness a b t) else none
  | _, _, _ => none

/-- The sum of two values that may be undefined. -/
noncomputable def plus : Option ℝ → Option ℝ → Option ℝ
  | some a, some b => some (a + b)
  | _, _ => none

/-- src/vertical_coordinate_transformations.c:115-118 with values that may be undefined. -/
noncomputable def virtual : Option ℝ → Option ℝ → Option ℝ
  | some q, some t => some (virtualTemperature q t)
  | _, _ => none

/-- Lines 228-231: the temperature, corrected if there is humidity. -/
noncomputable def layerTemperature (tv : List (Option ℝ)) (tAt : ℤ) (hum : Option (List (Option ℝ) × ℤ)) : Res (Option ℝ) := do
  let t ← readInt tv tAt
  match hum with
  | none => .ok t
  | some (qv, qAt) => do
    let q ← readInt qv qAt
    .ok (virtual q t)

/-- The offsets in one column: the place of the level 0 in each array and the distance of levels. -/
structure Column where
  pAt : ℤ
  tAt : ℤ
  qAt : ℤ
  oAt : ℤ
  dP : ℕ
  dT : ℕ
  dQ : ℕ
  dO : ℕ

/-- Lines 237-238. -/
def store {α : Type} (outSize : ℕ) (oAt : ℤ) (dO : ℕ) (iz : ℤ) (a : α) (out : List α) : Res (List α) :=
  if 0 ≤ iz ∧ iz < outSize then writeInt out (oAt + iz * dO) a else .ok out

/-- Lines 225-241: `n` levels are left, `a` is the altitude reached and `pLow` the pressure there. -/
noncomputable def climbLoop (pv tv : List (Option ℝ)) (qv : Option (List (Option ℝ))) (col : Column) (step : ℤ)
    (outSize : ℕ) : ℕ → ℤ → ℤ → ℤ → Option ℝ → Option ℝ → List (Option ℝ) → Res (List (Option ℝ))
  | 0, _, _, _, _, _, out => .ok out
  | n + 1, izP, izIn, izOut, a, pLow, out => do
    let pHigh ← readInt pv (col.pAt + izP * col.dP)
    let t ← layerTemperature tv (col.tAt + izIn * col.dT) (qv.map fun l => (l, col.qAt + izIn * col.dQ))
    let a := plus a (thickness pLow pHigh t)
    let out ← store outSize col.oAt col.dO izOut a out
    climbLoop pv tv qv col step outSize n (izP + step) (izIn + step) (izOut + step) a pHigh out

/-- The array keeps the vertical dimension for itself, src/ArrayLoop.cc `set_not_shared`. -/
def keepZ (z : String) (a : Dims) : Dims := a.setNotShared (a.dimIndex z)

/-- Names of the variables; an empty name of the humidity means that there is none. -/
structure Vars where
  airT : String
  sHum : String
  sap : String
  sgp : String

/-- Lines 195-203: the humidity, if it has a name and data. -/
def readHumidity {V : Type} (c : Cdm) (rd : Reader V) (v : String) (sb : Builder) : Res (Option (Dims × List V)) :=
  if v = "" then .ok none
  else do
    let b ← adaptVar c v sb
    let b' ← adaptVar c v b
    let data ← rd v "1" b'
    match data with
    | none => .ok none
    | some l => do
      let dims ← sliceDims b
      .ok (some (dims, l))

/-- The result of a call that changes a builder. -/
def changed (r : Builder × Res Unit) : Res Builder := do
  let _ ← r.2
  .ok r.1

/-- Lines 161-176: the levels that are read, the step and the first level of the pressure, of the other variables and
of the result. -/
structure Plan where
  start : ℕ
  size : ℕ
  step : ℤ
  izP : ℤ
  izIn : ℤ
  izOut : ℤ

/-- Lines 161-176; `st` and `sz` are the requested levels, `nz` is the length of the axis. -/
def planOf (high : Bool) (nz st sz : ℕ) : Plan :=
  if high then ⟨0, wadd st sz, 1, 0, 0, -(st : ℤ)⟩
  else ⟨st, wsub nz st, -1, (nz : ℤ) - 1, (wsub nz st : ℤ) - 1, (wsub nz st : ℤ) - 1⟩

/-- Lines 220-243: one column; the arrays in the group are those of lines 191 and 202. -/
noncomputable def columnStep (pl : Plan) (sz : ℕ) (vsap vsgp vt vp : List (Option ℝ)) (vq : Option (List (Option ℝ)))
    (dP dT dQ dO : ℕ) (idx : List ℤ) (out : List (Option ℝ)) : Res (List (Option ℝ)) := do
  let gp ← readInt vsgp (idx.getD 1 0)
  let p ← readInt vsap (idx.getD 0 0)
  climbLoop vp vt vq ⟨idx.getD 3 0, idx.getD 2 0, idx.getD 5 0, idx.getD 4 0, dP, dT, dQ, dO⟩ pl.step sz pl.size pl.izP
    pl.izIn pl.izOut (gp.map fun x => x / 9.80665) p out

/-- Lines 180-248: the variables in the slice `sb`, and all columns. -/
noncomputable def columns (c : Cdm) (rd : Reader (Option ℝ)) (v : Vars) (z : String) (p : Var (Option ℝ)) (pl : Plan)
    (sz : ℕ) (junk : ℕ → Option ℝ) (sb sbOut : Builder) : Res (Option (List (Option ℝ))) := do
  let sap ← readVar c rd v.sap "hPa" sb
  let sgp ← readVar c rd v.sgp "m^2/s^2" sb
  let airt ← readVar c rd v.airT "K" sb
  match sap.data, sgp.data, airt.data, p.data with
  | some vsap, some vsgp, some vt, some vp => do
    let od ← sliceDims sbOut
    let g ← groupOf [keepZ z sap.dims, keepZ z sgp.dims, keepZ z airt.dims, keepZ z p.dims, keepZ z od]
    let hum ← readHumidity c rd v.sHum sb
    let g ← (hum.toList.map fun h => keepZ z h.1).foldlM Group.add g
    let g ← g.minimizeShared 0
    let out ← doLoop g (columnStep pl sz vsap vsgp vt vp (hum.map Prod.snd) (stepOf p.dims z) (stepOf airt.dims z)
        (hum.elim 0 fun h => stepOf h.1 z) (stepOf od z)) (loopLengths g).prod (start g)
      ((List.range od.volume).map junk)
    .ok (some out)
  | _, _, _, _ => .ok none

/-- Lines 124-125: the dimension of the vertical axis; undefined without a vertical axis. -/
def zDim (c : Cdm) : Option String → Res String
  | some a => axisDim c a
  | none => .ub

/-- Lines 114-250. -/
noncomputable def altitude (c : Cdm) (rd : Reader (Option ℝ)) (zAxis : Option String) (v : Vars)
    (shape : Res (List String)) (get : Source (Option ℝ)) (junk : ℕ → Option ℝ) : Source (Option ℝ) := fun sbOut => do
  let z ← zDim c zAxis
  let nz ← getLength c z
  let q ← getStartAndSize sbOut z
  let s ← shape
  let b ← adaptConverter c s sbOut
  let b ← changed (setAll b z)
  let p ← readConverter c shape get b
  let dir ← direction p.dims (p.data.getD []) ((nz - 1) * stepOf p.dims z)
  match dir with
  | none => .ok none
  | some high => do
    let pl := planOf high nz q.1 q.2
    let sb ← changed (setStartAndSize sbOut z pl.start pl.size)
    columns c rd v z p pl q.2 junk sb sbOut

end Fimex.Hypsometric
