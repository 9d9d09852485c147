import Verif.Vertical.Shapes
import Verif.Vertical.Levels
import Verif.Vertical.Formulas

/-!
# Vertical converters

Model of the `getDataSlice` functions of the converters in src/coordSys/verticalTransform/ that work with the formulas
of `Verif.Vertical.Formulas`, on top of the models of slices and of array groups. What the reader delivers is a
parameter: `rd variable unit slice` for a slice, `rd0 variable unit position` for a position of the unlimited
dimension; `none` is a null pointer. Numbers are reals, as in the formulas.
-/

namespace Fimex.Converters

open Fimex.SB Fimex.ArrayLoop Fimex.Shapes Fimex.Levels Fimex.Vertical

/-- What a converter or a variable delivers for a slice. -/
abbrev Source (V : Type) := Builder → Res (Option (List V))

/-- What the reader delivers for a variable in a unit. -/
abbrev Reader (V : Type) := String → String → Source V

/-- src/coordSys/verticalTransform/VerticalTransformationUtils.cc:447-483 `Var`: the dimensions and the data. -/
structure Var (V : Type) where
  dims : Dims
  data : Option (List V)

variable {V : Type}

/-- src/coordSys/verticalTransform/VerticalTransformationUtils.cc:405-410 `makeArrayDims` of a slice. -/
def sliceDims (b : Builder) : Res Dims := do
  let names ← getDimensionNames b.dimPos
  mkDims names b.size

/-- src/coordSys/verticalTransform/VerticalTransformationUtils.cc:447-452 and 301-305: a variable; the slice is adapted
to the variable once more when its data is read. -/
def readVar (c : Cdm) (rd : Reader V) (v unit : String) (sb : Builder) : Res (Var V) := do
  let b ← adaptVar c v sb
  let dims ← sliceDims b
  let b' ← adaptVar c v b
  let data ← rd v unit b'
  .ok ⟨dims, data⟩

/-- src/coordSys/verticalTransform/VerticalTransformationUtils.cc:454-459: the data of another converter. -/
def readConverter (c : Cdm) (shape : Res (List String)) (get : Source V) (sb : Builder) : Res (Var V) := do
  let s ← shape
  let b ← adaptConverter c s sb
  let dims ← sliceDims b
  let data ← get b
  .ok ⟨dims, data⟩

/-- The address of the element `i`: what can be read from there on. -/
def pointer (l : List V) (i : ℤ) : Res (List V) := if 0 ≤ i then .ok (l.drop i.toNat) else .ub

/-- Writing values one after the other, beginning with the place `i`. -/
def writeBlock (l : List V) (i : ℤ) (vals : List V) : Res (List V) :=
  if 0 ≤ i ∧ i.toNat + vals.length ≤ l.length then
    .ok (l.take i.toNat ++ vals ++ l.drop (i.toNat + vals.length))
  else .ub

/-- The body of the loops, e.g. HybridSigmaApToPressureConverter.cc:89-90: `k` is the number of the result in the
group. -/
def blockStep (volume k : ℕ) (vals : List (List V)) (call : ℕ → List (List V) → Res (List V)) (idx : List ℤ)
    (out : List V) : Res (List V) := do
  let ps ← (vals.zip (idx.eraseIdx k)).mapM fun p => pointer p.1 p.2
  let block ← call volume ps
  writeBlock out (idx.getD k 0) block

/-- Each value on its own if asked for, AltitudeHeightConverter.cc:122. -/
def eachAlone (each : Bool) (g : Group) : Res Group := if each then g.minimizeShared 0 else .ok g

/-- The group and the loop, e.g. HybridSigmaApToPressureConverter.cc:79-99; `junk` is what is in the new array
before it is written to. A loop that does not come to an end is undefined. -/
def fill (before after : List (Dims × List V)) (each : Bool) (call : ℕ → List (List V) → Res (List V)) (junk : ℕ → V)
    (sb : Builder) : Res (List V) := do
  let od ← sliceDims sb
  let g ← groupOf (before.map Prod.fst ++ od :: after.map Prod.fst)
  let g ← eachAlone each g
  doLoop g (blockStep g.sharedVolume before.length ((before ++ after).map Prod.snd) call) (loopLengths g).prod (start g)
    ((List.range od.volume).map junk)

/-- src/coordSys/verticalTransform/HybridSigmaApToPressureConverter.cc:89-90. -/
noncomputable def apCall (n : ℕ) : List (List ℝ) → Res (List ℝ)
  | [ps, ap, b] => do
    let p ← readAt ps 0
    hybridSigmaApPressure n p ap b
  | _ => .ub

/-- src/coordSys/verticalTransform/HybridSigmaApToPressureConverter.cc:71-100. -/
noncomputable def hybridSigmaAp (c : Cdm) (rd : Reader ℝ) (ps ap b : String) (junk : ℕ → ℝ) : Source ℝ := fun sb => do
  let ps ← readVar c rd ps "hPa" sb
  let ap ← readVar c rd ap "hPa" sb
  let b ← readVar c rd b "" sb
  match ps.data, ap.data, b.data with
  | some vps, some vap, some vb => do
    let out ← fill [(ps.dims, vps), (ap.dims, vap), (b.dims, vb)] [] false apCall junk sb
    .ok (some out)
  | _, _, _ => .ok none

/-- src/CDMReaderUtils.cc:86-91 `getDataSliceInUnit` and its first value: undefined without data. -/
def firstOf (rd0 : String → String → ℕ → Res (Option (List V))) (v unit : String) (position : ℕ) : Res V := do
  match ← rd0 v unit position with
  | some (x :: _) => .ok x
  | _ => .ub

/-- src/coordSys/verticalTransform/HybridSigmaToPressureConverter.cc:86-87. -/
noncomputable def sigmaP0Call (p0 : ℝ) (n : ℕ) : List (List ℝ) → Res (List ℝ)
  | [ps, a, b] => do
    let p ← readAt ps 0
    hybridSigmaPressure n p0 p a b
  | _ => .ub

/-- src/coordSys/verticalTransform/HybridSigmaToPressureConverter.cc:65-90. -/
noncomputable def hybridSigma (c : Cdm) (rd : Reader ℝ) (rd0 : String → String → ℕ → Res (Option (List ℝ)))
    (ps a b p0 : String) (junk : ℕ → ℝ) : Source ℝ := fun sb => do
  let ps ← readVar c rd ps "hPa" sb
  let a ← readVar c rd a "" sb
  let b ← readVar c rd b "" sb
  match ps.data, a.data, b.data with
  | some vps, some va, some vb => do
    let p0 ← firstOf rd0 p0 "hPa" 0
    let out ← fill [(ps.dims, vps), (a.dims, va), (b.dims, vb)] [] false (sigmaP0Call p0) junk sb
    .ok (some out)
  | _, _, _ => .ok none

/-- src/coordSys/verticalTransform/SigmaToPressureConverter.cc:68-69. -/
noncomputable def sigmaCall (n : ℕ) : List (List ℝ) → Res (List ℝ)
  | [ps, ptop, sigma] => do
    let t ← readAt ptop 0
    let p ← readAt ps 0
    sigmaPressure n t p sigma
  | _ => .ub

/-- src/coordSys/verticalTransform/SigmaToPressureConverter.cc:50-72. -/
noncomputable def sigma (c : Cdm) (rd : Reader ℝ) (ps ptop sigma : String) (junk : ℕ → ℝ) : Source ℝ := fun sb => do
  let ps ← readVar c rd ps "hPa" sb
  let ptop ← readVar c rd ptop "hPa" sb
  let sigma ← readVar c rd sigma "" sb
  match ps.data, ptop.data, sigma.data with
  | some vps, some vptop, some vsigma => do
    let out ← fill [(ps.dims, vps), (ptop.dims, vptop), (sigma.dims, vsigma)] [] false sigmaCall junk sb
    .ok (some out)
  | _, _, _ => .ok none

/-- src/coordSys/verticalTransform/LnPressureToPressureConverter.cc:68-69. -/
noncomputable def lnCall (n : ℕ) : List (List ℝ) → Res (List ℝ)
  | [p0, lev] => do
    let p ← readAt p0 0
    lnPressure n p lev
  | _ => .ub

/-- src/coordSys/verticalTransform/LnPressureToPressureConverter.cc:51-72. -/
noncomputable def lnP (c : Cdm) (rd : Reader ℝ) (p0 lnP : String) (junk : ℕ → ℝ) : Source ℝ := fun sb => do
  let p0 ← readVar c rd p0 "hPa" sb
  let lnP ← readVar c rd lnP "" sb
  match p0.data, lnP.data with
  | some vp0, some vlnP => do
    let out ← fill [(p0.dims, vp0), (lnP.dims, vlnP)] [] false lnCall junk sb
    .ok (some out)
  | _, _ => .ok none

/-- src/coordSys/verticalTransform/AtmosphereHybridHeight.cc:84. -/
noncomputable def heightCall (n : ℕ) : List (List ℝ) → Res (List ℝ)
  | [orog, b, a] => do
    let o ← readAt orog 0
    hybridHeight n o a b
  | _ => .ub

/-- src/coordSys/verticalTransform/AtmosphereHybridHeight.cc:66-87: the check in line 71 looks at `a` twice and not
at `b`, of which there is then nothing to be read. -/
noncomputable def hybridAltitude (c : Cdm) (rd : Reader ℝ) (a b orog : String) (junk : ℕ → ℝ) : Source ℝ := fun sb => do
  let orog ← readVar c rd orog "m" sb
  let b ← readVar c rd b "" sb
  let a ← readVar c rd a "m" sb
  match orog.data, a.data with
  | some vorog, some va => do
    let out ← fill [(orog.dims, vorog), (b.dims, b.data.getD []), (a.dims, va)] [] false heightCall junk sb
    .ok (some out)
  | _, _ => .ok none

/-- src/coordSys/verticalTransform/AltitudeHeightConverter.cc:85-100: the unit of the topography, by its standard
name. -/
def topoUnit (stdName : String) : String :=
  if stdName = "surface_altitude" ∨ stdName = "altitude" ∨ stdName = "geopotential_height" then "m" else "m^2/s^2"

/-- src/coordSys/verticalTransform/AltitudeHeightConverter.cc:85-100: the factor of the topography; geopotential is
divided by gravity (include/fimex/mifi_constants.h:235). -/
noncomputable def topoFactor (stdName : String) (add : Bool) : ℝ :=
  let f : ℝ := if add then 1 else -1
  if stdName = "surface_altitude" ∨ stdName = "altitude" ∨ stdName = "geopotential_height" then f else f / 9.80665

/-- src/coordSys/verticalTransform/AltitudeHeightConverter.cc:126-127. -/
noncomputable def topoCall (factor : ℝ) (_n : ℕ) : List (List ℝ) → Res (List ℝ)
  | [topo, alti] => do
    let h ← readAt alti 0
    let t ← readAt topo 0
    .ok [h + factor * t]
  | _ => .ub

/-- src/coordSys/verticalTransform/AltitudeHeightConverter.cc:110-130. -/
noncomputable def altitudeHeight (c : Cdm) (rd : Reader ℝ) (topo stdName : String) (shape : Res (List String))
    (get : Source ℝ) (add : Bool) (junk : ℕ → ℝ) : Source ℝ := fun sb => do
  let topo ← readVar c rd topo (topoUnit stdName) sb
  let alti ← readConverter c shape get sb
  match topo.data, alti.data with
  | some vtopo, some valti => do
    let out ← fill [(topo.dims, vtopo), (alti.dims, valti)] [] true (topoCall (topoFactor stdName add)) junk sb
    .ok (some out)
  | _, _ => .ok none

/-- src/coordSys/verticalTransform/OceanSCoordinateGToDepthConverter.cc:71-72: the first value of `depth_c`, 0 without
data; undefined for empty data. -/
noncomputable def depthC : Option (List ℝ) → Res ℝ
  | some l => readAt l 0
  | none => .ok 0

/-- src/coordSys/verticalTransform/OceanSCoordinateGToDepthConverter.cc:96-98: `eta` is 0 if it is not there. -/
noncomputable def oceanCall (func : ℕ → ℝ → ℝ → ℝ → List ℝ → List ℝ → Res (List ℝ)) (hc : ℝ) (n : ℕ) :
    List (List ℝ) → Res (List ℝ)
  | [s, C, depth] => do
    let h ← readAt depth 0
    func n h hc 0 s C
  | [s, C, depth, eta] => do
    let e ← readAt eta 0
    let h ← readAt depth 0
    func n h hc e s C
  | _ => .ub

/-- src/coordSys/verticalTransform/OceanSCoordinateGToDepthConverter.cc:88-92: the elevation, if the variable has a
name; undefined if there is no data (line 89 reads through the null pointer). -/
def readEta (c : Cdm) (rd : Reader V) (eta : String) (sb : Builder) : Res (List (Dims × List V)) :=
  if eta = "" then .ok []
  else do
    let b ← adaptVar c eta sb
    match ← rd eta "m" b with
    | none => .ub
    | some data => do
      let b ← adaptVar c eta sb
      let dims ← sliceDims b
      .ok [(dims, data)]

/-- Names of the variables, include/fimex/coordSys/verticalTransform/OceanSCoordinateGToDepthConverter.h:43-68;
an empty name is a variable that is not there. -/
structure OceanVars where
  s : String
  C : String
  depth : String
  depthC : String
  eta : String

/-- include/fimex/coordSys/verticalTransform/OceanSCoordinateGToDepthConverter.h:66-67 `isComplete`. -/
def OceanVars.complete (v : OceanVars) : Bool := v.s ≠ "" && v.C ≠ "" && v.depth ≠ "" && v.depthC ≠ ""

/-- src/coordSys/verticalTransform/OceanSCoordinateGToDepthConverter.cc:64-107. -/
noncomputable def ocean (c : Cdm) (rd : Reader ℝ) (v : OceanVars)
    (func : ℕ → ℝ → ℝ → ℝ → List ℝ → List ℝ → Res (List ℝ)) (junk : ℕ → ℝ) : Source ℝ := fun sb =>
  if v.complete = false then .throws
  else do
    let b ← adaptVar c v.depthC sb
    let dc ← rd v.depthC "m" b
    let hc ← depthC dc
    let s ← readVar c rd v.s "" sb
    let C ← readVar c rd v.C "" sb
    let depth ← readVar c rd v.depth "m" sb
    match s.data, C.data, depth.data with
    | some vs, some vC, some vdepth => do
      let eta ← readEta c rd v.eta sb
      let out ← fill [(s.dims, vs), (C.dims, vC), (depth.dims, vdepth)] eta false (oceanCall func hc) junk sb
      .ok (some (out.map fun z => -1 * z))
    | _, _, _ => .ok none

/-- src/coordSys/verticalTransform/AltitudeStandardToPressureConverter.cc:62-70: undefined without data. -/
noncomputable def standardPressure (altitude : Source ℝ) : Source ℝ := fun sb => do
  match ← altitude sb with
  | some l => do
    let out ← barometricStandardPressure l.length l
    .ok (some out)
  | none => .ub

/-- src/coordSys/verticalTransform/PressureToStandardAltitudeConverter.cc:63-71: undefined without data. -/
noncomputable def standardAltitude (pressure : Source ℝ) : Source ℝ := fun sb => do
  match ← pressure sb with
  | some l => do
    let out ← barometricStandardAltitude l.length l
    .ok (some out)
  | none => .ub

end Fimex.Converters
