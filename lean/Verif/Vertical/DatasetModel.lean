import Verif.CoordSys.CfModel
import Verif.ReaderUtils.Names

/-!
# Datasets with new levels

Model of the constructor of `CDMVerticalInterpolator`, of `interpolateToFixed`, `interpolateToAxis`, `interpolateByTemplateVariable` and of the
choice made by `getDataSlice` (`src/CDMVerticalInterpolator.cc:60-355`); the interpolation itself is C81.

The coordinate systems of the reader are given, as lists of the systems of C94 to C97.  What a variable has besides name and shape is its data
in memory.  Messages are not modelled (with debug messages a missing dimension of a vertical axis raises an error).
-/

namespace Fimex.NewLevels

open Cdm Cf CoordSys

variable {V CS Pr K : Type}

/-- The data of a variable that are in memory. -/
abbrev Data (K : Type) := Option (List K)

/-- Statements one after the other; nothing is undone by an exception. -/
def andThen {S : Type} (p : S × Res Unit) (f : S → S × Res Unit) : S × Res Unit :=
  match p with
  | (s, .ok ()) => f s
  | (s, .throws) => (s, .throws)
  | (s, .ub) => (s, .ub)

/-! ## Choices -/

/-- The vertical types. -/
inductive Kind where
  | pressure
  | height
  | altitude
  | depth
deriving DecidableEq, Repr

/-- src/CDMVerticalInterpolator.cc:164-175. -/
def kindOf (s : String) : Res Kind :=
  if s = "pressure" then .ok .pressure
  else if s = "height" then .ok .height
  else if s = "altitude" then .ok .altitude
  else if s = "depth" then .ok .depth
  else .throws

/-- include/fimex/mifi_constants.h:202-227 `mifi_vertical_interpol_method`. -/
inductive Method where
  | lin
  | log
  | loglog
  | nn
  | linWeakExtra
  | linNoExtra
  | linConstExtra
deriving DecidableEq, Repr

/-- src/CDMVerticalInterpolator.cc:176-192. -/
def methodOf (s : String) : Res Method :=
  if s = "linear" then .ok .lin
  else if s = "linear_weak_extra" then .ok .linWeakExtra
  else if s = "linear_no_extra" then .ok .linNoExtra
  else if s = "linear_const_extra" then .ok .linConstExtra
  else if s = "log" then .ok .log
  else if s = "loglog" then .ok .loglog
  else if s = "nearestneighbor" then .ok .nn
  else .throws

/-- src/CDMVerticalInterpolator.cc:218-231: the wanted name of the new axis. -/
def baseName : Kind → String
  | .pressure => "pressure"
  | .height => "height"
  | .altitude => "height_above_msl"
  | .depth => "depth"

/-- src/CDMVerticalInterpolator.cc:240-258: the attributes of the new axis. -/
def axisAttributes : Kind → List (String × String)
  | .pressure => [("units", "hPa")]
  | .height => [("units", "m"), ("positive", "up"), ("long_name", "height above ground")]
  | .altitude => [("units", "m"), ("positive", "up"), ("standard_name", "height_above_msl")]
  | .depth => [("units", "m"), ("positive", "down")]

/-! ## Texts -/

/-- The characters of `\w`. -/
def isWord (c : Char) : Bool := c.isAlphanum || c = '_'

/-- `\b` between two characters, or at an end of the text. -/
def boundary (a b : Option Char) : Bool := (a.map isWord).getD false != (b.map isWord).getD false

/-- src/CDMVerticalInterpolator.cc:115: `regex_replace(text, "\bname\b", "")`, from a place on where the last character has been `prev`. -/
def dropWord (n : List Char) (prev : Option Char) (s : List Char) : List Char :=
  match s with
  | [] => []
  | c :: t =>
    if n ≠ [] ∧ n <+: c :: t ∧ boundary prev (some c) = true ∧ boundary n.getLast? ((c :: t).drop n.length).head? = true then
      dropWord n n.getLast? ((c :: t).drop n.length)
    else c :: dropWord n (some c) t
termination_by s.length
decreasing_by
  · rename_i h
    have : 0 < n.length := List.length_pos_iff.2 h.1
    simp only [List.length_drop, List.length_cons]; omega
  · simp

/-! ## Axes -/

/-- src/CDMVerticalInterpolator.cc:62-87 `isSimpleZAxis`. -/
def simpleZ (c : CDM (Data K) V CS) (s : System Pr) : Bool :=
  match geoZ s with
  | none => false
  | some a =>
    (geoX s).isSome && (geoY s).isSome && a.isExplicit &&
      match a.shape with
      | [d] =>
        match c.dims.find? fun e => e.name == d with
        | some e => decide (1 < e.length)
        | none => false
      | _ => false

/-- `var.setShape(shape)`. -/
def setShape (c : CDM (Data K) V CS) (n : String) (shape : List String) : CDM (Data K) V CS :=
  { c with vars := c.vars.map fun v => if v.name = n then { v with shape := shape } else v }

/-- src/CDMVerticalInterpolator.cc:89-119 `replaceZaxis`. -/
def replaceZ (L : Lib V Pr) (mk : String → V) (s : System Pr) (z n : String) (c : CDM (Data K) V CS) : CDM (Data K) V CS × Res Unit :=
  if isCSAndCompleteFor s n = false then (c, .ok ())
  else
    match geoZ s with
    | none => (c, .ub)
    | some a =>
      match a.shape with
      | [] => (c, .throws)
      | d :: _ =>
        match getVariable c n with
        | .ok v =>
          if d ∈ v.shape then
            let c := setShape c n (v.shape.replace d z)
            match getAttribute c n "coordinates" with
            | .ok t =>
              addAttribute (removeAttribute c n "coordinates") n
                ⟨"coordinates", mk (String.ofList (dropWord a.name.toList none (L.text t.value).toList))⟩
            | _ => (c, .ok ())
          else (c, .throws)
        | .throws => (c, .throws)
        | .ub => (c, .ub)

/-- src/CDMVerticalInterpolator.cc:265-267, 297-299 and 335-337: all variables of the reader. -/
def replaceAll (L : Lib V Pr) (mk : String → V) (s : System Pr) (z : String) : List String → CDM (Data K) V CS → CDM (Data K) V CS × Res Unit
  | [], c => (c, .ok ())
  | n :: ns, c => andThen (replaceZ L mk s z n c) (replaceAll L mk s z ns)

/-! ## Configuration -/

/-- src/CDMVerticalInterpolator.cc:125-150 `CDMVerticalInterpolator::Impl`, with the dataset. -/
structure State (V CS Pr K : Type) where
  cdm : CDM (Data K) V CS
  levels : List K := []
  vAxis : String := ""
  changed : List (System Pr) := []
  toAxis : Bool := false
  template : Option (System Pr) := none

/-- src/CDMVerticalInterpolator.cc:152-193: the dataset of the reader without data, if type and method are known. -/
def start (r : CDM (Data K) V CS) (kind method : String) : Res (Kind × Method × State V CS Pr K) := do
  let k ← kindOf kind
  let m ← methodOf method
  .ok (k, m, { cdm := { r with vars := r.vars.map fun v => { v with payload := none } } })

/-- src/CDMVerticalInterpolator.cc:260-272: the systems of a dataset, for new fixed levels. -/
def fixedLoop (L : Lib V Pr) (mk : String → V) (r : CDM (Data K) V CS) : List (System Pr) → State V CS Pr K → State V CS Pr K × Res Unit
  | [], st => (st, .ok ())
  | s :: S, st =>
    if simpleZ st.cdm s then
      let p := replaceAll L mk s st.vAxis (r.vars.map (·.name)) st.cdm
      andThen ({ st with cdm := p.1, changed := st.changed ++ [s] }, p.2) fun st =>
        fixedLoop L mk r S { st with cdm := match geoZ s with | some a => removeVariable st.cdm a.name | none => st.cdm }
    else fixedLoop L mk r S st

/-- src/CDMVerticalInterpolator.cc:240-258. -/
def addAll (mk : String → V) (n : String) : List (String × String) → CDM (Data K) V CS → CDM (Data K) V CS × Res Unit
  | [], c => (c, .ok ())
  | a :: as, c => andThen (addAttribute c n ⟨a.1, mk a.2⟩) (addAll mk n as)

/-- src/CDMVerticalInterpolator.cc:209-273 `interpolateToFixed`; `r` is the dataset of the reader, `S` its systems. -/
def toFixed (L : Lib V Pr) (mk : String → V) (r : CDM (Data K) V CS) (S : List (System Pr)) (k : Kind) (levels : List K) (st : State V CS Pr K) :
    State V CS Pr K × Res Unit :=
  let st := { st with levels := levels }
  match Names.findUniqueDimVarName (r.vars.map (·.name)) (r.dims.map (·.name)) (baseName k) with
  | .throws => (st, .throws)
  | .ub => (st, .ub)
  | .ok n =>
    let st := { st with vAxis := n }
    let on (p : CDM (Data K) V CS × Res Unit) : State V CS Pr K × Res Unit := ({ st with cdm := p.1 }, p.2)
    andThen (on (andThen (addDimension st.cdm ⟨n, levels.length, false⟩) fun c =>
      andThen (addVariable c ⟨n, [n], some levels⟩) (addAll mk n (axisAttributes k))))
      (fixedLoop L mk r S)

/-- src/CDMVerticalInterpolator.cc:286-300: the systems of a dataset, for the levels of an axis; the names of the old axes are collected. -/
def axisLoop (L : Lib V Pr) (mk : String → V) (r : CDM (Data K) V CS) (z : String) :
    List (System Pr) → State V CS Pr K × List String → (State V CS Pr K × List String) × Res Unit
  | [], st => (st, .ok ())
  | s :: S, st =>
    match geoZ s with
    | none => axisLoop L mk r z S st
    | some a =>
      if a.name = z then axisLoop L mk r z S st
      else if simpleZ st.1.cdm s = false then axisLoop L mk r z S st
      else
        let p := replaceAll L mk s z (r.vars.map (·.name)) st.1.cdm
        andThen (({ st.1 with cdm := p.1, changed := st.1.changed ++ [s] }, setInsert a.name st.2), p.2) (axisLoop L mk r z S)

/-- src/CDMVerticalInterpolator.cc:275-305 `interpolateToAxis`. -/
def toAxis (L : Lib V Pr) (mk : String → V) (r : CDM (Data K) V CS) (S : List (System Pr)) (z : String) (st : State V CS Pr K) :
    State V CS Pr K × Res Unit :=
  if z = "" then (st, .throws)
  else
    let p := axisLoop L mk r z S ({ st with toAxis := true, vAxis := z }, [])
    andThen (p.1.1, p.2) fun st => ({ st with cdm := p.1.2.foldl (fun c n => removeVariable c n) st.cdm }, .ok ())

/-- src/CDMVerticalInterpolator.cc:324-338: the systems of a dataset, for the levels of a variable.  Axes of the same name are taken to be
the same object, as the builders make them. -/
def templateLoop (L : Lib V Pr) (mk : String → V) (r : CDM (Data K) V CS) (zt : Axis) (z : String) :
    List (System Pr) → State V CS Pr K → State V CS Pr K × Res Unit
  | [], st => (st, .ok ())
  | s :: S, st =>
    if (geoZ s).map (·.name) = some zt.name then templateLoop L mk r zt z S st
    else if simpleZ st.cdm s = false then templateLoop L mk r zt z S st
    else
      let p := replaceAll L mk s z (r.vars.map (·.name)) st.cdm
      andThen ({ st with cdm := p.1, changed := st.changed ++ [s] }, p.2) (templateLoop L mk r zt z S)

/-- src/CDMVerticalInterpolator.cc:307-339 `interpolateByTemplateVariable`. -/
def toTemplate (L : Lib V Pr) (mk : String → V) (r : CDM (Data K) V CS) (S : List (System Pr)) (tv : String) (st : State V CS Pr K) :
    State V CS Pr K × Res Unit :=
  match findComplete S tv with
  | none => ({ st with template := none }, .throws)
  | some t =>
    let st := { st with template := some t }
    if simpleZ st.cdm t = false then (st, .throws)
    else if t.vtran.isNone then (st, .throws)
    else
      match geoZ t with
      | none => (st, .ub)
      | some zt =>
        match zt.shape with
        | [] => (st, .throws)
        | z :: _ => templateLoop L mk r zt z S st

/-! ## Reading -/

/-- Where the data of a variable come from. -/
inductive Source (Pr K : Type) where
  /-- `getDataSliceFromMemory` -/
  | memory (data : List K)
  /-- `getLevelDataSlice` with a system -/
  | levels (s : System Pr)
  /-- `getDataSlice` of the reader -/
  | reader

/-- src/CDMVerticalInterpolator.cc:341-354 `getDataSlice`, the choice. -/
def source (st : State V CS Pr K) (n : String) : Res (Source Pr K) :=
  match getVariable st.cdm n with
  | .ok v =>
    match v.payload with
    | some d => .ok (.memory d)
    | none =>
      match findComplete st.changed n with
      | some s => .ok (.levels s)
      | none => .ok .reader
  | .throws => .throws
  | .ub => .ub

end Fimex.NewLevels
