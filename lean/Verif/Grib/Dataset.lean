import Verif.Grib.Index
import Verif.Cdm.Model
import Verif.Tables.DataType
import Verif.ReaderUtils.Names

/-!
# The dataset of GRIB messages

Model of the parts of `src/io/grib/GribCDMIndexer.cc` that make dimensions, axes and variables from the messages that were loaded
(`Verif.Grib.Index`).

The dataset is the one of `Verif.Cdm.Model`.  Elements of the configuration are given by what is read of them (`Axis`, `Vertical`); lists
of elements are the results of XPath expressions.  Numbers are of any type; values of grids and their projections (C110), units of times
(C31), values of vertical coordinates (C111) and templates are parameters.  An exception ends the construction of the reader.  Reading
attributes of elements does not fail here.  `findUniqueDimName` is that of C45.  Types of time that are texts are left out for the
reference time.
-/

namespace Fimex.GribData
open Fimex.Cdm Fimex.Grib Fimex.Tables

/-- Data of a variable. -/
inductive Data (K : Type) where
  | nums (t : DataType) (xs : List K)
  | chars (s : List Char)
deriving DecidableEq

/-- `Data::getDataType`. -/
def Data.type {K : Type} : Data K → DataType
  | .nums t _ => t
  | .chars _ => .string

/-- include/fimex/Data.h:306-338 `createData` of a type and numbers: an empty array of characters if there is no type. -/
def create {K : Type} (t : DataType) (xs : List K) : Data K := if t = .nat ∨ t = .strings then .nums .char [] else .nums t xs

/-- What a variable has beside name and shape. -/
structure Payload (K : Type) where
  type : DataType
  data : Option (Data K)
deriving DecidableEq

/-- The dataset; attributes are values of `V`. -/
abbrev DS (K V : Type) := CDM (Payload K) V Unit

/-- An element of an axis: name, type and attributes. -/
structure Axis (V : Type) where
  name : String
  type : DataType
  attrs : List (Attr V)

/-- An element `additional_axis_variable`. `values` are those of `readValuesFromXPath_` for the dataset, the levels, the coefficients and the
extension of names. -/
structure Aux (K V : Type) where
  name : String
  type : DataType
  axis : String
  attrs : List (Attr V)
  values : DS K V → Data K → List K → String → Res (List K)

/-- An element `vertical_axis`. `attrs` depends on the extension, `special` are the lists of attributes of elements `grib1`/`grib2` of the
edition. -/
structure Vertical (K V : Type) where
  id : String
  type : DataType
  attrs : String → List (Attr V)
  special : List (List (Attr V))
  additional : List (Aux K V)
  values : DS K V → Data K → List K → String → Res (List K)

/-- src/io/grib/GribCDMIndexer.cc:68-74 `ProjectionInfo`. -/
structure PInfo where
  xDim : String
  yDim : String
  coordinates : String
  gridMapping : String
deriving DecidableEq

/-- Configuration, libraries, and what the messages have beside the index. -/
structure Env (G K V : Type) where
  time : List (Axis V)
  globals : List (List (Attr V))
  /-- `spatial_axis` for a type of grid and x (false) or y (true) -/
  spatial : String → Bool → List (Axis V)
  lon : List String
  lat : List String
  vertical : ℤ × ℤ → List (Vertical K V)
  members : List (List Char)
  text : String → V
  flags : ℕ → V
  asText : V → String
  history : V
  /-- numbers of levels and members as values -/
  cast : ℤ → K
  /-- values of the x axis and y axis of a grid -/
  xs : G → List K
  ys : G → List K
  nx : G → ℕ
  ny : G → ℕ
  projection : G → Res (List (Attr V))
  lonLat : G → Res (List K × List K)
  /-- `TimeUnit`, and times in this unit -/
  unit : String → Res (ℕ → K)
  /-- seconds since 1970 -/
  epoch : ℕ → K
  /-- coefficients of the levels of a type at a position -/
  pv : ℤ × ℤ → ℕ → List K
  type : String → DataType
  attrs : String → List (Attr V)

variable {G K V : Type}

/-- An exception ends the construction. -/
def ran (x : DS K V × Res Unit) : Res (DS K V) := x.2.bind fun _ => .ok x.1

/-- src/CDM.cc:145-154 `addVariable` of a variable with type and data; `setData` has refused data of another type. -/
def newVar (c : DS K V) (name : String) (t : DataType) (shape : List String) (d : Option (Data K)) : Res (DS K V) :=
  match d with
  | none => ran (addVariable c ⟨name, shape, ⟨t, none⟩⟩)
  | some d => if d.type = t then ran (addVariable c ⟨name, shape, ⟨t, some d⟩⟩) else .throws

/-- src/CDM.cc:253-261 `addDimension`. -/
def newDim (c : DS K V) (name : String) (len : ℕ) (unlimited : Bool) : Res (DS K V) := ran (addDimension c ⟨name, len, unlimited⟩)

/-- `addAttributes`. -/
def newAttrs (c : DS K V) (name : String) (l : List (Attr V)) : Res (DS K V) := ran (addAttributes c name l)

/-- Exactly one element. -/
def exactlyOne {α : Type} (l : List α) : Res α :=
  match l with
  | [a] => .ok a
  | _ => .throws

/-- An axis: dimension, variable with data, attributes (src/io/grib/GribCDMIndexer.cc:858-862, 883-887). -/
def addAxis (c : DS K V) (name : String) (len : ℕ) (t : DataType) (vals : List K) (attrs : List (Attr V)) : Res (DS K V) :=
  (newDim c name len false).bind fun c => (newVar c name t [name] (some (create t vals))).bind fun c => newAttrs c name attrs

/-! ## Projections -/

/-- src/CDM.cc:660-702 `generateProjectionCoordinates` as used here. -/
def addLonLat (E : Env G K V) (c : DS K V) (g : G) (x y lon lat : String) : Res (DS K V) :=
  (E.lonLat g).bind fun ll => (newVar c lon .double [x, y] (some (.nums .double ll.1))).bind fun c =>
    (newVar c lat .double [x, y] (some (.nums .double ll.2))).bind fun c =>
      (newAttrs c lon [⟨"units", E.text "degree_east"⟩, ⟨"long_name", E.text "longitude"⟩, ⟨"standard_name", E.text "longitude"⟩]).bind fun c =>
        newAttrs c lat [⟨"units", E.text "degree_north"⟩, ⟨"long_name", E.text "latitude"⟩, ⟨"standard_name", E.text "latitude"⟩]

/-- src/io/grib/GribCDMIndexer.cc:823-826: the first grid has no number. -/
def appendix (k : ℕ) : String := if 0 < k then toString k else ""

/-- src/io/grib/GribCDMIndexer.cc:818-915, a grid that is new, the `k`-th (`lastXYId`). -/
def newProjection (E : Env G K V) (c : DS K V) (k : ℕ) (g : G) (type : String) : Res (DS K V × PInfo) :=
  (newVar c ("projection_" ++ type ++ appendix k) .nat [] none).bind fun c => (E.projection g).bind fun as =>
    (newAttrs c ("projection_" ++ type ++ appendix k) as).bind fun c => (exactlyOne (E.spatial type false)).bind fun X =>
      (addAxis c (X.name ++ appendix k) (E.nx g) X.type (E.xs g) X.attrs).bind fun c => (exactlyOne (E.spatial type true)).bind fun Y =>
        (addAxis c (Y.name ++ appendix k) (E.ny g) Y.type (E.ys g) Y.attrs).bind fun c =>
          (exactlyOne E.lon).bind fun lon => (exactlyOne E.lat).bind fun lat =>
            if X.name ++ appendix k ≠ lon ++ appendix k ∧ Y.name ++ appendix k ≠ lat ++ appendix k then
              (addLonLat E c g (X.name ++ appendix k) (Y.name ++ appendix k) (lon ++ appendix k) (lat ++ appendix k)).bind fun c =>
                .ok (c, ⟨X.name ++ appendix k, Y.name ++ appendix k, lon ++ appendix k ++ " " ++ (lat ++ appendix k),
                  "projection_" ++ type ++ appendix k⟩)
            else .ok (c, ⟨X.name ++ appendix k, Y.name ++ appendix k, "", "projection_" ++ type ++ appendix k⟩)

/-- src/io/grib/GribCDMIndexer.cc:812-916 `loadAddProjection`. -/
def loadAddProjection [DecidableEq G] (E : Env G K V) (st : DS K V × List (G × PInfo)) (gt : G × String) : Res (DS K V × List (G × PInfo)) :=
  if st.2.any fun p => p.1 = gt.1 then .ok st
  else (newProjection E st.1 st.2.length gt.1 gt.2).bind fun r => .ok (r.1, st.2 ++ [(gt.1, r.2)])

/-- All grids, in the order of the first messages of variables. -/
def projections [DecidableEq G] (E : Env G K V) (gs : List (G × String)) : Res (DS K V × List (G × PInfo)) :=
  gs.foldlM (loadAddProjection E) (⟨fun _ => none, [], [], false, ()⟩, [])

/-! ## Time, members -/

/-- src/io/grib/GribCDMIndexer.cc:671-684: the reference time. -/
def addReference (E : Env G K V) (c : DS K V) (t : DataType) (ref : Option ℕ) : Res (DS K V) :=
  match ref with
  | none => .ok c
  | some r =>
    (newVar c "forecast_reference_time" t [] (some (.nums t [E.epoch r]))).bind fun c =>
      newAttrs c "forecast_reference_time" [⟨"units", E.text "seconds since 1970-01-01 00:00:00 +00:00"⟩,
        ⟨"standard_name", E.text "forecast_reference_time"⟩]

/-- `getVariable(name).setData(d)`, src/CDMVariable.cc:78-85. -/
def setData (c : DS K V) (name : String) (d : Data K) : Res (DS K V) :=
  match c.vars.find? fun v => v.name == name with
  | none => .throws
  | some v =>
    if d.type = v.payload.type then
      .ok { c with vars := c.vars.map fun w => if w.name = name then { w with payload := { w.payload with data := some d } } else w }
    else .throws

/-- src/io/grib/GribCDMIndexer.cc:655-661: the units of the axis, with a default. -/
def timeUnits (E : Env G K V) (c : DS K V) (name : String) : Res (DS K V × String) :=
  match (getAttributes c name).find? fun a => a.name == "units" with
  | some a => .ok (c, E.asText a.value)
  | none =>
    (newAttrs c name [⟨"units", E.text "seconds since 1970-01-01 00:00:00 +00:00"⟩]).bind fun c =>
      .ok (c, E.asText (E.text "seconds since 1970-01-01 00:00:00 +00:00"))

/-- src/io/grib/GribCDMIndexer.cc:636-685 `initAddTimeDimension`; gives the name of the dimension, too. -/
def addTime (E : Env G K V) (c : DS K V) (times : List ℕ) (ref : Option ℕ) : Res (DS K V × String) :=
  (exactlyOne E.time).bind fun T => (newDim c T.name times.length true).bind fun c => (newVar c T.name T.type [T.name] none).bind fun c =>
    (newAttrs c T.name T.attrs).bind fun c => (timeUnits E c T.name).bind fun cu => (E.unit cu.2).bind fun f =>
      (setData cu.1 T.name (create T.type (times.map f))).bind fun c => (addReference E c T.type ref).bind fun c => .ok (c, T.name)

/-- src/io/grib/GribCDMIndexer.cc:259-276 `initAddGlobalAttributes`. -/
def addGlobals (E : Env G K V) (c : DS K V) : Res (DS K V) :=
  (exactlyOne E.globals).bind fun as => (newAttrs c globalNS as).bind fun c =>
    if (getAttributes c globalNS).any fun a => a.name == "history" then .ok c else newAttrs c globalNS [⟨"history", E.history⟩]

/-- src/io/grib/GribCDMIndexer.cc:779-782: length of the longest name. -/
def maxLen (ids : List (List Char)) : ℕ := ids.foldl (fun m i => max m i.length) 0

/-- src/io/grib/GribCDMIndexer.cc:787-797: all names in one text; `replace` puts a name at its place, the rest are zeros. -/
def nameText (ids : List (List Char)) : List Char :=
  (ids.zipIdx.foldl (fun buf p => buf.take (p.2 * maxLen ids) ++ p.1 ++ buf.drop (p.2 * maxLen ids + p.1.length))
    (List.replicate (maxLen ids * ids.length) (Char.ofNat 0)))

/-- src/io/grib/GribCDMIndexer.cc:776-806: names of members, if there are as many as members. -/
def addMemberNames (E : Env G K V) (c : DS K V) (n : ℕ) : Res (DS K V) :=
  if E.members.length = n then
    (newDim c "ensemble_member_strlen" (maxLen E.members) false).bind fun c =>
      (newVar c "ensemble_member_names" .string ["ensemble_member_strlen", "ensemble_member"] (some (.chars (nameText E.members)))).bind fun c =>
        (newAttrs c "ensemble_member_names" [⟨"long_name", E.text "names of ensemble members"⟩]).bind fun c =>
          newAttrs c "ensemble_member" [⟨"flag_values", E.flags n⟩,
            ⟨"flag_meanings", E.text (" ".intercalate (E.members.map String.ofList))⟩]
  else .ok c

/-- src/io/grib/GribCDMIndexer.cc:758-810 `initAddEnsembles`; gives the name of the dimension, empty if there is none. -/
def addEnsembles (E : Env G K V) (c : DS K V) (n : ℕ) : Res (DS K V × String) :=
  if n ≤ 1 then .ok (c, "")
  else
    (newDim c "ensemble_member" n false).bind fun c =>
      (newVar c "ensemble_member" .short ["ensemble_member"] (some (.nums .short ((List.range n).map fun i => E.cast i)))).bind fun c =>
        (newAttrs c "ensemble_member" [⟨"long_name", E.text "ensemble run number"⟩, ⟨"standard_name", E.text "realization"⟩]).bind fun c =>
          (addMemberNames E c n).bind fun c => .ok (c, "ensemble_member")

/-! ## Levels -/

/-- src/CDMReaderUtils.cc:185-192 `findUniqueDimName` (C45). -/
def findUnique (c : DS K V) (name : String) : Option String := Names.findUniqueName (c.dims.map (·.name)) name (c.dims.length + 2)

/-- src/io/grib/GribCDMIndexer.cc:450-475: a further variable of an axis; an exception for its values or name is caught, one for its
attributes is not. -/
def addAux (pv : List K) (level ext : String) (d : Data K) (c : DS K V) (a : Aux K V) : Res (DS K V) :=
  match (a.values c d pv ext).bind fun vs =>
      newVar c (a.name ++ ext) a.type (if a.axis ≠ "" ∧ a.axis ≠ "1" then [level] else []) (some (create a.type vs)) with
  | .ok c => newAttrs c (a.name ++ ext) a.attrs
  | .throws => newAttrs c (a.name ++ ext) a.attrs
  | .ub => .ub

/-- src/io/grib/GribCDMIndexer.cc:443-484 `initSpecialLevels_`. -/
def addSpecial (c : DS K V) (A : Vertical K V) (pv : List K) (level ext : String) (d : Data K) : Res (DS K V × Data K) :=
  if A.additional.isEmpty then .ok (c, d)
  else
    (A.additional.foldlM (addAux pv level ext d) c).bind fun c =>
      match A.values c d pv ext with
      | .ok vs => .ok (c, .nums .double vs)
      | .throws => .ok (c, d)
      | .ub => .ub

/-- src/io/grib/GribCDMIndexer.cc:294-304: name and type of the axis of a type of level. -/
def levelId (t : ℤ × ℤ) (A : Option (Vertical K V)) : String :=
  match A with
  | none => "grib" ++ toString t.1 ++ "_vLevel" ++ toString t.2
  | some A => A.id

/-- src/io/grib/GribCDMIndexer.cc:294-304. -/
def levelDataType (A : Option (Vertical K V)) : DataType :=
  match A with
  | none => .float
  | some A => A.type

/-- src/io/grib/GribCDMIndexer.cc:333-353: the attributes. -/
def levelAttrs (E : Env G K V) (t : ℤ × ℤ) (A : Option (Vertical K V)) (ext : String) : List (Attr V) :=
  match A with
  | none => [⟨"units", E.text "1"⟩, ⟨"long_name", E.text ("grib" ++ toString t.1 ++ "-level " ++ toString t.2)⟩]
  | some A => A.attrs ext ++ (match A.special with | [l] => l | _ => [])

/-- src/io/grib/GribCDMIndexer.cc:329-331. -/
def levelSpecial (E : Env G K V) (c : DS K V) (t : ℤ × ℤ) (A : Option (Vertical K V)) (pos : ℕ) (name ext : String) (d : Data K) :
    Res (DS K V × Data K) :=
  match A with
  | none => .ok (c, d)
  | some A => addSpecial c A (E.pv t pos) name ext d

/-- src/io/grib/GribCDMIndexer.cc:309-355: the levels at one position; `multi` if there are several. -/
def addLevel (E : Env G K V) (c : DS K V) (t : ℤ × ℤ) (A : Option (Vertical K V)) (multi : Bool) (pos : ℕ) (values : List ℤ) :
    Res (DS K V × String) :=
  match findUnique c (levelId t A ++ (if multi then toString pos else "")) with
  | none => .throws
  | some name =>
    let ext := String.ofList (name.toList.drop (levelId t A).toList.length)
    (newDim c name values.length false).bind fun c => (newVar c name (levelDataType A) [name] none).bind fun c =>
      (levelSpecial E c t A pos name ext (create (levelDataType A) (values.map E.cast))).bind fun cd => (setData cd.1 name cd.2).bind fun c =>
        (newAttrs c name (levelAttrs E t A ext)).bind fun c => .ok (c, name)

/-- src/io/grib/GribCDMIndexer.cc:307-356: the positions of one type. -/
def addPositions (E : Env G K V) (t : ℤ × ℤ) (A : Option (Vertical K V)) (multi : Bool) :
    DS K V → ℕ → List (List ℤ) → Res (DS K V × List String)
  | c, _, [] => .ok (c, [])
  | c, pos, vs :: rest =>
    (addLevel E c t A multi pos vs).bind fun r => (addPositions E t A multi r.1 (pos + 1) rest).bind fun q => .ok (q.1, r.2 :: q.2)

/-- src/io/grib/GribCDMIndexer.cc:282-356: one type of level; more than one element is an error. -/
def addType (E : Env G K V) (lv : Levels) (st : DS K V × List ((ℤ × ℤ) × List String)) (t : ℤ × ℤ) :
    Res (DS K V × List ((ℤ × ℤ) × List String)) :=
  if 1 < (E.vertical t).length then .throws
  else
    (addPositions E t (E.vertical t).head? (decide (1 < (lv t).length)) st.1 0 (lv t)).bind fun r => .ok (r.1, st.2 ++ [(t, r.2)])

/-- The types of level of the variables, in ascending order. -/
def insType (t : ℤ × ℤ) : List (ℤ × ℤ) → List (ℤ × ℤ)
  | [] => [t]
  | u :: l => if t.1 < u.1 ∨ (t.1 = u.1 ∧ t.2 < u.2) then t :: u :: l else if t = u then u :: l else u :: insType t l

/-- Keys of `levelValsOfType`, src/io/grib/GribCDMIndexer.cc:602-633. -/
def levelTypes (s : Grib.St G) : List (ℤ × ℤ) := (s.names.filterMap s.has).foldl (fun l v => insType v.levelType l) []

/-- src/io/grib/GribCDMIndexer.cc:279-355 `initLevels`. -/
def addLevels (E : Env G K V) (c : DS K V) (s : Grib.St G) (lv : Levels) : Res (DS K V × List ((ℤ × ℤ) × List String)) :=
  (levelTypes s).foldlM (addType E lv) (c, [])

/-! ## Variables -/

/-- The name of the dimension of a type at a position, by `[]` and `at`. -/
def levelName (names : List ((ℤ × ℤ) × List String)) (t : ℤ × ℤ) (pos : ℕ) : Res String :=
  match (names.find? fun p => p.1 = t).bind fun p => p.2[pos]? with
  | some n => .ok n
  | none => .throws

/-- src/io/grib/GribCDMIndexer.cc:918-961, one variable. -/
def addVar [DecidableEq G] (E : Env G K V) (s : Grib.St G) (pos : String → ℕ) (ps : List (G × PInfo)) (names : List ((ℤ × ℤ) × List String))
    (ens time : String) (c : DS K V) (n : String) : Res (DS K V) :=
  match s.has n with
  | none => .throws
  | some v =>
    match ps.find? fun p => p.1 = v.grid with
    | none => .throws
    | some p =>
      (levelName names v.levelType (pos n)).bind fun l =>
        (newVar c n (E.type n) ([p.2.xDim, p.2.yDim] ++ (if v.hasEns then [ens] else []) ++ [l] ++ (if v.hasTime then [time] else [])) none).bind fun c =>
          newAttrs c n (E.attrs n ++ [⟨"grid_mapping", E.text p.2.gridMapping⟩] ++
            (if p.2.coordinates = "" then [] else [⟨"coordinates", E.text p.2.coordinates⟩]))

/-- A dataset with the names that later steps use. -/
structure Built (G K V : Type) where
  cdm : DS K V
  time : String
  ens : String
  projections : List (G × PInfo)
  levels : List ((ℤ × ℤ) × List String)

/-- src/io/grib/GribCDMIndexer.cc:214-239 `build`; `gs` are the grids of the variables with their types, in the order they were loaded. -/
def buildDataset [DecidableEq G] (E : Env G K V) (s : Grib.St G) (gs : List (G × String)) (ref : Option ℕ) : Res (Built G K V) :=
  let r := buildLevels s.has s.names (fun _ => []) (fun _ => 0)
  (projections E gs).bind fun p => (addTime E p.1 s.times ref).bind fun ct => (addGlobals E ct.1).bind fun c =>
    (addEnsembles E c s.maxEns).bind fun ce => (addLevels E ce.1 s r.1).bind fun cl =>
      (s.names.foldlM (addVar E s r.2 p.2 cl.2 ce.2 ct.2) cl.1).bind fun c => .ok ⟨c, ct.2, ce.2, p.2, cl.2⟩

/-- src/io/grib/GribCDMIndexer.cc:704-726: the lengths of a variable as the table of messages uses them: x, y, members, levels, times. -/
def lengths (c : DS K V) (ens time : String) (n : String) : Res (ℕ × ℕ × ℕ × ℕ × ℕ) :=
  (getVariable c n).bind fun v => (readAt v.shape 0).bind fun x => (getDimension c x).bind fun dx => (readAt v.shape 1).bind fun y =>
    (getDimension c y).bind fun dy => (readAt v.shape 2).bind fun e =>
      if e = ens then
        (getDimension c e).bind fun de => (readAt v.shape 3).bind fun l => (getDimension c l).bind fun dl =>
          if v.shape[4]? = some time then (getDimension c time).bind fun dt => .ok (dx.length, dy.length, de.length, dl.length, dt.length)
          else .ok (dx.length, dy.length, de.length, dl.length, 1)
      else
        (getDimension c e).bind fun dl =>
          if v.shape[3]? = some time then (getDimension c time).bind fun dt => .ok (dx.length, dy.length, 1, dl.length, dt.length)
          else .ok (dx.length, dy.length, 1, dl.length, 1)

end Fimex.GribData
