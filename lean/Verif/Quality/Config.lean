import Verif.Quality.Model
import Verif.Text.Props

/-!
# Configuration of the quality control

Model of the constructor of `CDMQualityExtractor` and of the choice of the status values in `getDataSlice`, `src/CDMQualityExtractor.cc:48-278`.  The masking itself is
C54.  Elements of the document are what is read of them; reading numbers, opening files and searching variables by attributes are parameters.
-/

namespace Fimex.QualityConfig

open Fimex.Quality

variable {K R D : Type}

/-- What is asked of a dataset. -/
structure Source (K : Type) where
  /-- the shape of a variable, if it is there -/
  shape : String → Option (List String)
  /-- `getDimension(name).getLength()` -/
  length : String → Res Nat
  /-- `getFillValue` -/
  fill : String → Res K
  /-- the text of the attribute `standard_name` -/
  standardName : String → Option String
  /-- `findVariables("flag_values", ".*")` -/
  flagged : List String
  /-- `findVariables("standard_name", _)` -/
  named : String → List String
  /-- the attribute `flag_values` -/
  flagValues : String → List K

structure Library (K R : Type) where
  /-- `string2type<double>` -/
  number : String → Res K
  /-- `tokenizeDotted<double>`, C72 -/
  numbers : String → Res (List K)
  /-- `CDMFileReaderFactory::create(type, file, config)` -/
  create : String → String → String → Res R
  /-- its dataset -/
  source : R → Source K

/-- An element `allowed_values`: the attribute `use`, and its text if that comes first. -/
structure Allowed where
  use : String
  text : Option String

/-- An element `status_flag_variable`; attributes that are not there are empty. -/
structure Status where
  name : String
  file : String
  type : String
  config : String
  allowed : List Allowed

/-- An element `variable`. -/
structure Variable where
  name : String
  fill : String
  status : List Status

/-- include/fimex/CDMQualityExtractor.h:84-108, the maps. -/
structure State (K R : Type) where
  status : String → Option String
  flags : String → Option String
  fill : String → Option K
  values : String → Option (List K)
  readers : String → Option R

def State.empty : State K R := ⟨fun _ => none, fun _ => none, fun _ => none, fun _ => none, fun _ => none⟩

/-- `m[k] = v` -/
def upd {B : Type} (m : String → Option B) (k : String) (v : B) : String → Option B := fun x => if x = k then some v else m x

/-! ## Automatic configuration -/

/-- src/CDMQualityExtractor.cc:54-71 `findCorrespondingVariables`: the variables are put into a second vector of the same name, which ends with the block. -/
def corresponding (src : Source K) (statusVar : String) : List String :=
  let outer : List String := []
  match src.standardName statusVar with
  | none => outer
  | some n =>
    match Text.words (· == ' ') n.toList with
    | a :: _ :: _ => let _inner := src.named (String.ofList a); outer
    | _ => outer

def autoConf (s : String) : AutoConf K :=
  if s = "all" then .all else if s = "highest" then .highest else if s = "lowest" then .lowest else .other

/-- src/CDMQualityExtractor.cc:122-126: one variable. -/
def autoOne (src : Source K) (conf statusVar : String) (st : State K R) (v : String) : Res (State K R) :=
  (src.fill v).bind fun f =>
  (getValidValues (autoConf conf) (src.flagValues statusVar)).bind fun vs =>
  .ok { st with status := upd st.status v statusVar, fill := upd st.fill v f, values := upd st.values v vs }

def foldRes {B C : Type} (f : B → C → Res B) : B → List C → Res B
  | b, [] => .ok b
  | b, c :: l => (f b c).bind fun b => foldRes f b l

/-- src/CDMQualityExtractor.cc:108-132. -/
def configureAuto (src : Source K) (conf : String) : Res (State K R) :=
  if conf = "" then .ok .empty
  else if conf = "all" ∨ conf = "highest" ∨ conf = "lowest" then
    foldRes (fun st s => foldRes (autoOne src conf s) st (corresponding src s)) .empty src.flagged
  else .throws

/-! ## Configuration by a document -/

/-- src/CDMQualityExtractor.cc:193-197: the loop over the dimensions of the status variable. -/
def sameLengths (src ssrc : Source K) : List String → List String → Res Unit
  | _, [] => .ok ()
  | [], _ :: _ => .ub
  | a :: l, b :: m =>
    (src.length a).bind fun x =>
    (ssrc.length b).bind fun y =>
    if x = y then sameLengths src ssrc l m else .throws

/-- src/CDMQualityExtractor.cc:178-200: the shapes. -/
def checkShapes (src ssrc : Source K) (v s : String) : Res Unit :=
  match src.shape v with
  | none => .ok ()
  | some sh =>
    let ss := (ssrc.shape s).getD []
    if sh = ss then .ok ()
    else if sh.length < ss.length then .throws
    else sameLengths src ssrc sh ss

/-- src/CDMQualityExtractor.cc:144-165: name, use, values, file, type and configuration of the status variable. -/
def readStatus (n : Variable) : String × String × String × String × String × String :=
  match n.status with
  | [s] =>
    match s.allowed with
    | [a] => (s.name, a.use, a.text.getD "", s.file, s.type, s.config)
    | _ => (s.name, "", "", s.file, s.type, s.config)
  | _ => ("", "", "", "", "", "")

/-- src/CDMQualityExtractor.cc:143-209: one element. -/
def addVariable (L : Library K R) (src : Source K) (st : State K R) (n : Variable) : Res (State K R) :=
  let (name, use, text, file, type, config) := readStatus n
  if name = "" then .throws
  else if file = "" ∧ (config ≠ "" ∨ type ≠ "") then .throws
  else
    (if file = "" then .ok none else (L.create type file config).bind fun r => .ok (some r)).bind fun reader =>
    (checkShapes src (match reader with | none => src | some r => L.source r) n.name name).bind fun _ =>
    (if n.fill = "" then src.fill n.name else L.number n.fill).bind fun fill =>
    (L.numbers text).bind fun vs =>
    let st := { st with
      status := upd st.status n.name name
      readers := (match reader with | none => st.readers | some r => upd st.readers n.name r)
      fill := upd st.fill n.name fill }
    if vs ≠ [] then .ok { st with values := upd st.values n.name vs }
    else if use ≠ "" then .ok { st with flags := upd st.flags n.name use }
    else .throws

/-- src/CDMQualityExtractor.cc:103-211: the constructor with both; `doc` is the number of roots and the elements, if there is a file. -/
def configure (L : Library K R) (src : Source K) (conf : String) (doc : Option (Nat × List Variable)) : Res (State K R) :=
  (configureAuto src conf).bind fun st =>
  match doc with
  | none => .ok st
  | some (roots, nodes) => if roots = 1 then foldRes (addVariable L src) st nodes else .throws

/-- src/CDMQualityExtractor.cc:281-285: values have precedence over flags. -/
def ruleOf (st : State K R) (v : String) : Option (List K ⊕ String) :=
  match st.values v with
  | some vs => some (.inl vs)
  | none => (st.flags v).map .inr

/-! ## The status values of a slice -/

/-- src/CDMQualityExtractor.cc:235-262 and the masking: `rd` reads the source, `ext` another reader, `mask` is C54.  Recursion that does not end gives `none`. -/
def getSlice (st : State K R) (rd : String → Nat → Res (List D)) (ext : R → String → Nat → Res (List D)) (mask : String → List D → List D → Res (List D)) :
    Nat → String → Nat → Option (Res (List D))
  | 0, _, _ => none
  | fuel + 1, v, p =>
    match rd v p with
    | .throws => some .throws
    | .ub => some .ub
    | .ok d =>
      match st.status v with
      | none => some (.ok d)
      | some s =>
        match st.readers v with
        | some r => some ((ext r s p).bind fun e => (if e.length = 0 then ext r s 0 else .ok e).bind fun e => mask v d e)
        | none =>
          if s = v then some (mask v d d)
          else
            match getSlice st rd ext mask fuel s p with
            | none => none
            | some .throws => some .throws
            | some .ub => some .ub
            | some (.ok e) =>
              if e.length = 0 then
                match getSlice st rd ext mask fuel s 0 with
                | none => none
                | some r => some (r.bind fun e => mask v d e)
              else some (mask v d e)

end Fimex.QualityConfig
