import Verif.Felt.File
import Verif.Text.Props
import Mathlib.Data.Rat.Defs
import Mathlib.Algebra.Order.Field.Basic
import Mathlib.Data.List.Dedup
import Mathlib.Data.String.Basic

/-!
# Arrays of Felt files (C114): model

Fields of the file are given as what C113 reads: entry, header of the grid, values, and the six parameters of the grid.
The time of a field is its valid time in seconds; src/FimexTime.cc:179-190 orders times of the calendar the same way.
Numbers are in any field; the values of `double` are taken as exact.
-/

namespace Fimex.Felt
open Fimex.Time

/-! ## Sorted maps -/

variable {A B : Type}

/-- `std::map::operator[]` as target of an assignment. -/
def mapPut (less : A → A → Bool) (k : A) (v : B) : List (A × B) → List (A × B)
  | [] => [(k, v)]
  | (k', v') :: r => if less k k' then (k, v) :: (k', v') :: r else if less k' k then (k', v') :: mapPut less k v r else (k, v) :: r

/-- `std::map::find`. -/
def mapFind (less : A → A → Bool) (k : A) : List (A × B) → Option B
  | [] => none
  | (k', v') :: r => if !less k k' && !less k' k then some v' else mapFind less k r

/-- `std::set::insert`. -/
def setPut (less : A → A → Bool) (k : A) : List A → List A
  | [] => [k]
  | k' :: r => if less k k' then k :: k' :: r else if less k' k then k' :: setPut less k r else k' :: r

/-- A set of all given values, in order. -/
def setOf (less : A → A → Bool) (l : List A) : List A := l.foldl (fun s k => setPut less k s) []

/-- src/io/felt/Felt_Types.h:43-51 `LevelPairLess`. -/
def levelLess (p q : ℤ × ℤ) : Bool := if p.1 = q.1 then decide (p.2 < q.2) else decide (p.1 < q.1)

/-- Order of times. -/
def timeLess (a b : ℤ) : Bool := decide (a < b)

/-- Order of names. -/
def nameLess (a b : String) : Bool := decide (a < b)

/-! ## Parameters -/

/-- src/io/felt/FeltParameters.h:75-78 `ANY_VALUE`. -/
def anyValue : ℤ := -32767

/-- src/io/felt/FeltParameters.cc:221-228: an entry meets the restrictions of a parameter. -/
def meets (r : List ℤ) (h : Header) : Bool := (List.range 16).all fun i => r.getD i anyValue == anyValue || r.getD i anyValue == word h i

/-- src/io/felt/FeltParameters.cc:217-234 `getParameterName`; the empty name is `UNDEFINED`. -/
def parameterName (ps : List (String × List ℤ)) (h : Header) : String := ((ps.find? fun p => meets p.2 h).map Prod.fst).getD ""

/-- Digits as number. -/
def digitsNat (s : List Char) : ℕ := Nat.ofDigitChars 10 s 0

/-- `short(atoi(…))`; a sign is left out here, and numbers that are no `int`. -/
def shortOf (s : List Char) : ℤ := short (digitsNat ((s.dropWhile Char.isWhitespace).takeWhile Char.isDigit))

/-- src/io/felt/FeltParameters.cc:154 `\s*(\w*)=(\d+)\s*`, matched by a whole token. -/
def restriction (s : List Char) : Option (List Char × ℤ) :=
  let s1 := s.dropWhile Char.isWhitespace
  let name := s1.takeWhile fun c => c.isAlphanum || c == '_'
  match s1.dropWhile fun c => c.isAlphanum || c == '_' with
  | '=' :: r =>
    let ds := r.takeWhile Char.isDigit
    if ds ≠ [] ∧ (r.dropWhile Char.isDigit).all Char.isWhitespace then some (name, short (digitsNat ds)) else none
  | _ => none

/-- src/io/felt/FeltParameters.cc:183-199: word of the entry for a restriction. -/
def restrictedWord (name : List Char) : Option ℕ :=
  if name = "prod".toList then some 0
  else if name = "grid".toList then some 1
  else if name = "dtype".toList then some 8
  else if name = "level".toList then some 12
  else if name = "idnum".toList then some 13
  else if name = "param".toList then some 11
  else if name = "vcoord".toList then some 10
  else none

/-- src/io/felt/FeltParameters.cc:179-202: the loop over the tokens after the first. -/
def restrict (r : List ℤ) (tok : List Char) : List ℤ :=
  match restriction tok with
  | some (name, v) =>
    match restrictedWord name with
    | some k => r.set k v
    | none => r
  | none => r

/-- src/io/felt/FeltParameters.cc:163-177: the loop over the first token. -/
def firstToken (r : List ℤ) (toks : List (List Char)) : List ℤ :=
  match toks with
  | [] => r
  | [a] => r.set 11 (shortOf a)
  | [a, b] => (r.set 11 (shortOf a)).set 10 (shortOf b)
  | a :: b :: c :: _ => ((r.set 11 (shortOf a)).set 10 (shortOf b)).set 12 (shortOf c)

/-- src/io/felt/FeltParameters.cc:152-204 `diana2feltparameters`; `split_any` as in C26. -/
def diana (s : List Char) : List ℤ :=
  let toks := Text.pieces [':'].contains s
  toks.tail.foldl restrict (firstToken (List.replicate 16 anyValue) (Text.pieces [','].contains (toks.headD [])))

/-! ## Arrays -/

/-- A field of the file with what is read of it. -/
structure Field (K : Type) where
  header : Header
  head : List ℤ
  values : List ℤ
  geometry : List K

variable {K : Type}

/-- src/io/felt/Felt_Array2.cc:44-47, 63: key of a field in the outer map. -/
def Field.time (f : Field K) : ℤ :=
  let t := validTime f.header
  sysDays t.year t.month.toNat t.day.toNat * 86400 + t.hour * 3600 + t.minute * 60 + t.second

/-- src/io/felt/Felt_Array2.cc:64-69: key of a field in the inner map. -/
def Field.level (f : Field K) : ℤ × ℤ :=
  if isEps f.header then (word f.header 12, dataVersion f.header) else (word f.header 12, level2 f.header)

/-- src/io/felt/FeltField.h:75 `dataType`. -/
def Field.kind (f : Field K) : ℤ := word f.header 8
/-- src/io/felt/FeltField.h:77 `verticalCoordinate`. -/
def Field.vcoord (f : Field K) : ℤ := word f.header 10
/-- src/io/felt/FeltField.cpp:101-105 `scaleFactor`. -/
def Field.scale (f : Field K) : ℤ := f.head.getD 19 0
/-- src/io/felt/FeltField.cpp:107-111 `miscField`. -/
def Field.misc (f : Field K) : ℤ := f.head.getD 18 0
/-- src/io/felt/FeltField.cpp:90-94 `xNum`. -/
def Field.nx (f : Field K) : ℤ := f.head.getD 9 0
/-- src/io/felt/FeltField.cpp:95-99 `yNum`. -/
def Field.ny (f : Field K) : ℤ := f.head.getD 10 0
/-- src/io/felt/Felt_Array2.cc:246-247, 268-273: type of the grid. -/
def Field.gridType (f : Field K) : ℤ := if 1000 ≤ word f.header 14 then (word f.header 14).tdiv 1000 else word f.header 14

/-- src/io/felt/Felt_Array2.h:53-54 `LevelFieldMap`. -/
abbrev Slice (K : Type) := List ((ℤ × ℤ) × Field K)

/-- src/io/felt/Felt_Array2.h:49-61 `Felt_Array2`. -/
structure Arr (K : Type) where
  name : String
  first : Field K
  dtype : String
  fill : K
  fields : List (ℤ × Slice K)

/-- src/io/felt/Felt_Array2.cc:61-99 `addField_`. -/
def addField (m : List (ℤ × Slice K)) (f : Field K) : Res (List (ℤ × Slice K)) :=
  match mapFind timeLess f.time m with
  | some s =>
    match mapFind levelLess f.level s with
    | some old => if old.kind = f.kind then .throws else .ok (mapPut timeLess f.time (mapPut levelLess f.level f s) m)
    | none => .ok (mapPut timeLess f.time (mapPut levelLess f.level f s) m)
  | none => .ok (mapPut timeLess f.time [(f.level, f)] m)

/-- src/io/felt/Felt_Array2.cc:101-119 `addInformationByField`. -/
def Arr.add (a : Arr K) (f : Field K) : Res (Arr K) :=
  if !valid f.header then .ok a
  else if ¬ (parameter a.first.header = parameter f.header ∧ a.first.vcoord = f.vcoord) then .throws
  else (addField a.fields f).bind fun m => .ok { a with fields := m }

/-- src/io/felt/Felt_Array2.cc:49-56 the constructor. -/
def newArr (name : String) (f : Field K) (dtype : String) (fill : K) : Arr K := ⟨name, f, dtype, fill, mapPut timeLess f.time [(f.level, f)] []⟩

/-- src/io/felt/Felt_Array2.cc:275-282 `hasTime`. -/
def Arr.hasTime (a : Arr K) : Bool := !(a.fields.length == 1 && a.first.kind == 4)

/-- src/io/felt/Felt_Array2.cc:134-145 `getTimes`. -/
def Arr.times (a : Arr K) : List ℤ := if a.hasTime then a.fields.map Prod.fst else []

/-- src/io/felt/Felt_Array2.cc:121-132 `getReferenceTimes`. -/
def Arr.references (a : Arr K) : List FTime := a.fields.flatMap fun s => s.2.map fun l => referenceTime l.2.header

/-- src/io/felt/Felt_Array2.cc:147-165 `getLevelPairs`. -/
def Arr.levels (a : Arr K) : List (ℤ × ℤ) :=
  setOf levelLess (a.fields.flatMap fun s => s.2.map fun l => if isEps a.first.header then (l.1.1, 0) else l.1)

/-- src/io/felt/Felt_Array2.cc:167-178 `getEnsembleMembers`. -/
def Arr.members (a : Arr K) : List ℤ := if isEps a.first.header then setOf timeLess (a.fields.flatMap fun s => s.2.map fun l => l.1.2) else []

/-- src/io/felt/Felt_Array2.cc:180-195 `getField`; `none` is the exception for fields that do not exist. -/
def Arr.field (a : Arr K) (t : ℤ) (l : ℤ × ℤ) : Option (Field K) :=
  (if a.hasTime then mapFind timeLess t a.fields else (a.fields.head?).map Prod.snd).bind fun s => mapFind levelLess l s

/-! ## Files -/

/-- What `FeltParameters` knows. -/
structure Params (K : Type) where
  list : List (String × List ℤ)
  dtype : String → String
  fill : String → K

/-- src/io/felt/Felt_File2.h:143-145: the maps of `Felt_File2`. -/
structure FeltFile (K : Type) where
  arrays : List (String × Arr K)
  hybrid : List ((ℤ × ℤ) × ℤ)

/-- src/io/felt/Felt_File2.cc:180-196 `findOrCreateFeltArray`. -/
def findOrCreate (ps : Params K) (m : List (String × Arr K)) (f : Field K) : Res (List (String × Arr K)) :=
  let name := parameterName ps.list f.header
  match mapFind nameLess name m with
  | none => .ok (mapPut nameLess name (newArr name f (ps.dtype name) (ps.fill name)) m)
  | some a => (a.add f).bind fun a => .ok (mapPut nameLess name a m)

/-- src/io/felt/Felt_File2.cc:155-170: what is done for a field. -/
def initStep (ps : Params K) (st : FeltFile K) (f : Field K) : Res (FeltFile K) :=
  if parameterName ps.list f.header ≠ "" then
    (findOrCreate ps st.arrays f).bind fun m =>
      .ok ⟨m, if f.vcoord = 10 ∧ mapFind levelLess (word f.header 12, level2 f.header) st.hybrid = none then
        mapPut levelLess (word f.header 12, level2 f.header) f.misc st.hybrid else st.hybrid⟩
  else .ok st

/-- src/io/felt/Felt_File2.cc:145-175 `init`; exceptions of all kinds become `Felt_File_Error`. -/
def init (ps : Params K) (fs : List (Field K)) : Res (FeltFile K) := fs.foldl (fun r f => r.bind fun st => initStep ps st f) (.ok ⟨[], []⟩)

/-- src/io/felt/Felt_File2.cc:292-305 `getUniqueReferenceTime`. -/
def FeltFile.reference (ff : FeltFile K) : Res FTime :=
  match (ff.arrays.flatMap fun a => a.2.references).dedup with
  | [t] => .ok t
  | _ => .throws

/-- src/io/felt/Felt_File2.cc:307-316 `getFeltTimes`. -/
def FeltFile.times (ff : FeltFile K) : List ℤ := setOf timeLess (ff.arrays.flatMap fun a => a.2.times)

/-- src/io/felt/Felt_File2.cc:266-280 `getFeltLevelPairs`, for one type of levels; empty if there is no array of the type. -/
def FeltFile.levels (ff : FeltFile K) (type : ℤ) : List (ℤ × ℤ) :=
  setOf levelLess ((ff.arrays.filter fun a => a.2.first.vcoord == type).flatMap fun a => a.2.levels)

/-- src/io/felt/Felt_File2.cc:282-290 `getEnsembleMembers`. -/
def FeltFile.members (ff : FeltFile K) : List ℤ := setOf timeLess (ff.arrays.flatMap fun a => a.2.members)

/-- src/io/felt/Felt_File2.cc:318-334 `getNX`, `getNY`. -/
def FeltFile.size (ff : FeltFile K) : ℤ × ℤ :=
  (ff.arrays.foldl (fun n a => max a.2.first.nx n) 0, ff.arrays.foldl (fun n a => max a.2.first.ny n) 0)

/-! ## Values -/

/-- src/io/felt/Felt_Array2.cc:254-264: parameters of the grid may differ by as much as is allowed. -/
def sameGeometry [Sub K] [Neg K] [Max K] [LT K] [DecidableEq K] [DecidableLT K] (delta new old : List K) [Inhabited K] : Bool :=
  (List.range 6).all fun i =>
    !(decide (new.getD i default ≠ old.getD i default) &&
      decide (delta.getD i default < max (new.getD i default - old.getD i default) (-(new.getD i default - old.getD i default))))

/-- What can happen in `getGridAllowDelta`. -/
inductive Got (V : Type) where
  | ok (v : V)
  | noField
  | throws
deriving DecidableEq

/-- src/io/felt/Felt_Array2.cc:240-266 `getGridAllowDelta`: values and scale factor. -/
def Arr.grid [Sub K] [Neg K] [Max K] [LT K] [DecidableEq K] [DecidableLT K] [Inhabited K] (a : Arr K) (delta : List K) (t : ℤ) (l : ℤ × ℤ) :
    Got (List ℤ × ℤ) :=
  match a.field t l with
  | none => .noField
  | some f =>
    if a.first.gridType ≠ f.gridType then .throws
    else if !sameGeometry delta f.geometry a.first.geometry then .throws
    else .ok (f.values, f.scale)

/-- src/io/felt/Felt_File2.cc:216-230 `Scale`. -/
def scaled [DivisionRing K] (fill factor : K) (v : ℤ) : K := if v = anyValue then fill else (v : K) * factor

/-- src/io/felt/Felt_File2.cc:242-264 `getScaledDataSlice`; fill values of short arrays are taken as short. -/
def Arr.scaledSlice [DivisionRing K] [LinearOrder K] [Inhabited K] (a : Arr K) (delta : List K) (t : ℤ) (l : ℤ × ℤ) : Got (List K) :=
  match a.grid delta t l with
  | .noField => .noField
  | .throws => .throws
  | .ok (values, s) =>
    if a.dtype = "short" then
      if s ≠ a.first.scale then .throws else .ok (values.map (scaled a.fill 1))
    else if a.dtype = "float" ∨ a.dtype = "double" then .ok (values.map (scaled a.fill (10 ^ s)))
    else .throws

/-- src/io/felt/Felt_Array2.cc:207-210 `getScalingFactor`. -/
def Arr.scalingFactor [DivisionRing K] (a : Arr K) : K := if a.dtype = "short" then 10 ^ a.first.scale else 1


end Fimex.Felt
