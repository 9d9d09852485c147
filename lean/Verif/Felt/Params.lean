import Verif.Felt.Arrays

/-!
# Parameters of the Felt reader (C129): model

From the elements `parameter` of the configuration the reader makes one text for each, `src/io/felt/FeltCDMReader2.cc:246-273`, which is taken apart again by
regular expressions, `src/io/felt/FeltParameters.cc:51-95`; and the options, `src/io/felt/Felt_File2.cc:111-145`.  Regular expressions are modelled by what they match
at the beginning of a text; searching and replacing take the leftmost places.  How a text is read as number is a parameter.
-/

namespace Fimex.FeltParams
open Fimex.Felt

variable {K : Type}

/-! ## The configuration -/

/-- An element `parameter`: its id, its type, and the values of its attributes `_FillValue`. -/
structure Node where
  id : List Char
  type : List Char
  fills : List (List Char)

/-- src/io/felt/FeltCDMReader2.cc:255-270: the text of one element; fill values are searched in all elements of that id. -/
def feltId (restr : List Char) (nodes : List Node) (n : Node) : List Char :=
  let dataType := if n.type ≠ [] then ":dataType=".toList ++ n.type else []
  let fill := match nodes.flatMap fun m => if m.id = n.id then m.fills else [] with
    | [] => []
    | f :: _ => if f ≠ [] then ":fillValue=".toList ++ f else []
  n.id ++ dataType ++ fill ++ restr

/-- src/io/felt/FeltCDMReader2.cc:246-273 `initGetKnownFeltIdsFromXML`; `globals` is the option, if given. -/
def feltIds (globals : Option (List Char)) (nodes : List Node) : List (List Char) :=
  nodes.map (feltId (match globals with | some g => ':' :: g | none => []) nodes)

/-! ## Regular expressions -/

/-- What follows a given beginning. -/
def behind : List Char → List Char → Option (List Char)
  | [], s => some s
  | _ :: _, [] => none
  | x :: n, c :: s => if x = c then behind n s else none

/-- A match at the beginning: the text of the group, and what follows. -/
abbrev Pattern := List Char → Option (List Char × List Char)

def isLower (c : Char) : Bool := 'a' ≤ c && c ≤ 'z'

/-- `:dataType=([a-z]*)` -/
def typePattern : Pattern := fun s => (behind ":dataType=".toList s).map fun r => (r.takeWhile isLower, r.dropWhile isLower)

/-- `:?` before another expression: with the colon if that matches. -/
def optColon (p : Pattern) : Pattern := fun s =>
  match s with
  | ':' :: t =>
    match p t with
    | some m => some m
    | none => p s
  | _ => p s

/-- `fillValue=([^:]+)` -/
def fillPattern : Pattern := fun s =>
  (behind "fillValue=".toList s).bind fun r =>
    if r.takeWhile (· ≠ ':') = [] then none else some (r.takeWhile (· ≠ ':'), r.dropWhile (· ≠ ':'))

/-- A text with all characters escaped (C124). -/
def textPattern (g : List Char) : Pattern := fun s => (behind g s).map fun r => ([], r)

/-- `std::regex_search`: the group of the leftmost match. -/
def search (p : Pattern) : List Char → Option (List Char)
  | [] => (p []).map Prod.fst
  | c :: s =>
    match p (c :: s) with
    | some m => some m.1
    | none => search p s

/-- `std::regex_replace` with nothing, for expressions that match no empty text; every round takes characters away. -/
def remove (p : Pattern) : Nat → List Char → List Char
  | 0, s => s
  | _ + 1, [] => []
  | fuel + 1, c :: s =>
    match p (c :: s) with
    | some m => remove p fuel m.2
    | none => c :: remove p fuel s

/-! ## The maps -/

/-- src/io/felt/FeltParameters.h:38-40. -/
structure Maps (K : Type) where
  params : List Char → Option (List ℤ)
  types : List Char → Option (List Char)
  fills : List Char → Option K

def Maps.empty : Maps K := ⟨fun _ => none, fun _ => none, fun _ => none⟩

/-- `m[k] = v` -/
def put {B : Type} (m : List Char → Option B) (k : List Char) (v : B) : List Char → Option B := fun x => if x = k then some v else m x

/-- src/io/felt/FeltParameters.cc:54-91: one text.  The exception for an unknown type is made and not thrown. -/
def addText (number : List Char → K) (globals : List Char) (m : Maps K) (text : List Char) : Maps K :=
  let type := search typePattern text
  let name := if type.isSome then remove typePattern text.length text else text
  let clean := if globals ≠ [] then remove (optColon (textPattern globals)) name.length name else name
  let fill := search (optColon fillPattern) name
  let clean := if fill.isSome then remove (optColon fillPattern) clean.length clean else clean
  let fills := match fill with | some f => put m.fills clean (number f) | none => m.fills
  let params := put m.params clean (diana name)
  match type with
  | none => ⟨params, m.types, fills⟩
  | some t =>
    if t = "none".toList then ⟨params, m.types, fills⟩
    else ⟨params, put m.types clean t, match fills name with | some f => put fills clean f | none => fills⟩

/-- src/io/felt/FeltParameters.cc:51-95, the constructor from a list. -/
def fromList (number : List Char → K) (globals : List Char) (texts : List (List Char)) : Maps K := texts.foldl (addText number globals) .empty

/-- src/io/felt/FeltCDMReader2.cc:195-196 with src/io/felt/Felt_File2.cc:103-109: parameters of the configuration; without the option the restriction is empty. -/
def fromConfig (number : List Char → K) (globals : Option (List Char)) (nodes : List Node) : Maps K :=
  fromList number (globals.getD []) (feltIds globals nodes)

/-- src/io/felt/FeltParameters.cc:236-244 `getParameterDatatype`. -/
def Maps.type (m : Maps K) (id : List Char) : List Char := (m.types id).getD "short".toList

/-- src/io/felt/FeltParameters.cc:245-253 `getParameterFillValue`. -/
def Maps.fill (m : Maps K) (any : K) (id : List Char) : K := (m.fills id).getD any

/-- src/io/felt/FeltParameters.cc:206-215 `getParameters`. -/
def Maps.parameters (m : Maps K) (id : List Char) : List ℤ := (m.params id).getD (List.replicate 16 anyValue)

end Fimex.FeltParams
