import Verif.SliceBuilder.Props
import Mathlib.Algebra.Field.Basic

/-!
# The interface for C (C130): model

`src/c_fimex.cc` and `src/C_CDMReader.cc`.  Memory given by the caller is a list; writing beyond its end is undefined.  A function that lets an exception through has the
outcome `throws`.  Text is a list of characters, and characters are bytes.  A pointer is an option, `none` the null pointer.
-/

namespace Fimex.CApi
open SB

/-! ## Memory of the caller -/

/-- `*(dest + i) = v` -/
def store {A : Type} (dest : List A) (i : Nat) (v : A) : Res (List A) := if i < dest.length then .ok (dest.set i v) else .ub

/-- `std::copy(…, dest + i)`: one value after the other. -/
def copyTo {A : Type} : List A → List A → Nat → Res (List A)
  | [], dest, _ => .ok dest
  | v :: vs, dest, i => (store dest i v).bind fun d => copyTo vs d (i + 1)

/-- `std::fill(dest + d, dest + n, v)`; a range that ends before it begins is undefined. -/
def fillTo {A : Type} (dest : List A) (d : Nat) (n : Int) (v : A) : Res (List A) :=
  if n < d then .ub else copyTo (List.replicate (n - d).toNat v) dest d

/-- `int` in a comparison with `size_t`. -/
def sizeT (n : Int) : Nat := (n % (two64 : Int)).toNat

def nul : Char := Char.ofNat 0

/-- src/c_fimex.cc:64-73 `string_cpy`: the memory after it, and the value returned. -/
def stringCpy (src dest : List Char) (n : Int) : Res (List Char × Int) :=
  (if src.length + 1 ≤ sizeT n then (copyTo (src ++ [nul]) dest 0).bind fun d => .ok (d, src.length + 1) else .ok (dest, 0)).bind fun dp =>
  (fillTo dp.1 dp.2 n nul).bind fun d => .ok (d, (dp.2 : Int))

/-- What a caller reads as text. -/
def cText (m : List Char) : List Char := m.takeWhile (· ≠ nul)

/-- src/c_fimex.cc:75-78 `string_dup`. -/
def stringDup (src : List Char) : List Char := cText src ++ [nul]

/-! ## Names (src/c_fimex.cc:203-316) -/

/-- A function that returns `err` for any exception. -/
def caught {A : Type} (x : Res A) (err : A) : Res A :=
  match x with
  | .throws => .ok err
  | r => r

/-- src/c_fimex.cc:213-222, 245-254 `mifi_get_variable_name`, `mifi_get_dimension_name`. -/
def nameAt (names : List (List Char)) (pos : Nat) : Res (Option (List Char)) := caught ((at' names pos).bind fun n => .ok (some n)) none

/-- src/c_fimex.cc:224-232 `mifi_get_variable_type`; types are numbers, 0 is `CDM_NAT`. -/
def typeNumber (vars : List (List Char × Nat)) (name : List Char) : Res Nat :=
  caught (match vars.find? (·.1 = name) with | some v => .ok v.2 | none => .throws) 0

/-- src/c_fimex.cc:256-266 `mifi_get_dimension_size`. -/
def dimensionSize (dims : List (List Char × Nat)) (name : List Char) : Nat :=
  match dims.find? (·.1 = name) with
  | some d => d.2
  | none => 0

/-- src/c_fimex.cc:278-296 `mifi_get_var_longitude_cpy`; `lon` is what `getLatitudeLongitude` finds. -/
def longitudeCpy (lon : Option (List Char)) (dest : List Char) (n : Int) : Res (List Char × Int) := stringCpy (lon.getD []) dest n

/-! ## Slice builders -/

/-- src/c_fimex.cc:345-351 `mifi_slicebuilder_ndims`. -/
def ndims (sb : Option Builder) : Nat := match sb with | some b => b.size.length | none => 0

/-- src/c_fimex.cc:353-359 `do_mifi_slicebuilder_dimname`; `entries` is the order of the map. -/
def dimName (sb : Option (List (String × Nat))) (pos : Int) : Res String :=
  match sb with
  | some entries => (getDimensionNames entries).bind fun names => at' names (sizeT pos)
  | none => .ok ""

/-- `unsigned int` -/
def uint (n : Nat) : Nat := n % 2 ^ 32

/-- src/c_fimex.cc:372-382 `mifi_slicebuilder_get_start_size`: the value returned, and both arrays. -/
def getStartSize (sb : Option Builder) (start size : List Nat) : Res (Int × List Nat × List Nat) :=
  match sb with
  | none => .ok (-1, start, size)
  | some b =>
    (copyTo (b.start.map uint) start 0).bind fun st =>
    (copyTo (b.size.map uint) size 0).bind fun sz =>
    .ok (0, st, sz)

/-- src/c_fimex.cc:424-431 `mifi_slicebuilder_set_dim_start_size`: the builder after it, and the outcome. -/
def setDim (sb : Option Builder) (name : String) (start size : Nat) : Option Builder × Res Int :=
  match sb with
  | none => (none, .ok (-1))
  | some b =>
    match setStartAndSize b name start size with
    | (b', .ok _) => (some b', .ok 0)
    | (b', .throws) => (some b', .throws)
    | (b', .ub) => (some b', .ub)

/-- A history of such calls, in which exceptions are survived. -/
def setDims (sb : Option Builder) : List (String × Nat × Nat) → Option Builder
  | [] => sb
  | c :: cs => setDims (setDim sb c.1 c.2.1 c.2.2).1 cs

/-! ## Values -/

/-- src/c_fimex.cc:435-453, 455-473 `mifi_get_double_dataslice`, `mifi_get_double_data`: the value returned, `*data` and `*size`; `room` tells whether `malloc` succeeds. -/
def getDouble {V : Type} (room : Nat → Bool) (values : Res (List V)) (data : Option (List V)) (size : Nat) : Res (Int × Option (List V) × Nat) :=
  match values with
  | .throws => .ok (-1, data, size)
  | .ub => .ub
  | .ok vs => if room vs.length then .ok (0, some vs, vs.length) else .ok (-1, none, 0)

/-- src/c_fimex.cc:475-498 `mifi_fill_scaled_double_dataslice`: the value returned, the memory and `*size`; `plain` and `converted` are the slices the reader gives. -/
def fillScaled {V : Type} (plain : Builder → Res (List V)) (converted : List Char → Builder → Res (List V)) (sb : Option Builder) (units : Option (List Char))
    (data : Option (List V)) (size : Nat) : Res (Int × Option (List V) × Nat) :=
  match data with
  | none => .ok (-1, none, 0)
  | some d =>
    match units, sb with
    | some u, some b =>
      match (if u ≠ [] then converted u b else plain b) with
      | .throws => .ok (-1, some d, size)
      | .ub => .ub
      | .ok vs => (copyTo vs d 0).bind fun d' => .ok (0, some d', vs.length)
    | _, _ => .ub

/-- src/c_fimex.cc:500-521 `mifi_write_scaled_double_dataslice`: the value returned, and what was written; `put` is `putScaledDataSliceInUnit` of a reader that can write. -/
def writeScaled {V S : Type} (put : Option (List Char → Builder → List V → S → Res S)) (sb : Option Builder) (units : Option (List Char)) (data : Option (List V))
    (size : Nat) (file : S) : Res (Int × S) :=
  if size = 0 then .ok (0, file)
  else
    match data with
    | none => .ok (-99, file)
    | some d =>
      match put with
      | none => .ok (-98, file)
      | some f =>
        match units, sb with
        | some u, some b =>
          if d.length < size then .ub
          else
            match f u b (d.take size) file with
            | .throws => .ok (-1, file)
            | .ub => .ub
            | .ok s => .ok (0, s)
        | _, _ => .ub

/-! ## Functions called for values -/

/-- Attributes that count for values: scale and offset, and the fill value with the number of its type. -/
structure Meaning (K : Type) where
  type : Nat
  scale : K
  offset : K
  fill : Option (Nat × K)

/-- A reader: variables with their attributes, and values as they are stored; `none` is not a number. -/
structure Source (K : Type) where
  vars : List (String × Meaning K)
  raw : String → Nat → Res (List (Option K))

def Source.find {K : Type} (r : Source K) (name : String) : Res (Meaning K) :=
  match r.vars.find? (·.1 = name) with
  | some v => .ok v.2
  | none => .throws

variable {K : Type} [Field K] [DecidableEq K]

/-- src/CDM.cc:477-492 `getFillValue`; `dflt` is the value for the type without an attribute. -/
def fillValue (dflt : Nat → K) (m : Meaning K) : Res K :=
  match m.fill with
  | some f => if m.type ≠ f.1 then .throws else .ok f.2
  | none => .ok (dflt m.type)

/-- One value with scale, offset and fill value (C05 has the conversions of types). -/
def unpack (m : Meaning K) (fill : K) (v : Option K) : Option K := if v = some fill then none else v.map fun x => m.scale * x + m.offset

/-- src/CDMReader.cc:177-192, 218-221 `getScaledDataSlice`. -/
def scaled (dflt : Nat → K) (r : Source K) (name : String) (pos : Nat) : Res (List (Option K)) :=
  (r.raw name pos).bind fun vs => (r.find name).bind fun m => (fillValue dflt m).bind fun f => .ok (vs.map (unpack m f))

/-- A function of the caller: zero and the values after it, or another number. -/
abbrev Callback (K : Type) := String → Nat → List (Option K) → Int × List (Option K)

/-- src/C_CDMReader.h: the reader below, the own attributes, and the functions. -/
structure CReader (K : Type) where
  below : Source K
  vars : List (String × Meaning K)
  calls : String → Option (Callback K)

/-- src/C_CDMReader.cc:41-45. -/
def newCReader (r : Source K) : CReader K := ⟨r, r.vars, fun _ => none⟩

/-- Number of the type double, include/fimex/CDMDataType.h. -/
def double : Nat := 5

/-- src/C_CDMReader.cc:51-61 `setDoubleCallbackFunction`. -/
def setCall (c : CReader K) (name : String) (f : Callback K) : Res (CReader K) :=
  if (c.vars.any (·.1 = name)) then
    .ok { c with
      vars := c.vars.map fun v => if v.1 = name then (v.1, { v.2 with type := double, scale := 1, offset := 0 }) else v
      calls := fun n => if n = name then some f else c.calls n }
  else .throws

/-- src/c_fimex.cc:186-200 `mifi_set_callback_double`: a null pointer comes from the cast if it is another reader. -/
def setCallback (c : Option (CReader K)) (name : String) (f : Callback K) : Res (Int × Option (CReader K)) :=
  match c with
  | none => .ub
  | some c =>
    match setCall c name f with
    | .throws => .ok (-1, some c)
    | .ub => .ub
    | .ok c' => .ok (0, some c')

/-- A history of such calls. -/
def setCallbacks (c : CReader K) : List (String × Callback K) → CReader K
  | [] => c
  | f :: fs => setCallbacks (match setCall c f.1 f.2 with | .ok c' => c' | _ => c) fs

/-- src/C_CDMReader.cc:70-95 `getDataSlice`. -/
def CReader.raw (dflt : Nat → K) (c : CReader K) (name : String) (pos : Nat) : Res (List (Option K)) :=
  match c.calls name with
  | none => c.below.raw name pos
  | some f => (scaled dflt c.below name pos).bind fun vs => if (f name pos vs).1 ≠ 0 then .throws else .ok (f name pos vs).2

/-- The reader as others see it. -/
def CReader.source (dflt : Nat → K) (c : CReader K) : Source K := ⟨c.vars, c.raw dflt⟩

end Fimex.CApi
