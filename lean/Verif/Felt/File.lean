import Verif.Basic
import Verif.Time.Clock

/-!
# Felt files

Model of `felt::FeltFile`, `felt::FeltField` and `felt::FeltTime` (`src/io/felt/FeltFile.cpp`, `src/io/felt/FeltField.cpp`,
`src/io/felt/FeltTime.cpp`).  A file is a list of bytes, and the machine has little endian words of 16 bits, as signed numbers.

A stream that reads past the end fails, and from then on gives nothing, whatever the position.  `new word[]` is not initialised: its words
are `none` until read, and using one is undefined behaviour.  `std::vector::resize` fills with 0; it raises for 2^62 words or
more, and memory suffices otherwise.  Files are shorter than 2^63 bytes.

Simplifications.  The grid header and the extra words of a field are kept after the first reading; here they are read each time, which is the
same unless the stream failed in between.  Logging and texts are left out.
-/

namespace Fimex.Felt
open Fimex.Time (short sysDays civil)

abbrev Byte := Fin 256

/-- Two bytes as `short`, the lower one first. -/
def native (b0 b1 : Byte) : ℤ := short (b0.val + 256 * b1.val)

/-- src/io/felt/FeltFile.cpp:173-177 `swapByteOrder`, if wanted. -/
def toWord (swapped : Bool) (b0 b1 : Byte) : ℤ := if swapped then native b1 b0 else native b0 b1

/-- Bytes as words. -/
def words (swapped : Bool) : List Byte → List ℤ
  | a :: b :: r => toWord swapped a b :: words swapped r
  | _ => []

/-- Bytes as words, some of which were not read. -/
def optWords (swapped : Bool) : List (Option Byte) → List (Option ℤ)
  | a :: b :: r => (match a, b with | some a, some b => some (toWord swapped a b) | _, _ => none) :: optWords swapped r
  | _ => []

/-- The file, the order of bytes, and the state of the stream. -/
structure Disk where
  bytes : List Byte
  swapped : Bool
  failed : Bool
deriving DecidableEq

/-- What `seekg` and `read` give, in bytes. -/
def avail (d : Disk) (pos n : ℕ) : List Byte := if d.failed then [] else (d.bytes.drop pos).take n

/-- The stream afterwards. -/
def after (d : Disk) (pos n : ℕ) : Disk := { d with failed := d.failed || decide (d.bytes.length < pos + n) }

/-- src/io/felt/FeltFile.cpp:181-192 `getBlock_`. -/
def getBlock (d : Disk) (no : ℕ) : Disk × List (Option ℤ) :=
  let a := avail d (no * 2048) 2048
  (after d (no * 2048) 2048, optWords d.swapped (a.map some ++ List.replicate (2048 - a.length) none))

/-- src/io/felt/FeltFile.cpp:194-203 `get_`. -/
def getWords (d : Disk) (fromWord n : ℕ) : Disk × Res (List ℤ) :=
  if 2 ^ 62 ≤ n then (d, .throws)
  else
    let pos := 2 * fromWord % two64
    let a := avail d pos (2 * n)
    (after d pos (2 * n), .ok (words d.swapped (a ++ List.replicate (2 * n - a.length) 0)))

/-- The 16 words of an entry of the index. -/
abbrev Header := List ℤ

/-- A word of an entry. -/
def word (h : Header) (k : ℕ) : ℤ := h.getD k 0

/-- Words that were read. -/
def allRead : List (Option ℤ) → Res (List ℤ)
  | [] => .ok []
  | some w :: r => (allRead r).bind fun l => .ok (w :: l)
  | none :: _ => .ub

/-- src/io/felt/FeltField.cpp:40-53 the constructor: entry of the index. -/
def entry (d : Disk) (index : ℕ) : Disk × Res Header :=
  let b := getBlock d (index / 64 + 2)
  (b.1, allRead ((b.2.drop (index % 64 * 16)).take 16))

/-- An `int` in arithmetic with `size_t`. -/
def size (i : ℤ) : ℕ := (i % (two64 : ℤ)).toNat

/-- src/io/felt/FeltField.cpp:203-212 `startingGridBlock`. -/
def startBlock (h : Header) : ℕ := if word h 5 = -32767 then 0 else size (word h 5 - 1 + (word h 15).tmod 100 * 32767)

/-- src/io/felt/FeltField.cpp:224-226 and 258-260: words after the grid. -/
def extraSize (h : Header) : ℤ := if 1000 < word h 14 then (word h 14).tmod 1000 else 0

/-- src/io/felt/FeltField.cpp:214-230 `gridSize`. -/
def gridSize (h : Header) : ℕ :=
  if word h 7 = -32767 then 0 else size (word h 7 + (word h 15).tdiv 100 * 32767 - (20 + extraSize h))

/-- src/io/felt/FeltField.h:57 `valid`. -/
def valid (h : Header) : Bool := decide (gridSize h ≠ 0)

/-- src/io/felt/FeltField.cpp:242-249: where a field begins. -/
def start (h : Header) : ℕ := size (startBlock h * 1024 + if 1 < word h 6 then word h 6 - 1 else 0)

/-- src/io/felt/FeltField.cpp:239-253 `getGridHeader_`. -/
def gridHeader (d : Disk) (h : Header) : Disk × Res (List ℤ) := getWords d (start h) 20

/-- src/io/felt/FeltField.cpp:255-273 `getExtraGeometrySpecification_`. -/
def extraWords (d : Disk) (h : Header) : Disk × Res (List ℤ) :=
  if 1000 < word h 14 then getWords d (size (start h + gridSize h + 20)) (extraSize h).toNat else (d, .ok [])

/-- src/io/felt/FeltField.cpp:187-201 `grid`. -/
def grid (d : Disk) (h : Header) : Disk × Res (List ℤ) :=
  let d1 := (gridHeader d h).1
  match getWords d1 (size (start h + 20)) (gridSize h) with
  | (d2, .ok data) => ((extraWords d2 h).1, .ok data)
  | r => r

/-- src/io/felt/FeltFile.cpp:59-66: the loop over the index. It ends at the latest past the end of the file (`scan_fuel`). -/
def scan : ℕ → Disk → ℕ → ℕ → Disk × Res (List Header)
  | _, d, 0, _ => (d, .ok [])
  | 0, d, _ + 1, _ => (d, .ub)
  | fuel + 1, d, n + 1, i =>
    match entry d i with
    | (d1, .ok h) =>
      if valid h then
        match scan fuel d1 n (i + 1) with
        | (d2, .ok l) => (d2, .ok (h :: l))
        | r => r
      else scan fuel d1 (n + 1) (i + 1)
    | (d1, .throws) => (d1, .throws)
    | (d1, .ub) => (d1, .ub)

/-- A file that is open: the stream and the entries of its fields. -/
structure Opened where
  disk : Disk
  fields : List Header
deriving DecidableEq

/-- src/io/felt/FeltFile.cpp:43-67 the constructor. -/
def openFile (bytes : List Byte) : Res Opened :=
  match bytes with
  | b0 :: b1 :: _ =>
    let head := native b0 b1
    let d : Disk := ⟨bytes, decide (head < 997 ∨ 999 < head), false⟩
    let b := getBlock d 0
    match b.2.getD 14 none, b.2.getD 9 none with
    | some update, some count =>
      if update ≠ 0 then .throws
      else if count < 0 then .throws
      else
        match scan (bytes.length + 1) b.1 count.toNat 0 with
        | (d, .ok l) => .ok ⟨d, l⟩
        | (_, .throws) => .throws
        | (_, .ub) => .ub
    | _, _ => .ub
  | _ => .ub

/-! ## Times -/

/-- src/io/felt/FeltTime.h:36-46 `FeltTime`. -/
structure FTime where
  year : ℤ
  month : ℤ
  day : ℤ
  hour : ℤ
  minute : ℤ
  second : ℤ
deriving DecidableEq

/-- src/io/felt/FeltTime.cpp:59-62 `parseTime`. -/
def parseTime (w0 w1 w2 : ℤ) : FTime := ⟨w0, w1.tdiv 100, w1.tmod 100, w2.tdiv 100, w2.tmod 100, 0⟩

/-- src/io/felt/FeltTime.cpp:40-57 `addHours`; month and day are not negative and at most 255. -/
def addHours (t : FTime) (hours : ℤ) : FTime :=
  let s := sysDays t.year t.month.toNat t.day.toNat * 86400 + t.hour * 3600 + t.minute * 60 + t.second + hours * 3600
  let c := civil (s / 86400)
  ⟨c.1, c.2.1, c.2.2, s % 86400 / 3600, s % 3600 / 60, s % 60⟩

/-- src/io/felt/FeltField.cpp:57-60 `referenceTime`. -/
def referenceTime (h : Header) : FTime := parseTime (word h 2) (word h 3) (word h 4)

/-- src/io/felt/FeltField.cpp:62-65 `validTime`. -/
def validTime (h : Header) : FTime := addHours (referenceTime h) (word h 9)

/-! ## Other words of an entry -/

/-- src/io/felt/FeltField.h:104-108 `isEpsRunParameter`. -/
def isEps (h : Header) : Bool := decide (2000 ≤ word h 11 ∧ word h 11 < 6000)

/-- src/io/felt/FeltField.cpp:67-76 `parameter`. -/
def parameter (h : Header) : ℤ := if isEps h then (word h 11).tmod 1000 else word h 11

/-- src/io/felt/FeltField.cpp:180-185 `level2`. -/
def level2 (h : Header) : ℤ := if isEps h then 0 else word h 13

/-- src/io/felt/FeltField.cpp:232-237 `dataVersion`. -/
def dataVersion (h : Header) : ℤ := if isEps h then word h 13 else 0

end Fimex.Felt
