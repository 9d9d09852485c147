import Verif.Text.Model
import Verif.Text.Dotted
import Mathlib.Data.Rat.Defs
import Mathlib.Algebra.Order.Ring.Rat
import Mathlib.Algebra.Field.Rat

/-!
# Calendar times

Model of `src/FimexTime.cc`, `include/fimex/FimexTime.h`.  `unsigned short` and `unsigned char` fields
are natural numbers; the conversions to these types are explicit.
-/

namespace Fimex.Time

open Fimex.Text

/-- include/fimex/FimexTime.h:41-57, the fields of `FimexTime`. -/
structure FTime where
  year : Nat
  month : Nat
  mday : Nat
  hour : Nat
  minute : Nat
  second : Nat
  msecond : Nat
deriving DecidableEq, Repr

/-- The ranges of the field types: `unsigned short` and `unsigned char`. -/
def FTime.Typed (t : FTime) : Prop :=
  t.year < 65536 ∧ t.month < 256 ∧ t.mday < 256 ∧ t.hour < 256 ∧ t.minute < 256 ∧ t.second < 256 ∧
    t.msecond < 65536

/-- src/FimexTime.cc:75-87, `min_date_time`. -/
def minTime : FTime := ⟨0, 0, 0, 0, 0, 0, 0⟩
/-- src/FimexTime.cc:75-87, `max_date_time`. -/
def maxTime : FTime := ⟨65535, 255, 255, 255, 255, 255, 65535⟩

/-- src/FimexTime.cc:89-92 `invalid`. -/
def FTime.invalid (t : FTime) : Bool := decide (t.month ≤ 0) || decide (t.month > 12)

/-- `minute << SHIFT_MINUTE` (src/FimexTime.cc:186) is computed as `int`: from 128 on the result is
negative and is sign-extended when it is combined with the 64-bit value. -/
def minuteTerm (minute : Nat) : Nat :=
  if minute < 128 then minute <<< 24 else minute <<< 24 + (2 ^ 64 - 2 ^ 32)

/-- src/FimexTime.cc:179-190 `toEncoded`; shifts 52, 48, 40, 32, 24, 16 from lines 152-166. -/
def toEncoded (t : FTime) : Nat :=
  (t.year <<< 52) % 2 ^ 64 ||| t.month <<< 48 ||| t.mday <<< 40 ||| t.hour <<< 32 |||
    minuteTerm t.minute ||| t.second <<< 16 ||| t.msecond

/-- src/FimexTime.cc:193-203 `fromEncoded`; masks from lines 168-174. -/
def fromEncoded (enc : Nat) : FTime where
  year := (enc >>> 52) &&& (2 ^ 12 - 1)
  month := (enc >>> 48) &&& (2 ^ 4 - 1)
  mday := (enc >>> 40) &&& (2 ^ 8 - 1)
  hour := (enc >>> 32) &&& (2 ^ 8 - 1)
  minute := (enc >>> 24) &&& (2 ^ 8 - 1)
  second := (enc >>> 16) &&& (2 ^ 8 - 1)
  msecond := enc &&& (2 ^ 16 - 1)

/-- include/fimex/FimexTime.h:103 `operator>`. -/
def gt (a b : FTime) : Bool := decide (toEncoded a > toEncoded b)
/-- include/fimex/FimexTime.h:105 `operator<`. -/
def lt (a b : FTime) : Bool := gt b a
/-- include/fimex/FimexTime.h:107 `operator>=`. -/
def ge (a b : FTime) : Bool := !gt b a
/-- include/fimex/FimexTime.h:109 `operator<=`. -/
def le (a b : FTime) : Bool := !gt a b

/-! ## Printing -/

/-- The digit character of a number below 10. -/
def digitChar (n : Nat) : Char := Char.ofNat (48 + n)

/-- Decimal output of an unsigned integer by `operator<<`, least significant digit last. -/
def decimal (n : Nat) : List Char :=
  if n < 10 then [digitChar n] else decimal (n / 10) ++ [digitChar (n % 10)]
termination_by n
decreasing_by omega

/-- src/FimexTime.cc:37-49 `twoDigits`.  The argument comes from `char getMonth()` etc.
(include/fimex/FimexTime.h:79-95): a byte above 127 is a negative `char`. -/
def twoDigits (n : Nat) : List Char :=
  if n < 100 then
    if n < 10 then ['0', digitChar n] else [digitChar (n / 10), digitChar (n % 10)]
  else ['?', '?']

/-- src/FimexTime.cc:205-220 `operator<<`. -/
def print (t : FTime) : List Char :=
  decimal t.year ++ "-".toList ++ twoDigits t.month ++ "-".toList ++ twoDigits t.mday ++ "T".toList ++
    twoDigits t.hour ++ ":".toList ++ twoDigits t.minute ++ ":".toList ++ twoDigits t.second ++
    (if 0 < t.msecond then
      ".".toList ++ (if t.msecond < 10 then "00".toList else if t.msecond < 100 then "0".toList else []) ++
        decimal t.msecond
    else [])

/-! ## Parsing -/

/-- Value of a text of decimal digits. -/
def digitsVal (s : List Char) : Nat := s.foldl (fun n c => 10 * n + (c.toNat - 48)) 0

/-- include/fimex/String2Type.h:69-90 `string2type<T>` for a signed integer type with range
`lo … hi`: the first character is `-` or a digit and the whole text is read by `operator>>`. -/
def parseInt (lo hi : Int) (s : List Char) : Res Int :=
  match s with
  | [] => .throws
  | c :: r =>
    if c = '-' then
      if r ≠ [] ∧ r.all Char.isDigit ∧ lo ≤ -(digitsVal r : Int) then .ok (-(digitsVal r : Int)) else .throws
    else if (c :: r).all Char.isDigit ∧ (digitsVal (c :: r) : Int) ≤ hi then .ok (digitsVal (c :: r))
    else .throws

/-- src/FimexTime.cc:134, `round(string2type<double>("." + x) * 1000)` for the fraction digits `x`, in
exact arithmetic; other texts that `string2type<double>` accepts (exponents) are the parameter. -/
def millis (other : List Char → Res Int) (x : List Char) : Res Int :=
  if x ≠ [] ∧ x.all Char.isDigit then
    .ok (((2000 * digitsVal x + 10 ^ x.length) / (2 * 10 ^ x.length) : Nat) : Int)
  else other x

/-- Conversion of an integer to an unsigned type with `n` values. -/
def toUnsigned (n : Nat) (i : Int) : Nat := (i % (n : Int)).toNat

/-- `string2type<int>` as used by `tokenizeDotted<int>`, the value embedded into ℚ. -/
def parseIntQ (s : List Char) : Res ℚ :=
  parseInt (-2147483648) 2147483647 s >>= fun i => .ok (i : ℚ)

/-- src/FimexTime.cc:103-125: the date numbers and the time texts, or `none` for `return false`. -/
def dateAndTime (fuel : Nat) (trimmed : List Char) : Option (Res (Option (List ℚ × List (List Char)))) :=
  match tokenize fuel trimmed "T".toList with
  | none => none
  | some .throws => some .throws
  | some .ub => some .ub
  | some (.ok dt) =>
    match (if dt.length = 1 then tokenize fuel trimmed " ".toList else some (.ok dt)) with
    | none => none
    | some .throws => some .throws
    | some .ub => some .ub
    | some (.ok [d]) =>
      match tokenizeDotted parseIntQ fuel d "-".toList with
      | none => none
      | some .throws => some .throws
      | some .ub => some .ub
      | some (.ok date) =>
        if date.length = 3 then some (.ok (some (date, ["0".toList, "0".toList, "0.0".toList])))
        else some (.ok none)
    | some (.ok [d, t]) =>
      match tokenizeDotted parseIntQ fuel d "-".toList with
      | none => none
      | some .throws => some .throws
      | some .ub => some .ub
      | some (.ok date) =>
        match tokenize fuel t ":".toList with
        | none => none
        | some .throws => some .throws
        | some .ub => some .ub
        | some (.ok time) => some (.ok (some (date, time)))
    | some (.ok _) => some (.ok none)

/-- src/FimexTime.cc:130-138, conversion of the three date numbers and the three time texts. -/
def setFields (other : List Char → Res Int) (fuel : Nat) (y m d : ℚ) (th tm ts : List Char) :
    Option (Res (Option FTime)) :=
  match tokenize fuel ts ".".toList with
  | none => none
  | some .throws => some .throws
  | some .ub => some .ub
  | some (.ok seconds) =>
    some (do
      let ms ← match seconds with
        | _ :: x :: _ => millis other x
        | _ => Res.ok 0
      let h ← parseInt (-32768) 32767 th
      let mi ← parseInt (-32768) 32767 tm
      let s0 ← readAt seconds 0
      let s ← parseInt (-32768) 32767 s0
      .ok (some ⟨toUnsigned 65536 y.num, toUnsigned 256 m.num, toUnsigned 256 d.num, toUnsigned 256 h,
        toUnsigned 256 mi, toUnsigned 256 s, toUnsigned 65536 ms⟩))

/-- src/FimexTime.cc:94-142 `parseISO8601`; the inner `none` is `return false`. -/
def parseISO (other : List Char → Res Int) (fuel : Nat) (s : List Char) : Option (Res (Option FTime)) :=
  match trim s " \t\n\r".toList with
  | .throws => some .throws
  | .ub => some .ub
  | .ok trimmed =>
    if trimmed = [] then some (.ok none)
    else
      match dateAndTime fuel trimmed with
      | none => none
      | some .throws => some .throws
      | some .ub => some .ub
      | some (.ok none) => some (.ok none)
      | some (.ok (some (date, time))) =>
        let time := if time.length = 2 then time ++ ["0".toList] else time
        match date, time with
        | [y, m, d], [th, tm, ts] => setFields other fuel y m d th tm ts
        | _, _ => some (.ok none)

end Fimex.Time
