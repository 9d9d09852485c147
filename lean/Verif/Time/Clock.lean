import Verif.Time.Model
import Verif.Tables.GribSteps

/-!
# Time points and the times of GRIB messages

Model of `src/TimeUtils.cc`, of the times of messages in `src/io/grib/GribFileIndex.cc` and of `setTime` in
`src/io/grib/GribApiCDMWriter_ImplAbstract.cc`. A time point is a number of seconds since 1970-01-01. The library `date`
and the function `gmtime` are not part of the code; they are given here by the usual algorithms between dates and
numbers of days. The clock of the standard library counts `ticks` per second in a signed number of 64 bits (10^9 in
libstdc++).
-/

namespace Fimex.Time

/-- A result of type `long`; an overflow is undefined. -/
def long (x : ℤ) : Res ℤ := if -2 ^ 63 ≤ x ∧ x < 2 ^ 63 then .ok x else .ub

/-- A `char` from an `unsigned char`, include/fimex/FimexTime.h:74-91 (`getHour` etc.); `char` is signed. -/
def char (n : ℕ) : ℤ := if n < 128 then n else (n : ℤ) - 256

/-- `date::year` keeps a `short`. -/
def short (n : ℤ) : ℤ := (n + 32768) % 65536 - 32768

/-- `date::sys_days` of a year, month and day: the number of days since 1970-01-01; years begin in March. -/
def sysDays (y : ℤ) (m d : ℕ) : ℤ :=
  let y := if m ≤ 2 then y - 1 else y
  let era := y / 400
  let yoe := y % 400
  let mp : ℤ := if 2 < m then m - 3 else m + 9
  let doy := (153 * mp + 2) / 5 + d - 1
  let doe := yoe * 365 + yoe / 4 - yoe / 100 + doy
  era * 146097 + doe - 719468

/-- The year, month and day of `gmtime`, from the number of days since 1970-01-01. -/
def civil (n : ℤ) : ℤ × ℕ × ℕ :=
  let z := n + 719468
  let era := z / 146097
  let doe := z % 146097
  let yoe := (doe - doe / 1460 + doe / 36524 - doe / 146096) / 365
  let doy := doe - (365 * yoe + yoe / 4 - yoe / 100)
  let mp := (5 * doy + 2) / 153
  let d := (doy - (153 * mp + 2) / 5 + 1).toNat
  let m := (if mp < 10 then mp + 3 else mp - 9).toNat
  (yoe + era * 400 + if m ≤ 2 then 1 else 0, m, d)

/-- src/TimeUtils.cc:44-48 `make_time_point`, with a month from 1 to 12 and a day that fits `unsigned char`. -/
def makeTimePoint (y : ℤ) (m d : ℕ) (h mi s : ℤ) : ℤ := sysDays (short y) m d * 86400 + h * 3600 + mi * 60 + s

/-- src/TimeUtils.cc:50-53 `make_invalid_time_point`. -/
def invalidPoint : ℤ := 2 ^ 63 - 1

/-- src/TimeUtils.cc:112-120 `asTimePoint`. -/
def asTimePoint (t : FTime) : ℤ :=
  if t.invalid then invalidPoint
  else makeTimePoint t.year t.month t.mday (char t.hour) (char t.minute) (char t.second)

/-- `gmtime`; null, and used nevertheless, if the year does not fit `int`. -/
def gmtime (s : ℤ) : Res FTime :=
  let c := civil (s / 86400)
  let r := (s % 86400).toNat
  if -2 ^ 31 ≤ c.1 - 1900 ∧ c.1 - 1900 < 2 ^ 31 then
    .ok ⟨(c.1 % 65536).toNat, c.2.1, c.2.2, r / 3600, r / 60 % 60, r % 60, 0⟩
  else .ub

/-- src/TimeUtils.cc:122-130 `fromTimePoint`; the argument of `to_time_t` is a time point in ticks. -/
def fromTimePoint (ticks : ℤ) (p : ℤ) : Res FTime :=
  if p = invalidPoint then .ok minTime
  else do
    let _ ← long (p * ticks)
    gmtime p

/-- src/TimeUtils.cc:132-140 `timePoint2epochTime`, `fimexTime2epochTime`. -/
def epochTime (t : FTime) : Res ℤ := long (asTimePoint t - sysDays 1970 1 1 * 86400)

/-- The conversions to the fields, include/fimex/FimexTime.h:61-62. -/
def fTimeOf (y m d h mi s : ℤ) : FTime :=
  ⟨toUnsigned 65536 y, toUnsigned 256 m, toUnsigned 256 d, toUnsigned 256 h, toUnsigned 256 mi, toUnsigned 256 s, 0⟩

/-- src/io/grib/GribFileIndex.h:152-157: the times of a message. -/
structure Stamp where
  date : ℤ
  time : ℤ
  units : ℤ
  stepEnd : ℤ

/-- src/io/grib/GribFileIndex.cc:928-938 `getReferenceTime`. -/
def Stamp.reference (g : Stamp) : FTime :=
  let year := g.date.tdiv 10000
  let month := (g.date - year * 10000).tdiv 100
  let day := g.date.tmod 100
  fTimeOf year month day (g.time.tdiv 100) (g.time.tmod 100) 0

/-- src/io/grib/GribFileIndex.cc:946-966: the offset; for days, months and years the line computes a duration that is
thrown away, the variable is not initialised. -/
def Stamp.offset (g : Stamp) : Res ℤ :=
  match g.units with
  | 13 => .ok g.stepEnd
  | 0 => long (g.stepEnd * 60)
  | 1 => long (g.stepEnd * 3600)
  | 10 => long (3 * g.stepEnd) >>= fun h => long (h * 3600)
  | 11 => long (6 * g.stepEnd) >>= fun h => long (h * 3600)
  | 12 => long (12 * g.stepEnd) >>= fun h => long (h * 3600)
  | 2 => .ub
  | 3 => .ub
  | 4 => .ub
  | 5 => .ub
  | 6 => .ub
  | 7 => .ub
  | _ => .throws

/-- src/io/grib/GribFileIndex.cc:940-968 `getValidTime`. -/
def Stamp.valid (ticks : ℤ) (g : Stamp) : Res FTime :=
  if g.reference.invalid then .ok g.reference
  else do
    let o ← g.offset
    let p ← long (asTimePoint g.reference + o)
    fromTimePoint ticks p

/-- src/io/grib/GribApiCDMWriter_ImplAbstract.cc:390: the number of steps. The difference is divided as an
`unsigned long`; the sum with .5 is taken as exact here (it is for less than 2^52 steps). -/
def steps (v r : FTime) (unit : ℕ) : Res ℤ := do
  let d ← long (asTimePoint v - asTimePoint r)
  long (toUnsigned (2 ^ 64) d / unit : ℕ)

/-- Lines 384-385, 387-388. -/
def dateOf (t : FTime) : ℤ := t.year * 10000 + char t.month * 100 + char t.mday
/-- Lines 384-385, 387-388. -/
def timeOf (t : FTime) : ℤ := char t.hour * 100 + char t.minute

/-- Lines 380-394: date, time and step. -/
def dateTimeStep (r v : FTime) (stepUnits : String) : Res (ℤ × ℤ × ℤ) :=
  if r.invalid then .ok (dateOf v, timeOf v, 0)
  else do
    let u ← Tables.stepUnits2seconds stepUnits
    let s ← steps v r u
    .ok (dateOf r, timeOf r, s)

/-- src/io/grib/GribApiCDMWriter_ImplAbstract.cc:376-408 `setTime`: date, time, unit and step set in the message. -/
def setTime (r v : FTime) (stepUnits : String) : Res (ℤ × ℤ × String × ℤ) := do
  let x ← dateTimeStep r v stepUnits
  if v = minTime then .ok (10101, 0, stepUnits, x.2.2) else .ok (x.1, x.2.1, stepUnits, x.2.2)

/-- A message as it is read back: src/io/grib/GribFileIndex.cc:594-601; the GRIB library is taken to return the values
that were set, with the code for the unit. -/
def readStamp (x : ℤ × ℤ × String × ℤ) : Res Stamp := do
  let u ← Tables.stepUnitsFromText x.2.2.1
  .ok ⟨x.1, x.2.1, u, x.2.2.2⟩

end Fimex.Time
