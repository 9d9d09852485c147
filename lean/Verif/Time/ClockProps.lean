import Verif.Time.Calendar
import Verif.Time.Props

/-!
# C85, C86: time points follow the calendar, GRIB messages keep their times
-/

namespace Fimex.Time

open Fimex

/-! ## Specification -/

/-- Spec: a time of the calendar. -/
def RealTime (t : FTime) : Prop :=
  RealDate t.year t.month t.mday ∧ t.hour < 24 ∧ t.minute < 60 ∧ t.second < 60

instance (t : FTime) : Decidable (RealTime t) := by unfold RealTime; infer_instance

/-- Spec: the time one second later, on clock and calendar. -/
def nextSecond (t : FTime) : FTime :=
  if t.second < 59 then { t with second := t.second + 1 }
  else if t.minute < 59 then { t with minute := t.minute + 1, second := 0 }
  else if t.hour < 23 then { t with hour := t.hour + 1, minute := 0, second := 0 }
  else if t.mday < monthLength t.year t.month then { t with mday := t.mday + 1, hour := 0, minute := 0, second := 0 }
  else if t.month < 12 then { t with month := t.month + 1, mday := 1, hour := 0, minute := 0, second := 0 }
  else { t with year := t.year + 1, month := 1, mday := 1, hour := 0, minute := 0, second := 0 }

/-- Spec: the time without its milliseconds. -/
def whole (t : FTime) : FTime := { t with msecond := 0 }

/-- Spec: the step units with a fixed length up to a day: text, code and seconds. -/
def shortUnits : List (String × ℕ × ℕ) :=
  [("s", 13, 1), ("m", 0, 60), ("h", 1, 3600), ("3h", 10, 10800), ("6h", 11, 21600), ("12h", 12, 43200)]

/-! ## Lemmas -/

theorem RealTime.valid {t : FTime} (h : RealTime t) : t.invalid = false := by
  obtain ⟨⟨h1, h2, _⟩, _⟩ := h
  simp [FTime.invalid]
  omega

theorem monthLength_le (y : ℤ) (m : ℕ) : 28 ≤ monthLength y m ∧ monthLength y m ≤ 31 := by
  unfold monthLength
  split_ifs <;> omega

theorem short_eq {y : ℤ} (h0 : 0 ≤ y) (h : y < 32768) : short y = y := by
  unfold short
  omega

theorem point_eq {t : FTime} (h : RealTime t) (hy : t.year < 32768) :
    asTimePoint t = sysDays t.year t.month t.mday * 86400 + t.hour * 3600 + t.minute * 60 + t.second := by
  have h' := h
  obtain ⟨_, h5, h6, h7⟩ := h
  simp only [asTimePoint, h'.valid, makeTimePoint, char, Bool.false_eq_true, if_false]
  rw [short_eq (by omega) (by omega), if_pos (by omega), if_pos (by omega), if_pos (by omega)]

theorem nextSecond_real {t : FTime} (h : RealTime t) : RealTime (nextSecond t) := by
  obtain ⟨⟨h1, h2, h3, h4⟩, h5, h6, h7⟩ := h
  unfold nextSecond RealTime RealDate
  split_ifs
  · exact ⟨⟨h1, h2, h3, h4⟩, h5, h6, by dsimp only; omega⟩
  · exact ⟨⟨h1, h2, h3, h4⟩, h5, by dsimp only; omega, by dsimp only; omega⟩
  · exact ⟨⟨h1, h2, h3, h4⟩, by dsimp only; omega, by dsimp only; omega, by dsimp only; omega⟩
  · exact ⟨⟨h1, h2, by dsimp only; omega, by dsimp only; omega⟩, by dsimp only; omega, by dsimp only; omega, by dsimp only; omega⟩
  · have := monthLength_le t.year (t.month + 1)
    exact ⟨⟨by dsimp only; omega, by dsimp only; omega, by dsimp only; omega, by dsimp only; omega⟩, by dsimp only; omega,
      by dsimp only; omega, by dsimp only; omega⟩
  · have := monthLength_le ((t.year + 1 : ℕ) : ℤ) 1
    exact ⟨⟨by dsimp only; omega, by dsimp only; omega, by dsimp only; omega, by dsimp only; omega⟩, by dsimp only; omega,
      by dsimp only; omega, by dsimp only; omega⟩

theorem nextSecond_year (t : FTime) : t.year ≤ (nextSecond t).year := by
  unfold nextSecond
  split_ifs <;> simp

theorem nextSecond_point {t : FTime} (h : RealTime t) (hy : (nextSecond t).year < 32768) :
    asTimePoint (nextSecond t) = asTimePoint t + 1 := by
  have hy' := lt_of_le_of_lt (nextSecond_year t) hy
  rw [point_eq (nextSecond_real h) hy, point_eq h hy']
  obtain ⟨hd, h5, h6, h7⟩ := h
  have hn := sysDays_next _ _ _ hd
  unfold nextDay at hn
  dsimp only at hn
  unfold nextSecond
  split_ifs at hn ⊢ <;> dsimp only at hn ⊢ <;> push_cast <;> omega

theorem iterate_year (n : ℕ) (t : FTime) : t.year ≤ (nextSecond^[n] t).year := by
  induction n with
  | zero => exact Nat.le_refl _
  | succ n ih => rw [Function.iterate_succ_apply']; exact ih.trans (nextSecond_year _)

theorem iterate_real (n : ℕ) {t : FTime} (h : RealTime t) : RealTime (nextSecond^[n] t) := by
  induction n with
  | zero => exact h
  | succ n ih => rw [Function.iterate_succ_apply']; exact nextSecond_real ih

theorem iterate_point (n : ℕ) {t : FTime} (h : RealTime t) (hy : (nextSecond^[n] t).year < 32768) :
    asTimePoint (nextSecond^[n] t) = asTimePoint t + n := by
  induction n with
  | zero => simp
  | succ n ih =>
    rw [Function.iterate_succ_apply'] at hy ⊢
    rw [nextSecond_point (iterate_real n h) hy, ih (lt_of_le_of_lt (nextSecond_year _) hy)]
    push_cast
    omega

theorem nextSecond_msecond (t : FTime) : (nextSecond t).msecond = t.msecond := by
  unfold nextSecond
  split_ifs <;> rfl

theorem iterate_msecond (n : ℕ) (t : FTime) : (nextSecond^[n] t).msecond = t.msecond := by
  induction n with
  | zero => rfl
  | succ n ih => rw [Function.iterate_succ_apply', nextSecond_msecond, ih]

/-- First days of years. -/
theorem year_start (y : ℤ) :
    sysDays y 1 1 = 365 * (y - 1) + (y - 1) / 4 - (y - 1) / 100 + (y - 1) / 400 - 719162 := by
  simp [sysDays]
  omega

theorem in_year {y : ℤ} {m d : ℕ} (h : RealDate y m d) :
    sysDays y 1 1 ≤ sysDays y m d ∧ sysDays y m d < sysDays (y + 1) 1 1 := by
  obtain ⟨h1, h2, h3, h4⟩ := h
  unfold monthLength Leap at h4
  by_cases hl : y % 4 = 0 ∧ (y % 100 ≠ 0 ∨ y % 400 = 0)
  · simp only [hl] at h4
    rcases months h1 h2 with rfl | rfl | rfl | rfl | rfl | rfl | rfl | rfl | rfl | rfl | rfl | rfl <;>
      simp at h4 <;> simp [sysDays] <;> omega
  · simp only [hl, if_false] at h4
    rcases months h1 h2 with rfl | rfl | rfl | rfl | rfl | rfl | rfl | rfl | rfl | rfl | rfl | rfl <;>
      simp at h4 <;> simp [sysDays] <;> omega

theorem in_month {y : ℤ} {m d m' d' : ℕ} (h : RealDate y m d) (h' : RealDate y m' d') (hm : m < m') :
    sysDays y m d < sysDays y m' d' := by
  obtain ⟨h1, h2, h3, h4⟩ := h
  obtain ⟨g1, g2, g3, _⟩ := h'
  unfold monthLength Leap at h4
  by_cases hl : y % 4 = 0 ∧ (y % 100 ≠ 0 ∨ y % 400 = 0)
  · simp only [hl] at h4
    rcases months h1 h2 with rfl | rfl | rfl | rfl | rfl | rfl | rfl | rfl | rfl | rfl | rfl | rfl <;>
      simp at h4 <;> simp [sysDays] <;> split_ifs <;> omega
  · simp only [hl, if_false] at h4
    rcases months h1 h2 with rfl | rfl | rfl | rfl | rfl | rfl | rfl | rfl | rfl | rfl | rfl | rfl <;>
      simp at h4 <;> simp [sysDays] <;> split_ifs <;> omega

theorem in_time {a b : FTime} (ha : RealTime a) (hb : RealTime b) (ya : a.year < 32768) (yb : b.year < 32768)
    (h : CalendarLt (whole a) (whole b)) : asTimePoint a < asTimePoint b := by
  rw [point_eq ha ya, point_eq hb yb]
  obtain ⟨da, a5, a6, a7⟩ := ha
  obtain ⟨db, b5, b6, b7⟩ := hb
  have hd : a.year < b.year ∨ a.year = b.year ∧ (a.month < b.month ∨ a.month = b.month ∧ a.mday < b.mday) →
      sysDays a.year a.month a.mday < sysDays b.year b.month b.mday := by
    rintro (h | ⟨hy, h | ⟨hm, h⟩⟩)
    · have h1 := (in_year da).2
      have h2 := (in_year db).1
      rw [year_start] at h1 h2
      omega
    · rw [hy] at da ⊢
      exact in_month da db h
    · rw [hy, hm]
      simp only [sysDays]
      omega
  simp only [CalendarLt, whole] at h
  by_cases hs : a.year = b.year ∧ a.month = b.month ∧ a.mday = b.mday
  · rw [hs.1, hs.2.1, hs.2.2]
    omega
  · have := hd (by omega)
    omega

theorem gmtime_eq {s : ℤ} (h0 : 0 ≤ (civil (s / 86400)).1) (h1 : (civil (s / 86400)).1 < 65536) :
    ∃ t, gmtime s = .ok t ∧ RealTime t ∧ t.msecond = 0 ∧ (t.year : ℤ) = (civil (s / 86400)).1 ∧
      sysDays t.year t.month t.mday * 86400 + t.hour * 3600 + t.minute * 60 + t.second = s := by
  obtain ⟨hr, hs⟩ := civil_real (s / 86400)
  have hy : (((civil (s / 86400)).1 % 65536).toNat : ℤ) = (civil (s / 86400)).1 := by omega
  unfold gmtime
  dsimp only
  rw [if_pos (by omega)]
  refine ⟨_, rfl, ⟨?_, ?_, ?_, ?_⟩, rfl, hy, ?_⟩
  · dsimp only; rw [hy]; exact hr
  · dsimp only; omega
  · dsimp only; omega
  · dsimp only; omega
  · dsimp only
    rw [hy, hs]
    omega

/-- Years of points. -/
theorem civil_year {n lo hi : ℤ} (h0 : sysDays lo 1 1 ≤ n) (h1 : n < sysDays (hi + 1) 1 1) :
    lo ≤ (civil n).1 ∧ (civil n).1 ≤ hi := by
  obtain ⟨hr, hs⟩ := civil_real n
  have := in_year hr
  rw [hs, year_start, year_start] at this
  rw [year_start] at h0 h1
  omega

theorem calendar_total {a b : FTime} (h1 : ¬ CalendarLt (whole a) (whole b)) (h2 : ¬ CalendarLt (whole b) (whole a)) :
    whole a = whole b := by
  obtain ⟨y, m, d, h, mi, s, ms⟩ := a
  obtain ⟨y', m', d', h', mi', s', ms'⟩ := b
  simp only [CalendarLt, whole, lt_irrefl, and_false, or_false] at h1 h2
  have e1 : y = y' := by omega
  subst e1
  simp only [lt_irrefl, false_or, true_and] at h1 h2
  have e1 : m = m' := by omega
  subst e1
  simp only [lt_irrefl, false_or, true_and] at h1 h2
  have e1 : d = d' := by omega
  subst e1
  simp only [lt_irrefl, false_or, true_and] at h1 h2
  have e1 : h = h' := by omega
  subst e1
  simp only [lt_irrefl, false_or, true_and] at h1 h2
  have e1 : mi = mi' := by omega
  subst e1
  simp only [lt_irrefl, false_or, true_and] at h1 h2
  have e1 : s = s' := by omega
  subst e1
  rfl

theorem real_unique {a b : FTime} (ha : RealTime a) (hb : RealTime b) (ya : a.year < 32768) (yb : b.year < 32768)
    (h : asTimePoint a = asTimePoint b) : whole a = whole b := by
  have h1 : ¬ CalendarLt (whole a) (whole b) := fun hc => by have := in_time ha hb ya yb hc; omega
  have h2 : ¬ CalendarLt (whole b) (whole a) := fun hc => by have := in_time hb ha yb ya hc; omega
  exact calendar_total h1 h2

theorem long_ok {x : ℤ} (h : -2 ^ 63 ≤ x ∧ x < 2 ^ 63) : long x = .ok x := by
  unfold long
  rw [if_pos h]

/-! ## C85 -/

/-- **C85.** Time points count the seconds of the calendar: midnight of 1970-01-01 is 0, and a second later the number is
one more. -/
theorem C85_points_count_seconds (t : FTime) (h : RealTime t) (hy : t.year < 32767) (ms : ℕ) :
    asTimePoint ⟨1970, 1, 1, 0, 0, 0, ms⟩ = 0 ∧ asTimePoint (nextSecond t) = asTimePoint t + 1 ∧ RealTime (nextSecond t) := by
  refine ⟨by simp [asTimePoint, FTime.invalid, makeTimePoint, short, sysDays, char], nextSecond_point h ?_, nextSecond_real h⟩
  unfold nextSecond
  split_ifs <;> dsimp only <;> omega

example : RealTime ⟨2020, 2, 28, 23, 59, 59, 0⟩ ∧ nextSecond ⟨2020, 2, 28, 23, 59, 59, 0⟩ = ⟨2020, 2, 29, 0, 0, 0, 0⟩ ∧
    asTimePoint ⟨2020, 2, 28, 23, 59, 59, 0⟩ = 1582934399 := by decide

/-- **C85.** So points are ordered as the times are, milliseconds apart, and are equal for equal times only. -/
theorem C85_order (a b : FTime) (ha : RealTime a) (hb : RealTime b) (ya : a.year < 32768) (yb : b.year < 32768) :
    (asTimePoint a < asTimePoint b ↔ CalendarLt (whole a) (whole b)) ∧ (asTimePoint a = asTimePoint b ↔ whole a = whole b) := by
  have heq : whole a = whole b → asTimePoint a = asTimePoint b := fun h => by
    obtain ⟨y, m, d, h', mi, s, ms⟩ := a
    obtain ⟨y', m', d', h'', mi', s', ms'⟩ := b
    simp only [whole, FTime.mk.injEq] at h
    obtain ⟨rfl, rfl, rfl, rfl, rfl, rfl, _⟩ := h
    rfl
  refine ⟨⟨fun h => ?_, in_time ha hb ya yb⟩, real_unique ha hb ya yb, heq⟩
  by_contra hc
  by_cases hc' : CalendarLt (whole b) (whole a)
  · have := in_time hb ha yb ya hc'
    omega
  · have := heq (calendar_total hc hc')
    omega

/-- **C85.** From a point the conversion returns the calendar time of that point, as long as the clock of the standard
library, that counts nanoseconds, reaches it; elsewhere the multiplication overflows. -/
theorem C85_from_point (p : ℤ) (hp : p ≠ invalidPoint) :
    (-2 ^ 63 ≤ p * 10 ^ 9 ∧ p * 10 ^ 9 < 2 ^ 63 → ∃ t, fromTimePoint (10 ^ 9) p = .ok t ∧ RealTime t ∧ t.msecond = 0 ∧
      t.year < 32768 ∧ asTimePoint t = p) ∧
    (¬ (-2 ^ 63 ≤ p * 10 ^ 9 ∧ p * 10 ^ 9 < 2 ^ 63) → fromTimePoint (10 ^ 9) p = .ub) := by
  unfold fromTimePoint
  rw [if_neg hp]
  constructor
  · intro h
    have hc := civil_year (n := p / 86400) (lo := 0) (hi := 32767) (by rw [year_start]; omega) (by rw [year_start]; omega)
    obtain ⟨t, e1, e2, e3, e4, e5⟩ := gmtime_eq (s := p) (by omega) (by omega)
    rw [long_ok h, Res.ok_bind, e1]
    have hy : t.year < 32768 := by omega
    exact ⟨t, rfl, e2, e3, hy, by rw [point_eq e2 hy, e5]⟩
  · intro h
    unfold long
    rw [if_neg h]
    rfl

example : (1582934400 : ℤ) ≠ invalidPoint ∧ fromTimePoint (10 ^ 9) 1582934400 = .ok ⟨2020, 2, 29, 0, 0, 0, 0⟩ ∧
    fromTimePoint (10 ^ 9) (-1) = .ok ⟨1969, 12, 31, 23, 59, 59, 0⟩ := by decide

theorem clock_reaches {t : FTime} (h : RealTime t) (hy : 1678 ≤ t.year ∧ t.year ≤ 2261) :
    -2 ^ 63 ≤ asTimePoint t * 10 ^ 9 ∧ asTimePoint t * 10 ^ 9 < 2 ^ 63 := by
  rw [point_eq h (by omega)]
  obtain ⟨hd, h5, h6, h7⟩ := h
  have := in_year hd
  rw [year_start, year_start] at this
  omega

theorem point_ne_invalid {t : FTime} (h : RealTime t) (hy : t.year < 32768) : asTimePoint t ≠ invalidPoint := by
  rw [point_eq h hy]
  obtain ⟨hd, h5, h6, h7⟩ := h
  have := in_year hd
  rw [year_start, year_start] at this
  unfold invalidPoint
  omega

/-- **C85.** A time of the years 1678 to 2261 comes back from its point without its milliseconds. -/
theorem C85_round_trip (t : FTime) (h : RealTime t) (hy : 1678 ≤ t.year ∧ t.year ≤ 2261) :
    fromTimePoint (10 ^ 9) (asTimePoint t) = .ok (whole t) := by
  obtain ⟨t', e1, e2, e3, e4, e5⟩ := (C85_from_point _ (point_ne_invalid h (by omega))).1 (clock_reaches h hy)
  rw [e1, ← real_unique e2 h e4 (by omega) e5]
  obtain ⟨y, m, d, h', mi, s, ms⟩ := t'
  simp only at e3
  subst e3
  rfl

example : RealTime ⟨2100, 12, 31, 23, 59, 59, 500⟩ := by decide

/-- **C85.** A time with an impossible month has the invalid point, which no time of the calendar has and which comes back
as the smallest time; and the seconds since 1970 are the point. -/
theorem C85_invalid_point (t : FTime) (ht : t.Typed) :
    (t.invalid = true → asTimePoint t = invalidPoint ∧ fromTimePoint (10 ^ 9) (asTimePoint t) = .ok minTime) ∧
    (RealTime t → t.year < 32768 → asTimePoint t ≠ invalidPoint) ∧ minTime.invalid = true ∧
    epochTime t = .ok (asTimePoint t) := by
  refine ⟨fun h => ?_, fun h hy => point_ne_invalid h hy, rfl, ?_⟩
  · have : asTimePoint t = invalidPoint := by unfold asTimePoint; rw [if_pos h]
    refine ⟨this, ?_⟩
    rw [this]
    rfl
  · have e : sysDays 1970 1 1 = 0 := by decide
    unfold epochTime
    rw [e, zero_mul, sub_zero]
    apply long_ok
    unfold asTimePoint
    split_ifs with hi
    · unfold invalidPoint; omega
    · obtain ⟨h1, h2, h3, h4, h5, h6, h7⟩ := ht
      simp only [FTime.invalid, Bool.or_eq_true, decide_eq_true_eq] at hi
      have hc : ∀ n, n < 256 → -128 ≤ char n ∧ char n < 128 := by
        intro n hn
        unfold char
        split_ifs <;> omega
      have c1 := hc _ h4
      have c2 := hc _ h5
      have c3 := hc _ h6
      have hs : -32768 ≤ short t.year ∧ short t.year ≤ 32767 := by unfold short; omega
      unfold makeTimePoint
      generalize short t.year = y at hs ⊢
      have : -20000000 ≤ sysDays y t.month t.mday ∧ sysDays y t.month t.mday ≤ 20000000 := by
        unfold sysDays
        split_ifs <;> dsimp only <;> omega
      omega

example : FTime.Typed ⟨2020, 13, 1, 0, 0, 0, 0⟩ ∧ FTime.invalid ⟨2020, 13, 1, 0, 0, 0, 0⟩ = true := by
  simp [FTime.Typed, FTime.invalid]

/-- **C85, limits.** The conversion back is undefined for the year 2300; the 30th of February is taken for the 2nd of
March; the year 40000 lies before 1970; times that differ in their milliseconds only have the same point. -/
theorem C85_limits :
    RealTime ⟨2300, 1, 1, 0, 0, 0, 0⟩ ∧ fromTimePoint (10 ^ 9) (asTimePoint ⟨2300, 1, 1, 0, 0, 0, 0⟩) = .ub ∧
    asTimePoint ⟨2001, 2, 30, 0, 0, 0, 0⟩ = asTimePoint ⟨2001, 3, 2, 0, 0, 0, 0⟩ ∧
    RealTime ⟨40000, 1, 1, 0, 0, 0, 0⟩ ∧ asTimePoint ⟨40000, 1, 1, 0, 0, 0, 0⟩ < 0 ∧
    lt ⟨2001, 1, 1, 0, 0, 0, 1⟩ ⟨2001, 1, 1, 0, 0, 0, 2⟩ = true ∧
    asTimePoint ⟨2001, 1, 1, 0, 0, 0, 1⟩ = asTimePoint ⟨2001, 1, 1, 0, 0, 0, 2⟩ := by
  refine ⟨by decide, by decide, by decide, by decide, by decide, by decide +kernel, by decide⟩

/-! ## C86 -/

theorem reference_eq (y m d h mi : ℕ) (u n : ℤ) (hy : y < 65536) (hm : m < 100) (hd : d < 100) (hh : h < 256)
    (hmi : mi < 100) :
    Stamp.reference ⟨y * 10000 + m * 100 + d, h * 100 + mi, u, n⟩ = ⟨y, m, d, h, mi, 0, 0⟩ := by
  have e1 : ((y : ℤ) * 10000 + m * 100 + d).tdiv 10000 = y := by
    rw [Int.tdiv_eq_ediv_of_nonneg (by omega)]; omega
  have e2 : ((y : ℤ) * 10000 + m * 100 + d - y * 10000).tdiv 100 = m := by
    rw [Int.tdiv_eq_ediv_of_nonneg (by omega)]; omega
  have e3 : ((y : ℤ) * 10000 + m * 100 + d).tmod 100 = d := by
    rw [Int.tmod_eq_emod_of_nonneg (by omega)]; omega
  have e4 : ((h : ℤ) * 100 + mi).tdiv 100 = h := by
    rw [Int.tdiv_eq_ediv_of_nonneg (by omega)]; omega
  have e5 : ((h : ℤ) * 100 + mi).tmod 100 = mi := by
    rw [Int.tmod_eq_emod_of_nonneg (by omega)]; omega
  unfold Stamp.reference
  dsimp only
  rw [e1, e2, e3, e4, e5]
  unfold fTimeOf
  rw [toUnsigned_nat _ _ hy, toUnsigned_nat _ _ (by omega), toUnsigned_nat _ _ (by omega), toUnsigned_nat _ _ hh,
    toUnsigned_nat _ _ (by omega)]
  rfl

theorem point_bounds {t : FTime} (h : RealTime t) (hy : 1678 ≤ t.year ∧ t.year ≤ 2261) :
    -10000000000 ≤ asTimePoint t ∧ asTimePoint t ≤ 10000000000 := by
  have := clock_reaches h hy
  omega

theorem offset_eq (g : Stamp) (u : String × ℕ × ℕ) (hu : u ∈ shortUnits) (hc : g.units = u.2.1)
    (hb : -20000000000 ≤ g.stepEnd * u.2.2 ∧ g.stepEnd * u.2.2 ≤ 20000000000) :
    g.offset = .ok (g.stepEnd * u.2.2) := by
  simp only [shortUnits, List.mem_cons, List.not_mem_nil, or_false] at hu
  unfold Stamp.offset
  rcases hu with rfl | rfl | rfl | rfl | rfl | rfl <;> simp only at hc hb ⊢ <;> rw [hc]
  · simp
  · show long (g.stepEnd * 60) = _; rw [long_ok (by omega)]; rfl
  · show long (g.stepEnd * 3600) = _; rw [long_ok (by omega)]; rfl
  · show (long (3 * g.stepEnd) >>= fun h => long (h * 3600)) = _; rw [long_ok (by omega), Res.ok_bind, long_ok (by omega)]; congr 1; push_cast; omega
  · show (long (6 * g.stepEnd) >>= fun h => long (h * 3600)) = _; rw [long_ok (by omega), Res.ok_bind, long_ok (by omega)]; congr 1; push_cast; omega
  · show (long (12 * g.stepEnd) >>= fun h => long (h * 3600)) = _; rw [long_ok (by omega), Res.ok_bind, long_ok (by omega)]; congr 1; push_cast; omega

theorem valid_eq (g : Stamp) (u : String × ℕ × ℕ) (hu : u ∈ shortUnits) (hc : g.units = u.2.1) (hr : RealTime g.reference)
    (hry : 1678 ≤ g.reference.year ∧ g.reference.year ≤ 2261) (v : FTime) (hv : RealTime v)
    (hvy : 1678 ≤ v.year ∧ v.year ≤ 2261) (h : asTimePoint v = asTimePoint g.reference + g.stepEnd * u.2.2) :
    g.valid (10 ^ 9) = .ok (whole v) := by
  have b1 := point_bounds hr hry
  have b2 := point_bounds hv hvy
  unfold Stamp.valid
  rw [hr.valid, if_neg (by decide), offset_eq g u hu hc (by omega), Res.ok_bind, ← h, long_ok (by omega), Res.ok_bind,
    C85_round_trip v hv hvy]

/-- **C86.** The reference time is read from the digits of date and time. -/
theorem C86_reference_time (y m d h mi : ℕ) (u n : ℤ) (hy : y < 65536) (hm : m < 100) (hd : d < 100) (hh : h < 256)
    (hmi : mi < 100) :
    Stamp.reference ⟨y * 10000 + m * 100 + d, h * 100 + mi, u, n⟩ = ⟨y, m, d, h, mi, 0, 0⟩ :=
  reference_eq y m d h mi u n hy hm hd hh hmi

/-- **C86.** For the step units from seconds to 12 hours the valid time lies the given number of steps after the reference
time on the calendar, or before it for negative steps, in the years 1678 to 2261. -/
theorem C86_valid_time (g : Stamp) (u : String × ℕ × ℕ) (hu : u ∈ shortUnits) (hc : g.units = u.2.1)
    (hr : RealTime g.reference) (v : FTime) (hv : RealTime v) (n : ℕ) :
    (g.stepEnd = n → v = nextSecond^[n * u.2.2] g.reference → 1678 ≤ g.reference.year → v.year ≤ 2261 →
      g.valid (10 ^ 9) = .ok v) ∧
    (g.stepEnd = -n → g.reference = nextSecond^[n * u.2.2] v → 1678 ≤ v.year → g.reference.year ≤ 2261 →
      g.valid (10 ^ 9) = .ok v) := by
  have hms : g.reference.msecond = 0 := rfl
  have hw : v.msecond = 0 → whole v = v := fun h => by
    obtain ⟨y, m, d, h', mi, s, ms⟩ := v
    simp only at h
    subst h
    rfl
  constructor
  · rintro hn rfl hy1 hy2
    have hy3 := iterate_year (n * u.2.2) g.reference
    rw [← hw (by rw [iterate_msecond, hms])]
    refine valid_eq g u hu hc hr ⟨hy1, by omega⟩ _ hv ⟨by omega, hy2⟩ ?_
    rw [iterate_point _ hr (by omega), hn]
    push_cast
    rfl
  · intro hn hv' hy1 hy2
    have hy3 := iterate_year (n * u.2.2) v
    rw [← hv'] at hy3
    have hm := iterate_msecond (n * u.2.2) v
    rw [← hv', hms] at hm
    rw [← hw hm.symm]
    refine valid_eq g u hu hc hr ⟨by omega, hy2⟩ _ hv ⟨hy1, by omega⟩ ?_
    have := iterate_point (n * u.2.2) hv (by rw [← hv']; omega)
    rw [← hv'] at this
    rw [this, hn]
    push_cast
    rw [neg_mul]
    omega

example : Stamp.valid (10 ^ 9) ⟨20191231, 1800, 11, 2⟩ = .ok ⟨2020, 1, 1, 6, 0, 0, 0⟩ ∧
    Stamp.valid (10 ^ 9) ⟨20200301, 30, 1, -1⟩ = .ok ⟨2020, 2, 29, 23, 30, 0, 0⟩ := by decide

/-- **C86.** A reference time with an impossible month is returned as it is; with other codes than those for seconds to 12
hours there is no valid time: for days, months and years the offset is read before it is set, for other codes the call
raises. -/
theorem C86_no_valid_time (g : Stamp) (ticks : ℤ) :
    (g.reference.invalid = true → g.valid ticks = .ok g.reference) ∧
    (g.reference.invalid = false → 2 ≤ g.units ∧ g.units ≤ 7 → g.valid ticks = .ub) ∧
    (g.reference.invalid = false → g.units < 0 ∨ g.units = 8 ∨ g.units = 9 ∨ 13 < g.units → g.valid ticks = .throws) := by
  refine ⟨fun h => ?_, fun h hu => ?_, fun h hu => ?_⟩
  · unfold Stamp.valid; rw [if_pos h]
  · have ho : g.offset = .ub := by
      unfold Stamp.offset
      obtain e | e | e | e | e | e : g.units = 2 ∨ g.units = 3 ∨ g.units = 4 ∨ g.units = 5 ∨ g.units = 6 ∨ g.units = 7 := by
        omega
      all_goals (rw [e]; rfl)
    unfold Stamp.valid
    rw [h, if_neg (by decide), ho]
    rfl
  · have ho : g.offset = .throws := by
      unfold Stamp.offset
      split <;> first | rfl | omega
    unfold Stamp.valid
    rw [h, if_neg (by decide), ho]
    rfl

example : Stamp.valid (10 ^ 9) ⟨20200101, 0, 2, 1⟩ = .ub ∧ Stamp.valid (10 ^ 9) ⟨20200101, 0, 9, 1⟩ = .throws ∧
    Stamp.valid (10 ^ 9) ⟨20201301, 0, 9, 1⟩ = .ok ⟨2020, 13, 1, 0, 0, 0, 0⟩ := by decide

theorem date_eq {t : FTime} (h : RealTime t) : dateOf t = t.year * 10000 + t.month * 100 + t.mday ∧
    timeOf t = t.hour * 100 + t.minute := by
  obtain ⟨⟨h1, h2, h3, h4⟩, h5, h6, h7⟩ := h
  have := monthLength_le t.year t.month
  unfold dateOf timeOf char
  rw [if_pos (by omega), if_pos (by omega), if_pos (by omega), if_pos (by omega)]
  exact ⟨rfl, rfl⟩

theorem real_ne_min {t : FTime} (h : RealTime t) : t ≠ minTime := by
  rintro rfl
  exact absurd h (by decide)

theorem stamp_reference {t : FTime} (h : RealTime t) (hy : t.year < 65536) (u n : ℤ) :
    Stamp.reference ⟨dateOf t, timeOf t, u, n⟩ = { t with second := 0, msecond := 0 } := by
  obtain ⟨e1, e2⟩ := date_eq h
  obtain ⟨⟨h1, h2, h3, h4⟩, h5, h6, h7⟩ := h
  have := monthLength_le t.year t.month
  rw [e1, e2]
  exact reference_eq _ _ _ _ _ _ _ hy (by omega) (by omega) (by omega) (by omega)

/-- **C86.** What the writer sets in a message is read back: a reference time at a whole minute and a valid time a whole
number of steps later. -/
theorem C86_write_read (r : FTime) (hr : RealTime r) (h0 : r.second = 0 ∧ r.msecond = 0) (u : String × ℕ × ℕ)
    (hu : u ∈ shortUnits) (n : ℕ) (v : FTime) (hv : v = nextSecond^[n * u.2.2] r) (hy : 1678 ≤ r.year) (hvy : v.year ≤ 2261) :
    ∃ g, setTime r v u.1 >>= readStamp = .ok g ∧ g.reference = r ∧ g.valid (10 ^ 9) = .ok v := by
  have hry := iterate_year (n * u.2.2) r
  have hp := iterate_point (n * u.2.2) hr (by rw [← hv]; omega)
  have hvr := iterate_real (n * u.2.2) hr
  rw [← hv] at hry hp hvr
  have hu1 : Tables.stepUnits2seconds u.1 = .ok u.2.2 ∧ Tables.stepUnitsFromText u.1 = .ok u.2.1 ∧ 0 < u.2.2 := (by decide : ∀ u ∈ shortUnits, Tables.stepUnits2seconds u.1 = .ok u.2.2 ∧
    Tables.stepUnitsFromText u.1 = .ok u.2.1 ∧ 0 < u.2.2) u hu
  have b1 := point_bounds hr ⟨hy, by omega⟩
  have b2 := point_bounds hvr ⟨by omega, hvy⟩
  have hn : n ≤ n * u.2.2 := Nat.le_mul_of_pos_right _ hu1.2.2
  have hs : steps v r u.2.2 = .ok n := by
    unfold steps
    have e : asTimePoint v - asTimePoint r = ((n * u.2.2 : ℕ) : ℤ) := by omega
    rw [e, long_ok (by omega), Res.ok_bind, toUnsigned_nat _ _ (by omega), Nat.mul_div_cancel _ hu1.2.2, long_ok (by omega)]
  refine ⟨⟨dateOf r, timeOf r, u.2.1, n⟩, ?_, ?_⟩
  · unfold setTime dateTimeStep readStamp
    rw [hr.valid, if_neg (by decide), hu1.1, Res.ok_bind, hs, Res.ok_bind, Res.ok_bind, if_neg (real_ne_min hvr),
      Res.ok_bind]
    dsimp only
    rw [hu1.2.1]
    rfl
  · have e : Stamp.reference ⟨dateOf r, timeOf r, u.2.1, n⟩ = r := by
      rw [stamp_reference hr (by omega)]
      obtain ⟨y, m, d, h, mi, s, ms⟩ := r
      obtain ⟨rfl, rfl⟩ := h0
      rfl
    refine ⟨e, ?_⟩
    refine ((C86_valid_time ⟨dateOf r, timeOf r, u.2.1, n⟩ u hu rfl (by rw [e]; exact hr) v hvr n).1 rfl ?_ ?_ hvy)
    · rw [e]; exact hv
    · rw [e]; exact hy

example : setTime ⟨2020, 2, 28, 18, 30, 0, 0⟩ ⟨2020, 2, 29, 6, 30, 0, 0⟩ "6h" = .ok (20200228, 1830, "6h", 2) ∧
    RealTime ⟨2020, 2, 28, 18, 30, 0, 0⟩ := by decide

/-- **C86.** Without a reference time the valid time is written as reference time with step 0, and is read back as both. -/
theorem C86_no_reference (r v : FTime) (hr : r.invalid = true) (hv : RealTime v) (h0 : v.second = 0 ∧ v.msecond = 0)
    (hy : 1678 ≤ v.year ∧ v.year ≤ 2261) (u : String × ℕ × ℕ) (hu : u ∈ shortUnits) :
    ∃ g, setTime r v u.1 >>= readStamp = .ok g ∧ g.stepEnd = 0 ∧ g.reference = v ∧ g.valid (10 ^ 9) = .ok v := by
  have hu1 : Tables.stepUnitsFromText u.1 = .ok u.2.1 := (by decide : ∀ u ∈ shortUnits, Tables.stepUnitsFromText u.1 = .ok u.2.1) u hu
  refine ⟨⟨dateOf v, timeOf v, u.2.1, 0⟩, ?_, rfl, ?_⟩
  · unfold setTime dateTimeStep readStamp
    rw [hr, if_pos rfl, Res.ok_bind, if_neg (real_ne_min hv), Res.ok_bind]
    dsimp only
    rw [hu1]
    rfl
  · have e : Stamp.reference ⟨dateOf v, timeOf v, u.2.1, 0⟩ = v := by
      rw [stamp_reference hv (by omega)]
      obtain ⟨y, m, d, h, mi, s, ms⟩ := v
      obtain ⟨rfl, rfl⟩ := h0
      rfl
    refine ⟨e, ?_⟩
    refine ((C86_valid_time ⟨dateOf v, timeOf v, u.2.1, 0⟩ u hu rfl (by rw [e]; exact hv) v hv 0).1 rfl ?_ ?_ hy.2)
    · rw [e, Nat.zero_mul]; rfl
    · rw [e]; exact hy.1

example : FTime.invalid minTime = true ∧ RealTime ⟨1999, 12, 31, 23, 59, 0, 0⟩ := by decide

/-- **C86, limits.** A forecast of 7 hours in steps of 6 hours comes back as 6 hours; a valid time one hour before the
reference time becomes a step of 2^64 / 3600 hours; the seconds of a reference time are lost and shift the valid time;
daily data are written with a unit that is read with an undefined offset; the smallest time is written as the first day of
the year 1. -/
theorem C86_limits :
    (setTime ⟨2020, 1, 1, 0, 0, 0, 0⟩ ⟨2020, 1, 1, 7, 0, 0, 0⟩ "6h" >>= readStamp >>= Stamp.valid (10 ^ 9))
      = .ok ⟨2020, 1, 1, 6, 0, 0, 0⟩ ∧
    setTime ⟨2020, 1, 1, 1, 0, 0, 0⟩ ⟨2020, 1, 1, 0, 0, 0, 0⟩ "h" = .ok (20200101, 100, "h", 5124095576030430) ∧
    (setTime ⟨2020, 1, 1, 0, 0, 30, 0⟩ ⟨2020, 1, 1, 1, 0, 30, 0⟩ "h" >>= readStamp >>= Stamp.valid (10 ^ 9))
      = .ok ⟨2020, 1, 1, 1, 0, 0, 0⟩ ∧
    Tables.seconds2stepUnits 86400 = .ok "D" ∧
    (setTime ⟨2020, 1, 1, 0, 0, 0, 0⟩ ⟨2020, 1, 2, 0, 0, 0, 0⟩ "D" >>= readStamp >>= Stamp.valid (10 ^ 9)) = .ub ∧
    setTime minTime minTime "h" = .ok (10101, 0, "h", 0) := by decide +kernel

end Fimex.Time
