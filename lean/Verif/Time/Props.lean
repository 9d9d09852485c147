import Verif.Time.Model
import Verif.Text.DottedProps
import Mathlib.Data.List.Induction

/-!
# Properties C29 and C30: calendar times
-/

namespace Fimex.Time

open Fimex.Text

/-! ## C29: comparison and packing -/

/-- Lexicographic order of the calendar fields. -/
def CalendarLt (a b : FTime) : Prop :=
  a.year < b.year ∨ a.year = b.year ∧
  (a.month < b.month ∨ a.month = b.month ∧
  (a.mday < b.mday ∨ a.mday = b.mday ∧
  (a.hour < b.hour ∨ a.hour = b.hour ∧
  (a.minute < b.minute ∨ a.minute = b.minute ∧
  (a.second < b.second ∨ a.second = b.second ∧ a.msecond < b.msecond)))))

/-- A calendar time whose year has 12 bits (below 4096). -/
def InRange (t : FTime) : Prop :=
  t.year < 4096 ∧ 1 ≤ t.month ∧ t.month ≤ 12 ∧ 1 ≤ t.mday ∧ t.mday ≤ 31 ∧ t.hour < 24 ∧ t.minute < 60 ∧
    t.second ≤ 60 ∧ t.msecond < 1000

/-- All fields fit into the packed form. -/
def Fits (t : FTime) : Prop :=
  t.year < 4096 ∧ t.month < 16 ∧ t.mday < 256 ∧ t.hour < 256 ∧ t.minute < 128 ∧ t.second < 256 ∧
    t.msecond < 65536

theorem InRange.fits {t : FTime} (h : InRange t) : Fits t := by
  obtain ⟨h1, h2, h3, h4, h5, h6, h7, h8, h9⟩ := h
  refine ⟨h1, ?_, ?_, ?_, ?_, ?_, ?_⟩ <;> omega

theorem or_eq_add {a b i : Nat} (h : b < 2 ^ i) : a <<< i ||| b = a * 2 ^ i + b := by
  rw [← Nat.shiftLeft_add_eq_or_of_lt h, Nat.shiftLeft_eq]

theorem toEncoded_eq {t : FTime} (h : Fits t) :
    toEncoded t = t.year * 2 ^ 52 + (t.month * 2 ^ 48 + (t.mday * 2 ^ 40 + (t.hour * 2 ^ 32 +
      (t.minute * 2 ^ 24 + (t.second * 2 ^ 16 + t.msecond))))) := by
  obtain ⟨h1, h2, h3, h4, h5, h6, h7⟩ := h
  unfold toEncoded minuteTerm
  rw [if_pos h5]
  have hy : (t.year <<< 52) % 2 ^ 64 = t.year <<< 52 := by
    rw [Nat.shiftLeft_eq]; apply Nat.mod_eq_of_lt; omega
  rw [hy]
  simp only [Nat.or_assoc]
  rw [or_eq_add (a := t.second) (by omega)]
  rw [or_eq_add (a := t.minute) (by omega)]
  rw [or_eq_add (a := t.hour) (by omega)]
  rw [or_eq_add (a := t.mday) (by omega)]
  rw [or_eq_add (a := t.month) (by omega)]
  rw [or_eq_add (a := t.year) (by omega)]

/-- C29: the packed form decodes to the same time. -/
theorem C29_packed_form_decodes (t : FTime) (h : Fits t) : fromEncoded (toEncoded t) = t := by
  rw [toEncoded_eq h]
  obtain ⟨h1, h2, h3, h4, h5, h6, h7⟩ := h
  unfold fromEncoded
  simp only [Nat.and_two_pow_sub_one_eq_mod, Nat.shiftRight_eq_div_pow]
  cases t
  simp only at *
  simp only [FTime.mk.injEq]
  refine ⟨?_, ?_, ?_, ?_, ?_, ?_, ?_⟩ <;> omega

/-- C29: the comparison operators are the lexicographic order of the calendar fields. -/
theorem C29_comparison_is_calendar_order (a b : FTime) (ha : InRange a) (hb : InRange b) :
    (lt a b = true ↔ CalendarLt a b) ∧ (gt a b = true ↔ CalendarLt b a) ∧
    (le a b = true ↔ CalendarLt a b ∨ a = b) ∧ (ge a b = true ↔ CalendarLt b a ∨ a = b) := by
  have key : ∀ x y : FTime, InRange x → InRange y → (toEncoded x < toEncoded y ↔ CalendarLt x y) := by
    intro x y hx hy
    rw [toEncoded_eq hx.fits, toEncoded_eq hy.fits]
    obtain ⟨h1, h2, h3, h4, h5, h6, h7⟩ := hx.fits
    obtain ⟨g1, g2, g3, g4, g5, g6, g7⟩ := hy.fits
    unfold CalendarLt
    constructor
    · intro h; omega
    · intro h; omega
  have inj : toEncoded a = toEncoded b ↔ a = b := by
    constructor
    · intro h
      rw [← C29_packed_form_decodes a ha.fits, h, C29_packed_form_decodes b hb.fits]
    · rintro rfl; rfl
  refine ⟨?_, ?_, ?_, ?_⟩
  · simp [lt, gt, key a b ha hb]
  · simp [gt, key b a hb ha]
  · simp only [le, gt, Bool.not_eq_true', decide_eq_false_iff_not, gt_iff_lt, not_lt, ← key a b ha hb, ← inj]
    omega
  · simp only [ge, gt, Bool.not_eq_true', decide_eq_false_iff_not, gt_iff_lt, not_lt, ← key b a hb ha, ← inj]
    omega

/-- C29: whatever the fields, no time is before `min_date_time` or after `max_date_time`. -/
theorem C29_special_values_are_extremes (t : FTime) (h : t.Typed) :
    le minTime t = true ∧ le t maxTime = true := by
  have hmin : toEncoded minTime = 0 := by decide
  have hmax : toEncoded maxTime = 2 ^ 64 - 1 := by decide +kernel
  have hlt : toEncoded t < 2 ^ 64 := by
    obtain ⟨h1, h2, h3, h4, h5, h6, h7⟩ := h
    unfold toEncoded minuteTerm
    have hm : (if t.minute < 128 then t.minute <<< 24 else t.minute <<< 24 + (2 ^ 64 - 2 ^ 32)) < 2 ^ 64 := by
      rw [Nat.shiftLeft_eq]
      split <;> omega
    simp only [Nat.shiftLeft_eq] at *
    refine Nat.or_lt_two_pow (Nat.or_lt_two_pow (Nat.or_lt_two_pow (Nat.or_lt_two_pow (Nat.or_lt_two_pow
      (Nat.or_lt_two_pow ?_ ?_) ?_) ?_) hm) ?_) ?_ <;> omega
  simp [le, gt, hmin, hmax]
  omega

/-- C29 fails beyond 12-bit years: 4096 is before year 1, and years 4096 apart are not ordered. -/
theorem C29_year_4096_wraps :
    lt ⟨4096, 1, 1, 0, 0, 0, 0⟩ ⟨1, 1, 1, 0, 0, 0, 0⟩ = true ∧
    lt ⟨0, 1, 1, 0, 0, 0, 0⟩ ⟨4096, 1, 1, 0, 0, 0, 0⟩ = false := by decide

/-- **C29.** A time counts as valid exactly if its month is one of the twelve; so every time of the calendar is valid,
and the two special values are not. -/
theorem C29_validity (t : FTime) :
    (t.invalid = false ↔ t.month ∈ [1, 2, 3, 4, 5, 6, 7, 8, 9, 10, 11, 12]) ∧
    (InRange t → t.invalid = false) ∧ minTime.invalid = true ∧ maxTime.invalid = true := by
  have key : t.invalid = false ↔ 1 ≤ t.month ∧ t.month ≤ 12 := by
    unfold FTime.invalid
    rw [Bool.or_eq_false_iff, decide_eq_false_iff_not, decide_eq_false_iff_not]
    omega
  refine ⟨?_, fun h => ?_, by decide, by decide⟩
  · rw [key]
    simp only [List.mem_cons, List.not_mem_nil, or_false]
    omega
  · rw [key]
    unfold InRange at h
    omega

/-- C29 fails for minutes from 128 on: the shift is done in signed 32-bit arithmetic and the sign is
extended over the hour, the day, the month and the year. -/
theorem C29_minute_128_overwrites_year :
    fromEncoded (toEncoded ⟨2020, 1, 1, 0, 128, 0, 0⟩) = ⟨4095, 15, 255, 255, 128, 0, 0⟩ := by decide

example : InRange ⟨2024, 2, 29, 23, 59, 59, 999⟩ ∧ InRange ⟨2024, 3, 1, 0, 0, 0, 0⟩ ∧
    lt ⟨2024, 2, 29, 23, 59, 59, 999⟩ ⟨2024, 3, 1, 0, 0, 0, 0⟩ = true := by
  refine ⟨by unfold InRange; decide, by unfold InRange; decide, by decide⟩

/-! ## C30: printing and parsing -/

/-- A non-empty text of digits. -/
def Digits (s : List Char) : Prop := s ≠ [] ∧ ∀ c ∈ s, c.isDigit = true

theorem Digits.all {s : List Char} (h : Digits s) : s.all Char.isDigit = true := by
  simpa using h.2

theorem digitChar_spec : ∀ n < 10, (digitChar n).isDigit = true ∧ (digitChar n).toNat = 48 + n := by decide

theorem digitsVal_snoc (s : List Char) (c : Char) : digitsVal (s ++ [c]) = 10 * digitsVal s + (c.toNat - 48) := by
  simp [digitsVal]

theorem digitsVal_append (s r : List Char) : digitsVal (s ++ r) = digitsVal s * 10 ^ r.length + digitsVal r := by
  induction r using List.reverseRecOn with
  | nil => simp [digitsVal]
  | append_singleton r c ih =>
    rw [← List.append_assoc, digitsVal_snoc, ih, digitsVal_snoc]
    simp only [List.length_append, List.length_cons, List.length_nil]
    ring

theorem decimal_spec (n : Nat) : Digits (decimal n) ∧ digitsVal (decimal n) = n := by
  induction n using Nat.strongRecOn with
  | _ n ih =>
    unfold decimal
    split
    · rename_i h
      have := digitChar_spec n h
      refine ⟨⟨by simp, by simp [this.1]⟩, ?_⟩
      simp [digitsVal, this.2]
    · rename_i h
      obtain ⟨⟨-, h2⟩, h3⟩ := ih (n / 10) (by omega)
      have := digitChar_spec (n % 10) (by omega)
      refine ⟨⟨by simp, ?_⟩, ?_⟩
      · intro c hc
        simp at hc
        rcases hc with hc | rfl
        · exact h2 c hc
        · exact this.1
      · rw [digitsVal_snoc, h3, this.2]
        omega

theorem twoDigits_spec (n : Nat) (h : n < 100) : Digits (twoDigits n) ∧ digitsVal (twoDigits n) = n := by
  unfold twoDigits
  rw [if_pos h]
  split
  · rename_i h1
    have := digitChar_spec n h1
    refine ⟨⟨by simp, ?_⟩, ?_⟩
    · intro c hc
      simp at hc
      rcases hc with rfl | rfl
      · decide
      · exact this.1
    · simp [digitsVal, this.2]
  · rename_i h1
    have e1 := digitChar_spec (n / 10) (by omega)
    have e2 := digitChar_spec (n % 10) (by omega)
    refine ⟨⟨by simp, ?_⟩, ?_⟩
    · intro c hc
      simp at hc
      rcases hc with rfl | rfl
      · exact e1.1
      · exact e2.1
    · simp [digitsVal, e1.2, e2.2]
      omega

theorem Digits.ne {s : List Char} (h : Digits s) {x : Char} (hx : x.isDigit = false) : x ∉ s := by
  intro hm
  rw [h.2 x hm] at hx
  cases hx

theorem trim_id (s ws : List Char) (h : ∀ c ∈ s, c ∉ ws) : trim s ws = .ok s := by
  obtain ⟨a, t, b, h1, h2, h3, h4, -, -⟩ := C65_trim_removes_outer_whitespace s ws
  have ha : a = [] := by
    cases a with
    | nil => rfl
    | cons x a => exact absurd (h3 x (by simp)) (h x (by rw [h2]; simp))
  have hb : b = [] := by
    cases b with
    | nil => rfl
    | cons x b => exact absurd (h4 x (by simp)) (h x (by rw [h2]; simp))
  rw [h1, h2, ha, hb]
  simp

theorem Digits.trim {s : List Char} (h : Digits s) : trim s " \t\n\r".toList = .ok s := by
  apply trim_id
  intro c hc hm
  have := h.2 c hc
  simp at hm
  rcases hm with rfl | rfl | rfl | rfl <;> exact absurd this (by decide)

theorem Digits.ne_dots {s : List Char} (h : Digits s) : s ≠ "...".toList := by
  rintro rfl
  exact absurd (h.2 '.' (by simp)) (by decide)

theorem Digits.parseInt {s : List Char} (h : Digits s) {lo hi : Int} (hv : (digitsVal s : Int) ≤ hi) :
    parseInt lo hi s = .ok (digitsVal s) := by
  cases s with
  | nil => exact absurd rfl h.1
  | cons c r =>
    unfold Time.parseInt
    dsimp only
    have hc : c ≠ '-' := by
      rintro rfl
      exact absurd (h.2 '-' (by simp)) (by decide)
    rw [if_neg hc, if_pos ⟨h.all, hv⟩]

theorem Digits.stands {s : List Char} (h : Digits s) (hv : digitsVal s ≤ 2147483647) :
    Stands parseIntQ s ((digitsVal s : Nat) : ℚ) := by
  refine ⟨s, h.trim, h.ne_dots, ?_⟩
  unfold parseIntQ
  rw [h.parseInt (by exact_mod_cast hv)]
  simp

/-- A time that can be printed: two-digit fields, milliseconds below 1000. -/
def Printable (t : FTime) : Prop :=
  t.year < 65536 ∧ t.month < 100 ∧ t.mday < 100 ∧ t.hour < 100 ∧ t.minute < 100 ∧ t.second < 100 ∧
    t.msecond < 1000

theorem toUnsigned_nat (n v : Nat) (h : v < n) : toUnsigned n (v : Int) = v := by
  unfold toUnsigned
  rw [Int.emod_eq_of_lt (by omega) (by omega)]
  simp

/-- The printed seconds, with milliseconds. -/
def secondsText (t : FTime) : List Char :=
  twoDigits t.second ++
    (if 0 < t.msecond then
      ".".toList ++ (if t.msecond < 10 then "00".toList else if t.msecond < 100 then "0".toList else []) ++
        decimal t.msecond
    else [])

theorem millis_digits (ms : Nat) (h : ms < 1000) (other : List Char → Res Int) :
    Digits ((if ms < 10 then "00".toList else if ms < 100 then "0".toList else []) ++ decimal ms) ∧
    millis other ((if ms < 10 then "00".toList else if ms < 100 then "0".toList else []) ++ decimal ms) =
      .ok (ms : Int) := by
  set x := (if ms < 10 then "00".toList else if ms < 100 then "0".toList else []) ++ decimal ms with hx
  obtain ⟨⟨d1, d2⟩, d3⟩ := decimal_spec ms
  have hd : Digits x := by
    refine ⟨by rw [hx]; simp [d1], ?_⟩
    intro c hc
    rw [hx, List.mem_append] at hc
    rcases hc with hc | hc
    · have : c = '0' := by
        split at hc
        · simpa using hc
        · split at hc
          · simpa using hc
          · simp at hc
      rw [this]; decide
    · exact d2 c hc
  have hlen : x.length = 3 := by
    rw [hx]
    split
    · rename_i h1
      unfold decimal; rw [if_pos h1]; rfl
    · rename_i h1
      split
      · rename_i h2
        unfold decimal; rw [if_neg h1]
        unfold decimal; rw [if_pos (by omega)]; rfl
      · rename_i h2
        unfold decimal; rw [if_neg h1]
        unfold decimal; rw [if_neg (by omega)]
        unfold decimal; rw [if_pos (by omega)]; rfl
  have hval : digitsVal x = ms := by
    rw [hx, digitsVal_append, d3]
    have : digitsVal (if ms < 10 then "00".toList else if ms < 100 then "0".toList else []) = 0 := by
      split
      · decide
      · split <;> decide
    rw [this]; omega
  refine ⟨hd, ?_⟩
  unfold millis
  rw [if_pos ⟨hd.1, hd.all⟩, hval, hlen]
  congr 2
  omega

theorem print_eq (t : FTime) :
    print t = join [join [decimal t.year, twoDigits t.month, twoDigits t.mday] "-".toList,
      join [twoDigits t.hour, twoDigits t.minute, secondsText t] ":".toList] "T".toList := by
  simp [print, secondsText, join, joinLoop]

/-- C30: every printed time parses back to the same time (a missing millisecond field is zero). -/
theorem C30_printed_time_parses_back (t : FTime) (h : Printable t) (other : List Char → Res Int)
    (fuel : Nat) (hf : (print t).length < fuel) :
    parseISO other fuel (print t) = some (.ok (some t)) := by
  obtain ⟨h1, h2, h3, h4, h5, h6, h7⟩ := h
  obtain ⟨y1, y2⟩ := decimal_spec t.year
  obtain ⟨m1, m2⟩ := twoDigits_spec t.month h2
  obtain ⟨d1, d2⟩ := twoDigits_spec t.mday h3
  obtain ⟨o1, o2⟩ := twoDigits_spec t.hour h4
  obtain ⟨i1, i2⟩ := twoDigits_spec t.minute h5
  obtain ⟨s1, s2⟩ := twoDigits_spec t.second h6
  obtain ⟨x1, x2⟩ := millis_digits t.msecond h7 other
  set date := join [decimal t.year, twoDigits t.month, twoDigits t.mday] "-".toList with hdate
  set time := join [twoDigits t.hour, twoDigits t.minute, secondsText t] ":".toList with htime
  set x := (if t.msecond < 10 then "00".toList else if t.msecond < 100 then "0".toList else []) ++
    decimal t.msecond with hxdef
  have hsec : secondsText t = if 0 < t.msecond then join [twoDigits t.second, x] ".".toList
      else join [twoDigits t.second] ".".toList := by
    unfold secondsText
    split <;> simp [join, joinLoop, hxdef]
  have hsecchars : ∀ c ∈ secondsText t, c.isDigit = true ∨ c = '.' := by
    intro c hc
    rw [hsec] at hc
    split at hc
    · simp [join, joinLoop] at hc
      rcases hc with hc | hc | hc
      · exact Or.inl (s1.2 c hc)
      · exact Or.inr hc
      · exact Or.inl (x1.2 c hc)
    · simp [join, joinLoop] at hc
      exact Or.inl (s1.2 c hc)
  have hdatechars : ∀ c ∈ date, c.isDigit = true ∨ c = '-' := by
    intro c hc
    simp [hdate, join, joinLoop] at hc
    rcases hc with hc | rfl | hc | rfl | hc
    · exact Or.inl (y1.2 c hc)
    · exact Or.inr rfl
    · exact Or.inl (m1.2 c hc)
    · exact Or.inr rfl
    · exact Or.inl (d1.2 c hc)
  have htimechars : ∀ c ∈ time, c.isDigit = true ∨ c = '.' ∨ c = ':' := by
    intro c hc
    simp [htime, join, joinLoop] at hc
    rcases hc with hc | rfl | hc | rfl | hc
    · exact Or.inl (o1.2 c hc)
    · exact Or.inr (Or.inr rfl)
    · exact Or.inl (i1.2 c hc)
    · exact Or.inr (Or.inr rfl)
    · rcases hsecchars c hc with h | h
      · exact Or.inl h
      · exact Or.inr (Or.inl h)
  have hpr : print t = join [date, time] "T".toList := print_eq t
  have hprchars : ∀ c ∈ print t, c.isDigit = true ∨ c = '-' ∨ c = 'T' ∨ c = '.' ∨ c = ':' := by
    intro c hc
    rw [hpr] at hc
    simp [join, joinLoop] at hc
    rcases hc with hc | rfl | hc
    · rcases hdatechars c hc with h | h <;> tauto
    · tauto
    · rcases htimechars c hc with h | h | h <;> tauto
  have htrim : trim (print t) " \t\n\r".toList = .ok (print t) := by
    apply trim_id
    intro c hc hm
    simp at hm
    rcases hm with rfl | rfl | rfl | rfl <;> exact absurd (hprchars _ hc) (by decide)
  have hdne : date ≠ [] := by
    rw [hdate]
    simp [join, joinLoop]
  have htne : time ≠ [] := by
    rw [htime]
    simp [join, joinLoop]
  have hlendate : date.length < fuel := by
    have : (print t).length = date.length + (1 + time.length) := by rw [hpr]; simp [join, joinLoop]; omega
    omega
  have hlentime : time.length < fuel := by
    have : (print t).length = date.length + (1 + time.length) := by rw [hpr]; simp [join, joinLoop]; omega
    omega
  have htok : tokenize fuel (print t) "T".toList = some (.ok [date, time]) := by
    rw [hpr]
    apply C26_tokenize_of_join
    · rw [← hpr]; exact hf
    · intro u hu
      simp at hu
      rcases hu with rfl | rfl
      · refine ⟨hdne, ?_⟩
        intro c hc hm
        simp at hm
        subst hm
        exact absurd (hdatechars _ hc) (by decide)
      · refine ⟨htne, ?_⟩
        intro c hc hm
        simp at hm
        subst hm
        exact absurd (htimechars _ hc) (by decide)
    · simp
    · simp
  have hdot : tokenizeDotted parseIntQ fuel date "-".toList =
      some (.ok [(t.year : ℚ), (t.month : ℚ), (t.mday : ℚ)]) := by
    unfold tokenizeDotted
    rw [hdate, C26_tokenize_of_join _ "-".toList "-".toList fuel (by rw [← hdate]; exact hlendate)
      (by
        intro u hu
        simp at hu
        rcases hu with rfl | rfl | rfl
        · refine ⟨y1.1, ?_⟩
          intro c hc hm
          simp at hm
          subst hm
          exact y1.ne (by decide) hc
        · refine ⟨m1.1, ?_⟩
          intro c hc hm
          simp at hm
          subst hm
          exact m1.ne (by decide) hc
        · refine ⟨d1.1, ?_⟩
          intro c hc hm
          simp at hm
          subst hm
          exact d1.ne (by decide) hc) (by simp) (by simp)]
    dsimp only
    rw [dottedLoop_plain parseIntQ fuel _ _ (y1.stands (by omega)),
      dottedLoop_plain parseIntQ fuel _ _ (m1.stands (by omega)),
      dottedLoop_plain parseIntQ fuel _ _ (d1.stands (by omega))]
    rw [y2, m2, d2]
    rfl
  have hcol : tokenize fuel time ":".toList = some (.ok [twoDigits t.hour, twoDigits t.minute, secondsText t]) := by
    rw [htime]
    apply C26_tokenize_of_join
    · rw [← htime]; exact hlentime
    · intro u hu
      simp at hu
      rcases hu with rfl | rfl | rfl
      · refine ⟨o1.1, ?_⟩
        intro c hc hm
        simp at hm
        subst hm
        exact o1.ne (by decide) hc
      · refine ⟨i1.1, ?_⟩
        intro c hc hm
        simp at hm
        subst hm
        exact i1.ne (by decide) hc
      · refine ⟨by unfold secondsText; simp [s1.1], ?_⟩
        intro c hc hm
        simp at hm
        subst hm
        exact absurd (hsecchars _ hc) (by decide)
    · simp
    · simp
  have hlensec : (secondsText t).length < fuel := by
    have : time.length = (twoDigits t.hour).length + (1 + ((twoDigits t.minute).length + (1 + (secondsText t).length))) := by
      rw [htime]; simp [join, joinLoop]; omega
    omega
  have hset : setFields other fuel (t.year : ℚ) (t.month : ℚ) (t.mday : ℚ) (twoDigits t.hour)
      (twoDigits t.minute) (secondsText t) = some (.ok (some t)) := by
    unfold setFields
    have hfields : ∀ v : Nat, ((v : ℚ)).num = (v : Int) := fun v => Rat.num_natCast v
    have ph := o1.parseInt (lo := -32768) (hi := 32767) (by omega)
    have pm := i1.parseInt (lo := -32768) (hi := 32767) (by omega)
    have ps := s1.parseInt (lo := -32768) (hi := 32767) (by omega)
    by_cases hms : 0 < t.msecond
    · rw [if_pos hms] at hsec
      have : tokenize fuel (secondsText t) ".".toList = some (.ok [twoDigits t.second, x]) := by
        have hl := hlensec
        rw [hsec] at hl ⊢
        apply C26_tokenize_of_join _ _ _ _ hl
        · intro u hu
          simp at hu
          rcases hu with rfl | rfl
          · refine ⟨s1.1, ?_⟩
            intro c hc hm
            simp at hm
            subst hm
            exact s1.ne (by decide) hc
          · refine ⟨x1.1, ?_⟩
            intro c hc hm
            simp at hm
            subst hm
            exact x1.ne (by decide) hc
        · simp
        · simp
      rw [this]
      simp only [x2, ph, pm, ps, Res.ok_bind, readAt, List.getElem?_cons_zero, hfields, o2, i2, s2]
      rw [toUnsigned_nat 65536 _ h1, toUnsigned_nat 256 _ (by omega), toUnsigned_nat 256 _ (by omega),
        toUnsigned_nat 256 _ (by omega), toUnsigned_nat 256 _ (by omega), toUnsigned_nat 256 _ (by omega),
        toUnsigned_nat 65536 _ (by omega)]
    · rw [if_neg hms] at hsec
      have : tokenize fuel (secondsText t) ".".toList = some (.ok [twoDigits t.second]) := by
        have hl := hlensec
        rw [hsec] at hl ⊢
        apply C26_tokenize_of_join _ _ _ _ hl
        · intro u hu
          simp at hu
          subst hu
          refine ⟨s1.1, ?_⟩
          intro c hc hm
          simp at hm
          subst hm
          exact s1.ne (by decide) hc
        · simp
        · simp
      rw [this]
      simp only [ph, pm, ps, Res.ok_bind, readAt, List.getElem?_cons_zero, hfields, o2, i2, s2]
      rw [toUnsigned_nat 65536 _ h1, toUnsigned_nat 256 _ (by omega), toUnsigned_nat 256 _ (by omega),
        toUnsigned_nat 256 _ (by omega), toUnsigned_nat 256 _ (by omega), toUnsigned_nat 256 _ (by omega)]
      have hz : t.msecond = 0 := by omega
      rw [show toUnsigned 65536 0 = t.msecond by rw [hz]; rfl]
  have hdt : dateAndTime fuel (print t) = some (.ok (some ([(t.year : ℚ), (t.month : ℚ), (t.mday : ℚ)],
      [twoDigits t.hour, twoDigits t.minute, secondsText t]))) := by
    unfold dateAndTime
    simp only [htok]
    rw [if_neg (by simp)]
    simp only [hdot, hcol]
  have hne : print t ≠ [] := by rw [hpr]; simp [join, joinLoop]
  unfold parseISO
  rw [htrim]
  dsimp only
  rw [if_neg hne, hdt]
  dsimp only
  rw [if_neg (by simp)]
  exact hset

/-- C30: the fields that are not printed with two digits do not come back: month 100 prints as `??`. -/
theorem C30_large_field_not_printable :
    print ⟨2020, 100, 1, 0, 0, 0, 0⟩ = "2020-??-01T00:00:00".toList ∧
    parseISO (fun _ => .throws) 100 (print ⟨2020, 100, 1, 0, 0, 0, 0⟩) = some .throws := by
  constructor <;> decide +kernel

example : print ⟨2024, 2, 29, 23, 5, 0, 7⟩ = "2024-02-29T23:05:00.007".toList := by decide +kernel
example : parseISO (fun _ => .throws) 100 "2024-02-29".toList = some (.ok (some ⟨2024, 2, 29, 0, 0, 0, 0⟩)) := by
  decide +kernel
example : parseISO (fun _ => .throws) 100 " 2024-02-29 12:30\n".toList =
    some (.ok (some ⟨2024, 2, 29, 12, 30, 0, 0⟩)) := by decide +kernel

end Fimex.Time
