import Verif.Time.Clock

/-!
# The Gregorian calendar

Specification: the dates of the calendar and the day after a date, by month lengths and leap years alone. The algorithms
of `sysDays` and `civil` are inverse to each other on the dates of the calendar and count its days.
-/

namespace Fimex.Time

/-- Spec: leap years. -/
def Leap (y : ℤ) : Prop := y % 4 = 0 ∧ (y % 100 ≠ 0 ∨ y % 400 = 0)

instance (y : ℤ) : Decidable (Leap y) := by unfold Leap; infer_instance

/-- Spec: the number of days in a month. -/
def monthLength (y : ℤ) (m : ℕ) : ℕ :=
  if m = 2 then (if Leap y then 29 else 28) else if m = 4 ∨ m = 6 ∨ m = 9 ∨ m = 11 then 30 else 31

/-- Spec: the dates of the calendar. -/
def RealDate (y : ℤ) (m d : ℕ) : Prop := 1 ≤ m ∧ m ≤ 12 ∧ 1 ≤ d ∧ d ≤ monthLength y m

instance (y : ℤ) (m d : ℕ) : Decidable (RealDate y m d) := by unfold RealDate; infer_instance

/-- Spec: the day after a date. -/
def nextDay (c : ℤ × ℕ × ℕ) : ℤ × ℕ × ℕ :=
  if c.2.2 < monthLength c.1 c.2.1 then (c.1, c.2.1, c.2.2 + 1)
  else if c.2.1 < 12 then (c.1, c.2.1 + 1, 1) else (c.1 + 1, 1, 1)

theorem months {m : ℕ} (h1 : 1 ≤ m) (h2 : m ≤ 12) : m = 1 ∨ m = 2 ∨ m = 3 ∨ m = 4 ∨ m = 5 ∨ m = 6 ∨
    m = 7 ∨ m = 8 ∨ m = 9 ∨ m = 10 ∨ m = 11 ∨ m = 12 := by omega

theorem sysDays_next (y : ℤ) (m d : ℕ) (h : RealDate y m d) :
   sysDays (nextDay (y,m,d)).1 (nextDay (y,m,d)).2.1 (nextDay (y,m,d)).2.2 = sysDays y m d + 1 := by
  obtain ⟨h1, h2, h3, h4⟩ := h
  unfold nextDay
  dsimp only
  by_cases hd : d < monthLength y m
  · rw [if_pos hd]
    unfold sysDays
    push_cast
    split_ifs <;> omega
  · rw [if_neg hd]
    have hd : d = monthLength y m := by omega
    subst hd
    unfold monthLength Leap
    clear h3 h4
    by_cases hl : y % 4 = 0 ∧ (y % 100 ≠ 0 ∨ y % 400 = 0)
    · simp only [hl]
      rcases months h1 h2 with rfl | rfl | rfl | rfl | rfl | rfl | rfl | rfl | rfl | rfl | rfl | rfl <;>
      simp [sysDays] <;> omega
    · simp only [hl, if_false]
      rcases months h1 h2 with rfl | rfl | rfl | rfl | rfl | rfl | rfl | rfl | rfl | rfl | rfl | rfl <;>
      simp [sysDays] <;> omega
theorem yearOf (y r doe : ℤ) (h0 : 0 ≤ y) (h1 : y ≤ 399) (h2 : 0 ≤ r) (h3 : r ≤ 365)
    (hl : r = 365 → (y + 1) % 4 = 0 ∧ ((y + 1) % 100 ≠ 0 ∨ y = 399)) (h : doe = 365 * y + y / 4 - y / 100 + r) :
    (doe - doe / 1460 + doe / 36524 - doe / 146096) / 365 = y := by
  obtain ⟨g, k, rfl, hk0, hk1⟩ : ∃ g k, y = 100 * g + k ∧ 0 ≤ k ∧ k ≤ 99 := ⟨y / 100, y % 100, by omega, by omega, by omega⟩
  obtain ⟨i, j, rfl, hj0, hj1⟩ : ∃ i j, k = 4 * i + j ∧ 0 ≤ j ∧ j ≤ 3 := ⟨k / 4, k % 4, by omega, by omega, by omega⟩
  have e1 : (100 * g + (4 * i + j)) / 4 = 25 * g + i := by omega
  have e2 : (100 * g + (4 * i + j)) / 100 = g := by omega
  rw [e1, e2] at h
  by_cases hlast : doe = 146096
  · subst hlast
    norm_num
    omega
  · have hc : doe / 36524 = g := by
      have : doe < 36524 * (g + 1) := by
        by_cases hr : r = 365
        · have := hl hr
          omega
        · omega
      omega
    have hd : doe / 146096 = 0 := by omega
    rw [hc, hd]
    by_cases he : 365 * j + 24 * g + i + r < 1460
    · have : doe / 1460 = 25 * g + i := by omega
      rw [this]
      omega
    · have : doe / 1460 = 25 * g + i + 1 := by omega
      rw [this]
      omega
theorem yearOf_exists (doe : ℤ) (h0 : 0 ≤ doe) (h1 : doe < 146097) : ∃ y r, 0 ≤ y ∧ y ≤ 399 ∧ 0 ≤ r ∧ r ≤ 365 ∧
    (r = 365 → (y + 1) % 4 = 0 ∧ ((y + 1) % 100 ≠ 0 ∨ y = 399)) ∧ doe = 365 * y + y / 4 - y / 100 + r := by
  obtain ⟨c, r1, hc0, hc1, hr0, hr1, hr2, rfl⟩ : ∃ c r1, 0 ≤ c ∧ c ≤ 3 ∧ 0 ≤ r1 ∧ r1 ≤ 36524 ∧ (r1 = 36524 → c = 3) ∧
      doe = 36524 * c + r1 := by
    by_cases h : doe = 146096
    · exact ⟨3, 36524, by omega⟩
    · exact ⟨doe / 36524, doe % 36524, by omega⟩
  obtain ⟨q, r2, hq0, hq1, hs0, hs1, hs2, rfl⟩ : ∃ q r2, 0 ≤ q ∧ q ≤ 24 ∧ 0 ≤ r2 ∧ r2 ≤ 1460 ∧ (r2 = 1460 → q = 24 → c = 3) ∧
      r1 = 1461 * q + r2 := ⟨r1 / 1461, r1 % 1461, by omega⟩
  obtain ⟨j, r, hj0, hj1, ht0, ht1, ht2, rfl⟩ : ∃ j r, 0 ≤ j ∧ j ≤ 3 ∧ 0 ≤ r ∧ r ≤ 365 ∧ (r = 365 → j = 3) ∧
      r2 = 365 * j + r := by
    by_cases h : r2 = 1460
    · exact ⟨3, 365, by omega⟩
    · exact ⟨r2 / 365, r2 % 365, by omega⟩
  refine ⟨100 * c + (4 * q + j), r, by omega, by omega, by omega, by omega, fun h => ?_, ?_⟩
  · have := ht2 h
    subst this
    refine ⟨by omega, ?_⟩
    by_cases hq : q = 24
    · right; have := hs2 (by omega) hq; omega
    · left; omega
  · have e1 : (100 * c + (4 * q + j)) / 4 = 25 * c + q := by omega
    have e2 : (100 * c + (4 * q + j)) / 100 = c := by omega
    rw [e1, e2]
    omega

theorem monthOf (r : ℤ) (h0 : 0 ≤ r) (h1 : r ≤ 365) : ∃ mp d : ℤ, 0 ≤ mp ∧ mp ≤ 11 ∧ 1 ≤ d ∧
    r = (153 * mp + 2) / 5 + d - 1 ∧ mp = (5 * r + 2) / 153 :=
  ⟨(5 * r + 2) / 153, r - (153 * ((5 * r + 2) / 153) + 2) / 5 + 1, by omega⟩

theorem civil_sysDays {y : ℤ} {m d : ℕ} (h : RealDate y m d) : civil (sysDays y m d) = (y, m, d) := by
  obtain ⟨h1, h2, h3, h4⟩ := h
  obtain ⟨Y, hY⟩ : ∃ Y, Y = if m ≤ 2 then y - 1 else y := ⟨_, rfl⟩
  obtain ⟨mp, hmp⟩ : ∃ mp : ℤ, mp = if 2 < m then (m : ℤ) - 3 else m + 9 := ⟨_, rfl⟩
  obtain ⟨r, hr⟩ : ∃ r, r = (153 * mp + 2) / 5 + (d : ℤ) - 1 := ⟨_, rfl⟩
  have hmp0 : 0 ≤ mp ∧ mp ≤ 11 := by split_ifs at hmp <;> omega
  have hm : mp = (5 * r + 2) / 153 ∧ r ≤ 365 ∧ (r = 365 → m = 2 ∧ Leap y) := by
    unfold monthLength at h4
    rcases months h1 h2 with rfl | rfl | rfl | rfl | rfl | rfl | rfl | rfl | rfl | rfl | rfl | rfl <;>
      simp at hmp h4 <;> subst hmp <;> (try split_ifs at h4) <;> simp_all <;> omega
  have hy := yearOf (Y % 400) r (365 * (Y % 400) + Y % 400 / 4 - Y % 400 / 100 + r) (by omega) (by omega) (by omega) hm.2.1
    (fun h => by
      obtain ⟨rfl, hl⟩ := hm.2.2 h
      unfold Leap at hl
      simp at hY
      omega) rfl
  have hs : sysDays y m d = Y / 400 * 146097 + (365 * (Y % 400) + Y % 400 / 4 - Y % 400 / 100 + r) - 719468 := by
    unfold sysDays
    rw [← hY, ← hmp]
    dsimp only
    rw [← hr]
    omega
  obtain ⟨doe, hdoe⟩ : ∃ doe, doe = 365 * (Y % 400) + Y % 400 / 4 - Y % 400 / 100 + r := ⟨_, rfl⟩
  rw [← hdoe] at hs hy
  have hb : 0 ≤ doe ∧ doe < 146097 := by
    refine ⟨by omega, ?_⟩
    by_cases hlast : Y % 400 = 399
    · omega
    · omega
  have e1 : (sysDays y m d + 719468) / 146097 = Y / 400 := by omega
  have e2 : (sysDays y m d + 719468) % 146097 = doe := by omega
  have e3 : doe - (365 * (Y % 400) + Y % 400 / 4 - Y % 400 / 100) = r := by omega
  unfold civil
  dsimp only
  rw [e1, e2, hy, e3, ← hm.1]
  have e4 : (r - (153 * mp + 2) / 5 + 1).toNat = d := by omega
  have e5 : (if mp < 10 then mp + 3 else mp - 9).toNat = m := by
    split_ifs at hmp ⊢ <;> omega
  rw [e4, e5]
  congr 1
  split_ifs at hY ⊢ <;> omega

theorem sysDays_surj (n : ℤ) : ∃ y m d, RealDate y m d ∧ sysDays y m d = n := by
  obtain ⟨Y, r, h0, h1, h2, h3, hl, he⟩ := yearOf_exists ((n + 719468) % 146097) (by omega) (by omega)
  obtain ⟨mp, d, hm0, hm1, hd, hr, hmp⟩ := monthOf r h2 h3
  obtain ⟨m, hm⟩ : ∃ m : ℕ, m = (if mp < 10 then mp + 3 else mp - 9).toNat := ⟨_, rfl⟩
  refine ⟨Y + (n + 719468) / 146097 * 400 + (if m ≤ 2 then 1 else 0), m, d.toNat, ?_, ?_⟩
  · obtain rfl | rfl | rfl | rfl | rfl | rfl | rfl | rfl | rfl | rfl | rfl | rfl : mp = 0 ∨ mp = 1 ∨ mp = 2 ∨ mp = 3 ∨
      mp = 4 ∨ mp = 5 ∨ mp = 6 ∨ mp = 7 ∨ mp = 8 ∨ mp = 9 ∨ mp = 10 ∨ mp = 11 := by omega
    all_goals
      simp at hm
      subst hm
      simp [RealDate, monthLength]
      try split_ifs with hL
      all_goals try unfold Leap at *
      all_goals omega
  · have hdn : ((d.toNat : ℕ) : ℤ) = d := by omega
    have hy : (if m ≤ 2 then Y + (n + 719468) / 146097 * 400 + (if m ≤ 2 then 1 else 0) - 1
        else Y + (n + 719468) / 146097 * 400 + (if m ≤ 2 then 1 else 0)) = Y + (n + 719468) / 146097 * 400 := by
      split_ifs <;> omega
    have hp : (if 2 < m then (m : ℤ) - 3 else m + 9) = mp := by split_ifs at hm ⊢ <;> omega
    unfold sysDays
    rw [hy, hp, hdn]
    dsimp only
    rw [← hr]
    have e1 : (Y + (n + 719468) / 146097 * 400) / 400 = (n + 719468) / 146097 := by omega
    have e2 : (Y + (n + 719468) / 146097 * 400) % 400 = Y := by omega
    rw [e1, e2]
    omega

theorem civil_real (n : ℤ) : RealDate (civil n).1 (civil n).2.1 (civil n).2.2 ∧
    sysDays (civil n).1 (civil n).2.1 (civil n).2.2 = n := by
  obtain ⟨y, m, d, h, rfl⟩ := sysDays_surj n
  rw [civil_sysDays h]
  exact ⟨h, rfl⟩

end Fimex.Time
