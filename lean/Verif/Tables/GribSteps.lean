import Verif.Basic
import Mathlib.Data.Nat.Notation
import Mathlib.Tactic.Cases

/-!
# GRIB step units

Model of `src/io/grib/GribUtils.cc:75-210`, with C55.  `unsigned long` has 64 bits; no operation leaves the range.
-/

namespace Fimex.Tables

/-! ## Model -/

/-- src/io/grib/GribUtils.cc:75-106 `gribStepUnits2seconds`. -/
def stepUnits2seconds (u : String) : Res ℕ :=
  if u = "s" then .ok 1
  else if u = "m" then .ok 60
  else if u = "h" then .ok (60 * 60)
  else if u = "3h" then .ok (3 * 60 * 60)
  else if u = "6h" then .ok (6 * 60 * 60)
  else if u = "12h" then .ok (12 * 60 * 60)
  else if u = "D" then .ok (24 * 60 * 60)
  else if u = "M" then .ok (24 * 60 * 60 * 30)
  else if u = "Y" then .ok (24 * 60 * 60 * 365)
  else if u = "10Y" then .ok (24 * 60 * 60 * 365 * 10)
  else if u = "30Y" then .ok (24 * 60 * 60 * 365 * 30)
  else if u = "C" then .ok (24 * 60 * 60 * 365 * 100)
  else .throws

/-- src/io/grib/GribUtils.cc:108-142 `gribSeconds2stepUnits`. -/
def seconds2stepUnits (seconds : ℕ) : Res String :=
  if seconds ≤ 0 then .throws
  else if seconds % (24 * 60 * 60 * 365 * 100) = 0 then .ok "C"
  else if seconds % (24 * 60 * 60 * 365 * 30) = 0 then .ok "30Y"
  else if seconds % (24 * 60 * 60 * 365 * 10) = 0 then .ok "10Y"
  else if seconds % (24 * 60 * 60 * 365) = 0 then .ok "Y"
  else if seconds % (24 * 60 * 60 * 30) = 0 then .ok "M"
  else if seconds % (24 * 60 * 60) = 0 then .ok "D"
  else if seconds % (12 * 60 * 60) = 0 then .ok "12h"
  else if seconds % (6 * 60 * 60) = 0 then .ok "6h"
  else if seconds % (3 * 60 * 60) = 0 then .ok "3h"
  else if seconds % (60 * 60) = 0 then .ok "h"
  else if seconds % 60 = 0 then .ok "m"
  else .ok "s"

/-- src/io/grib/GribUtils.cc:158-187 `gribStepUnitsFromText`. -/
def stepUnitsFromText (u : String) : Res ℕ :=
  if u = "s" then .ok 13
  else if u = "m" then .ok 0
  else if u = "h" then .ok 1
  else if u = "3h" then .ok 10
  else if u = "6h" then .ok 11
  else if u = "12h" then .ok 12
  else if u = "D" then .ok 2
  else if u = "M" then .ok 3
  else if u = "Y" then .ok 4
  else if u = "10Y" then .ok 5
  else if u = "30Y" then .ok 6
  else if u = "C" then .ok 7
  else .throws

/-- src/io/grib/GribUtils.cc:189-210 `gribStepUnitsToText`. -/
def stepUnitsToText (n : ℕ) : Res String :=
  match n with
  | 13 => .ok "s"
  | 0 => .ok "m"
  | 1 => .ok "h"
  | 10 => .ok "3h"
  | 11 => .ok "6h"
  | 12 => .ok "12h"
  | 2 => .ok "D"
  | 3 => .ok "M"
  | 4 => .ok "Y"
  | 5 => .ok "10Y"
  | 6 => .ok "30Y"
  | 7 => .ok "C"
  | _ => .throws

/-! ## Specification -/

/-- The units with their lengths in seconds. -/
def units : List (String × ℕ) :=
  [("s", 1), ("m", 60), ("h", 3600), ("3h", 10800), ("6h", 21600), ("12h", 43200), ("D", 86400), ("M", 2592000),
   ("Y", 31536000), ("10Y", 315360000), ("30Y", 946080000), ("C", 3153600000)]

/-- Code table 4.4 of GRIB2. -/
def codes : List (ℕ × String) :=
  [(0, "m"), (1, "h"), (2, "D"), (3, "M"), (4, "Y"), (5, "10Y"), (6, "30Y"), (7, "C"), (10, "3h"), (11, "6h"), (12, "12h"),
   (13, "s")]

/-! ## Theorems -/

/-- **C55.** The unit chosen for a positive number of seconds divides it, and no longer unit does; without seconds the call
raises. -/
theorem C55_longest_dividing_unit (n : ℕ) :
    (n = 0 → seconds2stepUnits n = .throws) ∧
    (0 < n → ∃ u s, seconds2stepUnits n = .ok u ∧ (u, s) ∈ units ∧ s ∣ n ∧ ∀ u' s', (u', s') ∈ units → s' ∣ n → s' ≤ s) := by
  constructor
  · rintro rfl; decide
  · intro hn
    have key : ∀ u s, seconds2stepUnits n = .ok u → (u, s) ∈ units → s ∣ n →
        (∀ p ∈ units, p.2 ∣ n → p.2 ≤ s) →
        ∃ u s, seconds2stepUnits n = .ok u ∧ (u, s) ∈ units ∧ s ∣ n ∧ ∀ u' s', (u', s') ∈ units → s' ∣ n → s' ≤ s :=
      fun u s h1 h2 h3 h4 => ⟨u, s, h1, h2, h3, fun u' s' hm hd => h4 (u', s') hm hd⟩
    have hall : ∀ s, (∀ p ∈ units, p.2 ∣ n → p.2 ≤ s) ↔
        ((1 ∣ n → 1 ≤ s) ∧ (60 ∣ n → 60 ≤ s) ∧ (3600 ∣ n → 3600 ≤ s) ∧ (10800 ∣ n → 10800 ≤ s) ∧ (21600 ∣ n → 21600 ≤ s) ∧
        (43200 ∣ n → 43200 ≤ s) ∧ (86400 ∣ n → 86400 ≤ s) ∧ (2592000 ∣ n → 2592000 ≤ s) ∧ (31536000 ∣ n → 31536000 ≤ s) ∧
        (315360000 ∣ n → 315360000 ≤ s) ∧ (946080000 ∣ n → 946080000 ≤ s) ∧ (3153600000 ∣ n → 3153600000 ≤ s)) := by
      intro s
      simp only [units, List.mem_cons, List.not_mem_nil, or_false, forall_eq_or_imp, forall_eq]
    unfold seconds2stepUnits at key
    rw [if_neg (by omega)] at key
    unfold seconds2stepUnits
    rw [if_neg (by omega)]
    by_cases h1 : n % (24 * 60 * 60 * 365 * 100) = 0
    · exact key "C" 3153600000 (if_pos h1) (by decide) (by omega) ((hall _).2 (by omega))
    rw [if_neg h1] at key ⊢
    by_cases h2 : n % (24 * 60 * 60 * 365 * 30) = 0
    · exact key "30Y" 946080000 (if_pos h2) (by decide) (by omega) ((hall _).2 (by omega))
    rw [if_neg h2] at key ⊢
    by_cases h3 : n % (24 * 60 * 60 * 365 * 10) = 0
    · exact key "10Y" 315360000 (if_pos h3) (by decide) (by omega) ((hall _).2 (by omega))
    rw [if_neg h3] at key ⊢
    by_cases h4 : n % (24 * 60 * 60 * 365) = 0
    · exact key "Y" 31536000 (if_pos h4) (by decide) (by omega) ((hall _).2 (by omega))
    rw [if_neg h4] at key ⊢
    by_cases h5 : n % (24 * 60 * 60 * 30) = 0
    · exact key "M" 2592000 (if_pos h5) (by decide) (by omega) ((hall _).2 (by omega))
    rw [if_neg h5] at key ⊢
    by_cases h6 : n % (24 * 60 * 60) = 0
    · exact key "D" 86400 (if_pos h6) (by decide) (by omega) ((hall _).2 (by omega))
    rw [if_neg h6] at key ⊢
    by_cases h7 : n % (12 * 60 * 60) = 0
    · exact key "12h" 43200 (if_pos h7) (by decide) (by omega) ((hall _).2 (by omega))
    rw [if_neg h7] at key ⊢
    by_cases h8 : n % (6 * 60 * 60) = 0
    · exact key "6h" 21600 (if_pos h8) (by decide) (by omega) ((hall _).2 (by omega))
    rw [if_neg h8] at key ⊢
    by_cases h9 : n % (3 * 60 * 60) = 0
    · exact key "3h" 10800 (if_pos h9) (by decide) (by omega) ((hall _).2 (by omega))
    rw [if_neg h9] at key ⊢
    by_cases h10 : n % (60 * 60) = 0
    · exact key "h" 3600 (if_pos h10) (by decide) (by omega) ((hall _).2 (by omega))
    rw [if_neg h10] at key ⊢
    by_cases h11 : n % 60 = 0
    · exact key "m" 60 (if_pos h11) (by decide) (by omega) ((hall _).2 (by omega))
    rw [if_neg h11] at key ⊢
    exact key "s" 1 rfl (by decide) (by omega) ((hall _).2 (by omega))

example : seconds2stepUnits 21600 = .ok "6h" ∧ seconds2stepUnits 18000 = .ok "h" := by decide

/-- **C55.** A step in seconds is kept: it is the chosen unit's length times a whole number. -/
theorem C55_step_is_kept (n : ℕ) (h : 0 < n) : ∃ u s, seconds2stepUnits n = .ok u ∧ stepUnits2seconds u = .ok s ∧ n / s * s = n := by
  obtain ⟨u, s, h1, h2, h3, _⟩ := (C55_longest_dividing_unit n).2 h
  refine ⟨u, s, h1, ?_, Nat.div_mul_cancel h3⟩
  have hd : ∀ p ∈ units, stepUnits2seconds p.1 = .ok p.2 := by decide
  exact hd (u, s) h2

theorem ite_cases'' {α : Type} {p : Prop} [Decidable p] {a b x : α} (h : (if p then a else b) = x) :
    (p ∧ a = x) ∨ (¬ p ∧ b = x) := by
  by_cases hp : p
  · rw [if_pos hp] at h; exact Or.inl ⟨hp, h⟩
  · rw [if_neg hp] at h; exact Or.inr ⟨hp, h⟩

/-- **C55.** Codes and texts are those of the code table in both directions; everything else raises. -/
theorem C55_codes_and_texts (n : ℕ) (u : String) :
    (stepUnitsToText n = .ok u ↔ (n, u) ∈ codes) ∧ (stepUnitsFromText u = .ok n ↔ (n, u) ∈ codes) ∧
    stepUnitsToText n ≠ .ub ∧ stepUnitsFromText u ≠ .ub := by
  have hto : ∀ p ∈ codes, stepUnitsToText p.1 = .ok p.2 := by decide
  have hfrom : ∀ p ∈ codes, stepUnitsFromText p.2 = .ok p.1 := by decide
  refine ⟨⟨?_, fun h => hto _ h⟩, ⟨?_, fun h => hfrom _ h⟩, ?_, ?_⟩
  · intro h
    unfold stepUnitsToText at h
    split at h <;> first | (cases h; decide) | cases h
  · intro h
    unfold stepUnitsFromText at h
    iterate 12
      rcases ite_cases'' h with ⟨e, h⟩ | ⟨_, h⟩
      · cases h; subst e; decide
    cases h
  · unfold stepUnitsToText
    split <;> simp
  · intro h
    unfold stepUnitsFromText at h
    iterate 12
      rcases ite_cases'' h with ⟨e, h⟩ | ⟨_, h⟩
      · cases h
    cases h

/-- **C55.** So converting to the other and back is the identity, and texts of units have a length. -/
theorem C55_round_trip (n : ℕ) (u : String) :
    (stepUnitsToText n = .ok u → stepUnitsFromText u = .ok n) ∧ (stepUnitsFromText u = .ok n → stepUnitsToText n = .ok u) ∧
    (stepUnitsFromText u = .ok n → ∃ s, stepUnits2seconds u = .ok s ∧ 0 < s) := by
  have hc := C55_codes_and_texts n u
  refine ⟨fun h => hc.2.1.2 (hc.1.1 h), fun h => hc.1.2 (hc.2.1.1 h), fun h => ?_⟩
  have hm := hc.2.1.1 h
  have hd : ∀ p ∈ codes, ∃ q ∈ units, q.1 = p.2 ∧ stepUnits2seconds p.2 = .ok q.2 ∧ 0 < q.2 := by decide
  obtain ⟨q, _, _, h1, h2⟩ := hd _ hm
  exact ⟨q.2, h1, h2⟩

example : stepUnitsToText 11 = .ok "6h" ∧ stepUnitsFromText "6h" = .ok 11 ∧ stepUnitsToText 8 = .throws := by decide

end Fimex.Tables
