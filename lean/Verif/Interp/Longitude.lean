import Verif.Basic
import Mathlib.Algebra.Order.Archimedean.Basic
import Mathlib.Algebra.Order.Field.Basic
import Mathlib.Data.Rat.Floor
import Mathlib.Tactic.Linarith
import Mathlib.Tactic.Ring
import Mathlib.Tactic.Push

/-!
# Normalisation of longitudes

Model of `normalizeLongitude180`, `include/fimex/MathUtils.h:135-150`, with C60.  Adding and subtracting 360 are
parameters (exact, or rounded as for `double`); a loop gets a number of rounds it may take, running out of it gives `none`.
-/

namespace Fimex.Longitude

variable {K : Type} [Field K] [LinearOrder K] [IsStrictOrderedRing K]

/-! ## Model -/

/-- include/fimex/MathUtils.h:143-145. -/
def loopUp (add : K → K) : ℕ → K → Option K
  | fuel, x => if x < -180 then (match fuel with | 0 => none | f + 1 => loopUp add f (add x)) else some x

/-- include/fimex/MathUtils.h:146-148. -/
def loopDown (sub : K → K) : ℕ → K → Option K
  | fuel, x => if x > 180 then (match fuel with | 0 => none | f + 1 => loopDown sub f (sub x)) else some x

/-- include/fimex/MathUtils.h:140-150 `normalizeLongitude180`. -/
def normalize (add sub : K → K) (fuel : ℕ) (x : K) : Option K := (loopUp add fuel x).bind (loopDown sub fuel)

/-- With exact arithmetic. -/
def normalizeExact (fuel : ℕ) (x : K) : Option K := normalize (· + 360) (· - 360) fuel x

/-! ## Theorems -/

omit [IsStrictOrderedRing K] in
theorem loopUp_zero (add : K → K) (x : K) : loopUp add 0 x = if x < -180 then none else some x := rfl

omit [IsStrictOrderedRing K] in
theorem loopUp_succ (add : K → K) (f : ℕ) (x : K) :
    loopUp add (f + 1) x = if x < -180 then loopUp add f (add x) else some x := rfl

omit [IsStrictOrderedRing K] in
theorem loopDown_zero (sub : K → K) (x : K) : loopDown sub 0 x = if x > 180 then none else some x := rfl

omit [IsStrictOrderedRing K] in
theorem loopDown_succ (sub : K → K) (f : ℕ) (x : K) :
    loopDown sub (f + 1) x = if x > 180 then loopDown sub f (sub x) else some x := rfl

theorem loopUp_spec (f : ℕ) : ∀ x : K, -180 - 360 * (f : K) ≤ x →
    ∃ (y : K) (n : ℕ), loopUp (· + 360) f x = some y ∧ y = x + 360 * n ∧ -180 ≤ y ∧ (x < -180 → y < 180) ∧
      (-180 ≤ x → y = x) := by
  induction f with
  | zero =>
    intro x hx
    have hx' : ¬ x < -180 := by simp at hx; linarith
    exact ⟨x, 0, by rw [loopUp_zero, if_neg hx'], by simp, by linarith, fun h => absurd h hx', fun _ => rfl⟩
  | succ f ih =>
    intro x hx
    rw [loopUp_succ]
    by_cases h : x < -180
    · rw [if_pos h]
      obtain ⟨y, n, h1, h2, h3, h4, h5⟩ := ih (x + 360) (by push_cast at hx; linarith)
      refine ⟨y, n + 1, h1, by rw [h2]; push_cast; ring, h3, fun _ => ?_, fun h' => absurd h (not_lt.2 h')⟩
      by_cases h6 : x + 360 < -180
      · exact h4 h6
      · rw [h5 (not_lt.1 h6)]; linarith
    · rw [if_neg h]
      exact ⟨x, 0, rfl, by simp, not_lt.1 h, fun h' => absurd h' h, fun _ => rfl⟩

theorem loopDown_spec (f : ℕ) : ∀ x : K, x ≤ 180 + 360 * (f : K) →
    ∃ (y : K) (n : ℕ), loopDown (· - 360) f x = some y ∧ y = x - 360 * n ∧ y ≤ 180 ∧ (180 < x → -180 < y) ∧
      (x ≤ 180 → y = x) := by
  induction f with
  | zero =>
    intro x hx
    have hx' : ¬ x > 180 := by simp at hx; exact not_lt.2 hx
    exact ⟨x, 0, by rw [loopDown_zero, if_neg hx'], by simp, not_lt.1 hx', fun h => absurd h hx', fun _ => rfl⟩
  | succ f ih =>
    intro x hx
    rw [loopDown_succ]
    by_cases h : x > 180
    · rw [if_pos h]
      obtain ⟨y, n, h1, h2, h3, h4, h5⟩ := ih (x - 360) (by push_cast at hx; linarith)
      refine ⟨y, n + 1, h1, by rw [h2]; push_cast; ring, h3, fun _ => ?_, fun h' => absurd h (not_lt.2 h')⟩
      by_cases h6 : 180 < x - 360
      · exact h4 h6
      · rw [h5 (not_lt.1 h6)]; linarith
    · rw [if_neg h]
      exact ⟨x, 0, rfl, by simp, not_lt.1 h, fun h' => absurd h' h, fun _ => rfl⟩

/-- **C60.** With exact arithmetic the normalisation ends for every longitude and returns a longitude between -180 and 180
that differs from it by a multiple of 360; values already there are unchanged; -180 is returned only for a longitude of at
most -180, and 180 only for one above -180. -/
theorem C60_normalised [Archimedean K] (x : K) : ∃ (y : K) (n : ℤ) (fuel : ℕ),
    (∀ f ≥ fuel, normalizeExact f x = some y) ∧ y = x + 360 * n ∧ -180 ≤ y ∧ y ≤ 180 ∧
    (-180 ≤ x → x ≤ 180 → y = x) ∧ (-180 < x → -180 < y) ∧ (x ≤ -180 → y < 180) := by
  obtain ⟨N, hN⟩ := exists_nat_ge (|x|)
  have hN0 : (0 : K) ≤ N := Nat.cast_nonneg N
  have hx1 : x ≤ N := le_trans (le_abs_self x) hN
  have hx2 : -(N : K) ≤ x := by linarith [neg_abs_le x]
  have key : ∀ f ≥ N, ∃ (y : K) (n : ℤ), normalizeExact f x = some y ∧ y = x + 360 * n ∧ -180 ≤ y ∧ y ≤ 180 ∧
      (-180 ≤ x → x ≤ 180 → y = x) ∧ (-180 < x → -180 < y) ∧ (x ≤ -180 → y < 180) := by
    intro f hf
    have hf' : (N : K) ≤ f := by exact_mod_cast hf
    obtain ⟨a, n, a1, a2, a3, a4, a5⟩ := loopUp_spec f x (by linarith)
    have ha : a ≤ 180 + 360 * (f : K) := by
      by_cases h : x < -180
      · linarith [a4 h]
      · rw [a5 (not_lt.1 h)]; linarith
    obtain ⟨y, m, b1, b2, b3, b4, b5⟩ := loopDown_spec f a ha
    have hy : -180 ≤ y := by
      by_cases h : 180 < a
      · exact (b4 h).le
      · rw [b5 (not_lt.1 h)]; exact a3
    refine ⟨y, (n : ℤ) - m, ?_, ?_, hy, b3, ?_, ?_, ?_⟩
    · unfold normalizeExact normalize
      rw [a1]
      exact b1
    · rw [b2, a2]; push_cast; ring
    · intro h1 h2
      rw [b5 (by rw [a5 h1]; exact h2), a5 h1]
    · intro h1
      have := a5 h1.le
      by_cases h : 180 < a
      · exact b4 h
      · rw [b5 (not_lt.1 h), this]; exact h1
    · intro h1
      rcases eq_or_lt_of_le h1 with h1 | h1
      · have := a5 h1.ge
        rw [b5 (by linarith), this]; linarith
      · rw [b5 (a4 h1).le]; exact a4 h1
  obtain ⟨y, n, h1, h2⟩ := key N (le_refl N)
  refine ⟨y, n, N, ?_, h2⟩
  intro f hf
  obtain ⟨y', n', h1', h2', h3', h4', h5', h6', h7'⟩ := key f hf
  obtain ⟨h2a, h3, h4, h5, h6, h7⟩ := h2
  rw [h1']
  -- two results differ by a multiple of 360 and are both in the range
  have e : y' - y = 360 * ((n' - n : ℤ) : K) := by rw [h2', h2a]; push_cast; ring
  have hz : n' - n = 0 := by
    by_cases hx : -180 < x
    · have p1 := h6 hx
      have p2 := h6' hx
      have q1 : ((n' - n : ℤ) : K) < 1 := by linarith
      have q2 : (-1 : K) < ((n' - n : ℤ) : K) := by linarith
      have q1' : (n' - n) < 1 := by exact_mod_cast q1
      have q2' : -1 < (n' - n) := by exact_mod_cast q2
      omega
    · have p1 := h7 (not_lt.1 hx)
      have p2 := h7' (not_lt.1 hx)
      have q1 : ((n' - n : ℤ) : K) < 1 := by linarith
      have q2 : (-1 : K) < ((n' - n : ℤ) : K) := by linarith
      have q1' : (n' - n) < 1 := by exact_mod_cast q1
      have q2' : -1 < (n' - n) := by exact_mod_cast q2
      omega
  rw [hz] at e
  congr 1
  simp at e
  linarith

example : normalizeExact 10 (725 : ℚ) = some 5 ∧ normalizeExact 10 (-190 : ℚ) = some 170 := by decide +kernel

/-- The same meridian has two normal forms. -/
theorem C60_two_normal_forms : normalizeExact 10 (-180 : ℚ) = some (-180) ∧ normalizeExact 10 (180 : ℚ) = some 180 ∧
    normalizeExact 10 (-540 : ℚ) = some (-180) ∧ normalizeExact 10 (540 : ℚ) = some 180 := by decide +kernel

omit [IsStrictOrderedRing K] in
/-- With rounded arithmetic the normalisation never ends for a value below -180 (or above 180) so large that 360 is
absorbed by rounding, infinity included. -/
theorem C60_absorbed_never_ends (add sub : K → K) (x : K) :
    (x < -180 → add x = x → ∀ fuel, normalize add sub fuel x = none) ∧
    (x > 180 → ¬ x < -180 → sub x = x → ∀ fuel, normalize add sub fuel x = none) := by
  constructor
  · intro h1 h2 fuel
    have : loopUp add fuel x = none := by
      induction fuel with
      | zero => rw [loopUp_zero, if_pos h1]
      | succ f ih => rw [loopUp_succ, if_pos h1, h2, ih]
    unfold normalize
    rw [this]; rfl
  · intro h1 h1' h2 fuel
    have h3 : loopUp add fuel x = some x := by
      cases fuel with
      | zero => rw [loopUp_zero, if_neg h1']
      | succ f => rw [loopUp_succ, if_neg h1']
    have : loopDown sub fuel x = none := by
      clear h3
      induction fuel with
      | zero => rw [loopDown_zero, if_pos h1]
      | succ f ih => rw [loopDown_succ, if_pos h1, h2, ih]
    unfold normalize
    rw [h3]
    exact this

/-- Addition rounded to 3 significant bits absorbs 360 in 8192: such an operation exists. -/
example : let sub : ℚ → ℚ := fun x => ((x - 360) / 2048 + 1 / 2).floor * 2048
    sub 8192 = 8192 ∧ (8192 : ℚ) > 180 ∧ ¬ (8192 : ℚ) < -180 := by decide +kernel

end Fimex.Longitude
