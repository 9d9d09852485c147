import Verif.Grib.GridModel
import Mathlib.Tactic.Linarith
import Mathlib.Tactic.Ring
import Mathlib.Tactic.Push
import Mathlib.Tactic.FieldSimp
import Mathlib.Tactic.NormNum

/-!
# Lemmas about grids in GRIB messages
-/

namespace Fimex.GribGrid

variable {K : Type} [Field K] [LinearOrder K] [IsStrictOrderedRing K]

/-! ## Loops -/

theorem up_spec (b s : K) : ∀ (n : ℕ) (x : K), ∃ k : ℕ, up b s n x = x + s * k ∧ (b - x ≤ s * n → b ≤ up b s n x) ∧
    (b ≤ x → up b s n x = x) ∧ (x < b → 0 < s → up b s n x < b + s) := by
  intro n
  induction n with
  | zero =>
    intro x
    exact ⟨0, by simp [up], fun h => by simp [up] at h ⊢; linarith, fun _ => rfl, fun h hs => by simp only [up]; linarith⟩
  | succ n ih =>
    intro x
    by_cases h : x < b
    · obtain ⟨k, h1, h2, h3, h4⟩ := ih (x + s)
      have e : up b s (n + 1) x = up b s n (x + s) := by simp [up, h]
      refine ⟨k + 1, by rw [e, h1]; push_cast; ring, fun h' => ?_, fun h' => absurd h (not_lt.2 h'), fun _ hs => ?_⟩
      · rw [e]
        apply h2
        push_cast at h'
        linarith
      · rw [e]
        by_cases h5 : x + s < b
        · exact h4 h5 hs
        · rw [h3 (not_lt.1 h5)]; linarith
    · have e : up b s (n + 1) x = x := by simp [up, h]
      exact ⟨0, by rw [e]; simp, fun _ => by rw [e]; exact not_lt.1 h, fun _ => e, fun h' => absurd h' h⟩

theorem down_spec (b s : K) : ∀ (n : ℕ) (x : K), ∃ k : ℕ, down b s n x = x - s * k ∧ (x - b ≤ s * n → down b s n x ≤ b) ∧
    (x ≤ b → down b s n x = x) ∧ (b < x → 0 < s → b - s < down b s n x) := by
  intro n
  induction n with
  | zero =>
    intro x
    exact ⟨0, by simp [down], fun h => by simp [down] at h ⊢; linarith, fun _ => rfl, fun h hs => by simp only [down]; linarith⟩
  | succ n ih =>
    intro x
    by_cases h : b < x
    · obtain ⟨k, h1, h2, h3, h4⟩ := ih (x - s)
      have e : down b s (n + 1) x = down b s n (x - s) := by simp [down, h]
      refine ⟨k + 1, by rw [e, h1]; push_cast; ring, fun h' => ?_, fun h' => absurd h (not_lt.2 h'), fun _ hs => ?_⟩
      · rw [e]
        apply h2
        push_cast at h'
        linarith
      · rw [e]
        by_cases h5 : b < x - s
        · exact h4 h5 hs
        · rw [h3 (not_lt.1 h5)]; linarith
    · have e : down b s (n + 1) x = x := by simp [down, h]
      exact ⟨0, by rw [e]; simp, fun _ => by rw [e]; exact not_lt.1 h, fun _ => e, fun h' => absurd h' h⟩

variable [FloorRing K]

theorem rounds_ge (b x : K) : |b - x| ≤ (rounds b x : K) := by
  unfold rounds
  have h : (0 : ℤ) ≤ ⌈|b - x|⌉ := Int.ceil_nonneg (abs_nonneg _)
  calc |b - x| ≤ ((⌈|b - x|⌉ : ℤ) : K) := Int.le_ceil _
    _ = ((⌈|b - x|⌉.toNat : ℤ) : K) := by rw [Int.toNat_of_nonneg h]
    _ = _ := by norm_cast

theorem rounds_mul (b x s : K) (hs : 1 ≤ s) : |b - x| ≤ s * (rounds b x : K) := by
  have h1 := rounds_ge b x
  have h2 : (0 : K) ≤ (rounds b x : K) := Nat.cast_nonneg _
  nlinarith

theorem upward_spec (x : K) : 0 ≤ upward x ∧ (0 ≤ x → upward x = x) ∧ (x < 0 → upward x < 360) ∧ ∃ k : ℕ, upward x = x + 360 * k := by
  obtain ⟨k, h1, h2, h3, h4⟩ := up_spec 0 360 (rounds 0 x) x
  refine ⟨h2 ?_, h3, fun h => ?_, k, h1⟩
  · exact le_trans (le_abs_self _) (rounds_mul 0 x 360 (by norm_num))
  · have := h4 h (by norm_num)
    simpa [upward] using this

theorem clampLon_spec (x : K) : 0 ≤ clampLon x ∧ clampLon x ≤ 360 ∧ (0 ≤ x → x ≤ 360 → clampLon x = x) ∧
    ∃ k : ℤ, clampLon x = x + 360 * k := by
  obtain ⟨a1, a2, a3, k, hk⟩ := upward_spec x
  obtain ⟨j, h1, h2, h3, h4⟩ := down_spec 360 360 (rounds 360 (upward x)) (upward x)
  refine ⟨?_, h2 ?_, fun h h' => ?_, (k : ℤ) - (j : ℤ), ?_⟩
  · by_cases h : 360 < upward x
    · have := h4 h (by norm_num)
      simp only [clampLon]
      linarith
    · simp only [clampLon]
      rw [h3 (not_lt.1 h)]
      exact a1
  · have h5 := rounds_mul 360 (upward x) 360 (by norm_num)
    rw [abs_sub_comm] at h5
    exact le_trans (le_abs_self _) h5
  · have e := a2 h
    simp only [clampLon]
    rw [h3 (by rw [e]; exact h'), e]
  · simp only [clampLon]
    rw [h1, hk]
    push_cast
    ring

theorem norm180_spec (x : K) : -180 ≤ norm180 x ∧ norm180 x ≤ 180 ∧ (-180 ≤ x → x ≤ 180 → norm180 x = x) ∧
    ∃ k : ℤ, norm180 x = x + 360 * k := by
  obtain ⟨k, a1, a2, a3, a4⟩ := up_spec (-180) 360 (rounds (-180) x) x
  obtain ⟨j, h1, h2, h3, h4⟩ := down_spec 180 360 (rounds 180 (up (-180) 360 (rounds (-180) x) x)) (up (-180) 360 (rounds (-180) x) x)
  have a2' : -180 ≤ up (-180) 360 (rounds (-180) x) x :=
    a2 (le_trans (le_abs_self _) (rounds_mul (-180) x 360 (by norm_num)))
  refine ⟨?_, h2 ?_, fun h h' => ?_, (k : ℤ) - (j : ℤ), ?_⟩
  · by_cases h : 180 < up (-180) 360 (rounds (-180) x) x
    · have := h4 h (by norm_num)
      simp only [norm180]
      linarith
    · simp only [norm180]
      rw [h3 (not_lt.1 h)]
      exact a2'
  · have h5 := rounds_mul 180 (up (-180) 360 (rounds (-180) x) x) 360 (by norm_num)
    rw [abs_sub_comm] at h5
    exact le_trans (le_abs_self _) h5
  · have e := a3 h
    simp only [norm180]
    rw [h3 (by rw [e]; exact h'), e]
  · simp only [norm180]
    rw [h1, a1]
    push_cast
    ring

theorem southLat_spec (x : K) (h : x ≤ 90) : southLat x = -x := by
  obtain ⟨k, a1, a2, a3, a4⟩ := up_spec (-90) 180 (rounds (-90) (-1 * x)) (-1 * x)
  unfold southLat
  rw [a3 (by linarith)]
  ring

theorem toLong_int (z : ℤ) (h : -2 ^ 63 ≤ z ∧ z < 2 ^ 63) : toLong (z : K) = .ok z := by
  unfold toLong
  by_cases h' : (0 : K) ≤ (z : K)
  · rw [if_pos h', Int.floor_intCast]; exact if_pos h
  · rw [if_neg h', Int.ceil_intCast]; exact if_pos h

/-! ## Axes -/

/-- `n` values from `a` in steps of `d`. -/
def lin (a d : K) (n : ℕ) : List K := (List.range n).map fun (i : ℕ) => a + i * d

omit [LinearOrder K] [IsStrictOrderedRing K] [FloorRing K] in
@[simp] theorem lin_length (a d : K) (n : ℕ) : (lin a d n).length = n := by simp [lin]

omit [LinearOrder K] [IsStrictOrderedRing K] [FloorRing K] in
theorem lin_get (a d : K) (n i : ℕ) (h : i < n) : readAt (lin a d n) i = .ok (a + i * d) := by
  simp [readAt, lin, h]

omit [LinearOrder K] [IsStrictOrderedRing K] [FloorRing K] in
theorem steps_lin (a d b e : K) (n m : ℕ) (hn : 2 ≤ n) (hm : 2 ≤ m) :
    steps (lin a d n) (lin b e m) = .ok ⟨n, m, d, e⟩ := by
  unfold steps
  rw [lin_length, lin_length, if_neg (by omega), lin_get _ _ _ _ (by omega), lin_get _ _ _ _ (by omega),
    lin_get _ _ _ _ (by omega), lin_get _ _ _ _ (by omega)]
  simp

omit [LinearOrder K] [IsStrictOrderedRing K] [FloorRing K] in
theorem lin_get? (a d : K) (n i : ℕ) (h : i < n) : (lin a d n)[i]? = some (a + i * d) := by
  simp [lin, h]

/-! ## Keys -/

/-- A message has the keys the writer does not set; the increments count as given. -/
def Ready (h : Handle K) : Prop :=
  (∃ g, g ≠ 0 ∧ getLong h "ijDirectionIncrementGiven" = .ok g) ∧ (∃ v, getLong h "jPointsAreConsecutive" = .ok v) ∧
  ∃ v, getLong h "alternativeRowScanning" = .ok v

omit [Field K] [LinearOrder K] [IsStrictOrderedRing K] [FloorRing K] in
theorem get_set (h : Handle K) (k k' : String) (v : Val K) :
    get (set h k v) k' = if canon k' = canon k then some v else get h k' := by
  unfold get set
  rw [List.lookup_cons]
  by_cases e : canon k' = canon k
  · simp [e]
  · have e' : (canon k' == canon k) = false := by simpa using e
    rw [e']
    simp [e]

end Fimex.GribGrid
