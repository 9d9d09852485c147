import Mathlib.Order.Defs.LinearOrder

/-!
# Binary search on sorted ranges

`std::lower_bound`, `std::upper_bound`, `std::partition_point` halve the range on a predicate.
-/

namespace Fimex.Search

/-- The halving loop of the C++ standard library's `lower_bound`/`upper_bound` (`p i`: element `i`
belongs to the left part), on positions `[first, first+len)`. -/
def bsearch (p : Nat → Bool) (first len : Nat) : Nat :=
  if h : len = 0 then first
  else
    let half := len / 2
    let mid := first + half
    if p mid then bsearch p (mid + 1) (len - half - 1) else bsearch p first half
termination_by len
decreasing_by all_goals omega

/-- If the predicate holds on a prefix of the range, the search returns the end of that prefix. -/
theorem bsearch_spec (p : Nat → Bool) : ∀ (len first : Nat),
    (∀ i j, first ≤ i → i ≤ j → j < first + len → p j = true → p i = true) →
    first ≤ bsearch p first len ∧ bsearch p first len ≤ first + len ∧
    (∀ i, first ≤ i → i < bsearch p first len → p i = true) ∧
    (∀ i, bsearch p first len ≤ i → i < first + len → p i = false) := by
  intro len
  induction len using Nat.strongRecOn with
  | ind len ih =>
    intro first hm
    unfold bsearch
    split
    · rename_i h0
      refine ⟨Nat.le_refl _, by omega, fun i h1 h2 => by omega, fun i h1 h2 => by omega⟩
    · rename_i h0
      dsimp only
      cases hp : p (first + len / 2) with
      | true =>
        simp only [if_true]
        obtain ⟨a, b, c, d⟩ := ih (len - len / 2 - 1) (by omega) (first + len / 2 + 1)
          (fun i j h1 h2 h3 h4 => hm i j (by omega) h2 (by omega) h4)
        refine ⟨by omega, by omega, fun i h1 h2 => ?_, fun i h1 h2 => d i h1 (by omega)⟩
        by_cases hi : first + len / 2 + 1 ≤ i
        · exact c i hi h2
        · exact hm i (first + len / 2) h1 (by omega) (by omega) hp
      | false =>
        simp only [Bool.false_eq_true, if_false]
        obtain ⟨a, b, c, d⟩ := ih (len / 2) (by omega) first
          (fun i j h1 h2 h3 h4 => hm i j h1 h2 (by omega) h4)
        refine ⟨a, by omega, c, fun i h1 h2 => ?_⟩
        by_cases hi : i < first + len / 2
        · exact d i h1 hi
        · cases hpi : p i with
          | false => rfl
          | true =>
            rw [hm (first + len / 2) i (by omega) (by omega) h2 hpi] at hp
            cases hp

variable {K : Type} [LinearOrder K]

/-- `std::lower_bound(begin, end, x)` as a position. -/
def lowerBound (w : List K) (x : K) : Nat :=
  bsearch (fun i => match w[i]? with | some y => decide (y < x) | none => false) 0 w.length

/-- `std::upper_bound(begin, end, x)` as a position. -/
def upperBound (w : List K) (x : K) : Nat :=
  bsearch (fun i => match w[i]? with | some y => !decide (x < y) | none => false) 0 w.length

theorem sorted_le {w : List K} (hw : w.Pairwise (· ≤ ·)) {i j : Nat} (hi : i < w.length) (hj : j < w.length)
    (hij : i ≤ j) : w[i] ≤ w[j] := by
  rcases Nat.lt_or_eq_of_le hij with h | h
  · exact List.pairwise_iff_getElem.1 hw i j hi hj h
  · subst h; exact le_refl _

/-- On an ascending list `lower_bound` separates the elements below `x` from the others. -/
theorem lowerBound_spec (w : List K) (hw : w.Pairwise (· ≤ ·)) (x : K) :
    lowerBound w x ≤ w.length ∧ ∀ i (h : i < w.length), lowerBound w x ≤ i ↔ x ≤ w[i] := by
  obtain ⟨_, l1, l2, l3⟩ := bsearch_spec
    (fun i => match w[i]? with | some y => decide (y < x) | none => false) w.length 0 (by
      intro i j _ hij hj hp
      have hi : i < w.length := by omega
      have hj : j < w.length := by omega
      simp only [List.getElem?_eq_getElem hi, List.getElem?_eq_getElem hj, decide_eq_true_eq] at hp ⊢
      exact lt_of_le_of_lt (sorted_le hw hi hj hij) hp)
  refine ⟨by unfold lowerBound; omega, fun i h => ⟨fun hle => ?_, fun hle => ?_⟩⟩
  · have := l3 i hle (by omega)
    simpa [List.getElem?_eq_getElem h] using this
  · apply Nat.le_of_not_lt
    intro hc
    have := l2 i (by omega) hc
    simp only [List.getElem?_eq_getElem h, decide_eq_true_eq] at this
    exact absurd hle (not_le.2 this)

/-- On an ascending list `upper_bound` separates the elements up to `x` from the others. -/
theorem upperBound_spec (w : List K) (hw : w.Pairwise (· ≤ ·)) (x : K) :
    upperBound w x ≤ w.length ∧ ∀ i (h : i < w.length), i < upperBound w x ↔ w[i] ≤ x := by
  obtain ⟨_, u1, u2, u3⟩ := bsearch_spec
    (fun i => match w[i]? with | some y => !decide (x < y) | none => false) w.length 0 (by
      intro i j _ hij hj hp
      have hi : i < w.length := by omega
      have hj : j < w.length := by omega
      simp only [List.getElem?_eq_getElem hi, List.getElem?_eq_getElem hj, Bool.not_eq_true',
        decide_eq_false_iff_not, not_lt] at hp ⊢
      exact le_trans (sorted_le hw hi hj hij) hp)
  refine ⟨by unfold upperBound; omega, fun i h => ⟨fun hlt => ?_, fun hle => ?_⟩⟩
  · have := u2 i (by omega) hlt
    simpa [List.getElem?_eq_getElem h] using this
  · apply Nat.lt_of_not_le
    intro hc
    have := u3 i hc (by omega)
    simp only [List.getElem?_eq_getElem h, Bool.not_eq_false', decide_eq_true_eq] at this
    exact absurd hle (not_le.2 this)

end Fimex.Search
