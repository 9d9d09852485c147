import Verif.Text.Dotted
import Verif.Text.Props
import Mathlib.Algebra.Order.Archimedean.Basic
import Mathlib.Data.Rat.Floor
import Mathlib.Tactic.Linarith
import Mathlib.Tactic.Ring
import Mathlib.Tactic.FieldSimp
import Mathlib.Tactic.NormNum

/-!
# Property C27: dotted number lists
-/

namespace Fimex.Text

section
variable {K : Type} [Field K] [LinearOrder K] [IsStrictOrderedRing K]

/-- `x` lies before `c` on the way with step `dist`, by more than the tolerance of `10⁻⁵` steps. -/
def Before (dist c x : K) : Prop :=
  (0 < dist ∧ x < c - dist / 100000) ∨ (dist < 0 ∧ c - dist / 100000 < x)

theorem cond_iff {dist : K} (hd : dist ≠ 0) (c x : K) :
    (x - c) * direction dist < direction dist * dist * -tol ↔ Before dist c x := by
  unfold direction Before tol
  by_cases h : 0 < dist
  · have hn : ¬ dist < 0 := not_lt.mpr h.le
    rw [if_pos h]
    simp only [h, hn, true_and, false_and, or_false]
    constructor
    · intro h1; linarith
    · intro h1; linarith
  · have hn : dist < 0 := lt_of_le_of_ne (not_lt.mp h) hd
    rw [if_neg h]
    simp only [h, hn, true_and, false_and, false_or]
    constructor
    · intro h1; linarith
    · intro h1; linarith

theorem expandLoop_run (c dist : K) (hd : dist ≠ 0) :
    ∀ (n : Nat) (x : K) (vals : List K) (fuel : Nat), n < fuel →
      (∀ j < n, Before dist c (x + j * dist)) → ¬ Before dist c (x + n * dist) →
      expandLoop c dist fuel x vals = some (vals ++ (List.range n).map fun j : ℕ => x + (j : K) * dist) := by
  intro n
  induction n with
  | zero =>
    intro x vals fuel hf _ h
    obtain ⟨f, rfl⟩ : ∃ f, fuel = f + 1 := ⟨fuel - 1, by omega⟩
    unfold expandLoop
    rw [if_neg (fun hc => h (by simpa using (cond_iff hd c x).mp hc))]
    simp
  | succ n ih =>
    intro x vals fuel hf hall h
    obtain ⟨f, rfl⟩ : ∃ f, fuel = f + 1 := ⟨fuel - 1, by omega⟩
    unfold expandLoop
    rw [if_pos ((cond_iff hd c x).mpr (by simpa using hall 0 (by omega)))]
    rw [ih (x + dist) (vals ++ [x]) f (by omega)]
    · rw [List.range_succ_eq_map, List.map_cons, List.map_map]
      simp only [List.append_assoc, List.cons_append, List.nil_append, Nat.cast_zero, zero_mul, add_zero]
      congr 3
      apply List.map_congr_left
      intro j _
      simp only [Function.comp]
      push_cast
      ring
    · intro j hj
      have := hall (j + 1) (by omega)
      rw [show x + dist + (j : K) * dist = x + ((j + 1 : Nat) : K) * dist by push_cast; ring]
      exact this
    · rw [show x + dist + (n : K) * dist = x + ((n + 1 : Nat) : K) * dist by push_cast; ring]
      exact h

/-- There is a first value of the progression which is not before `c`. -/
theorem exists_first [Archimedean K] (c dist x : K) (hd : dist ≠ 0) :
    ∃ n : Nat, (∀ j < n, Before dist c (x + (j : K) * dist)) ∧ ¬ Before dist c (x + (n : K) * dist) := by
  classical
  have hex : ∃ n : Nat, ¬ Before dist c (x + (n : K) * dist) := by
    obtain ⟨n, hn⟩ := exists_nat_gt ((c - x) / dist)
    refine ⟨n, ?_⟩
    rintro (⟨h1, h2⟩ | ⟨h1, h2⟩)
    · rw [div_lt_iff₀ h1] at hn
      linarith
    · rw [div_lt_iff_of_neg h1] at hn
      linarith
  refine ⟨Nat.find hex, ?_, Nat.find_spec hex⟩
  intro j hj
  by_contra hc
  exact Nat.find_min hex hj hc

/-- A token that stands for the number `v`. -/
def Stands (parse : List Char → Res K) (t : List Char) (v : K) : Prop :=
  ∃ t', trim t " \t\n\r".toList = .ok t' ∧ t' ≠ "...".toList ∧ parse t' = .ok v

theorem dottedLoop_plain (parse : List Char → Res K) (fuel : Nat) (t : List Char) (v : K)
    (h : Stands parse t v) (toks : List (List Char)) (vals : List K) :
    dottedLoop parse fuel (t :: toks) vals = dottedLoop parse fuel toks (vals ++ [v]) := by
  obtain ⟨t', h1, h2, h3⟩ := h
  conv_lhs => unfold dottedLoop
  rw [h1]
  dsimp only
  rw [if_neg h2, h3]

theorem dottedLoop_dots (parse : List Char → Res K) (fuel n : Nat) (td tc : List Char) (a b c : K)
    (toks : List (List Char)) (vals : List K)
    (htd : trim td " \t\n\r".toList = .ok "...".toList) (htc : parse tc = .ok c) (hab : b - a ≠ 0)
    (h1 : ∀ j < n, Before (b - a) c (b + (b - a) + (j : K) * (b - a)))
    (h2 : ¬ Before (b - a) c (b + (b - a) + (n : K) * (b - a))) (hf : n < fuel) :
    dottedLoop parse fuel (td :: tc :: toks) (vals ++ [a, b]) =
      dottedLoop parse fuel toks
        (vals ++ [a, b] ++ ((List.range n).map fun j : ℕ => b + (b - a) + (j : K) * (b - a)) ++ [c]) := by
  conv_lhs => unfold dottedLoop
  rw [htd]
  dsimp only
  rw [if_pos rfl, if_neg (by simp)]
  simp only [fromBack, List.reverse_append, List.reverse_cons, List.reverse_nil, List.nil_append,
    List.singleton_append, List.cons_append, List.getElem?_cons_zero, List.getElem?_cons_succ, htc]
  rw [expandLoop_run c (b - a) hab n _ _ _ hf h1 h2]

/-- C27 (part): `...` after two different numbers `a`, `b` and before `c` inserts
`b + (b-a), b + 2(b-a), …` as long as the value lies before `c` by more than `10⁻⁵` of the step, then
`c`; whatever comes before and after in the list.  The expansion ends.  Not covered: equal numbers
before the dots (see `C27_equal_numbers_never_end`), dots at the end (see `C27_trailing_dots_undefined`),
floating point rounding. -/
theorem C27_dots_expand_partial [Archimedean K] (parse : List Char → Res K) (td tc : List Char)
    (a b c : K) (hab : a ≠ b)
    (htd : trim td " \t\n\r".toList = .ok "...".toList) (htc : parse tc = .ok c) :
    ∃ n : Nat,
      (∀ j < n, Before (b - a) c (b + ((j + 1 : Nat) : K) * (b - a))) ∧
      ¬ Before (b - a) c (b + ((n + 1 : Nat) : K) * (b - a)) ∧
      ∀ (fuel : Nat) (vals : List K) (toks : List (List Char)), n < fuel →
        dottedLoop parse fuel (td :: tc :: toks) (vals ++ [a, b]) =
          dottedLoop parse fuel toks
            (vals ++ [a, b] ++ ((List.range n).map fun j : ℕ => b + ((j + 1 : Nat) : K) * (b - a)) ++ [c]) := by
  have hd : b - a ≠ 0 := sub_ne_zero.mpr (Ne.symm hab)
  obtain ⟨n, h1, h2⟩ := exists_first c (b - a) (b + (b - a)) hd
  have e : ∀ j : Nat, b + (b - a) + (j : K) * (b - a) = b + ((j + 1 : Nat) : K) * (b - a) := by
    intro j; push_cast; ring
  refine ⟨n, fun j hj => by rw [← e]; exact h1 j hj, by rw [← e]; exact h2, ?_⟩
  intro fuel vals toks hf
  rw [dottedLoop_dots parse fuel n td tc a b c toks vals htd htc hd h1 h2 hf]
  congr 3
  apply List.map_congr_left
  intro j _
  exact e j

/-- C27 for complete texts: `a,b,...,c` with `c = b + m (b-a)`, `m ≥ 1`, gives the whole arithmetic
progression from `a` to `c`. -/
theorem C27_progression (parse : List Char → Res K) (ta tb td tc : List Char) (a b c : K) (m fuel : Nat)
    (hab : a ≠ b) (hm : 1 ≤ m) (hc : c = b + (m : K) * (b - a))
    (hcomma : ∀ t ∈ [ta, tb, td, tc], t ≠ [] ∧ ',' ∉ t)
    (ha : Stands parse ta a) (hb : Stands parse tb b)
    (htd : trim td " \t\n\r".toList = .ok "...".toList) (htc : parse tc = .ok c)
    (hf : (join [ta, tb, td, tc] [',']).length + m < fuel) :
    tokenizeDotted parse fuel (join [ta, tb, td, tc] [',']) [','] =
      some (.ok ((List.range (m + 2)).map fun i : ℕ => a + (i : K) * (b - a))) := by
  have hd : b - a ≠ 0 := sub_ne_zero.mpr (Ne.symm hab)
  unfold tokenizeDotted
  rw [C26_tokenize_of_join [ta, tb, td, tc] [','] [','] fuel (by omega)
    (fun t ht => ⟨(hcomma t ht).1, fun x hx hm => (hcomma t ht).2 (by simp at hm; rw [← hm]; exact hx)⟩)
    (by simp) (by simp)]
  dsimp only
  rw [dottedLoop_plain parse fuel ta a ha, dottedLoop_plain parse fuel tb b hb]
  obtain ⟨k, rfl⟩ : ∃ k, m = k + 1 := ⟨m - 1, by omega⟩
  have key : ∀ j : Nat, b + (b - a) + (j : K) * (b - a) - c = ((j : K) - k) * (b - a) := by
    intro j; rw [hc]; push_cast; ring
  have hlt : ∀ j < k, Before (b - a) c (b + (b - a) + (j : K) * (b - a)) := by
    intro j hj
    have hjk : ((j : K) - k) ≤ -1 := by
      have : ((j + 1 : Nat) : K) ≤ (k : Nat) := by exact_mod_cast hj
      push_cast at this
      linarith
    rcases lt_or_gt_of_ne hd with hneg | hpos
    · right
      refine ⟨hneg, ?_⟩
      have h1 : (-1) * (b - a) ≤ ((j : K) - k) * (b - a) := mul_le_mul_of_nonpos_right hjk hneg.le
      have := key j
      linarith
    · left
      refine ⟨hpos, ?_⟩
      have h1 : ((j : K) - k) * (b - a) ≤ (-1) * (b - a) := mul_le_mul_of_nonneg_right hjk hpos.le
      have := key j
      linarith
  have hnot : ¬ Before (b - a) c (b + (b - a) + (k : K) * (b - a)) := by
    have := key k
    rw [sub_self, zero_mul] at this
    rintro (⟨h1, h2⟩ | ⟨h1, h2⟩) <;> linarith
  have := dottedLoop_dots parse fuel k td tc a b c [] [] htd htc hd hlt hnot (by omega)
  simp only [List.nil_append] at this
  rw [show ([] ++ [a] ++ [b] : List K) = [a, b] from rfl, this]
  unfold dottedLoop
  congr 2
  rw [List.range_succ_eq_map, List.map_cons, List.map_map, List.range_succ_eq_map, List.map_cons,
    List.map_map, List.range_succ, List.map_append]
  simp only [List.cons_append, List.nil_append, List.map_cons, List.map_nil, Nat.cast_zero, zero_mul,
    add_zero, Function.comp]
  congr 1
  · congr 1
    · push_cast; ring
    · congr 1
      · apply List.map_congr_left
        intro j _
        simp only [Function.comp_apply, Nat.succ_eq_add_one]
        push_cast; ring
      · rw [hc]
        push_cast
        congr 1
        ring

/-- C27 fails for equal numbers before the dots: with `c` below them the expansion never ends
(include/fimex/TokenizeDotted.h:63-66 with `dist == 0`, `direction == -1`). -/
theorem C27_equal_numbers_never_end (c x : K) (h : c < x) (fuel : Nat) (vals : List K) :
    expandLoop c 0 fuel x vals = none := by
  induction fuel generalizing vals with
  | zero => rfl
  | succ fuel ih =>
    unfold expandLoop
    have : (x - c) * direction (0 : K) < direction (0 : K) * 0 * -tol := by
      unfold direction
      rw [if_neg (lt_irrefl _)]
      simp
      exact h
    rw [if_pos this, add_zero]
    exact ih _

/-- C27: fewer than two numbers before the dots raise an exception. -/
theorem C27_dots_need_two_numbers (parse : List Char → Res K) (fuel : Nat) (td : List Char)
    (toks : List (List Char)) (vals : List K)
    (htd : trim td " \t\n\r".toList = .ok "...".toList) (hl : vals.length < 2) :
    dottedLoop parse fuel (td :: toks) vals = some .throws := by
  unfold dottedLoop
  rw [htd]
  dsimp only
  rw [if_pos rfl, if_pos hl]

end

/-- Conversion of digits to a rational number, for the examples. -/
def digits (s : List Char) : Res ℚ :=
  if s ≠ [] ∧ s.all Char.isDigit then
    .ok (s.foldl (fun (n : ℚ) c => 10 * n + ((c.toNat - 48 : Nat) : ℚ)) 0)
  else .throws

/-- C27 fails for the text `2,2,...,1`: the call never returns. -/
theorem C27_text_that_never_ends (fuel : Nat) (hf : 9 < fuel) :
    tokenizeDotted digits fuel "2,2,...,1".toList ",".toList = none := by
  unfold tokenizeDotted
  rw [C26_tokenize_is_words _ _ fuel (by simpa using hf)]
  rw [show words ",".toList.contains "2,2,...,1".toList = ["2".toList, "2".toList, "...".toList, "1".toList]
    by decide]
  dsimp only
  rw [dottedLoop_plain digits fuel "2".toList 2 ⟨"2".toList, by decide, by decide, by decide +kernel⟩,
    dottedLoop_plain digits fuel "2".toList 2 ⟨"2".toList, by decide, by decide, by decide +kernel⟩]
  unfold dottedLoop
  rw [show trim "...".toList " \t\n\r".toList = .ok "...".toList by decide]
  dsimp only
  rw [if_pos rfl, if_neg (by simp)]
  have h1 : digits "1".toList = .ok 1 := by decide +kernel
  simp only [h1, fromBack, List.nil_append, List.cons_append, List.reverse_cons, List.reverse_nil,
    List.getElem?_cons_zero, List.getElem?_cons_succ]
  rw [sub_self, C27_equal_numbers_never_end 1 (2 + 0) (by norm_num)]

/-- C27: dots at the end of the text have undefined behaviour: the iterator passes the end
(include/fimex/TokenizeDotted.h:47, 59). -/
theorem C27_trailing_dots_undefined :
    tokenizeDotted digits 100 "1,2,...".toList ",".toList = some .ub := by decide +kernel

/-- C27: a blank is allowed around every number, but not before the number after the dots: that token
is not trimmed (include/fimex/TokenizeDotted.h:60). -/
theorem C27_blank_after_dots_rejected :
    tokenizeDotted digits 100 "1, 2, ..., 4".toList ",".toList = some .throws ∧
    tokenizeDotted digits 100 "1, 2, ...,4".toList ",".toList = some (.ok [1, 2, 3, 4]) := by
  constructor <;> decide +kernel

example : tokenizeDotted digits 100 "9,7,...,1,5".toList ",".toList = some (.ok [9, 7, 5, 3, 1, 5]) := by
  decide +kernel
example : tokenizeDotted digits 100 "1,4,...,9".toList ",".toList = some (.ok [1, 4, 7, 9]) := by
  decide +kernel

end Fimex.Text
