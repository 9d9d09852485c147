import Verif.Basic
import Mathlib.Algebra.Order.Archimedean.Basic
import Mathlib.Algebra.Order.Field.Basic
import Mathlib.Algebra.Order.Group.Abs
import Mathlib.Data.Rat.Floor
import Mathlib.Algebra.Order.Ring.Rat
import Mathlib.Tactic.Linarith
import Mathlib.Tactic.ByContra
import Mathlib.Tactic.Ring

/-!
# The axis of a merged grid

Model of `CDMMergerPrivate::extendInnerAxis`, `src/CDMMerger.cc:244-288`, with C42.  Exact arithmetic; the axes are
given as their values in the common unit (two axes without a dimension of their own, or of which one only is unlimited,
raise before that).  A loop that may not end has a `fuel` argument and the outcome `none` when the fuel is used up.
-/

namespace Fimex.MergeAxis

variable {K : Type} [Field K] [LinearOrder K]

/-! ## Model -/

/-- src/CDMMergeUtils.h:61-64 `equal`, with the tolerance 1e-6 as `eps`. -/
def equal (eps a b : K) : Bool := decide (|a - b| < eps)

/-- src/CDMMerger.cc:266-273: all steps from the second value on. -/
def constantStep (eps step : K) : List K → Bool
  | a :: b :: rest => equal eps (b - a) step && constantStep eps step (b :: rest)
  | _ => true

/-- src/CDMMerger.cc:281-282 (with `-stepI`) and 285-286: values from `nO` on, while inside. -/
def extendLoop (step lo hi : K) : ℕ → K → Option (List K)
  | 0, _ => none
  | fuel + 1, nO =>
    if nO ≥ lo ∧ nO ≤ hi then (extendLoop step lo hi fuel (nO + step)).map (nO :: ·) else some []

/-- src/CDMMerger.cc:244-288 `extendInnerAxis`. -/
def extendInnerAxis (eps : K) (fuel : ℕ) (valuesI valuesO : List K) : Option (Res (List K)) :=
  match valuesI, valuesO with
  | i0 :: i1 :: restI, o0 :: o1 :: restO =>
    let stepI := i1 - i0
    let stepO := o1 - o0
    let lastI := (i1 :: restI).getLast (by simp)
    let lastO := (o1 :: restO).getLast (by simp)
    if constantStep eps stepI (i1 :: restI) = false then some .throws
    else if constantStep eps stepO (o1 :: restO) = false then some .throws
    else
      let minI := if stepI > 0 then i0 else lastI
      let minO := if stepO > 0 then o0 else lastO
      let maxI := if stepI < 0 then i0 else lastI
      let maxO := if stepO < 0 then o0 else lastO
      if minI < minO ∨ maxI > maxO then some .throws
      else
        match extendLoop (-stepI) minO maxO fuel (i0 - stepI), extendLoop stepI minO maxO fuel (lastI + stepI) with
        | some reverse, some forward => some (.ok (reverse.reverse ++ (i0 :: i1 :: restI) ++ forward))
        | _, _ => none
  | _, _ => some .throws

/-! ## Specification -/

/-- All steps of the axis are `step` up to the tolerance. -/
def Regular (eps step : K) (v : List K) : Prop :=
  ∀ (i : ℕ) (a b : K), v[i]? = some a → v[i + 1]? = some b → |b - a - step| < eps

/-- The values go strictly one way: with the sign of the step. -/
def Monotone (step : K) (v : List K) : Prop :=
  (0 < step ∧ v.Pairwise (· < ·)) ∨ (step < 0 ∧ v.Pairwise (· > ·))

/-- `ext` is the axis `v` continued in both directions with steps of `step`, as far as the range `[lo, hi]` goes and no
further: the next value at each end would be outside. -/
structure Extends (step lo hi : K) (v ext : List K) : Prop where
  run : ∃ l r, ext = l ++ v ++ r ∧ (∀ x ∈ l, lo ≤ x ∧ x ≤ hi) ∧ (∀ x ∈ r, lo ≤ x ∧ x ≤ hi)
  first : ∀ x, ext.head? = some x → ¬ (lo ≤ x - step ∧ x - step ≤ hi)
  last : ∀ x, ext.getLast? = some x → ¬ (lo ≤ x + step ∧ x + step ≤ hi)

/-! ## Theorems -/

variable [IsStrictOrderedRing K]

omit [IsStrictOrderedRing K] in
theorem extendLoop_spec (step lo hi : K) : ∀ (fuel : ℕ) (nO : K) (l : List K),
    extendLoop step lo hi fuel nO = some l →
    (∀ (i : ℕ) (x : K), l[i]? = some x → x = nO + i * step) ∧ (∀ x ∈ l, lo ≤ x ∧ x ≤ hi) ∧
    ¬ (lo ≤ nO + l.length * step ∧ nO + l.length * step ≤ hi) := by
  intro fuel
  induction fuel with
  | zero => intro nO l h; simp [extendLoop] at h
  | succ fuel ih =>
    intro nO l h
    unfold extendLoop at h
    by_cases hc : nO ≥ lo ∧ nO ≤ hi
    · rw [if_pos hc] at h
      cases hr : extendLoop step lo hi fuel (nO + step) with
      | none => rw [hr] at h; simp at h
      | some l' =>
        rw [hr] at h
        simp only [Option.map_some, Option.some.injEq] at h
        subst h
        obtain ⟨a, b, c⟩ := ih _ _ hr
        refine ⟨?_, ?_, ?_⟩
        · intro i x hx
          cases i with
          | zero => simp at hx; simp [hx]
          | succ i =>
            rw [a i x (by simpa using hx)]
            push_cast
            ring
        · intro x hx
          rcases List.mem_cons.1 hx with rfl | hx
          · exact hc
          · exact b x hx
        · have e : nO + ((nO :: l').length : K) * step = nO + step + l'.length * step := by
            simp only [List.length_cons]; push_cast; ring
          rw [e]
          exact c
    · rw [if_neg hc, Option.some.injEq] at h
      subst h
      refine ⟨fun i x hx => by simp at hx, fun x hx => by simp at hx, ?_⟩
      simp only [List.length_nil, Nat.cast_zero, zero_mul, add_zero]
      exact hc

omit [IsStrictOrderedRing K] in
theorem extendLoop_ends (step lo hi : K) : ∀ (n : ℕ) (nO : K),
    ¬ (lo ≤ nO + n * step ∧ nO + n * step ≤ hi) → ∀ fuel, n < fuel → ∃ l, extendLoop step lo hi fuel nO = some l := by
  intro n
  induction n with
  | zero =>
    intro nO h fuel hf
    obtain ⟨f, rfl⟩ : ∃ f, fuel = f + 1 := ⟨fuel - 1, by omega⟩
    simp only [Nat.cast_zero, zero_mul, add_zero] at h
    exact ⟨[], by unfold extendLoop; rw [if_neg h]⟩
  | succ n ih =>
    intro nO h fuel hf
    obtain ⟨f, rfl⟩ : ∃ f, fuel = f + 1 := ⟨fuel - 1, by omega⟩
    have h' : ¬ (lo ≤ nO + step + n * step ∧ nO + step + n * step ≤ hi) := by
      have e : nO + step + n * step = nO + ((n + 1 : ℕ) : K) * step := by push_cast; ring
      rw [e]; exact h
    obtain ⟨l, hl⟩ := ih (nO + step) h' f (by omega)
    unfold extendLoop
    by_cases hc : nO ≥ lo ∧ nO ≤ hi
    · rw [if_pos hc, hl]; exact ⟨_, rfl⟩
    · rw [if_neg hc]; exact ⟨_, rfl⟩

theorem leaves_range [Archimedean K] (step lo hi nO : K) (hs : step ≠ 0) :
    ∃ n : ℕ, ¬ (lo ≤ nO + n * step ∧ nO + n * step ≤ hi) := by
  rcases lt_or_gt_of_ne hs with h | h
  · obtain ⟨n, hn⟩ := Archimedean.arch (nO - lo + 1) (neg_pos.2 h)
    refine ⟨n, fun hc => ?_⟩
    rw [nsmul_eq_mul] at hn
    have : (n : K) * -step = -(n * step) := by ring
    rw [this] at hn
    linarith [hc.1]
  · obtain ⟨n, hn⟩ := Archimedean.arch (hi - nO + 1) h
    refine ⟨n, fun hc => ?_⟩
    rw [nsmul_eq_mul] at hn
    linarith [hc.2]

omit [IsStrictOrderedRing K] in
theorem constantStep_iff (eps step : K) : ∀ v : List K, constantStep eps step v = true ↔ Regular eps step v
  | [] => by simp [constantStep, Regular]
  | [a] => by
    simp only [constantStep, true_iff]
    intro i x y _ hy
    simp at hy
  | a :: b :: rest => by
    unfold constantStep
    rw [Bool.and_eq_true, constantStep_iff eps step (b :: rest)]
    constructor
    · rintro ⟨h1, h2⟩ i x y hx hy
      cases i with
      | zero =>
        simp at hx hy
        subst hx; subst hy
        simpa [equal] using h1
      | succ i => exact h2 i x y (by simpa using hx) (by simpa using hy)
    · intro h
      exact ⟨by simpa [equal] using h 0 a b (by simp) (by simp), fun i x y hx hy => h (i + 1) x y (by simpa using hx) (by simpa using hy)⟩

theorem regular_cons {eps : K} (heps : 0 < eps) (i0 i1 : K) (rest : List K) :
    Regular eps (i1 - i0) (i1 :: rest) ↔ Regular eps (i1 - i0) (i0 :: i1 :: rest) := by
  constructor
  · intro h i x y hx hy
    cases i with
    | zero =>
      simp at hx hy
      subst hx; subst hy
      simpa using heps
    | succ i => exact h i x y (by simpa using hx) (by simpa using hy)
  · intro h i x y hx hy
    exact h (i + 1) x y (by simpa using hx) (by simpa using hy)

omit [Field K] [IsStrictOrderedRing K] in
theorem ascending_bounds {v : List K} (hv : v.Pairwise (· < ·)) {f l : K} (hf : v.head? = some f)
    (hl : v.getLast? = some l) : ∀ x ∈ v, f ≤ x ∧ x ≤ l := by
  intro x hx
  constructor
  · cases v with
    | nil => simp at hx
    | cons a v =>
      simp at hf; subst hf
      rcases List.mem_cons.1 hx with rfl | hx
      · exact le_refl _
      · exact ((List.pairwise_cons.1 hv).1 x hx).le
  · obtain ⟨ys, rfl⟩ := List.getLast?_eq_some_iff.1 hl
    rcases List.mem_append.1 hx with h | h
    · exact ((List.pairwise_append.1 hv).2.2 x h l (by simp)).le
    · simp at h; rw [h]

omit [Field K] [IsStrictOrderedRing K] in
theorem descending_bounds {v : List K} (hv : v.Pairwise (· > ·)) {f l : K} (hf : v.head? = some f)
    (hl : v.getLast? = some l) : ∀ x ∈ v, l ≤ x ∧ x ≤ f := by
  intro x hx
  constructor
  · obtain ⟨ys, rfl⟩ := List.getLast?_eq_some_iff.1 hl
    rcases List.mem_append.1 hx with h | h
    · exact ((List.pairwise_append.1 hv).2.2 x h l (by simp)).le
    · simp at h; rw [h]
  · cases v with
    | nil => simp at hx
    | cons a v =>
      simp at hf; subst hf
      rcases List.mem_cons.1 hx with rfl | hx
      · exact le_refl _
      · exact ((List.pairwise_cons.1 hv).1 x hx).le

/-- What the code takes for the smallest and greatest value of a strictly monotone axis really is that. -/
theorem minmax_of_axis (a b : K) (rest : List K) (hm : Monotone (b - a) (a :: b :: rest)) :
    (∀ x ∈ a :: b :: rest, (if b - a > 0 then a else (b :: rest).getLast (by simp)) ≤ x ∧
      x ≤ (if b - a < 0 then a else (b :: rest).getLast (by simp))) ∧
    (if b - a > 0 then a else (b :: rest).getLast (by simp)) ∈ a :: b :: rest ∧
    (if b - a < 0 then a else (b :: rest).getLast (by simp)) ∈ a :: b :: rest := by
  have hl : (a :: b :: rest).getLast? = some ((b :: rest).getLast (by simp)) := by
    rw [List.getLast?_cons_cons, List.getLast?_eq_some_getLast (by simp)]
  have hml : (b :: rest).getLast (by simp) ∈ a :: b :: rest := List.mem_cons_of_mem _ (List.getLast_mem _)
  rcases hm with ⟨h, hp⟩ | ⟨h, hp⟩
  · rw [if_pos h, if_neg (not_lt.2 h.le)]
    exact ⟨ascending_bounds hp rfl hl, by simp, hml⟩
  · rw [if_neg (not_lt.2 h.le), if_pos h]
    exact ⟨descending_bounds hp rfl hl, hml, by simp⟩

theorem extended_regular {eps step : K} (heps : 0 < eps) (v l r : List K) (hv : Regular eps step v) (f z : K)
    (hf : v.head? = some f) (hz : v.getLast? = some z)
    (hl : ∀ (i : ℕ) (x : K), l[i]? = some x → x = f - step + i * -step)
    (hr : ∀ (i : ℕ) (x : K), r[i]? = some x → x = z + step + i * step) :
    Regular eps step (l.reverse ++ v ++ r) := by
  have hvl : 0 < v.length := by
    cases v with
    | nil => simp at hf
    | cons a v => simp
  have hf0 : v[0]? = some f := by rw [← List.head?_eq_getElem?]; exact hf
  have hz0 : v[v.length - 1]? = some z := by rw [← List.getLast?_eq_getElem?]; exact hz
  have hL : ∀ i x, i < l.length → (l.reverse ++ v ++ r)[i]? = some x → x = f - ((l.length : K) - i) * step := by
    intro i x hi hx
    rw [List.append_assoc, List.getElem?_append_left (by simpa using hi), List.getElem?_reverse hi] at hx
    rw [hl _ _ hx]
    have : ((l.length - 1 - i : ℕ) : K) = (l.length : K) - 1 - i := by
      rw [Nat.cast_sub (by omega), Nat.cast_sub (by omega), Nat.cast_one]
    rw [this]
    ring
  have hV : ∀ i, l.length ≤ i → i < l.length + v.length → (l.reverse ++ v ++ r)[i]? = v[i - l.length]? := by
    intro i h1 h2
    rw [List.append_assoc, List.getElem?_append_right (by simpa using h1), List.length_reverse,
      List.getElem?_append_left (by omega)]
  have hR : ∀ i x, l.length + v.length ≤ i → (l.reverse ++ v ++ r)[i]? = some x →
      x = z + ((i : K) - l.length - v.length + 1) * step := by
    intro i x hi hx
    rw [List.getElem?_append_right (by simpa using hi)] at hx
    rw [hr _ _ hx]
    have : ((i - (l.reverse ++ v).length : ℕ) : K) = (i : K) - l.length - v.length := by
      rw [List.length_append, List.length_reverse, Nat.cast_sub hi]
      push_cast; ring
    rw [this]
    ring
  intro i a b ha hb
  have zero : ∀ d : K, d = 0 → |d| < eps := by rintro d rfl; simpa using heps
  rcases Nat.lt_or_ge (i + 1) l.length with h1 | h1
  · rw [hL i a (by omega) ha, hL (i + 1) b h1 hb]
    apply zero
    push_cast; ring
  · rcases Nat.lt_or_ge i l.length with h2 | h2
    · have hi : i + 1 = l.length := by omega
      rw [hV (i + 1) (by omega) (by omega), hi, Nat.sub_self, hf0, Option.some.injEq] at hb
      rw [hL i a h2 ha, ← hb, ← hi]
      apply zero
      push_cast; ring
    · rcases Nat.lt_or_ge (i + 1) (l.length + v.length) with h3 | h3
      · rw [hV i h2 (by omega)] at ha
        rw [hV (i + 1) (by omega) h3, show i + 1 - l.length = (i - l.length) + 1 by omega] at hb
        exact hv _ a b ha hb
      · rcases Nat.lt_or_ge i (l.length + v.length) with h4 | h4
        · have hi : i - l.length = v.length - 1 := by omega
          rw [hV i h2 h4, hi, hz0, Option.some.injEq] at ha
          have e : ((i + 1 : ℕ) : K) = (l.length : K) + v.length := by
            rw [show i + 1 = l.length + v.length by omega]; push_cast; ring
          rw [hR (i + 1) b h3 hb, ← ha, e]
          apply zero
          ring
        · rw [hR i a h4 ha, hR (i + 1) b (by omega) hb]
          apply zero
          push_cast; ring

theorem extends_of (step lo hi : K) (v l r : List K) (f z : K) (hf : v.head? = some f) (hz : v.getLast? = some z)
    (hl : ∀ (i : ℕ) (x : K), l[i]? = some x → x = f - step + i * -step)
    (hl2 : ∀ x ∈ l, lo ≤ x ∧ x ≤ hi)
    (hl3 : ¬ (lo ≤ f - step + l.length * -step ∧ f - step + l.length * -step ≤ hi))
    (hr : ∀ (i : ℕ) (x : K), r[i]? = some x → x = z + step + i * step)
    (hr2 : ∀ x ∈ r, lo ≤ x ∧ x ≤ hi)
    (hr3 : ¬ (lo ≤ z + step + r.length * step ∧ z + step + r.length * step ≤ hi)) :
    Extends step lo hi v (l.reverse ++ v ++ r) := by
  refine ⟨⟨l.reverse, r, rfl, fun x hx => hl2 x (by simpa using hx), hr2⟩, ?_, ?_⟩
  · intro x hx
    rcases List.eq_nil_or_concat l with rfl | ⟨l', y, rfl⟩
    · have : x = f := by
        have h : (v ++ r).head? = some f := by
          cases v with
          | nil => simp at hf
          | cons a v => simpa using hf
        simpa [h, eq_comm] using hx
      subst this
      simpa using hl3
    · simp only [List.concat_eq_append, List.reverse_append, List.reverse_cons, List.reverse_nil, List.nil_append,
        List.cons_append, List.head?_cons, Option.some.injEq] at hx
      subst hx
      have hy := hl l'.length y (by simp)
      have e : y - step = f - step + ((l'.concat y).length : K) * -step := by
        rw [hy, List.length_concat]; push_cast; ring
      rw [e]
      exact hl3
  · intro x hx
    rcases List.eq_nil_or_concat r with rfl | ⟨r', y, rfl⟩
    · have : x = z := by
        rw [List.append_nil] at hx
        obtain ⟨ys, rfl⟩ := List.getLast?_eq_some_iff.1 hz
        rw [← List.append_assoc, List.getLast?_append_cons] at hx
        simpa [eq_comm] using hx
      subst this
      simpa using hr3
    · rw [List.concat_eq_append, ← List.append_assoc, List.getLast?_append_cons] at hx
      simp only [List.getLast?_singleton, Option.some.injEq] at hx
      subst hx
      have hy := hr r'.length y (by simp)
      have e : y + step = z + step + ((r'.concat y).length : K) * step := by
        rw [hy, List.length_concat]; push_cast; ring
      rw [e]
      exact hr3

/-- **C42.** For two strictly monotone axes with constant step (up to the tolerance), the inner one inside of the outer
one, the call ends and gives an axis with constant step that contains the inner values at a consecutive run, stays
within the range of the outer axis and has less than one step left at both ends. -/
theorem C42_extended_axis [Archimedean K] (eps : K) (heps : 0 < eps) (i0 i1 o0 o1 : K) (restI restO : List K)
    (hrI : Regular eps (i1 - i0) (i0 :: i1 :: restI)) (hrO : Regular eps (o1 - o0) (o0 :: o1 :: restO))
    (hmI : Monotone (i1 - i0) (i0 :: i1 :: restI)) (hmO : Monotone (o1 - o0) (o0 :: o1 :: restO))
    (lo hi : K) (hlo : lo ∈ o0 :: o1 :: restO) (hhi : hi ∈ o0 :: o1 :: restO)
    (hbound : ∀ x ∈ o0 :: o1 :: restO, lo ≤ x ∧ x ≤ hi)
    (hin : ∀ x ∈ i0 :: i1 :: restI, lo ≤ x ∧ x ≤ hi) :
    ∃ (ext : List K) (fuel0 : ℕ),
      (∀ fuel, fuel0 ≤ fuel → extendInnerAxis eps fuel (i0 :: i1 :: restI) (o0 :: o1 :: restO) = some (.ok ext)) ∧
      Regular eps (i1 - i0) ext ∧ Extends (i1 - i0) lo hi (i0 :: i1 :: restI) ext ∧ ∀ x ∈ ext, lo ≤ x ∧ x ≤ hi := by
  have hstep : i1 - i0 ≠ 0 := by
    rcases hmI with ⟨h, _⟩ | ⟨h, _⟩
    · exact h.ne'
    · exact h.ne
  obtain ⟨bO, mO1, mO2⟩ := minmax_of_axis o0 o1 restO hmO
  obtain ⟨bI, mI1, mI2⟩ := minmax_of_axis i0 i1 restI hmI
  set lastI := (i1 :: restI).getLast (by simp) with hlastI
  set lastO := (o1 :: restO).getLast (by simp) with hlastO
  have eminO : (if o1 - o0 > 0 then o0 else lastO) = lo := le_antisymm (bO lo hlo).1 (hbound _ mO1).1
  have emaxO : (if o1 - o0 < 0 then o0 else lastO) = hi := le_antisymm (hbound _ mO2).2 (bO hi hhi).2
  have hcond : ¬ ((if i1 - i0 > 0 then i0 else lastI) < lo ∨ (if i1 - i0 < 0 then i0 else lastI) > hi) := by
    rintro (h | h)
    · exact absurd h (not_lt.2 (hin _ mI1).1)
    · exact absurd h (not_lt.2 (hin _ mI2).2)
  obtain ⟨n1, hn1⟩ := leaves_range (-(i1 - i0)) lo hi (i0 - (i1 - i0)) (neg_ne_zero.2 hstep)
  obtain ⟨n2, hn2⟩ := leaves_range (i1 - i0) lo hi (lastI + (i1 - i0)) hstep
  have hz : (i0 :: i1 :: restI).getLast? = some lastI := by
    rw [List.getLast?_cons_cons, List.getLast?_eq_some_getLast (by simp)]
  have stable : ∀ (step nO : K) (n f1 f2 : ℕ) (l : List K), n < f1 → n < f2 →
      ¬ (lo ≤ nO + n * step ∧ nO + n * step ≤ hi) → extendLoop step lo hi f1 nO = some l →
      extendLoop step lo hi f2 nO = some l := by
    intro step nO n
    induction n generalizing nO with
    | zero =>
      intro f1 f2 l h1 h2 hno he
      obtain ⟨g1, rfl⟩ : ∃ g, f1 = g + 1 := ⟨f1 - 1, by omega⟩
      obtain ⟨g2, rfl⟩ : ∃ g, f2 = g + 1 := ⟨f2 - 1, by omega⟩
      simp only [Nat.cast_zero, zero_mul, add_zero] at hno
      unfold extendLoop at he ⊢
      rw [if_neg hno] at he ⊢
      exact he
    | succ n ih =>
      intro f1 f2 l h1 h2 hno he
      obtain ⟨g1, rfl⟩ : ∃ g, f1 = g + 1 := ⟨f1 - 1, by omega⟩
      obtain ⟨g2, rfl⟩ : ∃ g, f2 = g + 1 := ⟨f2 - 1, by omega⟩
      have h' : ¬ (lo ≤ nO + step + n * step ∧ nO + step + n * step ≤ hi) := by
        have e : nO + step + n * step = nO + ((n + 1 : ℕ) : K) * step := by push_cast; ring
        rw [e]; exact hno
      unfold extendLoop at he ⊢
      by_cases hc : nO ≥ lo ∧ nO ≤ hi
      · rw [if_pos hc] at he ⊢
        cases hr : extendLoop step lo hi g1 (nO + step) with
        | none => rw [hr] at he; simp at he
        | some l' =>
          rw [hr] at he
          rw [ih (nO + step) g1 g2 l' (by omega) (by omega) h' hr]
          exact he
      · rw [if_neg hc] at he ⊢
        exact he
  obtain ⟨l, hl⟩ := extendLoop_ends _ lo hi n1 _ hn1 (n1 + 1) (by omega)
  obtain ⟨r, hr⟩ := extendLoop_ends _ lo hi n2 _ hn2 (n2 + 1) (by omega)
  obtain ⟨l1, l2, l3⟩ := extendLoop_spec _ lo hi _ _ _ hl
  obtain ⟨r1, r2, r3⟩ := extendLoop_spec _ lo hi _ _ _ hr
  refine ⟨l.reverse ++ (i0 :: i1 :: restI) ++ r, max (n1 + 1) (n2 + 1), ?_, ?_, ?_, ?_⟩
  · intro fuel hfuel
    have c1 : constantStep eps (i1 - i0) (i1 :: restI) = true :=
      (constantStep_iff _ _ _).2 ((regular_cons heps _ _ _).2 hrI)
    have c2 : constantStep eps (o1 - o0) (o1 :: restO) = true :=
      (constantStep_iff _ _ _).2 ((regular_cons heps _ _ _).2 hrO)
    have s1 := stable _ _ n1 (n1 + 1) fuel l (by omega) (by omega) hn1 hl
    have s2 := stable _ _ n2 (n2 + 1) fuel r (by omega) (by omega) hn2 hr
    unfold extendInnerAxis
    dsimp only
    rw [if_neg (by rw [c1]; simp), if_neg (by rw [c2]; simp), ← hlastI, ← hlastO, eminO, emaxO, if_neg hcond, s1, s2]
  · exact extended_regular heps _ l r hrI i0 lastI rfl hz l1 r1
  · exact extends_of _ lo hi _ l r i0 lastI rfl hz l1 l2 l3 r1 r2 r3
  · intro x hx
    rcases List.mem_append.1 hx with hx | hx
    · rcases List.mem_append.1 hx with hx | hx
      · exact l2 x (by simpa using hx)
      · exact hin x hx
    · exact r2 x hx

example : extendInnerAxis (1 / 1000000 : ℚ) 10 [4, 6, 8] [1, 2, 3, 4, 5, 6, 7, 8, 9, 10, 11, 12, 13] =
    some (.ok [2, 4, 6, 8, 10, 12]) := by decide +kernel
example : extendInnerAxis (1 / 1000000 : ℚ) 10 [8, 6, 4] [0, 5, 10] = some (.ok [10, 8, 6, 4, 2, 0]) := by
  decide +kernel

/-- **C42.** Axes with fewer than two values, without constant step, or an inner axis that is not inside of the outer
one, raise. -/
theorem C42_refused (eps : K) (heps : 0 < eps) (fuel : ℕ) :
    (∀ valuesI valuesO : List K, valuesI.length < 2 ∨ valuesO.length < 2 →
      extendInnerAxis eps fuel valuesI valuesO = some .throws) ∧
    (∀ (i0 i1 o0 o1 : K) (restI restO : List K),
      ¬ Regular eps (i1 - i0) (i0 :: i1 :: restI) ∨ ¬ Regular eps (o1 - o0) (o0 :: o1 :: restO) →
      extendInnerAxis eps fuel (i0 :: i1 :: restI) (o0 :: o1 :: restO) = some .throws) ∧
    (∀ (i0 i1 o0 o1 : K) (restI restO : List K), Monotone (i1 - i0) (i0 :: i1 :: restI) →
      Monotone (o1 - o0) (o0 :: o1 :: restO) →
      (∃ x ∈ i0 :: i1 :: restI, (∀ y ∈ o0 :: o1 :: restO, x < y) ∨ (∀ y ∈ o0 :: o1 :: restO, y < x)) →
      extendInnerAxis eps fuel (i0 :: i1 :: restI) (o0 :: o1 :: restO) = some .throws) := by
  refine ⟨?_, ?_, ?_⟩
  · intro vI vO h
    unfold extendInnerAxis
    split
    · exfalso
      simp only [List.length_cons] at h
      omega
    · rfl
  · intro i0 i1 o0 o1 restI restO h
    unfold extendInnerAxis
    dsimp only
    by_cases c1 : constantStep eps (i1 - i0) (i1 :: restI) = false
    · rw [if_pos c1]
    · rw [if_neg c1]
      by_cases c2 : constantStep eps (o1 - o0) (o1 :: restO) = false
      · rw [if_pos c2]
      · exfalso
        simp only [Bool.not_eq_false] at c1 c2
        rcases h with h | h
        · exact h ((regular_cons heps _ _ _).1 ((constantStep_iff _ _ _).1 c1))
        · exact h ((regular_cons heps _ _ _).1 ((constantStep_iff _ _ _).1 c2))
  · rintro i0 i1 o0 o1 restI restO hmI hmO ⟨x, hx, hout⟩
    obtain ⟨bO, mO1, mO2⟩ := minmax_of_axis o0 o1 restO hmO
    obtain ⟨bI, mI1, mI2⟩ := minmax_of_axis i0 i1 restI hmI
    unfold extendInnerAxis
    dsimp only
    by_cases c1 : constantStep eps (i1 - i0) (i1 :: restI) = false
    · rw [if_pos c1]
    · rw [if_neg c1]
      by_cases c2 : constantStep eps (o1 - o0) (o1 :: restO) = false
      · rw [if_pos c2]
      · rw [if_neg c2, if_pos]
        rcases hout with h | h
        · left
          exact lt_of_le_of_lt (bI x hx).1 (h _ mO1)
        · right
          exact lt_of_lt_of_le (h _ mO2) (bI x hx).2

example : extendInnerAxis (1 / 1000000 : ℚ) 10 [4, 6, 9] [0, 20] = some .throws ∧
    extendInnerAxis (1 / 1000000 : ℚ) 10 [4, 6, 8] [5, 20] = some .throws := by decide +kernel

/-- An inner axis whose first two values are equal is accepted when it stays within the tolerance, and then the loop
never ends (in the program: until the memory is used up). -/
theorem C42_zero_step_never_ends (fuel : ℕ) :
    extendInnerAxis (1 / 1000000 : ℚ) fuel [5, 5] [0, 10] = none := by
  have h : ∀ fuel, extendLoop (0 : ℚ) 0 10 fuel 5 = none := by
    intro fuel
    induction fuel with
    | zero => rfl
    | succ f ih =>
      unfold extendLoop
      rw [if_pos (by norm_num), show (5 : ℚ) + 0 = 5 by norm_num, ih]
      rfl
  have h' : ∀ fuel, extendLoop (-(5 - 5 : ℚ)) 0 10 fuel (5 - (5 - 5)) = none := by
    intro fuel
    rw [show (-(5 - 5) : ℚ) = 0 by norm_num, show (5 - (5 - 5) : ℚ) = 5 by norm_num]
    exact h fuel
  have c1 : constantStep (1 / 1000000 : ℚ) (5 - 5) [5] = true := rfl
  have c2 : constantStep (1 / 1000000 : ℚ) (10 - 0) [10] = true := rfl
  unfold extendInnerAxis
  dsimp only
  rw [if_neg (by rw [c1]; simp), if_neg (by rw [c2]; simp), if_neg (by norm_num)]
  simp only [List.getLast_singleton]
  rw [if_pos (by norm_num), if_neg (by norm_num), h' fuel]

end Fimex.MergeAxis
