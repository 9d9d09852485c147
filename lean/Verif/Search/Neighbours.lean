import Verif.MinMax.Model
import Mathlib.Algebra.Order.Group.Abs
import Mathlib.Algebra.Order.Field.Basic
import Mathlib.Algebra.Field.Rat
import Mathlib.Data.Rat.Floor
import Mathlib.Tactic.Linarith
import Mathlib.Tactic.ByContra
import Mathlib.Data.List.Induction

/-!
# Neighbour search

Model of `include/fimex/FindNeighborElements.h:48-125`, with C38.  Iterators are positions in a list; arithmetic is
exact.
-/

namespace Fimex.Neighbours

variable {K : Type} [Field K] [LinearOrder K]

/-! ## Model -/

/-- Variables of `find_closest_distinct_elements`. -/
structure Closest (K : Type) where
  r1 : ℕ
  r2 : ℕ
  v1 : K
  d1 : K
  d2 : K
deriving DecidableEq

/-- include/fimex/FindNeighborElements.h:60-73, one element `cur` at position `i`. -/
def closestStep (x : K) (i : ℕ) (cur : K) (s : Closest K) : Closest K :=
  let vDiff := |x - cur|
  if vDiff ≤ s.d2 then
    if vDiff < s.d1 then { r2 := s.r1, d2 := s.d1, v1 := cur, r1 := i, d1 := vDiff }
    else if cur ≠ s.v1 then { s with r2 := i, d2 := vDiff }
    else s
  else s

/-- include/fimex/FindNeighborElements.h:60-73, the loop. -/
def closestLoop (x : K) : List K → ℕ → Closest K → Closest K
  | [], _, s => s
  | cur :: rest, i, s => closestLoop x rest (i + 1) (closestStep x i cur s)

/-- include/fimex/FindNeighborElements.h:46-76 `find_closest_distinct_elements`. -/
def findClosestDistinct (l : List K) (x : K) : ℕ × ℕ :=
  match l with
  | [] => (0, 0)
  | a :: _ =>
    let s := closestLoop x l 0 ⟨0, 0, a, |x - a|, |x - a|⟩
    (s.r1, s.r2)

/-- Variables of `find_closest_neighbor_distinct_elements`. -/
structure Neighbour (K : Type) where
  lowest : ℕ
  highest : ℕ
  lowDiff : K
  highDiff : K
deriving DecidableEq

/-- include/fimex/FindNeighborElements.h:108-117, one element at position `i`. -/
def neighbourStep (x : K) (i : ℕ) (cur : K) (s : Neighbour K) : Neighbour K :=
  let diff := x - cur
  if diff ≥ 0 then
    let m := MinMax.minimize s.lowDiff diff
    { s with lowDiff := m.1, lowest := if m.2 then i else s.lowest }
  else
    let m := MinMax.minimize s.highDiff (-diff)
    { s with highDiff := m.1, highest := if m.2 then i else s.highest }

/-- include/fimex/FindNeighborElements.h:108-117, the loop. -/
def neighbourLoop (x : K) : List K → ℕ → Neighbour K → Neighbour K
  | [], _, s => s
  | cur :: rest, i, s => neighbourLoop x rest (i + 1) (neighbourStep x i cur s)

/-- include/fimex/FindNeighborElements.h:93-125 `find_closest_neighbor_distinct_elements`; `maxDiff` is
`std::numeric_limits<value_t>::max()`. -/
def findNeighbours (maxDiff : K) (l : List K) (x : K) : ℕ × ℕ :=
  match l with
  | [] => (0, 0)
  | a :: rest =>
    let lowDiff := x - a
    let highDiff := -lowDiff
    let s := neighbourLoop x rest 1
      ⟨0, 0, if lowDiff < 0 then maxDiff else lowDiff, if highDiff < 0 then maxDiff else highDiff⟩
    if s.lowDiff = maxDiff ∨ s.highDiff = maxDiff then findClosestDistinct l x
    else (s.lowest, s.highest)

/-! ## Properties -/

variable [IsStrictOrderedRing K]

/-- Invariant of the closest-element search after the elements `l`. -/
structure CInv (x a : K) (l : List K) (s : Closest K) : Prop where
  first : (a :: l)[s.r1]? = some s.v1
  d1 : s.d1 = |x - s.v1|
  min : ∀ v ∈ a :: l, s.d1 ≤ |x - v|
  second : ∃ w, (a :: l)[s.r2]? = some w ∧ s.d2 = |x - w|
  d12 : s.d1 ≤ s.d2
  start : s.r1 = 0 → s.d2 = s.d1
  later : s.r1 ≠ 0 → ∃ w, (a :: l)[s.r2]? = some w ∧ w ≠ s.v1 ∧ ∀ v ∈ a :: l, v ≠ s.v1 → |x - w| ≤ |x - v|

theorem getElem?_append_old {α : Type} {l : List α} {i : ℕ} {v c : α} (h : l[i]? = some v) : (l ++ [c])[i]? = some v := by
  have hi := (List.getElem?_eq_some_iff.1 h).1
  rw [List.getElem?_append_left hi, h]

theorem closestStep_inv (x a : K) (l : List K) (c : K) (s : Closest K) (h : CInv x a l s) :
    CInv x a (l ++ [c]) (closestStep x (l.length + 1) c s) := by
  have hnew : (a :: (l ++ [c]))[l.length + 1]? = some c := by
    rw [List.getElem?_cons_succ, List.getElem?_append_right le_rfl, Nat.sub_self]; rfl
  have hold : ∀ {i : ℕ} {v : K}, (a :: l)[i]? = some v → (a :: (l ++ [c]))[i]? = some v := by
    intro i v hv; rw [← List.cons_append]; exact getElem?_append_old hv
  have hmem : ∀ v, v ∈ a :: (l ++ [c]) → v ∈ a :: l ∨ v = c := by
    intro v hv; rw [← List.cons_append, List.mem_append, List.mem_singleton] at hv; exact hv
  have hv1mem : s.v1 ∈ a :: l := List.mem_of_getElem? h.first
  unfold closestStep
  dsimp only
  by_cases h2 : |x - c| ≤ s.d2
  · rw [if_pos h2]
    by_cases h1 : |x - c| < s.d1
    · rw [if_pos h1]
      refine ⟨hnew, rfl, ?_, ⟨s.v1, hold h.first, h.d1⟩, h1.le, fun h0 => by simp at h0, ?_⟩
      · intro v hv
        rcases hmem v hv with hv | rfl
        · exact le_trans h1.le (h.min v hv)
        · exact le_rfl
      · intro _
        refine ⟨s.v1, hold h.first, ?_, ?_⟩
        · rintro rfl
          rw [h.d1] at h1
          exact lt_irrefl _ h1
        · intro v hv hne
          rcases hmem v hv with hv | rfl
          · rw [← h.d1]; exact h.min v hv
          · exact absurd rfl hne
    · rw [if_neg h1]
      by_cases hc : c ≠ s.v1
      · rw [if_pos hc]
        refine ⟨hold h.first, h.d1, ?_, ⟨c, hnew, rfl⟩, not_lt.1 h1, ?_, ?_⟩
        · intro v hv
          rcases hmem v hv with hv | rfl
          · exact h.min v hv
          · exact not_lt.1 h1
        · intro h0
          have := h.start h0
          exact le_antisymm (by rw [← this]; exact h2) (not_lt.1 h1)
        · intro h0
          refine ⟨c, hnew, hc, ?_⟩
          intro v hv hne
          rcases hmem v hv with hv | rfl
          · obtain ⟨w, hw, -, hwm⟩ := h.later h0
            obtain ⟨w', hw', hd⟩ := h.second
            rw [hw] at hw'
            simp only [Option.some.injEq] at hw'
            subst hw'
            exact le_trans (by rw [← hd]; exact h2) (hwm v hv hne)
          · exact le_rfl
      · rw [if_neg hc]
        have hc : c = s.v1 := not_not.1 hc
        refine ⟨hold h.first, h.d1, ?_, ?_, h.d12, h.start, ?_⟩
        · intro v hv
          rcases hmem v hv with hv | rfl
          · exact h.min v hv
          · exact not_lt.1 h1
        · obtain ⟨w, hw, hd⟩ := h.second
          exact ⟨w, hold hw, hd⟩
        · intro h0
          obtain ⟨w, hw, hne, hwm⟩ := h.later h0
          refine ⟨w, hold hw, hne, ?_⟩
          intro v hv hv1
          rcases hmem v hv with hv | rfl
          · exact hwm v hv hv1
          · exact absurd hc hv1
  · rw [if_neg h2]
    have h2 := not_le.1 h2
    refine ⟨hold h.first, h.d1, ?_, ?_, h.d12, h.start, ?_⟩
    · intro v hv
      rcases hmem v hv with hv | rfl
      · exact h.min v hv
      · exact le_trans h.d12 h2.le
    · obtain ⟨w, hw, hd⟩ := h.second
      exact ⟨w, hold hw, hd⟩
    · intro h0
      obtain ⟨w, hw, hne, hwm⟩ := h.later h0
      refine ⟨w, hold hw, hne, ?_⟩
      intro v hv hv1
      rcases hmem v hv with hv | rfl
      · exact hwm v hv hv1
      · obtain ⟨w', hw', hd⟩ := h.second
        rw [hw] at hw'
        simp only [Option.some.injEq] at hw'
        subst hw'
        rw [← hd]; exact h2.le

theorem closestLoop_inv (x a : K) (rest : List K) : ∀ (done : List K) (s : Closest K), CInv x a done s →
    CInv x a (done ++ rest) (closestLoop x rest (done.length + 1) s) := by
  induction rest with
  | nil => intro done s h; rw [List.append_nil]; exact h
  | cons c rest ih =>
    intro done s h
    have := ih (done ++ [c]) _ (closestStep_inv x a done c s h)
    rw [List.append_assoc, List.singleton_append, List.length_append] at this
    exact this

theorem closest_inv (x a : K) (rest : List K) : ∃ s, findClosestDistinct (a :: rest) x = (s.r1, s.r2) ∧
    CInv x a rest s := by
  refine ⟨_, rfl, ?_⟩
  have h0 : closestStep x 0 a ⟨0, 0, a, |x - a|, |x - a|⟩ = ⟨0, 0, a, |x - a|, |x - a|⟩ := by
    unfold closestStep; simp
  have := closestLoop_inv x a rest [] (⟨0, 0, a, |x - a|, |x - a|⟩ : Closest K)
    ⟨rfl, rfl, by simp, ⟨a, rfl, rfl⟩, le_rfl, fun _ => rfl, fun h => absurd rfl h⟩
  rw [closestLoop, h0]
  simpa using this

/-- C38 for `find_closest_distinct_elements`: when some element is closer to `x` than the first one, the search
returns a closest element and a closest one among the elements of other value. -/
theorem C38_closest_distinct_partial (l : List K) (x a : K) (rest : List K) (hl : l = a :: rest)
    (hcl : ∃ v ∈ l, |x - v| < |x - a|) :
    ∃ i j v w, findClosestDistinct l x = (i, j) ∧ l[i]? = some v ∧ l[j]? = some w ∧ v ≠ w ∧
      (∀ u ∈ l, |x - v| ≤ |x - u|) ∧ (∀ u ∈ l, u ≠ v → |x - w| ≤ |x - u|) := by
  subst hl
  obtain ⟨s, hs, h⟩ := closest_inv x a rest
  obtain ⟨v, hv, hlt⟩ := hcl
  have hr1 : s.r1 ≠ 0 := by
    intro h0
    have hf := h.first
    rw [h0] at hf
    simp only [List.getElem?_cons_zero, Option.some.injEq] at hf
    have := h.min v hv
    rw [h.d1, ← hf] at this
    exact absurd hlt (not_lt.2 this)
  obtain ⟨w, hw, hne, hwm⟩ := h.later hr1
  exact ⟨s.r1, s.r2, s.v1, w, hs, h.first, hw, hne.symm, fun u hu => by rw [← h.d1]; exact h.min u hu, hwm⟩

/-- The missing case: when every element of another value is further away than the first one, both positions are
the first, although other values exist. -/
theorem C38_closest_first_not_distinct (a x : K) (rest : List K) (h : ∀ v ∈ rest, v ≠ a → |x - a| < |x - v|) :
    findClosestDistinct (a :: rest) x = (0, 0) := by
  have key : ∀ (rest : List K) (i : ℕ), (∀ v ∈ rest, v ≠ a → |x - a| < |x - v|) →
      closestLoop x rest i ⟨0, 0, a, |x - a|, |x - a|⟩ = ⟨0, 0, a, |x - a|, |x - a|⟩ := by
    intro rest
    induction rest with
    | nil => intro i _; rfl
    | cons c rest ih =>
      intro i h
      have hs : closestStep x i c ⟨0, 0, a, |x - a|, |x - a|⟩ = ⟨0, 0, a, |x - a|, |x - a|⟩ := by
        unfold closestStep
        dsimp only
        by_cases hc : c = a
        · subst hc
          rw [if_pos le_rfl, if_neg (lt_irrefl _), if_neg (not_not.2 rfl)]
        · rw [if_neg (not_le.2 (h c (by simp) hc))]
      rw [closestLoop, hs]
      exact ih (i + 1) fun v hv => h v (by simp [hv])
  have h0 : closestStep x 0 a ⟨0, 0, a, |x - a|, |x - a|⟩ = ⟨0, 0, a, |x - a|, |x - a|⟩ := by
    unfold closestStep; simp
  unfold findClosestDistinct
  dsimp only
  rw [closestLoop, h0, key rest _ h]

/-! ### Neighbours -/

/-- Invariant of the neighbour search: for a first element that differs from `x`. -/
structure NInv (x M a : K) (l : List K) (s : Neighbour K) : Prop where
  low : (s.lowDiff = M ∧ ∀ v ∈ a :: l, x < v) ∨
    (s.lowDiff < M ∧ ∃ v, (a :: l)[s.lowest]? = some v ∧ s.lowDiff = x - v ∧ v ≤ x ∧ ∀ u ∈ a :: l, u ≤ x → u ≤ v)
  high : (s.highDiff = M ∧ ∀ v ∈ a :: l, v ≤ x) ∨
    (s.highDiff < M ∧ ∃ v, (a :: l)[s.highest]? = some v ∧ s.highDiff = v - x ∧ x < v ∧ ∀ u ∈ a :: l, x < u → v ≤ u)

theorem neighbourStep_inv (x M a : K) (l : List K) (c : K) (s : Neighbour K) (h : NInv x M a l s)
    (hM : |x - c| < M) : NInv x M a (l ++ [c]) (neighbourStep x (l.length + 1) c s) := by
  have hnew : (a :: (l ++ [c]))[l.length + 1]? = some c := by
    rw [List.getElem?_cons_succ, List.getElem?_append_right le_rfl, Nat.sub_self]; rfl
  have hold : ∀ {i : ℕ} {v : K}, (a :: l)[i]? = some v → (a :: (l ++ [c]))[i]? = some v := by
    intro i v hv; rw [← List.cons_append]; exact getElem?_append_old hv
  have hmem : ∀ v, v ∈ a :: (l ++ [c]) → v ∈ a :: l ∨ v = c := by
    intro v hv; rw [← List.cons_append, List.mem_append, List.mem_singleton] at hv; exact hv
  rw [abs_lt] at hM
  unfold neighbourStep MinMax.minimize
  dsimp only
  by_cases hd : x - c ≥ 0
  · rw [if_pos hd]
    refine ⟨?_, ?_⟩
    · right
      by_cases hlt : x - c < s.lowDiff
      · rw [if_pos hlt]
        refine ⟨hM.2, c, hnew, rfl, by linarith, ?_⟩
        intro u hu hux
        rcases hmem u hu with hu | rfl
        · rcases h.low with ⟨-, hl⟩ | ⟨-, v, -, hv, -, hmax⟩
          · exact absurd (hl u hu) (not_lt.2 hux)
          · have := hmax u hu hux; linarith
        · exact le_rfl
      · rw [if_neg hlt]
        rcases h.low with ⟨hl, -⟩ | ⟨hl, v, hv, hvd, hvx, hmax⟩
        · exact absurd (by rw [hl]; exact hM.2) hlt
        · refine ⟨hl, v, hold hv, hvd, hvx, ?_⟩
          intro u hu hux
          rcases hmem u hu with hu | rfl
          · exact hmax u hu hux
          · linarith [not_lt.1 hlt]
    · rcases h.high with ⟨hh, hl⟩ | ⟨hh, v, hv, hvd, hvx, hmin⟩
      · left
        refine ⟨hh, ?_⟩
        intro u hu
        rcases hmem u hu with hu | rfl
        · exact hl u hu
        · linarith
      · right
        refine ⟨hh, v, hold hv, hvd, hvx, ?_⟩
        intro u hu hux
        rcases hmem u hu with hu | rfl
        · exact hmin u hu hux
        · linarith
  · rw [if_neg hd]
    have hd := not_le.1 hd
    refine ⟨?_, ?_⟩
    · rcases h.low with ⟨hh, hl⟩ | ⟨hh, v, hv, hvd, hvx, hmax⟩
      · left
        refine ⟨hh, ?_⟩
        intro u hu
        rcases hmem u hu with hu | rfl
        · exact hl u hu
        · linarith
      · right
        refine ⟨hh, v, hold hv, hvd, hvx, ?_⟩
        intro u hu hux
        rcases hmem u hu with hu | rfl
        · exact hmax u hu hux
        · linarith
    · right
      by_cases hlt : -(x - c) < s.highDiff
      · rw [if_pos hlt]
        refine ⟨by linarith [hM.1], c, hnew, by dsimp only; ring, by linarith, ?_⟩
        intro u hu hux
        rcases hmem u hu with hu | rfl
        · rcases h.high with ⟨-, hl⟩ | ⟨-, v, -, hv, -, hmin⟩
          · exact absurd (hl u hu) (not_le.2 hux)
          · have := hmin u hu hux; linarith
        · exact le_rfl
      · rw [if_neg hlt]
        rcases h.high with ⟨hl, -⟩ | ⟨hl, v, hv, hvd, hvx, hmin⟩
        · exact absurd (by rw [hl]; linarith [hM.1]) hlt
        · refine ⟨hl, v, hold hv, hvd, hvx, ?_⟩
          intro u hu hux
          rcases hmem u hu with hu | rfl
          · exact hmin u hu hux
          · linarith [not_lt.1 hlt]

theorem neighbourLoop_inv (x M a : K) (rest : List K) : ∀ (done : List K) (s : Neighbour K), NInv x M a done s →
    (∀ v ∈ rest, |x - v| < M) → NInv x M a (done ++ rest) (neighbourLoop x rest (done.length + 1) s) := by
  induction rest with
  | nil => intro done s h _; rw [List.append_nil]; exact h
  | cons c rest ih =>
    intro done s h hM
    have := ih (done ++ [c]) _ (neighbourStep_inv x M a done c s h (hM c (by simp))) fun v hv => hM v (by simp [hv])
    rw [List.append_assoc, List.singleton_append, List.length_append] at this
    exact this

/-- C38: for a sequence (monotone or not) whose first element differs from `x`, and an `x` between two of its
elements, the search returns two positions with different values that bracket `x`, with no element of the sequence
strictly between them and `x`.  The full claim has no condition on the first element; it is false, see
`C38_first_element_twice`. -/
theorem C38_neighbours_partial (M x a : K) (rest : List K) (hM : ∀ v ∈ a :: rest, |x - v| < M) (ha : a ≠ x)
    (hlo : ∃ v ∈ a :: rest, v ≤ x) (hhi : ∃ v ∈ a :: rest, x ≤ v) :
    ∃ i j v w, findNeighbours M (a :: rest) x = (i, j) ∧ i ≠ j ∧ (a :: rest)[i]? = some v ∧
      (a :: rest)[j]? = some w ∧ min v w ≤ x ∧ x ≤ max v w ∧
      (∀ u ∈ a :: rest, ¬ (min v w < u ∧ u < x) ∧ ¬ (x < u ∧ u < max v w)) := by
  have hMa := hM a (by simp)
  rw [abs_lt] at hMa
  have h0 : NInv x M a [] ⟨0, 0, if x - a < 0 then M else x - a, if -(x - a) < 0 then M else -(x - a)⟩ := by
    rcases lt_or_gt_of_ne ha with h | h
    · rw [if_neg (by linarith), if_pos (by linarith)]
      exact ⟨Or.inr ⟨hMa.2, a, rfl, rfl, h.le, by simp⟩, Or.inl ⟨rfl, by simpa using h.le⟩⟩
    · rw [if_pos (by linarith), if_neg (by linarith)]
      exact ⟨Or.inl ⟨rfl, by simpa using h⟩,
        Or.inr ⟨by dsimp only; linarith, a, rfl, by dsimp only; ring, h, by simp⟩⟩
  have hinv := neighbourLoop_inv x M a rest [] _ h0 fun v hv => hM v (by simp [hv])
  rw [List.nil_append] at hinv
  unfold findNeighbours
  dsimp only
  generalize hs : neighbourLoop x rest ([].length + 1) _ = s at hinv
  rcases hinv.low with ⟨-, hl⟩ | ⟨hl, v, hv, -, hvx, hmax⟩
  · obtain ⟨v, hv, hvx⟩ := hlo
    exact absurd (hl v hv) (not_lt.2 hvx)
  rcases hinv.high with ⟨hh, hh'⟩ | ⟨hh, w, hw, -, hwx, hmin⟩
  · rw [if_pos (Or.inr hh)]
    obtain ⟨m, hm, hmx⟩ := hhi
    have hmeq : m = x := le_antisymm (hh' m hm) hmx
    obtain ⟨i, j, p, q, hf, hp, hq, hne, hcl, hcl2⟩ := C38_closest_distinct_partial (a :: rest) x a rest rfl
      ⟨m, hm, by rw [hmeq, sub_self, abs_zero]; exact abs_pos.2 (sub_ne_zero.2 ha.symm)⟩
    have hpx : p = x := by
      have := hcl m hm
      rw [hmeq, sub_self, abs_zero] at this
      have := abs_eq_zero.1 (le_antisymm this (abs_nonneg _))
      linarith
    have hqx : q ≤ x := hh' q (List.mem_of_getElem? hq)
    refine ⟨i, j, p, q, hf, ?_, hp, hq, ?_, ?_, ?_⟩
    · rintro rfl
      rw [hp] at hq
      exact hne (by simpa using hq)
    · exact le_trans (min_le_left _ _) hpx.le
    · exact le_trans hpx.ge (le_max_left _ _)
    · intro u hu
      rw [hpx, min_eq_right hqx, max_eq_left hqx]
      refine ⟨?_, fun h => lt_irrefl _ (lt_trans h.1 h.2)⟩
      rintro ⟨h1, h2⟩
      have := hcl2 u hu (by rw [hpx]; exact h2.ne)
      rw [abs_of_nonneg (by linarith), abs_of_nonneg (by linarith)] at this
      linarith
  · rw [if_neg (by push Not; exact ⟨hl.ne, hh.ne⟩)]
    have hvw : v < w := lt_of_le_of_lt hvx hwx
    refine ⟨s.lowest, s.highest, v, w, rfl, ?_, hv, hw, ?_, ?_, ?_⟩
    · intro h
      rw [h, hw] at hv
      simp only [Option.some.injEq] at hv
      exact hvw.ne' hv
    · rw [min_eq_left hvw.le]; exact hvx
    · rw [max_eq_right hvw.le]; exact hwx.le
    · intro u hu
      rw [min_eq_left hvw.le, max_eq_right hvw.le]
      exact ⟨fun h => absurd (hmax u hu h.2.le) (not_le.2 h.1), fun h => absurd (hmin u hu h.1) (not_le.2 h.2)⟩

/-- The missing case of C38, for every sequence: a value equal to the first element gives the first position
twice. -/
theorem C38_first_element_twice (M x : K) (rest : List K) (hM : 0 < M) : findNeighbours M (x :: rest) x = (0, 0) := by
  have key : ∀ (rest : List K) (i : ℕ), neighbourLoop x rest i ⟨0, 0, 0, 0⟩ = ⟨0, 0, 0, 0⟩ := by
    intro rest
    induction rest with
    | nil => intro i; rfl
    | cons c rest ih =>
      intro i
      have : neighbourStep x i c ⟨0, 0, 0, 0⟩ = ⟨0, 0, 0, 0⟩ := by
        unfold neighbourStep MinMax.minimize
        dsimp only
        by_cases h : x - c ≥ 0
        · rw [if_pos h, if_neg (not_lt.2 h)]
          rfl
        · rw [if_neg h, if_neg (show ¬ -(x - c) < 0 by have := not_le.1 h; linarith)]
          rfl
      rw [neighbourLoop, this]
      exact ih (i + 1)
  unfold findNeighbours
  dsimp only
  rw [sub_self, neg_zero, if_neg (lt_irrefl _), key, if_neg (by push Not; exact ⟨hM.ne, hM.ne⟩)]

/-- Below an ascending sequence both positions are the first, so that nothing is extrapolated. -/
theorem C38_below_ascending_sequence : findNeighbours 1000 [(0 : ℚ), 10, 20] (-1) = (0, 0) := by decide +kernel

example : findNeighbours 1000 [(0 : ℚ), 10, 20] 12 = (1, 2) := by decide +kernel
example : findNeighbours 1000 [(20 : ℚ), 10, 0] 12 = (1, 0) := by decide +kernel
example : findNeighbours 1000 [(0 : ℚ), 10, 10] 10 = (1, 0) := by decide +kernel

end Fimex.Neighbours
