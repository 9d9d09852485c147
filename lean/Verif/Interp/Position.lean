import Verif.Basic
import Mathlib.Algebra.Order.Field.Basic
import Mathlib.Algebra.Order.Field.Rat
import Mathlib.Tactic.Linarith
import Mathlib.Tactic.Ring
import Mathlib.Tactic.FieldSimp
import Mathlib.Tactic.NormNum

/-!
# Positions of points on an axis

Model of `bsearchDoubleIndex` and `mifi_points2position`, `src/interpolation.c:109-227`.  Coordinates are
elements of an ordered field (exact arithmetic); a non-finite coordinate is `none`.
-/

namespace Fimex.Interp

variable {K : Type} [Field K] [LinearOrder K]

/-- Array access with an `int` index. -/
def readI {α : Type} (a : List α) (i : ℤ) : Res α := if i < 0 then .ub else readAt a i.toNat

/-- src/interpolation.c:109-117. -/
def ascendingComparator (a b : K) : ℤ := if a = b then 0 else if a > b then 1 else -1

/-- src/interpolation.c:119-122. -/
def descendingComparator (a b : K) : ℤ := -1 * ascendingComparator a b

/-- src/interpolation.c:135-145, the `while` loop; returns `(pos, comp)`. -/
def bsearchLoop (cmp : K → K → ℤ) (key : K) (base : List K) (first last pos comp : ℤ) : Res (ℤ × ℤ) :=
  if first ≤ last then
    let pos := (first + last).tdiv 2
    match readI base pos with
    | .ub => .ub
    | .throws => .throws
    | .ok b =>
      let comp := cmp key b
      if comp = 0 then .ok (pos, comp)
      else if comp > 0 then
        if first ≤ pos then bsearchLoop cmp key base (pos + 1) last pos comp else .ub
      else
        if pos ≤ last then bsearchLoop cmp key base first (pos - 1) pos comp else .ub
  else .ok (pos, comp)
termination_by (last + 1 - first).toNat
decreasing_by all_goals omega

/-- src/interpolation.c:129-152 `bsearchDoubleIndex`. -/
def bsearchDoubleIndex (cmp : K → K → ℤ) (key : K) (base : List K) (num : ℤ) : Res ℤ :=
  bsearchLoop cmp key base 0 (num - 1) 0 0 >>= fun r =>
    if r.2 = 0 then .ok r.1
    else if r.2 > 0 then .ok (-1 + (-1 * (r.1 + 1)))
    else .ok (-1 + (-1 * r.1))

/-- The kinds of axes that matter to `mifi_points2position`. -/
inductive AxisType | longitude | other
deriving DecidableEq

/-- src/interpolation.c:157-161, the choice of the comparator. -/
def comparator (axis : List K) (num : ℤ) : Res (K → K → ℤ) := do
  let a0 ← readI axis 0
  let al ← readI axis (num - 1)
  .ok (if a0 < al then ascendingComparator else descendingComparator)

/-- src/interpolation.c:164-178, bringing a longitude into the range of the axis (`HALF_CIRCLE_ANGLE` is
180 degrees). -/
def shiftLongitude (a0 al p : K) : K :=
  if a0 < 0 ∨ al < 0 then (if p > 180 then p - 2 * 180 else p)
  else (if p < 0 then p + 2 * 180 else p)

/-- src/interpolation.c:179-190, is the axis a full circle? -/
def circular (a0 a1 al : K) : Bool :=
  let nextOnAxis := al + (a1 - a0) * (101 / 100)
  if a0 < al then decide (nextOnAxis - 2 * 180 ≥ a0) else decide (nextOnAxis + 2 * 180 ≤ a0)

/-- src/interpolation.c:213-220, on a full circle positions beyond the ends come back on the other side. -/
def wrapCircular (circ : Bool) (num x : K) : K :=
  let x := if circ ∧ x ≤ -(1 / 2) then x + num else x
  if circ ∧ x > num - 1 / 2 then x - num else x

/-- src/interpolation.c:201-221, position by linear fit at array index `nPos`.  A division by zero gives a
non-finite number, `none`. -/
def fit (circ : Bool) (num : ℤ) (axis : List K) (p : K) (nPos : ℤ) : Res (Option K) := do
  let nPos := if nPos = num then nPos - 1 else if nPos = 0 then nPos + 1 else nPos
  let hi ← readI axis nPos
  let lo ← readI axis (nPos - 1)
  let slope := hi - lo
  let offset := hi - slope * (nPos : K)
  if slope = 0 then .ok none
  else
    .ok (some (wrapCircular circ num ((p - offset) / slope)))

/-- src/interpolation.c:193-225, one point. -/
def pointPos (cmp : K → K → ℤ) (circ : Bool) (num : ℤ) (axis : List K) (p : Option K) : Res (Option K) :=
  match p with
  | none => .ok (some (-999))
  | some p =>
    bsearchDoubleIndex cmp p axis num >>= fun pos =>
      if pos ≥ 0 then .ok (some (pos : K))
      else fit circ num axis p (-1 * (pos + 1))

/-- src/interpolation.c:154-227 `mifi_points2position`. -/
def points2position (points : List (Option K)) (axis : List K) (type : AxisType) : Res (List (Option K)) := do
  let num : ℤ := axis.length
  let cmp ← comparator axis num
  if type = .longitude then
    let a0 ← readI axis 0
    let al ← readI axis (num - 1)
    let a1 ← readI axis 1
    (points.map fun p => p.map (shiftLongitude a0 al)).mapM (pointPos cmp (circular a0 a1 al) num axis)
  else points.mapM (pointPos cmp false num axis)

/-! ## Specification and theorems (C31) -/

/-- Strictly ascending or strictly descending. -/
def StrictlyMonotone (axis : List K) : Prop :=
  axis.Pairwise (· < ·) ∨ axis.Pairwise (· > ·)

/-- The value at position `x` of the straight line through the axis values number `k` and `k+1`. -/
def lineAt (axis : List K) (k : ℕ) (x : K) : K :=
  axis.getD k 0 + (x - (k : K)) * (axis.getD (k + 1) 0 - axis.getD k 0)

/-- Position `x` is where the (linearly interpolated) axis has the value `p`: between two axis values on
the line through them, outside on the line through the first or the last two. -/
def IsPosition (axis : List K) (p x : K) : Prop :=
  ∃ k, k + 1 < axis.length ∧ lineAt axis k x = p ∧
    ((k : K) ≤ x ∨ k = 0) ∧ (x ≤ (k : K) + 1 ∨ k + 2 = axis.length)

theorem readI_nat {α : Type} (a : List α) (i : ℕ) (h : i < a.length) : readI a (i : ℤ) = .ok a[i] := by
  unfold readI
  rw [if_neg (by omega)]
  simp [readAt, h]

/-- What the comparison results must look like along the axis: first positive, then at most one zero,
then negative. -/
def Ordered (f : ℕ → ℤ) (num : ℕ) : Prop :=
  ∀ i j, i < j → j < num → (0 ≤ f j → 0 < f i) ∧ (f i ≤ 0 → f j < 0)

theorem bsearchLoop_spec (cmp : K → K → ℤ) (key : K) (base : List K)
    (hord : Ordered (fun i => cmp key (base.getD i 0)) base.length) :
    ∀ (n : ℕ) (first last pos comp : ℤ), (last + 1 - first).toNat = n → 0 ≤ first →
      last < base.length → first ≤ last + 1 →
      (∀ i : ℕ, (i : ℤ) < first → 0 < cmp key (base.getD i 0)) →
      (∀ i : ℕ, last < (i : ℤ) → i < base.length → cmp key (base.getD i 0) < 0) →
      (last < first → (0 < comp ∧ pos + 1 = first) ∨ (comp < 0 ∧ pos = first)) →
      ∃ r, bsearchLoop cmp key base first last pos comp = .ok r ∧
        ((r.2 = 0 ∧ 0 ≤ r.1 ∧ r.1 < base.length ∧ cmp key (base.getD r.1.toNat 0) = 0) ∨
         (∃ m : ℕ, m ≤ base.length ∧ ((0 < r.2 ∧ r.1 + 1 = (m : ℤ)) ∨ (r.2 < 0 ∧ r.1 = (m : ℤ))) ∧
          (∀ i < m, 0 < cmp key (base.getD i 0)) ∧
          (∀ i, m ≤ i → i < base.length → cmp key (base.getD i 0) < 0))) := by
  intro n
  induction n using Nat.strongRecOn with
  | _ n ih =>
    intro first last pos comp hn h0 hl hfl hlow hhigh hend
    unfold bsearchLoop
    by_cases hc : first ≤ last
    · rw [if_pos hc]
      have hp1 : first ≤ (first + last).tdiv 2 := by
        rw [Int.tdiv_eq_ediv_of_nonneg (by omega)]; omega
      have hp2 : (first + last).tdiv 2 ≤ last := by
        rw [Int.tdiv_eq_ediv_of_nonneg (by omega)]; omega
      generalize (first + last).tdiv 2 = q at hp1 hp2
      obtain ⟨k, rfl⟩ : ∃ k : ℕ, q = k := ⟨q.toNat, by omega⟩
      have hk : k < base.length := by omega
      have hget : base.getD k 0 = base[k] := by simp [hk]
      simp only [readI_nat base k hk]
      by_cases hz : cmp key base[k] = 0
      · rw [if_pos hz]
        refine ⟨_, rfl, Or.inl ⟨hz, by omega, by omega, ?_⟩⟩
        rw [Int.toNat_natCast, hget]; exact hz
      · rw [if_neg hz]
        by_cases hpos : cmp key base[k] > 0
        · rw [if_pos hpos, if_pos hp1]
          apply ih (last + 1 - ((k : ℤ) + 1)).toNat (by omega) _ _ _ _ rfl (by omega) hl (by omega)
          · intro i hi
            by_cases hik : i = k
            · subst hik; rw [hget]; exact hpos
            · exact (hord i k (by omega) hk).1 (by simp only; rw [hget]; omega)
          · exact hhigh
          · intro _; left; exact ⟨hpos, rfl⟩
        · rw [if_neg hpos, if_pos hp2]
          have hneg : cmp key base[k] < 0 := by omega
          apply ih ((k : ℤ) - 1 + 1 - first).toNat (by omega) _ _ _ _ rfl h0 (by omega) (by omega)
          · exact hlow
          · intro i hi hi2
            by_cases hik : i = k
            · subst hik; rw [hget]; exact hneg
            · exact (hord k i (by omega) hi2).2 (by simp only; rw [hget]; omega)
          · intro hlt
            right
            exact ⟨hneg, by omega⟩
    · rw [if_neg hc]
      have := hend (by omega)
      refine ⟨_, rfl, Or.inr ⟨first.toNat, by omega, ?_, ?_, ?_⟩⟩
      · have hcast : ((first.toNat : ℕ) : ℤ) = first := by omega
        simp only [hcast]
        exact this
      · intro i hi; exact hlow i (by omega)
      · intro i hi hi2; exact hhigh i (by omega) hi2

/-- Result of the binary search on a non-empty axis: the index of an equal element, or `-1 - m` where `m`
is the insertion point. -/
theorem bsearchDoubleIndex_spec (cmp : K → K → ℤ) (key : K) (base : List K) (hne : base ≠ [])
    (hord : Ordered (fun i => cmp key (base.getD i 0)) base.length) :
    ∃ r, bsearchDoubleIndex cmp key base base.length = .ok r ∧
      ((0 ≤ r ∧ r < base.length ∧ cmp key (base.getD r.toNat 0) = 0) ∨
       (∃ m : ℕ, m ≤ base.length ∧ r = -1 - (m : ℤ) ∧
          (∀ i < m, 0 < cmp key (base.getD i 0)) ∧
          (∀ i, m ≤ i → i < base.length → cmp key (base.getD i 0) < 0))) := by
  have hl : 0 < base.length := List.length_pos_iff.mpr hne
  obtain ⟨r, hr, h⟩ := bsearchLoop_spec cmp key base hord _ 0 ((base.length : ℤ) - 1) 0 0 rfl (by omega)
    (by omega) (by omega) (by intro i hi; omega) (by intro i hi hi2; omega) (by intro h; omega)
  unfold bsearchDoubleIndex
  rw [hr]
  simp only [Res.ok_bind]
  rcases h with ⟨h1, h2, h3, h4⟩ | ⟨m, h1, h2, h3, h4⟩
  · exact ⟨r.1, by rw [if_pos h1], Or.inl ⟨h2, h3, h4⟩⟩
  · rcases h2 with ⟨h5, h6⟩ | ⟨h5, h6⟩
    · refine ⟨-1 + (-1 * (r.1 + 1)), by rw [if_neg (by omega), if_pos h5], Or.inr ⟨m, h1, by omega, h3, h4⟩⟩
    · refine ⟨-1 + (-1 * r.1), by rw [if_neg (by omega), if_neg (by omega)], Or.inr ⟨m, h1, by omega, h3, h4⟩⟩

variable [IsStrictOrderedRing K]

theorem asc_pos (a b : K) : 0 < ascendingComparator a b ↔ b < a := by
  unfold ascendingComparator
  rcases lt_trichotomy a b with h | h | h
  · rw [if_neg h.ne, if_neg (by simpa using h.le)]
    constructor
    · intro h'; omega
    · intro h'; exact absurd h' (not_lt.mpr h.le)
  · rw [if_pos h]; constructor
    · intro h'; omega
    · intro h'; exact absurd h'.ne' (by simp [h])
  · rw [if_neg h.ne', if_pos h]
    simp [h]

theorem asc_zero (a b : K) : ascendingComparator a b = 0 ↔ a = b := by
  unfold ascendingComparator
  by_cases h : a = b
  · simp [h]
  · rw [if_neg h]; split <;> simp [h]

theorem asc_neg (a b : K) : ascendingComparator a b < 0 ↔ a < b := by
  unfold ascendingComparator
  rcases lt_trichotomy a b with h | h | h
  · rw [if_neg h.ne, if_neg (by simpa using h.le)]; simp [h]
  · rw [if_pos h]; constructor
    · intro h'; omega
    · intro h'; exact absurd h'.ne (by simp [h])
  · rw [if_neg h.ne', if_pos h]
    constructor
    · intro h'; omega
    · intro h'; exact absurd h' (not_lt.mpr h.le)

/-- The comparator chosen for a strictly monotone axis with at least two values. -/
theorem comparator_spec (axis : List K) (hm : StrictlyMonotone axis) (h2 : 2 ≤ axis.length) :
    ∃ cmp, comparator axis axis.length = .ok cmp ∧
      (∀ p : K, Ordered (fun i => cmp p (axis.getD i 0)) axis.length) ∧
      (∀ a b : K, cmp a b = 0 ↔ a = b) ∧
      ((axis.Pairwise (· < ·) ∧ cmp = ascendingComparator) ∨
       (axis.Pairwise (· > ·) ∧ cmp = descendingComparator)) := by
  have e0 : readI axis 0 = .ok axis[0] := readI_nat axis 0 (by omega)
  have el : readI axis ((axis.length : ℤ) - 1) = .ok axis[axis.length - 1] := by
    have := readI_nat axis (axis.length - 1) (by omega)
    rw [← this]; congr 1; omega
  unfold comparator
  simp only [e0, el, Res.ok_bind]
  refine ⟨_, rfl, ?_⟩
  rcases hm with hm | hm
  · have hlt : axis[0] < axis[axis.length - 1] :=
      List.pairwise_iff_getElem.mp hm 0 (axis.length - 1) (by omega) (by omega) (by omega)
    rw [if_pos hlt]
    refine ⟨?_, asc_zero, Or.inl ⟨hm, rfl⟩⟩
    intro p i j hij hj
    have hlt : axis[i] < axis[j] := List.pairwise_iff_getElem.mp hm i j (by omega) hj hij
    have ei : axis.getD i 0 = axis[i] := by simp [show i < axis.length by omega]
    have ej : axis.getD j 0 = axis[j] := by simp [hj]
    simp only [ei, ej]
    constructor
    · intro h
      rw [asc_pos]
      by_contra hc
      have : p < axis[j] := lt_of_le_of_lt (not_lt.mp hc) hlt
      rw [← asc_neg] at this
      omega
    · intro h
      rw [asc_neg]
      by_contra hc
      have : axis[i] < p := lt_of_lt_of_le hlt (not_lt.mp hc)
      rw [← asc_pos] at this
      omega
  · have hlt : axis[axis.length - 1] < axis[0] :=
      List.pairwise_iff_getElem.mp hm 0 (axis.length - 1) (by omega) (by omega) (by omega)
    rw [if_neg (not_lt.mpr hlt.le)]
    refine ⟨?_, ?_, Or.inr ⟨hm, rfl⟩⟩
    · intro p i j hij hj
      have hlt : axis[j] < axis[i] := List.pairwise_iff_getElem.mp hm i j (by omega) hj hij
      have ei : axis.getD i 0 = axis[i] := by simp [show i < axis.length by omega]
      have ej : axis.getD j 0 = axis[j] := by simp [hj]
      simp only [ei, ej, descendingComparator]
      constructor
      · intro h
        have : ascendingComparator p axis[i] < 0 := by
          rw [asc_neg]
          by_contra hc
          have : axis[j] < p := lt_of_lt_of_le hlt (not_lt.mp hc)
          rw [← asc_pos] at this
          omega
        omega
      · intro h
        have : 0 < ascendingComparator p axis[j] := by
          rw [asc_pos]
          by_contra hc
          have : p < axis[i] := lt_of_le_of_lt (not_lt.mp hc) hlt
          rw [← asc_neg] at this
          omega
        omega
    · intro a b
      unfold descendingComparator
      rw [← asc_zero a b]
      omega

theorem lineAt_strictMono_step (axis : List K) (k : ℕ) (hs : axis.getD (k + 1) 0 - axis.getD k 0 ≠ 0) (p : K) :
    lineAt axis k ((p - (axis.getD (k + 1) 0 - (axis.getD (k + 1) 0 - axis.getD k 0) * ((k : K) + 1))) /
      (axis.getD (k + 1) 0 - axis.getD k 0)) = p := by
  unfold lineAt
  field_simp
  ring

theorem slope_ne {axis : List K} (hm : StrictlyMonotone axis) {k : ℕ} (hk : k + 1 < axis.length) :
    axis.getD (k + 1) 0 - axis.getD k 0 ≠ 0 := by
  have ei : axis.getD k 0 = axis[k] := by simp [show k < axis.length by omega]
  have ej : axis.getD (k + 1) 0 = axis[k + 1] := by simp [hk]
  rw [ei, ej, sub_ne_zero]
  rcases hm with hm | hm
  · exact (List.pairwise_iff_getElem.mp hm k (k + 1) (by omega) hk (by omega)).ne'
  · exact (List.pairwise_iff_getElem.mp hm k (k + 1) (by omega) hk (by omega)).ne

theorem fit_nonCircular {axis : List K} (hm : StrictlyMonotone axis) (h2 : 2 ≤ axis.length) (p : K) (m : ℕ)
    (hmle : m ≤ axis.length) :
    ∃ k : ℕ, k + 1 < axis.length ∧ k = (if m = axis.length then axis.length - 2 else m - 1) ∧
      ∃ x, fit false axis.length axis p (m : ℤ) = .ok (some x) ∧ lineAt axis k x = p := by
  obtain ⟨k, hk, hke⟩ : ∃ k : ℕ, k + 1 < axis.length ∧ k = (if m = axis.length then axis.length - 2 else m - 1) := by
    refine ⟨_, ?_, rfl⟩
    split <;> omega
  refine ⟨k, hk, hke, ?_⟩
  have hn : (if (m : ℤ) = (axis.length : ℤ) then (m : ℤ) - 1 else if (m : ℤ) = 0 then (m : ℤ) + 1 else (m : ℤ))
      = ((k + 1 : ℕ) : ℤ) := by
    split at hke
    · rw [if_pos (by omega)]; omega
    · rw [if_neg (by omega)]
      split
      · omega
      · omega
  unfold fit
  simp only [hn]
  rw [readI_nat axis (k + 1) hk, show (((k + 1 : ℕ) : ℤ) - 1) = (k : ℤ) by omega,
    readI_nat axis k (by omega)]
  simp only [Res.ok_bind]
  have hs := slope_ne hm hk
  have ei : axis.getD k 0 = axis[k] := by simp [show k < axis.length by omega]
  have ej : axis.getD (k + 1) 0 = axis[k + 1] := by simp [hk]
  rw [ei, ej] at hs
  rw [if_neg hs]
  refine ⟨_, rfl, ?_⟩
  have hline := lineAt_strictMono_step axis k (by rw [ei, ej]; exact hs) p
  rw [ei, ej] at hline
  simpa [wrapCircular] using hline

/-- C31: on a strictly monotone axis (ascending or descending) with at least two values, the search never
leaves the array, an axis value gives its index, and any other finite coordinate the fractional position at
which the linearly interpolated axis has that coordinate (on the first or last line outside the axis). -/
theorem C31_position_search (axis : List K) (hm : StrictlyMonotone axis) (h2 : 2 ≤ axis.length) (p : K) :
    ∃ x, points2position [some p] axis .other = .ok [some x] ∧ IsPosition axis p x ∧
      ∀ i : ℕ, i < axis.length → axis.getD i 0 = p → x = (i : K) := by
  obtain ⟨cmp, hcmp, hord, hzero, hdir⟩ := comparator_spec axis hm h2
  have hne : axis ≠ [] := by rintro rfl; simp at h2
  obtain ⟨r, hr, h⟩ := bsearchDoubleIndex_spec cmp p axis hne (hord p)
  have hred : ∀ res, pointPos cmp false axis.length axis (some p) = .ok res →
      points2position [some p] axis .other = .ok [res] := by
    intro res hres
    unfold points2position
    simp only [hcmp, Res.ok_bind]
    rw [if_neg (by simp)]
    simp [List.mapM_cons, hres]
  have hinj : ∀ i j : ℕ, i < axis.length → j < axis.length → axis.getD i 0 = axis.getD j 0 → i = j := by
    intro i j hi hj he
    rw [show axis.getD i 0 = axis[i] by simp [hi], show axis.getD j 0 = axis[j] by simp [hj]] at he
    by_contra hij
    rcases Nat.lt_or_gt_of_ne hij with hlt | hlt
    · rcases hm with hm | hm
      · exact (List.pairwise_iff_getElem.mp hm i j hi hj hlt).ne he
      · exact (List.pairwise_iff_getElem.mp hm i j hi hj hlt).ne he.symm
    · rcases hm with hm | hm
      · exact (List.pairwise_iff_getElem.mp hm j i hj hi hlt).ne he.symm
      · exact (List.pairwise_iff_getElem.mp hm j i hj hi hlt).ne he
  rcases h with ⟨h1, h3, h4⟩ | ⟨m, h1, h3, h4, h5⟩
  · obtain ⟨k, rfl⟩ : ∃ k : ℕ, r = k := ⟨r.toNat, by omega⟩
    have hk : k < axis.length := by omega
    rw [Int.toNat_natCast, hzero] at h4
    refine ⟨(k : K), hred _ ?_, ?_, ?_⟩
    · unfold pointPos
      simp only [hr, Res.ok_bind]
      rw [if_pos (by omega)]
      simp
    · by_cases hkl : k + 1 < axis.length
      · refine ⟨k, hkl, ?_, Or.inl le_rfl, Or.inl (by linarith)⟩
        unfold lineAt; rw [← h4]; ring
      · obtain ⟨j, rfl⟩ : ∃ j, k = j + 1 := ⟨k - 1, by omega⟩
        refine ⟨j, by omega, ?_, Or.inl (by push_cast; linarith), Or.inl (by push_cast; linarith)⟩
        unfold lineAt; rw [h4]; push_cast; ring
    · intro i hi he
      rw [hinj i k hi hk (by rw [he, h4])]
  · obtain ⟨k, hk, hke, x, hx, hline⟩ := fit_nonCircular hm h2 p m h1
    have hr0 : ¬ r ≥ 0 := by omega
    refine ⟨x, hred _ ?_, ⟨k, hk, hline, ?_, ?_⟩, ?_⟩
    · unfold pointPos
      simp only [hr, Res.ok_bind]
      rw [if_neg hr0, show -1 * (r + 1) = (m : ℤ) by omega]
      exact hx
    · -- left bound
      by_cases hm0 : m = 0
      · right
        rw [hke, if_neg (by omega)]; omega
      · left
        have hkm : k < m := by
          rw [hke]; split <;> omega
        have hs := slope_ne hm hk
        have hc := h4 k hkm
        have hx' : p - axis.getD k 0 = (x - k) * (axis.getD (k + 1) 0 - axis.getD k 0) := by
          rw [← hline]; unfold lineAt; ring
        have ei : axis.getD k 0 = axis[k] := by simp [show k < axis.length by omega]
        have ej : axis.getD (k + 1) 0 = axis[k + 1] := by simp [hk]
        rcases hdir with ⟨hd, rfl⟩ | ⟨hd, rfl⟩
        · rw [asc_pos] at hc
          have hlt : axis[k] < axis[k + 1] :=
            List.pairwise_iff_getElem.mp hd k (k + 1) (by omega) hk (by omega)
          have h6 : 0 < (x - k) * (axis.getD (k + 1) 0 - axis.getD k 0) := by rw [← hx']; linarith
          have h7 : 0 < axis.getD (k + 1) 0 - axis.getD k 0 := by rw [ei, ej]; linarith
          have := (mul_pos_iff_of_pos_right h7).mp h6
          linarith
        · have hc : ascendingComparator p (axis.getD k 0) < 0 := by
            unfold descendingComparator at hc; omega
          rw [asc_neg] at hc
          have hlt : axis[k + 1] < axis[k] :=
            List.pairwise_iff_getElem.mp hd k (k + 1) (by omega) hk (by omega)
          have h6 : (x - k) * (axis.getD (k + 1) 0 - axis.getD k 0) < 0 := by rw [← hx']; linarith
          have h7 : axis.getD (k + 1) 0 - axis.getD k 0 < 0 := by rw [ei, ej]; linarith
          have : 0 < x - k := by
            by_contra hcon
            have := mul_nonneg_of_nonpos_of_nonpos (not_lt.mp hcon) h7.le
            linarith
          linarith
    · -- right bound
      by_cases hml : m = axis.length
      · right
        rw [hke, if_pos hml]; omega
      · rw [if_neg hml] at hke
        have hs := slope_ne hm hk
        have hc := h5 (k + 1) (by omega) hk
        have hx' : p - axis.getD (k + 1) 0 = (x - (k + 1)) * (axis.getD (k + 1) 0 - axis.getD k 0) := by
          rw [← hline]; unfold lineAt; ring
        have ei : axis.getD k 0 = axis[k] := by simp [show k < axis.length by omega]
        have ej : axis.getD (k + 1) 0 = axis[k + 1] := by simp [hk]
        left
        rcases hdir with ⟨hd, rfl⟩ | ⟨hd, rfl⟩
        · rw [asc_neg] at hc
          have hlt : axis[k] < axis[k + 1] :=
            List.pairwise_iff_getElem.mp hd k (k + 1) (by omega) hk (by omega)
          have h6 : (x - (k + 1)) * (axis.getD (k + 1) 0 - axis.getD k 0) < 0 := by rw [← hx']; linarith
          have h7 : 0 < axis.getD (k + 1) 0 - axis.getD k 0 := by rw [ei, ej]; linarith
          have := neg_of_mul_neg_left h6 h7.le
          linarith
        · have hc : 0 < ascendingComparator p (axis.getD (k + 1) 0) := by
            unfold descendingComparator at hc; omega
          rw [asc_pos] at hc
          have hlt : axis[k + 1] < axis[k] :=
            List.pairwise_iff_getElem.mp hd k (k + 1) (by omega) hk (by omega)
          have h6 : 0 < (x - (k + 1)) * (axis.getD (k + 1) 0 - axis.getD k 0) := by rw [← hx']; linarith
          have h7 : axis.getD (k + 1) 0 - axis.getD k 0 < 0 := by rw [ei, ej]; linarith
          have : x - (k + 1) < 0 := by
            by_contra hcon
            have := mul_nonpos_of_nonneg_of_nonpos (not_lt.mp hcon) h7.le
            linarith
          linarith
    · intro i hi he
      exfalso
      have hz : cmp p (axis.getD i 0) = 0 := (hzero _ _).mpr he.symm
      by_cases him : i < m
      · have := h4 i him; omega
      · have := h5 i (by omega) hi; omega

example : points2position [some 5, some 2, some 11, some (-1), none] ([0, 4, 10] : List ℚ) .other =
    .ok [some (7 / 6), some (1 / 2), some (13 / 6), some (-1 / 4), some (-999)] := by decide +kernel
example : points2position [some 5, some 4] ([10, 4, 0] : List ℚ) .other =
    .ok [some (5 / 6), some 1] := by decide +kernel
example : StrictlyMonotone ([10, 4, 0] : List ℚ) := by right; decide +kernel

theorem mapM_forall₂ {α β : Type} (f : α → Res β) (P : α → β → Prop) :
    ∀ l : List α, (∀ a ∈ l, ∃ b, f a = .ok b ∧ P a b) → ∃ r, l.mapM f = .ok r ∧ List.Forall₂ P l r
  | [], _ => ⟨[], rfl, .nil⟩
  | a :: l, h => by
    obtain ⟨b, hb, hP⟩ := h a (by simp)
    obtain ⟨r, hr, hF⟩ := mapM_forall₂ f P l fun x hx => h x (by simp [hx])
    exact ⟨b :: r, by simp [List.mapM_cons, hb, hr], .cons hP hF⟩

theorem points2position_single (axis : List K) (p : Option K) (x : Option K)
    (h : points2position [p] axis .other = .ok [x]) :
    ∃ cmp, comparator axis axis.length = .ok cmp ∧ pointPos cmp false axis.length axis p = .ok x := by
  unfold points2position at h
  cases hc : comparator axis axis.length with
  | throws => simp only [hc, Res.throws_bind] at h; cases h
  | ub => simp only [hc, Res.ub_bind] at h; cases h
  | ok cmp =>
    simp only [hc, Res.ok_bind] at h
    rw [if_neg (by simp)] at h
    refine ⟨cmp, rfl, ?_⟩
    cases hpp : pointPos cmp false axis.length axis p with
    | ok v => simp [List.mapM_cons, hpp] at h; rw [h]
    | throws => simp [List.mapM_cons, hpp] at h
    | ub => simp [List.mapM_cons, hpp] at h

/-- C31 for a whole array of coordinates: every finite coordinate is replaced by its position, every
non-finite one by -999. -/
theorem C31_all_points (axis : List K) (hm : StrictlyMonotone axis) (h2 : 2 ≤ axis.length)
    (ps : List (Option K)) :
    ∃ xs, points2position ps axis .other = .ok xs ∧
      List.Forall₂ (fun p x => ∃ y, x = some y ∧
        match p with
        | none => y = -999
        | some q => IsPosition axis q y) ps xs := by
  obtain ⟨cmp, hcmp, -⟩ := comparator_spec axis hm h2
  unfold points2position
  simp only [hcmp, Res.ok_bind]
  rw [if_neg (by simp)]
  apply mapM_forall₂
  intro p _
  cases p with
  | none => exact ⟨_, rfl, _, rfl, rfl⟩
  | some q =>
    obtain ⟨x, hx, hpos, -⟩ := C31_position_search axis hm h2 q
    obtain ⟨cmp', h1, h3⟩ := points2position_single axis _ _ hx
    rw [hcmp] at h1
    rw [← Res.ok.inj h1] at h3
    exact ⟨_, h3, _, rfl, hpos⟩

/-- C31: on an axis with a single value there is no line and the code reads outside the array. -/
theorem C31_single_value_axis_undefined :
    points2position [some 5] ([4] : List ℚ) .other = .ub := by decide +kernel

/-- A full circle of longitudes: one step (and one percent of it) beyond the last value the first one is reached or
passed. -/
def FullCircle (axis : List K) : Prop :=
  let first := axis.getD 0 0
  let last := axis.getD (axis.length - 1) 0
  let step := axis.getD 1 0 - axis.getD 0 0
  (first < last → first + 360 ≤ last + step + step / 100) ∧ (last ≤ first → last + step + step / 100 ≤ first - 360)

theorem fullCircle_iff (axis : List K) :
    circular (axis.getD 0 0) (axis.getD 1 0) (axis.getD (axis.length - 1) 0) = true ↔ FullCircle axis := by
  unfold circular FullCircle
  dsimp only
  generalize axis.getD 0 0 = a
  generalize axis.getD 1 0 = b
  generalize axis.getD (axis.length - 1) 0 = c
  by_cases h : a < c
  · rw [if_pos h, decide_eq_true_iff]
    constructor
    · intro h'; exact ⟨fun _ => by linarith, fun h'' => absurd h (not_lt.2 h'')⟩
    · rintro ⟨h', -⟩; have := h' h; linarith
  · rw [if_neg h, decide_eq_true_iff]
    constructor
    · intro h'; exact ⟨fun h'' => absurd h'' h, fun _ => by linarith⟩
    · rintro ⟨-, h'⟩; have := h' (not_lt.1 h); linarith

omit [IsStrictOrderedRing K] in
theorem wrapCircular_false (n x : K) : wrapCircular false n x = x := by simp [wrapCircular]

theorem wrapCircular_cases (c : Bool) (n : ℕ) (x : K) :
    wrapCircular c ((n : ℤ) : K) x = x ∨ c = true ∧ (wrapCircular c ((n : ℤ) : K) x = x + n ∨
      wrapCircular c ((n : ℤ) : K) x = x - n) := by
  cases c
  · left; exact wrapCircular_false _ x
  · unfold wrapCircular
    simp only [true_and, Int.cast_natCast]
    by_cases h1 : x ≤ -(1 / 2)
    · rw [if_pos h1, if_neg (by rw [gt_iff_lt, not_lt]; linarith)]
      right; left; rfl
    · rw [if_neg h1]
      split
      · right; right; rfl
      · left; rfl

theorem wrapCircular_range (n x : K) (hlo : -(1 / 2) - n < x)
    (hhi : x ≤ 2 * n - 1 / 2) :
    -(1 / 2) < wrapCircular true n x ∧ wrapCircular true n x ≤ n - 1 / 2 := by
  unfold wrapCircular
  simp only [true_and]
  by_cases h1 : x ≤ -(1 / 2)
  · rw [if_pos h1, if_neg (by rw [gt_iff_lt, not_lt]; linarith)]
    constructor <;> linarith
  · rw [if_neg h1]
    by_cases h2 : x > n - 1 / 2
    · rw [if_pos h2]; constructor <;> linarith
    · rw [if_neg h2]; constructor <;> linarith

/-- C31 for longitudes: the coordinate is first moved by 360 degrees into the range of the axis; on an axis
that is not a full circle the rest is as for other axes, on a full circle the position may in addition be
moved by the number of axis values, once around, so that a position up to one turn outside comes back into the range of
the axis.  Longitudes between -180 and 360 degrees are moved into the convention of the axis: -180 to 180 degrees
if one of its ends is negative, 0 to 360 degrees otherwise. -/
theorem C31_longitude_positions (axis : List K) (hm : StrictlyMonotone axis) (h2 : 2 ≤ axis.length) (p : K) :
    ∃ q x y, (q = p ∨ q = p + 360 ∨ q = p - 360) ∧
      (-180 < p → p < 360 → if axis.getD 0 0 < 0 ∨ axis.getD (axis.length - 1) 0 < 0 then -180 < q ∧ q ≤ 180
        else 0 ≤ q ∧ q < 360) ∧
      points2position [some q] axis .other = .ok [some x] ∧
      points2position [some p] axis .longitude = .ok [some y] ∧
      (y = x ∨ FullCircle axis ∧ (y = x + axis.length ∨ y = x - axis.length)) ∧
      (FullCircle axis → -(1 / 2) - (axis.length : K) < x → x ≤ 2 * (axis.length : K) - 1 / 2 →
        -(1 / 2) < y ∧ y ≤ (axis.length : K) - 1 / 2) := by
  rw [← fullCircle_iff]
  obtain ⟨cmp, hcmp, hord, hzero, hdir⟩ := comparator_spec axis hm h2
  have hne : axis ≠ [] := by rintro rfl; simp at h2
  have e0 : readI axis 0 = .ok (axis.getD 0 0) := by
    have := readI_nat axis 0 (by omega)
    simpa [show 0 < axis.length by omega] using this
  have e1 : readI axis 1 = .ok (axis.getD 1 0) := by
    have := readI_nat axis 1 (by omega)
    simpa [show 1 < axis.length by omega] using this
  have el : readI axis ((axis.length : ℤ) - 1) = .ok (axis.getD (axis.length - 1) 0) := by
    have := readI_nat axis (axis.length - 1) (by omega)
    rw [show ((axis.length : ℤ) - 1) = ((axis.length - 1 : ℕ) : ℤ) by omega, this]
    congr 1
    simp [show axis.length - 1 < axis.length by omega]
  set q := shiftLongitude (axis.getD 0 0) (axis.getD (axis.length - 1) 0) p with hq
  obtain ⟨x, hx, -, -⟩ := C31_position_search axis hm h2 q
  have hxp : pointPos cmp false axis.length axis (some q) = .ok (some x) := by
    unfold points2position at hx
    simp only [hcmp, Res.ok_bind] at hx
    rw [if_neg (by simp)] at hx
    cases hpp : pointPos cmp false axis.length axis (some q) with
    | ok v => simp [List.mapM_cons, hpp] at hx; rw [hx]
    | throws => simp [List.mapM_cons, hpp] at hx
    | ub => simp [List.mapM_cons, hpp] at hx
  set c := circular (axis.getD 0 0) (axis.getD 1 0) (axis.getD (axis.length - 1) 0) with hc
  have hy : ∃ y, pointPos cmp c axis.length axis (some q) = .ok (some y) ∧
      (y = x ∨ c = true ∧ (y = x + axis.length ∨ y = x - axis.length)) ∧
      (c = true → -(1 / 2) - (axis.length : K) < x → x ≤ 2 * (axis.length : K) - 1 / 2 →
        -(1 / 2) < y ∧ y ≤ (axis.length : K) - 1 / 2) := by
    obtain ⟨r, hr, h⟩ := bsearchDoubleIndex_spec cmp q axis hne (hord q)
    unfold pointPos at hxp ⊢
    simp only [hr, Res.ok_bind] at hxp ⊢
    by_cases hr0 : r ≥ 0
    · rw [if_pos hr0] at hxp ⊢
      have := Option.some.inj (Res.ok.inj hxp)
      refine ⟨_, rfl, Or.inl this, fun _ _ _ => ?_⟩
      rcases h with ⟨h1, h1', -⟩ | ⟨m, h1, h3, -, -⟩
      · have g1 : (0 : K) ≤ ((r : ℤ) : K) := by exact_mod_cast h1
        have g2 : ((r : ℤ) : K) + 1 ≤ (axis.length : K) := by exact_mod_cast (by omega : r + 1 ≤ (axis.length : ℤ))
        constructor <;> linarith
      · exact absurd hr0 (by omega)
    · rw [if_neg hr0] at hxp ⊢
      rcases h with ⟨h1, -, -⟩ | ⟨m, h1, h3, -, -⟩
      · exact absurd h1 (by omega)
      · rw [show -1 * (r + 1) = (m : ℤ) by omega] at hxp ⊢
        obtain ⟨k, hk, hke, x', hx', -⟩ := fit_nonCircular hm h2 q m h1
        rw [hxp] at hx'
        have hxx : x = x' := Option.some.inj (Res.ok.inj hx')
        unfold fit at hxp ⊢
        cases hA : readI axis (if (m : ℤ) = (axis.length : ℤ) then (m : ℤ) - 1 else if (m : ℤ) = 0 then (m : ℤ) + 1 else (m : ℤ)) with
        | throws => simp only [hA, Res.throws_bind] at hxp; cases hxp
        | ub => simp only [hA, Res.ub_bind] at hxp; cases hxp
        | ok a =>
          simp only [hA, Res.ok_bind] at hxp ⊢
          cases hB : readI axis ((if (m : ℤ) = (axis.length : ℤ) then (m : ℤ) - 1 else if (m : ℤ) = 0 then (m : ℤ) + 1 else (m : ℤ)) - 1) with
          | throws => simp only [hB, Res.throws_bind] at hxp; cases hxp
          | ub => simp only [hB, Res.ub_bind] at hxp; cases hxp
          | ok b =>
            simp only [hB, Res.ok_bind] at hxp ⊢
            by_cases hs : a - b = 0
            · rw [if_pos hs] at hxp; cases hxp
            · rw [if_neg hs] at hxp ⊢
              rw [wrapCircular_false] at hxp
              have hxe := Option.some.inj (Res.ok.inj hxp)
              refine ⟨_, rfl, ?_⟩
              rw [hxe]
              refine ⟨wrapCircular_cases c axis.length x, fun hct h1 h2 => ?_⟩
              rw [hct, show (((axis.length : ℤ)) : K) = (axis.length : K) by push_cast; rfl]
              exact wrapCircular_range _ x h1 h2
  obtain ⟨y, hy1, hy2⟩ := hy
  refine ⟨q, x, y, ?_, ?_, hx, ?_, hy2⟩
  · rw [hq]
    unfold shiftLongitude
    split
    · split
      · right; right; ring
      · left; rfl
    · split
      · right; left; ring
      · left; rfl
  · intro hp1 hp2
    rw [hq]
    unfold shiftLongitude
    split
    · split
      · rename_i h; constructor <;> linarith
      · rename_i h; constructor <;> linarith
    · split
      · rename_i h; constructor <;> linarith
      · rename_i h; constructor <;> linarith
  · unfold points2position
    simp only [hcmp, Res.ok_bind]
    rw [if_pos trivial]
    simp only [e0, e1, el, Res.ok_bind, ← hc]
    simp only [List.map_cons, List.map_nil, Option.map_some, ← hq]
    simp [List.mapM_cons, hy1]

/-- C31 for longitudes: on a full circle, positions up to one turn outside come back into the range of the
axis. -/
theorem C31_full_circle_range (axis : List K)
    (p : K) (m : ℤ) (x y : K) (hx : fit false axis.length axis p m = .ok (some x))
    (hy : fit true axis.length axis p m = .ok (some y))
    (hlo : -(1 / 2) - (axis.length : K) < x) (hhi : x ≤ 2 * (axis.length : K) - 1 / 2) :
    -(1 / 2) < y ∧ y ≤ (axis.length : K) - 1 / 2 := by
  unfold fit at hx hy
  cases hA : readI axis (if (m : ℤ) = (axis.length : ℤ) then (m : ℤ) - 1 else if (m : ℤ) = 0 then (m : ℤ) + 1 else (m : ℤ)) with
  | throws => simp only [hA, Res.throws_bind] at hx; cases hx
  | ub => simp only [hA, Res.ub_bind] at hx; cases hx
  | ok a =>
    simp only [hA, Res.ok_bind] at hx hy
    cases hB : readI axis ((if (m : ℤ) = (axis.length : ℤ) then (m : ℤ) - 1 else if (m : ℤ) = 0 then (m : ℤ) + 1 else (m : ℤ)) - 1) with
    | throws => simp only [hB, Res.throws_bind] at hx; cases hx
    | ub => simp only [hB, Res.ub_bind] at hx; cases hx
    | ok b =>
      simp only [hB, Res.ok_bind] at hx hy
      by_cases hs : a - b = 0
      · rw [if_pos hs] at hx; cases hx
      · rw [if_neg hs] at hx hy
        rw [wrapCircular_false] at hx
        have hxe := Option.some.inj (Res.ok.inj hx)
        have hye := Option.some.inj (Res.ok.inj hy)
        rw [hxe] at hye
        rw [← hye]
        have e : (((axis.length : ℤ)) : K) = (axis.length : K) := by push_cast; rfl
        rw [e]
        exact wrapCircular_range _ x hlo hhi

/-- On the circle 0, 90, 180, 270 the longitude 350 = -10 lies between the last and the first value. -/
example : points2position [some (-10), some 350, some 45, some 400] ([0, 90, 180, 270] : List ℚ) .longitude =
    .ok [some (-1 / 9), some (-1 / 9), some (1 / 2), some (4 / 9)] := by decide +kernel

end Fimex.Interp
