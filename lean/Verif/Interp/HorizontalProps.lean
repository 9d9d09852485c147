import Verif.Interp.Horizontal
import Mathlib.Data.Rat.Floor
import Mathlib.Algebra.Order.Floor.Semiring

/-!
# Horizontal interpolation: specification and theorems (C32, C33)
-/

namespace Fimex.Interp

variable {K : Type} [Field K] [LinearOrder K] [FloorRing K]

open Scale (lround)

/-- The value of column `i`, row `j` in layer `z` of a field with `ix` columns and `iy` rows. -/
def cell (infield : List (Option K)) (ix iy z i j : ℕ) : Option K := infield.getD ((z * iy + j) * ix + i) none

/-- Weighted mean, undefined as soon as one of the values is. -/
def mix (f : K) (a b : Option K) : Option K :=
  match a, b with
  | some a, some b => some ((1 - f) * a + f * b)
  | _, _ => none

/-- Within half a cell of the cells of an axis. -/
def Near (n : ℕ) (x : K) : Prop := -(1 / 2) < x ∧ x < (n : K) - 1 / 2

instance (n : ℕ) (x : K) : Decidable (Near n x) := inferInstanceAs (Decidable (_ ∧ _))

/-- Interpolation along one axis of `n` cells: linear between two cells, the nearest cell within half a cell
outside the first and the last cell, undefined elsewhere. -/
def along (n : ℕ) (x : K) (g : ℕ → Option K) : Option K :=
  if 0 ≤ x ∧ x < (n : K) - 1 then mix (x - ⌊x⌋) (g ⌊x⌋.toNat) (g (⌊x⌋.toNat + 1))
  else if Near n x then g ⌊x + 1 / 2⌋.toNat
  else none

/-- Bilinear interpolation: along x in each row, then along y. -/
def bilinearSpec (infield : List (Option K)) (ix iy z : ℕ) (x y : K) : Option K :=
  along iy y fun j => along ix x fun i => cell infield ix iy z i j

theorem mapM_range_ok {β : Type} (n : ℕ) (f : ℕ → Res β) (g : ℕ → β) (h : ∀ z < n, f z = .ok (g z)) :
    (List.range n).mapM f = .ok ((List.range n).map g) := by
  have : ∀ l : List ℕ, (∀ z ∈ l, z < n) → l.mapM f = .ok (l.map g) := by
    intro l hl
    induction l with
    | nil => rfl
    | cons a l ih =>
      rw [List.mapM_cons, h a (hl a (by simp)), Res.ok_bind, ih fun z hz => hl z (by simp [hz])]
      rfl
  exact this _ fun z hz => List.mem_range.mp hz

theorem mapM_ub {α β : Type} : ∀ (l : List α) (f : α → Res β) (a : α), a ∈ l → f a = .ub →
    (∀ b ∈ l, f b ≠ .throws) → l.mapM f = .ub := by
  intro l f a ha hf hnt
  induction l with
  | nil => simp at ha
  | cons b l ih =>
    rw [List.mapM_cons]
    cases hb : f b with
    | ub => rfl
    | throws => exact absurd hb (hnt b (by simp))
    | ok v =>
      rcases List.mem_cons.mp ha with rfl | ha
      · rw [hf] at hb; cases hb
      · rw [Res.ok_bind, ih ha fun b hb => hnt b (by simp [hb])]; rfl

theorem int32_ok {z : ℤ} (h1 : -2 ^ 31 ≤ z) (h2 : z < 2 ^ 31) : int32 z = .ok z := by
  unfold int32; rw [if_pos ⟨h1, h2⟩]

theorem arrayPos_ok {x y z ix iy : ℕ} (hx : x < ix) (h : (z * iy + y) * ix + x < 2 ^ 31) :
    arrayPos x y z ix iy = .ok (((z * iy + y) * ix + x : ℕ) : ℤ) := by
  have h1 : z * iy + y ≤ (z * iy + y) * ix := Nat.le_mul_of_pos_right _ (by omega)
  unfold arrayPos
  rw [int32_ok (z := (z : ℤ) * iy) (by have := Int.natCast_nonneg (z * iy); push_cast at this; omega)
    (by have : z * iy < 2 ^ 31 := by omega
        exact_mod_cast this), Res.ok_bind,
    int32_ok (z := (z : ℤ) * iy + y) (by have := Int.natCast_nonneg (z * iy + y); push_cast at this; omega)
    (by have : z * iy + y < 2 ^ 31 := by omega
        exact_mod_cast this), Res.ok_bind,
    int32_ok (z := ((z : ℤ) * iy + y) * ix) (by have := Int.natCast_nonneg ((z * iy + y) * ix); push_cast at this; omega)
    (by have : (z * iy + y) * ix < 2 ^ 31 := by omega
        exact_mod_cast this), Res.ok_bind,
    int32_ok (by have := Int.natCast_nonneg ((z * iy + y) * ix + x); push_cast at this; omega)
    (by exact_mod_cast h)]
  push_cast; rfl

theorem readI_cell (infield : List (Option K)) {ix iy iz i j z : ℕ} (hl : infield.length = ix * iy * iz)
    (hi : i < ix) (hj : j < iy) (hz : z < iz) :
    (z * iy + j) * ix + i < ix * iy * iz ∧
    readI infield (((z * iy + j) * ix + i : ℕ) : ℤ) = .ok (cell infield ix iy z i j) := by
  have h : (z * iy + j) * ix + i < ix * iy * iz := by
    have h1 : z * iy + j + 1 ≤ iz * iy := by
      have : (z + 1) * iy ≤ iz * iy := Nat.mul_le_mul_right _ hz
      rw [Nat.add_mul] at this; omega
    have h2 : (z * iy + j + 1) * ix ≤ iz * iy * ix := Nat.mul_le_mul_right _ h1
    rw [Nat.add_mul (z * iy + j) 1 ix] at h2
    have h3 : ix * iy * iz = iz * iy * ix := by ring
    omega
  refine ⟨h, ?_⟩
  rw [readI_nat _ _ (by omega)]
  unfold cell
  simp [show (z * iy + j) * ix + i < infield.length by omega]

variable [IsStrictOrderedRing K]

theorem floor_inner (n : ℕ) (x : K) : (0 ≤ ⌊x⌋ ∧ ⌊x⌋ + 1 < (n : ℤ)) ↔ (0 ≤ x ∧ x < (n : K) - 1) := by
  rw [Int.floor_nonneg]
  constructor
  · rintro ⟨h1, h2⟩
    refine ⟨h1, ?_⟩
    have : x < ((n : ℤ) - 1 : ℤ) := Int.floor_lt.mp (by omega)
    push_cast at this; exact this
  · rintro ⟨h1, h2⟩
    refine ⟨h1, ?_⟩
    have : ⌊x⌋ < (n : ℤ) - 1 := Int.floor_lt.mpr (by push_cast; exact h2)
    omega

theorem lround_near (n : ℕ) (x : K) : (0 ≤ lround x ∧ lround x < (n : ℤ)) ↔
    (-(1 / 2) < x ∧ x < (n : K) - 1 / 2) ∧ 0 < n ∨ False := by
  unfold lround
  by_cases h : 0 ≤ x
  · rw [if_pos h]
    have h0 : 0 ≤ ⌊x + 1 / 2⌋ := Int.floor_nonneg.mpr (by linarith)
    constructor
    · rintro ⟨_, h2⟩
      have := Int.floor_lt.mp h2
      push_cast at this
      refine Or.inl ⟨⟨by linarith, by linarith⟩, by omega⟩
    · rintro (⟨⟨_, h2⟩, _⟩ | h)
      · refine ⟨h0, Int.floor_lt.mpr ?_⟩
        push_cast; linarith
      · exact h.elim
  · rw [if_neg h]
    push Not at h
    constructor
    · rintro ⟨h1, h2⟩
      have h3 : ⌊-x + 1 / 2⌋ < 1 := by omega
      have := Int.floor_lt.mp h3
      push_cast at this
      have hn : 0 < n := by
        have : 0 ≤ ⌊-x + 1 / 2⌋ := Int.floor_nonneg.mpr (by linarith)
        omega
      have : (1 : K) ≤ n := by exact_mod_cast hn
      exact Or.inl ⟨⟨by linarith, by linarith⟩, hn⟩
    · rintro (⟨⟨h1, h2⟩, hn⟩ | h)
      · have h3 : ⌊-x + 1 / 2⌋ = 0 := by
          rw [Int.floor_eq_iff]; push_cast; constructor <;> linarith
        omega
      · exact h.elim

theorem lround_eq_floor {x : K} (h : -(1 / 2) < x) : lround x = ⌊x + 1 / 2⌋ := by
  unfold lround
  by_cases h0 : 0 ≤ x
  · rw [if_pos h0]
  · rw [if_neg h0]
    push Not at h0
    have h1 : ⌊-x + 1 / 2⌋ = 0 := by rw [Int.floor_eq_iff]; push_cast; constructor <;> linarith
    have h2 : ⌊x + 1 / 2⌋ = 0 := by rw [Int.floor_eq_iff]; push_cast; constructor <;> linarith
    rw [h1, h2]; rfl

/-- Positions that fit an `int` after rounding. -/
def IntRange (x : K) : Prop := -2 ^ 31 ≤ x ∧ x < 2 ^ 31 - 1

theorem lroundInt_ok {x : K} (h : IntRange x) : lroundInt x = .ok (lround x) := by
  obtain ⟨h1, h2⟩ := h
  have ha := Scale.abs_sub_lround x
  rw [abs_le] at ha
  have h3 : (-2 ^ 31 - 1 : ℤ) < lround x := by
    have : ((-2 ^ 31 - 1 : ℤ) : K) < (lround x : K) := by push_cast; linarith [ha.1, ha.2]
    exact_mod_cast this
  have h4 : lround x < (2 ^ 31 : ℤ) := by
    have : (lround x : K) < ((2 ^ 31 : ℤ) : K) := by push_cast; linarith [ha.1, ha.2]
    exact_mod_cast this
  unfold lroundInt
  simp only
  rw [if_pos (by constructor <;> omega)]
  congr 1
  rw [Int.emod_eq_of_lt (by omega) (by omega)]
  omega

theorem floor_int32 {x : K} (h : IntRange x) : int32 ⌊x⌋ = .ok ⌊x⌋ ∧ int32 (⌊x⌋ + 1) = .ok (⌊x⌋ + 1) := by
  obtain ⟨h1, h2⟩ := h
  have h3 : (-2 ^ 31 : ℤ) ≤ ⌊x⌋ := Int.le_floor.mpr (by push_cast; linarith)
  have h4 : ⌊x⌋ < (2 ^ 31 - 1 : ℤ) := Int.floor_lt.mpr (by push_cast; linarith)
  exact ⟨int32_ok h3 (by omega), int32_ok (by omega) (by omega)⟩

theorem near_lround {n : ℕ} {x : K} (h : Near n x) (hn : 0 < n) :
    ∃ i : ℕ, lround x = (i : ℤ) ∧ i < n ∧ ⌊x + 1 / 2⌋.toNat = i := by
  have := (lround_near n x).mpr (Or.inl ⟨h, hn⟩)
  refine ⟨(lround x).toNat, by omega, by omega, ?_⟩
  rw [lround_eq_floor h.1]

theorem not_near_lround {n : ℕ} {x : K} (h : ¬ (Near n x ∧ 0 < n)) : ¬ (0 ≤ lround x ∧ lround x < (n : ℤ)) := by
  intro hc
  rcases (lround_near n x).mp hc with h' | h'
  · exact h h'
  · exact h'

/-- C33: nearest-neighbour interpolation reads, in every layer, the value of the cell whose centre is nearest
(halves upwards), and gives undefined values when the position is half a cell or more outside. -/
theorem C33_nearest_neighbour (infield : List (Option K)) (ix iy iz : ℕ) (x y : K)
    (hl : infield.length = ix * iy * iz) (hsize : ix * iy * iz < 2 ^ 31) (hx : IntRange x) (hy : IntRange y)
    (hix : 0 < ix) (hiy : 0 < iy) :
    getValues infield x y ix iy iz = .ok ((List.range iz).map fun z =>
      if Near ix x ∧ Near iy y then cell infield ix iy z ⌊x + 1 / 2⌋.toNat ⌊y + 1 / 2⌋.toNat else none) := by
  unfold getValues
  rw [lroundInt_ok hx, lroundInt_ok hy, Res.ok_bind, Res.ok_bind]
  by_cases h : Near ix x ∧ Near iy y
  · obtain ⟨i, hi, hi', hie⟩ := near_lround h.1 hix
    obtain ⟨j, hj, hj', hje⟩ := near_lround h.2 hiy
    rw [hi, hj, hie, hje, if_pos (by omega)]
    apply mapM_range_ok
    intro z hz
    rw [Int.toNat_natCast] at hz
    obtain ⟨h1, h2⟩ := readI_cell infield hl hi' hj' hz
    rw [arrayPos_ok hi' (by omega), Res.ok_bind, h2, if_pos h]
  · rw [if_neg, Int.toNat_natCast]
    · congr 1
      symm
      rw [List.eq_replicate_iff]
      simp [h]
    · rintro ⟨h1, h2, h3, h4⟩
      apply h
      constructor
      · by_contra hc
        exact not_near_lround (n := ix) (x := x) (fun h => hc h.1) ⟨h1, h2⟩
      · by_contra hc
        exact not_near_lround (n := iy) (x := y) (fun h => hc h.1) ⟨h3, h4⟩

/-- C33: the cell read is the nearest one. -/
theorem C33_cell_is_nearest (n : ℕ) (x : K) (h : Near n x) (hn : 0 < n) :
    ⌊x + 1 / 2⌋.toNat < n ∧ ∀ k : ℕ, |x - (⌊x + 1 / 2⌋.toNat : K)| ≤ |x - (k : K)| := by
  obtain ⟨i, hi, hi', hie⟩ := near_lround h hn
  rw [hie]
  refine ⟨hi', ?_⟩
  intro k
  have ha := Scale.abs_sub_lround x
  rw [hi] at ha
  by_cases hk : k = i
  · rw [hk]
  · have : (1 : K) ≤ |(i : K) - k| := by
      have h1 : (1 : ℤ) ≤ |(i : ℤ) - k| := Int.one_le_abs (by omega)
      have : ((1 : ℤ) : K) ≤ ((|(i : ℤ) - k| : ℤ) : K) := by exact_mod_cast h1
      rw [Int.cast_abs] at this
      push_cast at this
      exact this
    push_cast at ha
    have h3 := abs_sub_abs_le_abs_sub ((i : K) - k) ((i : K) - x)
    have h4 : ((i : K) - k) - ((i : K) - x) = x - k := by ring
    rw [h4, abs_sub_comm (i : K) x] at h3
    linarith

example : getValues ([some 1, some 2, some 3, none, some 5, some 6] : List (Option ℚ)) (3 / 2) (-1 / 4) 3 2 1 =
    .ok [some 3] := by decide +kernel
example : Near 3 (3 / 2 : ℚ) ∧ Near 2 (-1 / 4 : ℚ) := by unfold Near; norm_num
example : getValues ([some 1, some 2, some 3, none, some 5, some 6] : List (Option ℚ)) (5 / 2) (-1 / 4) 3 2 1 =
    .ok [none] := by decide +kernel

/-- The range of positions in C33 cannot be dropped: `lround` gives a 64-bit number that is cut to 32 bits,
so that a position 2^32 cells to the right is taken for the first column. -/
theorem C33_far_position_wraps :
    getValues ([some 1, some 2] : List (Option ℚ)) (2 ^ 32) 0 2 1 1 = .ok [some 1] := by decide +kernel

theorem oadd_omul (f : K) (a b : Option K) : oadd (omul (1 - f) a) (omul f b) = mix f a b := by
  cases a <;> cases b <;> rfl

/-- The case in which the code compares with `<=` instead of `<`: next to the first or last column and
within the first half cell beyond the rows. -/
def BeyondLastRow (ix iy : ℕ) (x y : K) : Prop :=
  Near ix x ∧ ¬ (0 ≤ x ∧ x < (ix : K) - 1) ∧ (iy : K) - 1 / 2 ≤ y ∧ y < (iy : K) + 1 / 2

theorem lround_last {n : ℕ} {y : K} : (0 ≤ lround y ∧ lround y ≤ (n : ℤ)) ↔ Near (n + 1) y := by
  have := lround_near (n + 1) y
  constructor
  · intro h
    rcases this.mp ⟨h.1, by push_cast; omega⟩ with h' | h'
    · exact h'.1
    · exact h'.elim
  · intro h
    have := this.mpr (Or.inl ⟨h, by omega⟩)
    push_cast at this
    omega

/-- C32: except in the case `BeyondLastRow`, the code computes bilinear interpolation as specified, for every
layer, and reads nothing outside the field.  Missing for the full claim: that case, see
`C32_reads_outside_the_field`. -/
theorem C32_bilinear_partial (infield : List (Option K)) (ix iy iz : ℕ) (x y : K)
    (hl : infield.length = ix * iy * iz) (hsize : ix * iy < 2 ^ 31) (hx : IntRange x) (hy : IntRange y)
    (hix : 0 < ix) (hiy : 0 < iy) (hbug : ¬ BeyondLastRow ix iy x y) :
    bilinear infield x y ix iy iz = .ok ((List.range iz).map fun z => bilinearSpec infield ix iy z x y) := by
  have hcell : ∀ i j, i < ix → j < iy → arrayPos (i : ℤ) (j : ℤ) 0 (ix : ℤ) (iy : ℤ) = .ok ((j * ix + i : ℕ) : ℤ) := by
    intro i j hi hj
    have h1 : j * ix + i < ix * iy := by
      have : (j + 1) * ix ≤ iy * ix := Nat.mul_le_mul_right _ hj
      rw [Nat.add_mul, Nat.mul_comm iy ix] at this; omega
    have := arrayPos_ok (x := i) (y := j) (z := 0) (ix := ix) (iy := iy) hi (by rw [Nat.zero_mul, Nat.zero_add]; omega)
    simpa using this
  have hread : ∀ i j z, i < ix → j < iy → z < iz → ∀ p : ℤ, p = ((j * ix + i : ℕ) : ℤ) + (z : ℤ) * ((iy : ℤ) * ix) →
      readI infield p = .ok (cell infield ix iy z i j) := by
    intro i j z hi hj hz p hp
    have := (readI_cell infield hl hi hj hz).2
    rw [← this, hp]
    congr 1
    push_cast; ring
  unfold bilinear
  rw [(floor_int32 hx).1, Res.ok_bind, (floor_int32 hx).2, Res.ok_bind, (floor_int32 hy).1, Res.ok_bind,
    (floor_int32 hy).2, Res.ok_bind]
  simp only [Int.toNat_natCast]
  have hnone : ∀ f : ℕ → Option K, (∀ z, f z = none) →
      (Res.ok (List.replicate iz none) : Res (List (Option K))) = .ok ((List.range iz).map f) := by
    intro f hf
    congr 1
    symm
    rw [List.eq_replicate_iff]
    simp [hf]
  by_cases hxi : 0 ≤ x ∧ x < (ix : K) - 1
  · have hxf := (floor_inner ix x).mpr hxi
    rw [if_pos hxf]
    obtain ⟨i, hi⟩ : ∃ i : ℕ, ⌊x⌋ = (i : ℤ) := ⟨⌊x⌋.toNat, by omega⟩
    have hxs : ∀ g, along ix x g = mix (x - (i : ℤ)) (g i) (g (i + 1)) := by
      intro g; unfold along; rw [if_pos hxi, hi, Int.toNat_natCast]
    rw [hi] at hxf ⊢
    have hi1 : i + 1 < ix := by omega
    by_cases hyi : 0 ≤ y ∧ y < (iy : K) - 1
    · have hyf := (floor_inner iy y).mpr hyi
      rw [if_pos hyf]
      obtain ⟨j, hj⟩ : ∃ j : ℕ, ⌊y⌋ = (j : ℤ) := ⟨⌊y⌋.toNat, by omega⟩
      have hys : ∀ g, along iy y g = mix (y - (j : ℤ)) (g j) (g (j + 1)) := by
        intro g; unfold along; rw [if_pos hyi, hj, Int.toNat_natCast]
      rw [hj] at hyf ⊢
      have hj1 : j + 1 < iy := by omega
      rw [hcell i j (by omega) (by omega), Res.ok_bind]
      apply mapM_range_ok
      intro z hz
      simp only [oadd_omul]
      rw [hread i j z (by omega) (by omega) hz _ rfl, Res.ok_bind,
        hread (i + 1) j z (by omega) (by omega) hz _ (by push_cast; ring), Res.ok_bind,
        hread i (j + 1) z (by omega) (by omega) hz _ (by push_cast; ring), Res.ok_bind,
        hread (i + 1) (j + 1) z (by omega) (by omega) hz _ (by push_cast; ring), Res.ok_bind]
      unfold bilinearSpec
      rw [hys, hxs, hxs]
    · rw [if_neg (mt (floor_inner iy y).mp hyi), lroundInt_ok hy, Res.ok_bind]
      by_cases hyn : Near iy y
      · obtain ⟨j, hj, hj', hje⟩ := near_lround hyn hiy
        have hys : ∀ g, along iy y g = g j := by
          intro g; unfold along; rw [if_neg hyi, if_pos hyn, hje]
        rw [hj, if_pos (by omega), hcell i j (by omega) hj', Res.ok_bind]
        apply mapM_range_ok
        intro z hz
        simp only [oadd_omul]
        rw [hread i j z (by omega) (by omega) hz _ rfl, Res.ok_bind,
          hread (i + 1) j z (by omega) (by omega) hz _ (by push_cast; ring), Res.ok_bind]
        unfold bilinearSpec
        rw [hys, hxs]
      · rw [if_neg (not_near_lround fun h => hyn h.1)]
        apply hnone
        intro z
        unfold bilinearSpec along
        rw [if_neg hyi, if_neg hyn]
  · rw [if_neg (mt (floor_inner ix x).mp hxi), lroundInt_ok hx, Res.ok_bind]
    by_cases hxn : Near ix x
    · obtain ⟨i, hi, hi', hie⟩ := near_lround hxn hix
      have hxs : ∀ g, along ix x g = g i := by
        intro g; unfold along; rw [if_neg hxi, if_pos hxn, hie]
      rw [hi, if_pos (by omega)]
      by_cases hyi : 0 ≤ y ∧ y < (iy : K) - 1
      · have hyf := (floor_inner iy y).mpr hyi
        rw [if_pos hyf]
        obtain ⟨j, hj⟩ : ∃ j : ℕ, ⌊y⌋ = (j : ℤ) := ⟨⌊y⌋.toNat, by omega⟩
        have hys : ∀ g, along iy y g = mix (y - (j : ℤ)) (g j) (g (j + 1)) := by
          intro g; unfold along; rw [if_pos hyi, hj, Int.toNat_natCast]
        rw [hj] at hyf ⊢
        have hj1 : j + 1 < iy := by omega
        rw [hcell i j (by omega) (by omega), Res.ok_bind]
        apply mapM_range_ok
        intro z hz
        simp only [oadd_omul]
        rw [hread i j z (by omega) (by omega) hz _ rfl, Res.ok_bind,
          hread i (j + 1) z (by omega) (by omega) hz _ (by push_cast; ring), Res.ok_bind]
        unfold bilinearSpec
        rw [hys, hxs, hxs]
      · rw [if_neg (mt (floor_inner iy y).mp hyi), lroundInt_ok hy, Res.ok_bind]
        by_cases hyn : Near iy y
        · obtain ⟨j, hj, hj', hje⟩ := near_lround hyn hiy
          have hys : ∀ g, along iy y g = g j := by
            intro g; unfold along; rw [if_neg hyi, if_pos hyn, hje]
          rw [hj, if_pos (by omega), hcell i j (by omega) hj', Res.ok_bind]
          apply mapM_range_ok
          intro z hz
          rw [hread i j z (by omega) (by omega) hz _ rfl]
          unfold bilinearSpec
          rw [hys, hxs]
        · rw [if_neg]
          · apply hnone
            intro z
            unfold bilinearSpec along
            rw [if_neg hyi, if_neg hyn]
          · intro hc
            have hc' := lround_last.mp hc
            apply hbug
            refine ⟨hxn, hxi, ?_, ?_⟩
            · by_contra hlt
              exact hyn ⟨hc'.1, not_le.mp hlt⟩
            · have := hc'.2
              push_cast at this
              linarith
    · rw [if_neg (not_near_lround fun h => hxn h.1)]
      apply hnone
      intro z
      unfold bilinearSpec
      have hxs : ∀ g, along ix x g = none := by
        intro g; unfold along; rw [if_neg hxi, if_neg hxn]
      simp only [hxs]
      unfold along
      split
      · rfl
      · split <;> rfl

/-- C32: in the excluded case the code reads outside the field. -/
theorem C32_reads_outside_the_field (infield : List (Option K)) (ix iy iz : ℕ) (x y : K)
    (hl : infield.length = ix * iy * iz) (hsize : ix * iy + ix < 2 ^ 31) (hx : IntRange x) (hy : IntRange y)
    (hix : 0 < ix) (hiy : 0 < iy) (hiz : 0 < iz) (hbug : BeyondLastRow ix iy x y) :
    bilinear infield x y ix iy iz = .ub := by
  obtain ⟨hxn, hxi, hy1, hy2⟩ := hbug
  unfold bilinear
  rw [(floor_int32 hx).1, Res.ok_bind, (floor_int32 hx).2, Res.ok_bind, (floor_int32 hy).1, Res.ok_bind,
    (floor_int32 hy).2, Res.ok_bind]
  simp only [Int.toNat_natCast]
  rw [if_neg (mt (floor_inner ix x).mp hxi), lroundInt_ok hx, Res.ok_bind]
  obtain ⟨i, hi, hi', hie⟩ := near_lround hxn hix
  have hyi : ¬ (0 ≤ y ∧ y < (iy : K) - 1) := by
    rintro ⟨_, h⟩; linarith
  have hi0 : (1 : K) ≤ iy := by exact_mod_cast hiy
  have hylr : lround y = (iy : ℤ) := by
    rw [lround_eq_floor (by linarith), Int.floor_eq_iff]
    push_cast
    constructor <;> linarith
  rw [hi, if_pos (by omega), if_neg (mt (floor_inner iy y).mp hyi), lroundInt_ok hy, Res.ok_bind, hylr,
    if_pos (by omega)]
  have hpos := arrayPos_ok (x := i) (y := iy) (z := 0) (ix := ix) (iy := iy) hi'
    (by rw [Nat.zero_mul, Nat.zero_add, Nat.mul_comm iy ix]; omega)
  rw [show ((0 : ℕ) : ℤ) = 0 from rfl] at hpos
  rw [hpos, Res.ok_bind]
  apply mapM_ub (List.range iz) _ (iz - 1) (List.mem_range.mpr (by omega))
  · rw [show ((((0 * iy + iy) * ix + i : ℕ) : ℤ) + ((iz - 1 : ℕ) : ℤ) * ((iy : ℤ) * ix)) =
      ((iz * (iy * ix) + i : ℕ) : ℤ) by
        obtain ⟨n, rfl⟩ : ∃ n, iz = n + 1 := ⟨iz - 1, by omega⟩
        push_cast; simp; ring]
    unfold readI
    rw [if_neg (by omega), Int.toNat_natCast]
    unfold readAt
    rw [List.getElem?_eq_none]
    rw [hl, show ix * iy * iz = iz * (iy * ix) by ring]
    omega
  · intro z _
    unfold readI readAt
    split
    · simp
    · split <;> simp

example : BeyondLastRow 2 3 (-1 / 4 : ℚ) (5 / 2) := by
  unfold BeyondLastRow Near; norm_num
example : bilinear ([some 1, some 2, some 3, some 4, some 5, some 6] : List (Option ℚ)) (-1 / 4) (5 / 2) 2 3 1 = .ub := by
  decide +kernel
/-- A point in the middle of four cells, a point in the left border of the grid, and one outside. -/
example : bilinear ([some 1, some 2, some 3, some 4, some 5, some 6] : List (Option ℚ)) (1 / 2) (1 / 2) 2 3 1 =
      .ok [some (5 / 2)] ∧
    bilinear ([some 1, some 2, some 3, some 4, some 5, some 6] : List (Option ℚ)) (-1 / 4) (1 / 2) 2 3 1 =
      .ok [some 2] ∧
    bilinear ([some 1, some 2, some 3, some 4, some 5, some 6] : List (Option ℚ)) (-1) (1 / 2) 2 3 1 =
      .ok [none] := by decide +kernel

/-- The value `v` lies between two of the values `g i` with `i < n` at most one cell away from `x`. -/
def Between (n : ℕ) (x : K) (g : ℕ → Option K) (v : K) : Prop :=
  ∃ i j a b, i < n ∧ j < n ∧ |x - (i : K)| ≤ 1 ∧ |x - (j : K)| ≤ 1 ∧ g i = some a ∧ g j = some b ∧ a ≤ v ∧ v ≤ b

omit [FloorRing K] in
theorem mix_between {f a b : K} (h0 : 0 ≤ f) (h1 : f ≤ 1) :
    min a b ≤ (1 - f) * a + f * b ∧ (1 - f) * a + f * b ≤ max a b := by
  constructor
  · have h2 : (1 - f) * min a b ≤ (1 - f) * a := mul_le_mul_of_nonneg_left (min_le_left _ _) (by linarith)
    have h3 : f * min a b ≤ f * b := mul_le_mul_of_nonneg_left (min_le_right _ _) h0
    linarith
  · have h2 : (1 - f) * a ≤ (1 - f) * max a b := mul_le_mul_of_nonneg_left (le_max_left _ _) (by linarith)
    have h3 : f * b ≤ f * max a b := mul_le_mul_of_nonneg_left (le_max_right _ _) h0
    linarith

theorem along_between {n : ℕ} {x : K} {g : ℕ → Option K} {v : K} (hn : 0 < n) (h : along n x g = some v) :
    Between n x g v := by
  unfold along at h
  by_cases hi : 0 ≤ x ∧ x < (n : K) - 1
  · rw [if_pos hi] at h
    obtain ⟨k, hk⟩ : ∃ k : ℕ, ⌊x⌋ = (k : ℤ) := ⟨⌊x⌋.toNat, by have := (floor_inner n x).mpr hi; omega⟩
    have hkn : k + 1 < n := by have := (floor_inner n x).mpr hi; omega
    have hk1 : (k : K) ≤ x := by have := Int.floor_le x; rw [hk] at this; exact_mod_cast this
    have hk2 : x < (k : K) + 1 := by have := Int.lt_floor_add_one x; rw [hk] at this; exact_mod_cast this
    rw [hk, Int.toNat_natCast] at h
    have d1 : |x - (k : K)| ≤ 1 := by rw [abs_le]; constructor <;> linarith
    have d2 : |x - ((k + 1 : ℕ) : K)| ≤ 1 := by rw [abs_le]; push_cast; constructor <;> linarith
    cases ha : g k with
    | none => rw [ha] at h; cases g (k + 1) <;> cases h
    | some a =>
      cases hb : g (k + 1) with
      | none => rw [ha, hb] at h; cases h
      | some b =>
        rw [ha, hb] at h
        have hv : (1 - (x - ((k : ℤ) : K))) * a + (x - ((k : ℤ) : K)) * b = v := Option.some.inj h
        have := mix_between (f := x - ((k : ℤ) : K)) (a := a) (b := b) (by push_cast; linarith) (by push_cast; linarith)
        rw [hv] at this
        rcases le_total a b with hab | hab
        · rw [min_eq_left hab, max_eq_right hab] at this
          exact ⟨k, k + 1, a, b, by omega, hkn, d1, d2, ha, hb, this.1, this.2⟩
        · rw [min_eq_right hab, max_eq_left hab] at this
          exact ⟨k + 1, k, b, a, hkn, by omega, d2, d1, hb, ha, this.1, this.2⟩
  · rw [if_neg hi] at h
    by_cases hn' : Near n x
    · rw [if_pos hn'] at h
      obtain ⟨i, hi, hi', hie⟩ := near_lround hn' hn
      rw [hie] at h
      have ha := Scale.abs_sub_lround x
      rw [hi] at ha
      have : |x - (i : K)| ≤ 1 := by push_cast at ha; linarith
      exact ⟨i, i, v, v, hi', hi', this, this, h, h, le_rfl, le_rfl⟩
    · rw [if_neg hn'] at h; cases h

/-- C32: an interpolated value lies between two values of the layer at cells at most one cell away in each
direction. -/
theorem C32_between_neighbours (infield : List (Option K)) (ix iy z : ℕ) (x y v : K) (hix : 0 < ix) (hiy : 0 < iy)
    (h : bilinearSpec infield ix iy z x y = some v) :
    ∃ i j i' j' a b, i < ix ∧ j < iy ∧ i' < ix ∧ j' < iy ∧ |x - (i : K)| ≤ 1 ∧ |y - (j : K)| ≤ 1 ∧
      |x - (i' : K)| ≤ 1 ∧ |y - (j' : K)| ≤ 1 ∧ cell infield ix iy z i j = some a ∧
      cell infield ix iy z i' j' = some b ∧ a ≤ v ∧ v ≤ b := by
  obtain ⟨j, j', a, b, h1, h2, h3, h4, h5, h6, h7, h8⟩ := along_between hiy h
  obtain ⟨i, _, a', _, g1, _, g3, _, g5, _, g7, _⟩ := along_between hix h5
  obtain ⟨_, i', _, b', _, f2, _, f4, _, f6, _, f8⟩ := along_between hix h6
  exact ⟨i, j, i', j', a', b', g1, h1, f2, h2, g3, h3, f4, h4, g5, f6, le_trans g7 h7, le_trans h8 f8⟩

/-- C32: outside the grid (half a cell or more) the value is undefined. -/
theorem C32_outside_undefined (infield : List (Option K)) (ix iy z : ℕ) (x y : K) (hix : 0 < ix) (hiy : 0 < iy)
    (h : ¬ (Near ix x ∧ Near iy y)) : bilinearSpec infield ix iy z x y = none := by
  have hnear : ∀ (n : ℕ) (x : K), 0 < n → ¬ Near n x → ¬ (0 ≤ x ∧ x < (n : K) - 1) := by
    intro n x _ hc ⟨h1, h2⟩
    exact hc ⟨by linarith, by linarith⟩
  cases hv : bilinearSpec infield ix iy z x y with
  | none => rfl
  | some v =>
    exfalso
    obtain ⟨j, j', a, b, h1, h2, h3, h4, h5, h6, h7, h8⟩ := along_between hiy hv
    apply h
    constructor
    · by_contra hc
      unfold along at h5
      beta_reduce at h5
      rw [if_neg (hnear _ _ hix hc), if_neg hc] at h5
      cases h5
    · by_contra hc
      unfold bilinearSpec along at hv
      rw [if_neg (hnear _ _ hiy hc), if_neg hc] at hv
      cases hv

/-- C32: at a grid point the interpolated value is the value of the grid, provided that the neighbours to the
right and below (which have weight zero) are defined.  Missing for the full claim: undefined neighbours, see
`C32_grid_point_with_undefined_neighbour`. -/
theorem C32_grid_point_partial (infield : List (Option K)) (ix iy z i j : ℕ) (hi : i < ix) (hj : j < iy)
    (h : ∀ i' j', i' ≤ i + 1 → j' ≤ j + 1 → i ≤ i' → j ≤ j' → i' < ix → j' < iy →
      (cell infield ix iy z i' j').isSome) :
    bilinearSpec infield ix iy z (i : K) (j : K) = cell infield ix iy z i j := by
  have hal : ∀ (n k : ℕ) (g : ℕ → Option K), k < n → (∀ k', k ≤ k' → k' ≤ k + 1 → k' < n → (g k').isSome) →
      along n (k : K) g = g k := by
    intro n k g hk hg
    unfold along
    have hfl : ⌊(k : K)⌋ = (k : ℤ) := by
      have := Int.floor_intCast (R := K) (k : ℤ)
      simpa using this
    by_cases hin : (0 : K) ≤ k ∧ (k : K) < (n : K) - 1
    · rw [if_pos hin, hfl, Int.toNat_natCast]
      have hk1 : k + 1 < n := by
        have := (floor_inner n (k : K)).mpr hin
        rw [hfl] at this; omega
      obtain ⟨a, ha⟩ := Option.isSome_iff_exists.mp (hg k le_rfl (by omega) hk)
      obtain ⟨b, hb⟩ := Option.isSome_iff_exists.mp (hg (k + 1) (by omega) le_rfl hk1)
      rw [ha, hb]
      simp [mix]
    · have hne : Near n (k : K) := by
        have h1 : (0 : K) ≤ k := Nat.cast_nonneg _
        have h2 : (k : K) + 1 ≤ n := by exact_mod_cast hk
        constructor <;> linarith
      rw [if_neg hin, if_pos hne]
      obtain ⟨i, hi, hi', hie⟩ := near_lround hne (by omega)
      rw [hie]
      have := Scale.lround_intCast (K := K) (k : ℤ)
      rw [Int.cast_natCast, hi] at this
      have : i = k := by omega
      rw [this]
  unfold bilinearSpec
  rw [hal iy j _ hj, hal ix i _ hi]
  · intro k' h1 h2 h3; exact h k' j h2 (by omega) h1 le_rfl h3 hj
  · intro k' h1 h2 h3
    rw [hal ix i _ hi]
    · exact h i k' (by omega) h2 le_rfl h1 hi h3
    · intro k'' h4 h5 h6; exact h k'' k' h5 h2 h4 h1 h6 h3

/-- C32: at a grid point an undefined right neighbour makes the value undefined although its weight is zero
(`0*nan` is `nan`). -/
theorem C32_grid_point_with_undefined_neighbour :
    bilinear ([some 1, none, some 3, some 4] : List (Option ℚ)) 0 0 2 2 1 = .ok [none] := by decide +kernel

example : bilinear ([some 1, some 2, some 3, some 4] : List (Option ℚ)) 0 1 2 2 1 = .ok [some 3] := by
  decide +kernel

end Fimex.Interp
