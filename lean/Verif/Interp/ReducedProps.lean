import Verif.Interp.Reduced

/-!
# The reduced input domain does not change the results (C36)
-/

namespace Fimex.Interp

variable {K : Type} [Field K] [LinearOrder K] [FloorRing K]

open Scale (lround)

theorem flatMap_range_get {α : Type} (f : ℕ → List α) (L : ℕ) : ∀ (n : ℕ), (∀ z < n, (f z).length = L) →
    ((List.range n).flatMap f).length = n * L ∧
    ∀ z k, z < n → k < L → ((List.range n).flatMap f)[z * L + k]? = (f z)[k]? := by
  intro n
  induction n with
  | zero => intro _; simp
  | succ n ih =>
    intro h
    obtain ⟨h1, h2⟩ := ih fun z hz => h z (by omega)
    rw [List.range_succ, List.flatMap_append]
    constructor
    · simp [h1, h n (by omega), Nat.add_mul]
    · intro z k hz hk
      by_cases hzn : z = n
      · subst hzn
        rw [List.getElem?_append_right (by omega), h1]
        simp
      · have : z * L + k < n * L := by
          have : (z + 1) * L ≤ n * L := Nat.mul_le_mul_right _ (by omega)
          rw [Nat.add_mul] at this; omega
        rw [List.getElem?_append_left (by omega)]
        exact h2 z k (by omega) hk

theorem subField_spec (F : List (Option K)) (inX inY inZ m n w h : ℕ) :
    (subField F inX inY inZ m n w h).length = w * h * inZ ∧
    ∀ i j z, i < w → j < h → z < inZ →
      cell (subField F inX inY inZ m n w h) w h z i j = cell F inX inY z (m + i) (n + j) := by
  have hrow : ∀ z, ((List.range h).flatMap fun j => (List.range w).map fun i =>
      cell F inX inY z (m + i) (n + j)).length = h * w ∧ _ := fun z =>
    flatMap_range_get (fun j => (List.range w).map fun i => cell F inX inY z (m + i) (n + j)) w h
      (by intro z _; simp)
  have hz := flatMap_range_get (fun z => (List.range h).flatMap fun j => (List.range w).map fun i =>
      cell F inX inY z (m + i) (n + j)) (h * w) inZ fun z _ => (hrow z).1
  constructor
  · unfold subField; rw [hz.1]; ring
  · intro i j z hi hj hzz
    have hji : j * w + i < h * w := by
      have : (j + 1) * w ≤ h * w := Nat.mul_le_mul_right _ hj
      rw [Nat.add_mul] at this; omega
    have h1 := hz.2 z (j * w + i) hzz hji
    have h2 := (hrow z).2 j i hj hi
    unfold cell at *
    rw [List.getD_eq_getElem?_getD]
    have e : (z * h + j) * w + i = z * (h * w) + (j * w + i) := by ring
    unfold subField
    rw [e]
    unfold cell
    rw [h1, h2]
    simp [hi]

variable [IsStrictOrderedRing K]

/-- A position and a reduced axis that goes with it: `w` cells from cell `m` on, with at least two cells
to spare on either side unless the end of the axis is reached. -/
def Fits (inX : ℕ) (x : K) (m w : ℕ) : Prop :=
  0 < w ∧ m + w ≤ inX ∧ (m = 0 ∨ (m : K) + 2 ≤ x) ∧ (m + w = inX ∨ x + 2 ≤ (m : K) + w - 1)

omit [FloorRing K] in
theorem fits_near {inX m w : ℕ} {x : K} (h : Fits inX x m w) : Near inX x ↔ Near w (x - m) := by
  obtain ⟨h1, h2, h3, h4⟩ := h
  have hm : (0 : K) ≤ m := Nat.cast_nonneg _
  have hw : (1 : K) ≤ w := by exact_mod_cast h1
  have hmw : (m : K) + w ≤ inX := by exact_mod_cast h2
  unfold Near
  have a : (-(1 / 2) < x) ↔ (-(1 / 2) < x - m) := by
    rcases h3 with h3 | h3
    · simp [h3]
    · constructor <;> intro _ <;> linarith
  have b : x < (inX : K) - 1 / 2 ↔ x - m < (w : K) - 1 / 2 := by
    rcases h4 with h4 | h4
    · have : (inX : K) = m + w := by exact_mod_cast h4.symm
      rw [this]; constructor <;> intro _ <;> linarith
    · constructor <;> intro _ <;> linarith
  rw [a, b]

omit [FloorRing K] in
theorem fits_inner {inX m w : ℕ} {x : K} (h : Fits inX x m w) :
    (0 ≤ x ∧ x < (inX : K) - 1) ↔ (0 ≤ x - m ∧ x - m < (w : K) - 1) := by
  obtain ⟨h1, h2, h3, h4⟩ := h
  have hm : (0 : K) ≤ m := Nat.cast_nonneg _
  have hw : (1 : K) ≤ w := by exact_mod_cast h1
  have hmw : (m : K) + w ≤ inX := by exact_mod_cast h2
  have a : (0 ≤ x) ↔ (0 ≤ x - m) := by
    rcases h3 with h3 | h3
    · simp [h3]
    · constructor <;> intro _ <;> linarith
  have b : x < (inX : K) - 1 ↔ x - m < (w : K) - 1 := by
    rcases h4 with h4 | h4
    · have : (inX : K) = m + w := by exact_mod_cast h4.symm
      rw [this]; constructor <;> intro _ <;> linarith
    · constructor <;> intro _ <;> linarith
  rw [a, b]

theorem fits_intRange {inX m w : ℕ} {x : K} (h : Fits inX x m w) (hx : IntRange x) : IntRange (x - m) := by
  obtain ⟨h1, h2, h3, h4⟩ := h
  obtain ⟨a, b⟩ := hx
  have hm : (0 : K) ≤ m := Nat.cast_nonneg _
  rcases h3 with h3 | h3
  · subst h3; unfold IntRange; simpa using ⟨a, b⟩
  · constructor <;> linarith

theorem fits_along {inX m w : ℕ} {x : K} (h : Fits inX x m w) (g g' : ℕ → Option K)
    (hg : ∀ i < w, g' i = g (m + i)) : along w (x - m) g' = along inX x g := by
  have hn := fits_near h
  have hi := fits_inner h
  obtain ⟨h1, h2, h3, h4⟩ := h
  unfold along
  by_cases c : 0 ≤ x ∧ x < (inX : K) - 1
  · rw [if_pos c, if_pos (hi.mp c)]
    have d := (floor_inner w (x - m)).mpr (hi.mp c)
    have e : ⌊x - (m : K)⌋ = ⌊x⌋ - m := Int.floor_sub_natCast x m
    rw [e] at d ⊢
    obtain ⟨k, hk⟩ : ∃ k : ℕ, ⌊x⌋ - m = (k : ℤ) := ⟨(⌊x⌋ - m).toNat, by omega⟩
    have hx : ⌊x⌋ = ((m + k : ℕ) : ℤ) := by push_cast; omega
    rw [hk, hx, Int.toNat_natCast, Int.toNat_natCast, hg k (by omega), hg (k + 1) (by omega)]
    congr 1
    push_cast; ring
  · rw [if_neg c, if_neg (mt hi.mpr c)]
    by_cases c2 : Near inX x
    · rw [if_pos c2, if_pos (hn.mp c2)]
      obtain ⟨k, hk1, hk2, hk3⟩ := near_lround (hn.mp c2) h1
      rw [hk3, hg k hk2]
      have e : ⌊x - (m : K) + 1 / 2⌋ = ⌊x + 1 / 2⌋ - m := by
        rw [show x - (m : K) + 1 / 2 = x + 1 / 2 - m by ring, Int.floor_sub_natCast]
      rw [lround_eq_floor (hn.mp c2).1, e] at hk1
      congr 1
      omega
    · rw [if_neg c2, if_neg (mt hn.mpr c2)]

omit [FloorRing K] in
theorem fits_beyond {inX inY m n w h : ℕ} {x y : K} (hx : Fits inX x m w) (hy : Fits inY y n h) :
    BeyondLastRow inX inY x y ↔ BeyondLastRow w h (x - m) (y - n) := by
  unfold BeyondLastRow
  rw [fits_near hx, fits_inner hx]
  obtain ⟨h1, h2, h3, h4⟩ := hy
  have hm : (0 : K) ≤ n := Nat.cast_nonneg _
  have hw : (1 : K) ≤ h := by exact_mod_cast h1
  have hmw : (n : K) + h ≤ inY := by exact_mod_cast h2
  have : ((inY : K) - 1 / 2 ≤ y ∧ y < (inY : K) + 1 / 2) ↔ ((h : K) - 1 / 2 ≤ y - n ∧ y - n < (h : K) + 1 / 2) := by
    rcases h4 with h4 | h4
    · have : (inY : K) = n + h := by exact_mod_cast h4.symm
      rw [this]
      constructor <;> rintro ⟨a, b⟩ <;> constructor <;> linarith
    · constructor
      · rintro ⟨a, b⟩; exfalso; linarith
      · rintro ⟨a, b⟩; exfalso; linarith
  rw [this]

theorem bilinear_reduced (F : List (Option K)) (inX inY inZ m n w h : ℕ) (x y : K)
    (hl : F.length = inX * inY * inZ) (hsize : inX * inY + inX < 2 ^ 31) (hx : IntRange x) (hy : IntRange y)
    (fx : Fits inX x m w) (fy : Fits inY y n h) :
    bilinear (subField F inX inY inZ m n w h) (x - m) (y - n) w h inZ = bilinear F x y inX inY inZ := by
  have hsub := subField_spec F inX inY inZ m n w h
  have hw : 0 < w := fx.1
  have hh : 0 < h := fy.1
  have hwX : w ≤ inX := by have := fx.2.1; omega
  have hhY : h ≤ inY := by have := fy.2.1; omega
  have hwh : w * h ≤ inX * inY := Nat.mul_le_mul hwX hhY
  by_cases hb : BeyondLastRow inX inY x y
  · by_cases hz : inZ = 0
    · subst hz
      -- nothing is read at all when there are no layers
      have hempty : ∀ (G : List (Option K)) (x y : K) (ix iy : ℕ), IntRange x → IntRange y →
          ix * iy + ix < 2 ^ 31 → 0 < ix → 0 < iy → BeyondLastRow ix iy x y → bilinear G x y ix iy 0 = .ok [] := by
        intro G x y ix iy hx hy hs hix hiy ⟨hxn, hxi, hy1, hy2⟩
        unfold bilinear
        rw [(floor_int32 hx).1, Res.ok_bind, (floor_int32 hx).2, Res.ok_bind, (floor_int32 hy).1, Res.ok_bind,
          (floor_int32 hy).2, Res.ok_bind]
        rw [if_neg (mt (floor_inner ix x).mp hxi), lroundInt_ok hx, Res.ok_bind]
        obtain ⟨i, hi, hi', hie⟩ := near_lround hxn hix
        have hyi : ¬ (0 ≤ y ∧ y < (iy : K) - 1) := by
          rintro ⟨_, h⟩; linarith
        have hi0 : (1 : K) ≤ iy := by exact_mod_cast hiy
        have hylr : lround y = (iy : ℤ) := by
          rw [lround_eq_floor (by linarith), Int.floor_eq_iff]
          push_cast
          constructor <;> linarith
        rw [hi, if_pos (by omega), if_neg (mt (floor_inner iy y).mp hyi), lroundInt_ok hy, Res.ok_bind, hylr,
          if_pos (by omega)]
        have hpos := arrayPos_ok (x := i) (y := iy) (z := 0) (ix := ix) (iy := iy) hi'
          (by rw [Nat.zero_mul, Nat.zero_add, Nat.mul_comm iy ix]; omega)
        rw [show ((0 : ℕ) : ℤ) = 0 from rfl] at hpos
        rw [hpos, Res.ok_bind]
        rfl
      rw [show ((0 : ℕ) : ℤ) = 0 from rfl]
      rw [hempty _ _ _ w h (fits_intRange fx hx) (fits_intRange fy hy) (by omega) hw hh ((fits_beyond fx fy).mp hb),
        hempty _ _ _ inX inY hx hy hsize (by omega) (by omega) hb]
    · rw [C32_reads_outside_the_field F inX inY inZ x y hl hsize hx hy (by omega) (by omega) (by omega) hb,
        C32_reads_outside_the_field _ w h inZ (x - m) (y - n) hsub.1 (by omega) (fits_intRange fx hx)
          (fits_intRange fy hy) hw hh (by omega) ((fits_beyond fx fy).mp hb)]
  · rw [C32_bilinear_partial F inX inY inZ x y hl (by omega) hx hy (by omega) (by omega) hb,
      C32_bilinear_partial _ w h inZ (x - m) (y - n) hsub.1 (by omega) (fits_intRange fx hx)
        (fits_intRange fy hy) hw hh (mt (fits_beyond fx fy).mpr hb)]
    congr 1
    apply List.map_congr_left
    intro z hz
    rw [List.mem_range] at hz
    unfold bilinearSpec
    apply fits_along fy
    intro j hj
    apply fits_along fx
    intro i hi
    exact hsub.2 i j z hi hj hz

theorem clampEx_lo {x : K} (hx : IntRange x) (low high : ℤ) :
    clampEx low x (-2) high = .ok (clamp low (⌊x⌋ + -2) high) := by
  obtain ⟨h1, h2⟩ := hx
  have h3 : (-2 ^ 31 : ℤ) ≤ ⌊x⌋ := Int.le_floor.mpr (by push_cast; linarith)
  have h4 : ⌊x⌋ < (2 ^ 31 : ℤ) := Int.floor_lt.mpr (by push_cast; linarith)
  unfold clampEx int64
  rw [show (if (-2 : ℤ) > 0 then ⌈x⌉ else ⌊x⌋) = ⌊x⌋ from if_neg (by omega), if_pos (by omega)]
  rfl

theorem clampEx_hi {x : K} (hx : IntRange x) (low high : ℤ) :
    clampEx low x 2 high = .ok (clamp low (⌈x⌉ + 2) high) := by
  obtain ⟨h1, h2⟩ := hx
  have h3 : (-2 ^ 31 : ℤ) ≤ ⌊x⌋ := Int.le_floor.mpr (by push_cast; linarith)
  have h5 : ⌈x⌉ ≤ (2 ^ 31 : ℤ) := Int.ceil_le.mpr (by push_cast; linarith)
  have h6 : ⌊x⌋ ≤ ⌈x⌉ := Int.floor_le_ceil x
  unfold clampEx int64
  rw [show (if (2 : ℤ) > 0 then ⌈x⌉ else ⌊x⌋) = ⌈x⌉ from if_pos (by omega), if_pos (by omega)]
  rfl

/-- The reduced axis computed from the extreme positions suits every position between them. -/
theorem clamp_fits (inX : ℕ) (lo hi x : K) (h1 : lo ≤ x) (h2 : x ≤ hi)
    (minX maxX : ℤ) (hmin : minX = clamp 0 (⌊lo⌋ + -2) ((inX : ℤ) - 1))
    (hmax : maxX = clamp 0 (⌈hi⌉ + 2) ((inX : ℤ) - 1)) (hr : ¬ maxX - minX < 1) (hin : 0 < inX) :
    0 ≤ minX ∧ Fits inX x minX.toNat (maxX - minX + 1).toNat := by
  unfold clamp at hmin hmax
  have hm0 : 0 ≤ minX := by rw [hmin]; split <;> [omega; (split <;> omega)]
  have hM : maxX ≤ (inX : ℤ) - 1 := by rw [hmax]; split <;> [omega; (split <;> omega)]
  obtain ⟨m, rfl⟩ : ∃ m : ℕ, minX = (m : ℤ) := ⟨minX.toNat, by omega⟩
  obtain ⟨M, rfl⟩ : ∃ M : ℕ, maxX = (M : ℤ) := ⟨maxX.toNat, by omega⟩
  rw [Int.toNat_natCast, show ((M : ℤ) - m + 1).toNat = M - m + 1 by omega]
  refine ⟨hm0, by omega, by omega, ?_, ?_⟩
  · split at hmin
    · left; omega
    · split at hmin
      · right
        have hf := Int.floor_le lo
        have : (⌊lo⌋ : K) = (m : K) + 2 := by
          have : ⌊lo⌋ = (m : ℤ) + 2 := by omega
          rw [this]; push_cast; rfl
        linarith
      · exfalso; omega
  · split at hmax
    · exfalso; omega
    · split at hmax
      · right
        have hf := Int.le_ceil hi
        have : (⌈hi⌉ : K) = (M : K) - 2 := by
          have : ⌈hi⌉ = (M : ℤ) - 2 := by omega
          rw [this]; push_cast; rfl
        have hc : ((M - m + 1 : ℕ) : K) = (M : K) - m + 1 := by
          rw [show M - m + 1 = M + 1 - m by omega, Nat.cast_sub (by omega)]; push_cast; ring
        rw [hc]; linarith
      · left; omega

omit [FloorRing K] [IsStrictOrderedRing K] in
theorem range_spec (p : List K) (hne : p ≠ []) :
    ∃ r, range p = .ok r ∧ r.1 ∈ p ∧ r.2 ∈ p ∧ ∀ x ∈ p, r.1 ≤ x ∧ x ≤ r.2 := by
  obtain ⟨m, M, h1, h2, h3, h4⟩ := MinMax.C49_min_max_element p hne
  unfold range
  rw [h1]
  exact ⟨_, rfl, List.mem_of_getElem? h2, List.mem_of_getElem? h3, h4⟩

omit [Field K] [LinearOrder K] [FloorRing K] [IsStrictOrderedRing K] in
theorem mapM_congr {α β : Type} (l : List α) (f g : α → Res β) (h : ∀ a ∈ l, f a = g a) :
    l.mapM f = l.mapM g := by
  induction l with
  | nil => rfl
  | cons a l ih =>
    rw [List.mapM_cons, List.mapM_cons, h a (by simp), ih fun b hb => h b (by simp [hb])]

omit [Field K] [LinearOrder K] [FloorRing K] [IsStrictOrderedRing K] in
theorem mapM_map' {α β γ : Type} (l : List α) (f : α → β) (g : β → Res γ) :
    (l.map f).mapM g = l.mapM fun a => g (f a) := by
  induction l with
  | nil => rfl
  | cons a l ih => rw [List.map_cons, List.mapM_cons, List.mapM_cons, ih]

/-- C36 for bilinear interpolation: interpolating from the reduced domain gives the same outcome (including
undefined behaviour) as interpolating the same positions from the whole field. -/
theorem C36_bilinear (F : List (Option K)) (inX inY inZ : ℕ) (px py : List K) (hl : F.length = inX * inY * inZ)
    (hsize : inX * inY + inX < 2 ^ 31) (hX : 0 < inX) (hY : 0 < inY) (hpx : px ≠ []) (hpy : py ≠ [])
    (hxr : ∀ x ∈ px, IntRange x) (hyr : ∀ y ∈ py, IntRange y) :
    ∃ c, createReducedDomain px py inX inY = .ok c ∧
      interpolateValues c (inputData F inX inY inZ c.origin c.inX c.inY) =
        interpolateValues ⟨px, py, inX, inY, none⟩ F := by
  obtain ⟨rx, hrx, hx1, hx2, hx3⟩ := range_spec px hpx
  obtain ⟨ry, hry, hy1, hy2, hy3⟩ := range_spec py hpy
  unfold createReducedDomain
  rw [hrx, Res.ok_bind, hry, Res.ok_bind]
  rw [show -extendCells = (-2 : ℤ) from rfl, show extendCells = (2 : ℤ) from rfl]
  rw [clampEx_lo (hxr _ hx1), Res.ok_bind, clampEx_lo (hyr _ hy1), Res.ok_bind,
    clampEx_hi (hxr _ hx2), Res.ok_bind, clampEx_hi (hyr _ hy2), Res.ok_bind]
  generalize hminX : clamp 0 (⌊rx.1⌋ + -2) ((inX : ℤ) - 1) = minX
  generalize hminY : clamp 0 (⌊ry.1⌋ + -2) ((inY : ℤ) - 1) = minY
  generalize hmaxX : clamp 0 (⌈rx.2⌉ + 2) ((inX : ℤ) - 1) = maxX
  generalize hmaxY : clamp 0 (⌈ry.2⌉ + 2) ((inY : ℤ) - 1) = maxY
  by_cases hr : maxX - minX < 1 ∨ maxY - minY < 1
  · rw [if_pos hr]
    exact ⟨_, rfl, rfl⟩
  · rw [if_neg hr]
    refine ⟨_, rfl, ?_⟩
    push Not at hr
    have fx : ∀ x ∈ px, 0 ≤ minX ∧ Fits inX x minX.toNat (maxX - minX + 1).toNat := fun x hx =>
      clamp_fits inX rx.1 rx.2 x (hx3 x hx).1 (hx3 x hx).2 minX maxX hminX.symm hmaxX.symm (by omega) hX
    have fy : ∀ y ∈ py, 0 ≤ minY ∧ Fits inY y minY.toNat (maxY - minY + 1).toNat := fun y hy =>
      clamp_fits inY ry.1 ry.2 y (hy3 y hy).1 (hy3 y hy).2 minY maxY hminY.symm hmaxY.symm (by omega) hY
    have hm0 : 0 ≤ minX := (fx _ hx1).1
    have hn0 : 0 ≤ minY := (fy _ hy1).1
    generalize hw : (maxX - minX + 1).toNat = w at *
    generalize hh : (maxY - minY + 1).toNat = h at *
    have hw0 : 0 < w := (fx _ hx1).2.1
    have hh0 : 0 < h := (fy _ hy1).2.1
    unfold interpolateValues inputData
    simp only
    have hsub := subField_spec F inX inY inZ minX.toNat minY.toNat w h
    rw [if_neg (by have := Nat.mul_pos hw0 hh0; omega), if_neg (by have := Nat.mul_pos hX hY; omega),
      hsub.1, hl, Nat.mul_div_cancel_left _ (Nat.mul_pos hw0 hh0), Nat.mul_div_cancel_left _ (Nat.mul_pos hX hY),
      List.zip_map, mapM_map']
    congr 1
    apply mapM_congr
    rintro ⟨x, y⟩ hp
    have hx := (List.of_mem_zip hp).1
    have hy := (List.of_mem_zip hp).2
    simp only [Prod.map]
    have ex : (minX : K) = (minX.toNat : K) := by
      rw [← Int.cast_natCast, Int.toNat_of_nonneg hm0]
    have ey : (minY : K) = (minY.toNat : K) := by
      rw [← Int.cast_natCast, Int.toNat_of_nonneg hn0]
    rw [ex, ey]
    exact bilinear_reduced F inX inY inZ minX.toNat minY.toNat w h x y hl hsize (hxr x hx) (hyr y hy)
      (fx x hx).2 (fy y hy).2

/-- The index the constructor stores for a target position, before reduction. -/
def nnIndex (inX inY : ℕ) (p : K × K) : ℕ :=
  if Near inX p.1 ∧ Near inY p.2 then ⌊p.2 + 1 / 2⌋.toNat * inX + ⌊p.1 + 1 / 2⌋.toNat else invalid

theorem roundAndClamp_eq {n : ℕ} (hn : 0 < n) (hn2 : n ≤ invalid) {x : K} (hx : IntRange x) :
    roundAndClamp n x = .ok (if Near n x then ⌊x + 1 / 2⌋.toNat else invalid) := by
  unfold roundAndClamp
  rw [lroundInt_ok hx, Res.ok_bind]
  simp only
  unfold invalid at *
  rw [wsub_eq hn (by unfold two64; omega)]
  by_cases h : Near n x
  · obtain ⟨i, hi, hi', hie⟩ := near_lround h hn
    have e : ((i : ℤ) % 2 ^ 64).toNat = i := by
      rw [Int.emod_eq_of_lt (by omega) (by omega)]; omega
    rw [if_pos h, hi, hie, e, if_pos (by omega)]
  · rw [if_neg h, if_neg]
    have h1 := not_near_lround (n := n) (x := x) fun c => h c.1
    have ha := Scale.abs_sub_lround x
    rw [abs_le] at ha
    have h3 : (-2 ^ 31 - 1 : ℤ) < lround x := by
      have : ((-2 ^ 31 - 1 : ℤ) : K) < (lround x : K) := by push_cast; linarith [ha.1, ha.2, hx.1]
      exact_mod_cast this
    have h4 : lround x < (2 ^ 31 : ℤ) := by
      have : (lround x : K) < ((2 ^ 31 : ℤ) : K) := by push_cast; linarith [ha.1, ha.2, hx.2]
      exact_mod_cast this
    generalize lround x = r at *
    omega

/-- The ranges contain the cells of all valid positions. -/
def Covers (inX inY : ℕ) (r : Ranges) (p : K × K) : Prop :=
  Near inX p.1 → Near inY p.2 → r.minX ≤ ⌊p.1 + 1 / 2⌋.toNat ∧ ⌊p.1 + 1 / 2⌋.toNat ≤ r.maxX ∧
    r.minY ≤ ⌊p.2 + 1 / 2⌋.toNat ∧ ⌊p.2 + 1 / 2⌋.toNat ≤ r.maxY

theorem nnScan_spec {inX inY : ℕ} (hX : 0 < inX) (hY : 0 < inY) (hX2 : inX ≤ invalid) (hY2 : inY ≤ invalid) :
    ∀ (pts : List (K × K)) (s : Ranges), (∀ p ∈ pts, IntRange p.1 ∧ IntRange p.2) →
      ∃ r, nnScan inX inY pts s = .ok (pts.map (nnIndex inX inY), r) ∧
        r.minX ≤ s.minX ∧ s.maxX ≤ r.maxX ∧ r.minY ≤ s.minY ∧ s.maxY ≤ r.maxY ∧
        ∀ p ∈ pts, Covers inX inY r p := by
  intro pts
  induction pts with
  | nil => intro s _; exact ⟨s, rfl, le_rfl, le_rfl, le_rfl, le_rfl, by simp⟩
  | cons p rest ih =>
    intro s hp
    obtain ⟨hp1, hp2⟩ := hp p (by simp)
    rw [nnScan, roundAndClamp_eq hX hX2 hp1, Res.ok_bind, roundAndClamp_eq hY hY2 hp2, Res.ok_bind]
    simp only
    by_cases hv : Near inX p.1 ∧ Near inY p.2
    · obtain ⟨i, hi, hi', hie⟩ := near_lround hv.1 hX
      obtain ⟨j, hj, hj', hje⟩ := near_lround hv.2 hY
      rw [if_pos hv.1, if_pos hv.2, hie, hje]
      have hval : i ≠ invalid ∧ j ≠ invalid := by omega
      rw [if_pos hval, if_pos hval]
      obtain ⟨r, hr, h1, h2, h3, h4, h5⟩ := ih (s.include i j) fun q hq => hp q (by simp [hq])
      rw [hr, Res.ok_bind]
      refine ⟨r, ?_, ?_⟩
      · simp only [List.map_cons]
        congr 3
        unfold nnIndex; rw [if_pos hv, hie, hje]
      · have b1 : (s.include i j).minX ≤ s.minX ∧ (s.include i j).minX ≤ i := by
          unfold Ranges.include; simp only; split <;> omega
        have b2 : s.maxX ≤ (s.include i j).maxX ∧ i ≤ (s.include i j).maxX := by
          unfold Ranges.include; simp only; split <;> omega
        have b3 : (s.include i j).minY ≤ s.minY ∧ (s.include i j).minY ≤ j := by
          unfold Ranges.include; simp only; split <;> omega
        have b4 : s.maxY ≤ (s.include i j).maxY ∧ j ≤ (s.include i j).maxY := by
          unfold Ranges.include; simp only; split <;> omega
        refine ⟨by omega, by omega, by omega, by omega, ?_⟩
        intro q hq
        rcases List.mem_cons.mp hq with rfl | hq
        · intro _ _; rw [hie, hje]; omega
        · exact h5 q hq
    · have hinv : ¬ ((if Near inX p.1 then ⌊p.1 + 1 / 2⌋.toNat else invalid) ≠ invalid ∧
          (if Near inY p.2 then ⌊p.2 + 1 / 2⌋.toNat else invalid) ≠ invalid) := by
        rintro ⟨a, b⟩
        apply hv
        constructor
        · by_contra c; rw [if_neg c] at a; exact a rfl
        · by_contra c; rw [if_neg c] at b; exact b rfl
      rw [if_neg hinv, if_neg hinv]
      obtain ⟨r, hr, h1, h2, h3, h4, h5⟩ := ih s fun q hq => hp q (by simp [hq])
      rw [hr, Res.ok_bind]
      refine ⟨r, ?_, h1, h2, h3, h4, ?_⟩
      · simp only [List.map_cons]
        congr 3
        unfold nnIndex; rw [if_neg hv]
      · intro q hq
        rcases List.mem_cons.mp hq with rfl | hq
        · intro a b; exact absurd ⟨a, b⟩ hv
        · exact h5 q hq

/-- The nearest-neighbour value of the whole field at a position. -/
def nearestValue (F : List (Option K)) (inX inY z : ℕ) (p : K × K) : Option K :=
  if Near inX p.1 ∧ Near inY p.2 then cell F inX inY z ⌊p.1 + 1 / 2⌋.toNat ⌊p.2 + 1 / 2⌋.toNat else none

omit [Field K] [LinearOrder K] [FloorRing K] [IsStrictOrderedRing K] in
theorem mapM_ok_map {α β : Type} (l : List α) (f : α → Res β) (g : α → β) (h : ∀ a ∈ l, f a = .ok (g a)) :
    l.mapM f = .ok (l.map g) := by
  induction l with
  | nil => rfl
  | cons a l ih =>
    rw [List.mapM_cons, h a (by simp), Res.ok_bind, ih fun b hb => h b (by simp [hb])]
    rfl

theorem interpolateNN_eq (G : List (Option K)) (w h inZ : ℕ) (origin : Option (ℕ × ℕ)) (pts : List (K × K))
    (idx : K × K → ℕ) (val : ℕ → K × K → Option K) (hw : 0 < w) (hh : 0 < h) (hG : G.length = w * h * inZ)
    (hidx : ∀ z < inZ, ∀ p ∈ pts, (if idx p ≠ invalid then readAt G (z * (w * h) + idx p) else .ok none) = .ok (val z p)) :
    interpolateNN ⟨pts.map idx, w, h, origin⟩ G = .ok ((List.range inZ).flatMap fun z => pts.map (val z)) := by
  unfold interpolateNN
  simp only
  have hwh := Nat.mul_pos hw hh
  rw [if_neg (by omega), hG, Nat.mul_div_cancel_left _ hwh, mapM_range_ok _ _ fun z => pts.map (val z)]
  · rw [Res.ok_bind, List.flatMap_def]
  · intro z hz
    rw [mapM_map']
    exact mapM_ok_map _ _ _ (hidx z hz)

/-- C36 for nearest neighbours: whether or not the domain is reduced, the result is, layer by layer, the value of
the whole field at the cell nearest to each target position (undefined outside). -/
theorem C36_nearest_neighbour (F : List (Option K)) (inX inY inZ : ℕ) (pts : List (K × K))
    (hl : F.length = inX * inY * inZ) (hX : 0 < inX) (hY : 0 < inY) (hsize : inX * inY ≤ invalid)
    (hp : ∀ p ∈ pts, IntRange p.1 ∧ IntRange p.2) :
    ∃ c, createNN pts inX inY = .ok c ∧
      interpolateNN c (inputData F inX inY inZ c.origin c.inX c.inY) =
        .ok ((List.range inZ).flatMap fun z => pts.map (nearestValue F inX inY z)) := by
  have hX2 : inX ≤ invalid := le_trans (Nat.le_mul_of_pos_right _ hY) hsize
  have hY2 : inY ≤ invalid := le_trans (Nat.le_mul_of_pos_left _ hX) hsize
  have hinv : invalid < two64 := by unfold invalid two64; omega
  obtain ⟨r, hr, -, -, -, -, hcov⟩ := nnScan_spec hX hY hX2 hY2 pts ⟨inX, 0, inY, 0⟩ hp
  have hidx : ∀ p : K × K, Near inX p.1 ∧ Near inY p.2 → ∃ i j, i < inX ∧ j < inY ∧
      ⌊p.1 + 1 / 2⌋.toNat = i ∧ ⌊p.2 + 1 / 2⌋.toNat = j ∧ nnIndex inX inY p = j * inX + i ∧
      j * inX + i < inX * inY := by
    intro p hv
    obtain ⟨i, hi, hi', hie⟩ := near_lround hv.1 hX
    obtain ⟨j, hj, hj', hje⟩ := near_lround hv.2 hY
    refine ⟨i, j, hi', hj', hie, hje, ?_, ?_⟩
    · unfold nnIndex; rw [if_pos hv, hie, hje]
    · have : (j + 1) * inX ≤ inY * inX := Nat.mul_le_mul_right _ hj'
      rw [Nat.add_mul, Nat.mul_comm inY inX] at this; omega
  unfold createNN
  rw [hr, Res.ok_bind]
  simp only [wsub_eq hX (lt_of_le_of_lt hX2 hinv), wsub_eq hY (lt_of_le_of_lt hY2 hinv)]
  split
  · rename_i hred
    refine ⟨_, rfl, ?_⟩
    obtain ⟨-, hrx, hry⟩ := hred
    generalize hm : lower r.minX = m at *
    generalize hn : lower r.minY = n at *
    generalize hM : min (inX - 1) (r.maxX + 2) = M at *
    generalize hN : min (inY - 1) (r.maxY + 2) = N at *
    unfold inputData
    simp only
    rw [List.map_map]
    have hsub := subField_spec F inX inY inZ m n (M - m + 1) (N - n + 1)
    apply interpolateNN_eq _ _ _ inZ _ pts _ _ (by omega) (by omega) hsub.1
    intro z hz p hpp
    simp only [Function.comp]
    unfold nearestValue
    by_cases hv : Near inX p.1 ∧ Near inY p.2
    · obtain ⟨i, j, hi, hj, hie, hje, he, hlt⟩ := hidx p hv
      obtain ⟨c1, c2, c3, c4⟩ := hcov p hpp hv.1 hv.2
      rw [hie] at c1 c2
      rw [hje] at c3 c4
      have hmi : m ≤ i := by rw [← hm]; unfold lower; split <;> omega
      have hnj : n ≤ j := by rw [← hn]; unfold lower; split <;> omega
      have hiM : i ≤ M := by rw [← hM]; omega
      have hjN : j ≤ N := by rw [← hN]; omega
      have hMX : M ≤ inX - 1 := by rw [← hM]; omega
      have hNY : N ≤ inY - 1 := by rw [← hN]; omega
      have hdiv : (j * inX + i) / inX = j := by
        rw [Nat.add_comm, Nat.add_mul_div_right _ _ hX, Nat.div_eq_of_lt hi]; omega
      have hmod : (j * inX + i) % inX = i := by
        rw [Nat.add_comm, Nat.add_mul_mod_self_right, Nat.mod_eq_of_lt hi]
      have hnew : (j - n) * (M - m + 1) + (i - m) < (M - m + 1) * (N - n + 1) := by
        have : (j - n + 1) * (M - m + 1) ≤ (N - n + 1) * (M - m + 1) := Nat.mul_le_mul_right _ (by omega)
        rw [Nat.add_mul (j - n) 1, Nat.mul_comm (N - n + 1)] at this; omega
      have hle : (M - m + 1) * (N - n + 1) ≤ inX * inY := Nat.mul_le_mul (by omega) (by omega)
      have hc : nnIndex inX inY p ≠ invalid := by omega
      rw [if_pos hc, he, hdiv, hmod, wsub_eq hnj (by omega), wsub_eq hmi (by omega), if_pos (by omega), if_pos hv,
        hie, hje]
      have h1 := (readI_cell (subField F inX inY inZ m n (M - m + 1) (N - n + 1)) hsub.1
        (i := i - m) (j := j - n) (z := z) (by omega) (by omega) hz).2
      rw [hsub.2 (i - m) (j - n) z (by omega) (by omega) hz, show m + (i - m) = i by omega,
        show n + (j - n) = j by omega] at h1
      unfold readI at h1
      rw [if_neg (by omega), Int.toNat_natCast] at h1
      rw [← h1]
      congr 1
      ring
    · have : nnIndex inX inY p = invalid := by unfold nnIndex; rw [if_neg hv]
      rw [this]
      simp [hv]
  · refine ⟨_, rfl, ?_⟩
    unfold inputData
    simp only
    apply interpolateNN_eq F inX inY inZ _ pts _ _ hX hY hl
    intro z hz p hpp
    unfold nearestValue
    by_cases hv : Near inX p.1 ∧ Near inY p.2
    · obtain ⟨i, j, hi, hj, hie, hje, he, hlt⟩ := hidx p hv
      have hc : nnIndex inX inY p ≠ invalid := by omega
      rw [if_pos hc, he, if_pos hv, hie, hje]
      have h1 := (readI_cell F hl hi hj hz).2
      unfold readI at h1
      rw [if_neg (by omega), Int.toNat_natCast] at h1
      rw [← h1]
      congr 1
      ring
    · have : nnIndex inX inY p = invalid := by unfold nnIndex; rw [if_neg hv]
      rw [this, if_neg hv]
      simp

/-- C36: the bound on the field size is needed.  The index of the last cell of a field of 2^16 times 2^16 cells is
the number used as mark for `invalid`, so the value is undefined although the position is inside. -/
theorem C36_last_cell_taken_for_invalid :
    createNN [((65535 : ℚ), (65535 : ℚ))] (2 ^ 16) (2 ^ 16) = .ok ⟨[invalid], 2 ^ 16, 2 ^ 16, none⟩ ∧
    ∀ G : List (Option ℚ), G.length = 2 ^ 16 * 2 ^ 16 →
      interpolateNN ⟨[invalid], 2 ^ 16, 2 ^ 16, none⟩ G = .ok [none] := by
  constructor
  · decide +kernel
  · intro G hG
    unfold interpolateNN
    simp only
    rw [if_neg (by norm_num), hG, Nat.div_self (by norm_num)]
    rfl

/-- A field of 20 times 20 cells, with targets around cell (10, 10): only the cells 8 to 13 are read. -/
example : (createNN [((10 : ℚ), (10 : ℚ)), (21 / 2, 11), (30, 5)] 20 20) =
    .ok ⟨[14, 21, invalid], 6, 6, some (8, 8)⟩ := by decide +kernel
example : (createReducedDomain [(10 : ℚ), 21 / 2] [(3 : ℚ), 4] 20 20).bind (fun c => .ok (c.origin, c.inX, c.inY)) =
    .ok (some (8, 1), 6, 6) := by decide +kernel

end Fimex.Interp
