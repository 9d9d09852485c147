import Verif.Interp.HorizontalProps

/-!
# Bicubic interpolation at a position

Model of `mifi_get_values_bicubic_f`, `src/interpolation.c:345-413`, with exact arithmetic, and theorems (C76).
-/

namespace Fimex.Interp

variable {K : Type} [Field K] [LinearOrder K] [FloorRing K]

/-! ## Model -/

/-- src/interpolation.c:347-354: the matrix, multiplied by one half. -/
def convMatrix (i j : ℕ) : K :=
  (((([[0, 2, 0, 0], [-1, 0, 1, 0], [2, -5, 4, -1], [-1, 3, -3, 1]] : List (List ℤ)).getD i []).getD j 0 : ℤ) : K) *
    (1 / 2)

/-- src/interpolation.c:365-389, `XM` and `MY`: the row of powers times the matrix. -/
def powersTimesMatrix (frac : K) (i : ℕ) : K :=
  let p := [1, frac, frac * frac, frac * frac * frac]
  (List.range 4).foldl (fun s j => s + p.getD j 0 * convMatrix j i) 0

/-- src/interpolation.c:401-408: a sum of four products, from 0. -/
def sum4 (w : ℕ → K) (v : ℕ → Option K) : Option K :=
  (List.range 4).foldl (fun s j => oadd s (omul (w j) (v j))) (some 0)

/-- src/interpolation.c:361-362: the test of one coordinate. -/
def hasTwo (x0 ix : ℤ) : Res Bool :=
  if 1 ≤ x0 then int32 (x0 + 2) >>= fun a => .ok (decide (a < ix)) else .ok false

/-- `&&`: the second operand is not evaluated if the first is false. -/
def andAlso (a : Bool) (b : Res Bool) : Res Bool := if a then b else .ok false

/-- src/interpolation.c:345-413 `mifi_get_values_bicubic_f`. -/
def bicubic (infield : List (Option K)) (x y : K) (ix iy iz : ℤ) : Res (List (Option K)) := do
  let x0 ← int32 ⌊x⌋
  let xfrac := x - x0
  let y0 ← int32 ⌊y⌋
  let yfrac := y - y0
  let inX ← hasTwo x0 ix
  let inside ← andAlso inX (hasTwo y0 iy)
  if inside then
    (List.range iz.toNat).mapM fun z : ℕ => do
      let F ← (List.range 4).mapM fun i : ℕ => (List.range 4).mapM fun j : ℕ => do
        let p ← arrayPos (x0 + i - 1) (y0 + j - 1) z ix iy
        readI infield p
      let XMF := fun i => sum4 (powersTimesMatrix xfrac) fun j => (F.getD j []).getD i none
      .ok (sum4 (powersTimesMatrix yfrac) XMF)
  else .ok (List.replicate iz.toNat none)

/-! ## Specification -/

/-- The cubic convolution kernel of Keys with parameter -1/2. -/
def keys (s : K) : K :=
  if |s| ≤ 1 then 3 / 2 * |s| ^ 3 - 5 / 2 * |s| ^ 2 + 1
  else if |s| < 2 then -(1 / 2) * |s| ^ 3 + 5 / 2 * |s| ^ 2 - 4 * |s| + 2
  else 0

/-- Convolution along one axis at position `x`: the four cells around `x` weighted by the kernel at their distance;
undefined if one of them is. -/
def conv (x : K) (g : ℕ → Option K) : Option K := do
  let n := ⌊x⌋.toNat
  let a ← g (n - 1)
  let b ← g n
  let c ← g (n + 1)
  let d ← g (n + 2)
  some (keys (x - ((n : K) - 1)) * a + keys (x - n) * b + keys (x - (n + 1)) * c + keys (x - (n + 2)) * d)

/-- The position has two cells on each side. -/
def Deep (n : ℕ) (x : K) : Prop := 1 ≤ x ∧ x < (n : K) - 2

instance (n : ℕ) (x : K) : Decidable (Deep n x) := inferInstanceAs (Decidable (_ ∧ _))

/-- Convolution along x in each row, then along y. -/
def bicubicSpec (infield : List (Option K)) (ix iy z : ℕ) (x y : K) : Option K :=
  if Deep ix x ∧ Deep iy y then conv y fun j => conv x fun i => cell infield ix iy z i j else none

/-! ## Theorems -/

variable [IsStrictOrderedRing K]

theorem weights (f : K) (h0 : 0 ≤ f) (h1 : f < 1) :
    powersTimesMatrix f 0 = keys (f + 1) ∧ powersTimesMatrix f 1 = keys f ∧
    powersTimesMatrix f 2 = keys (f - 1) ∧ powersTimesMatrix f 3 = keys (f - 2) := by
  have e : ∀ i, powersTimesMatrix f i = 0 + 1 * convMatrix 0 i + f * convMatrix 1 i + f * f * convMatrix 2 i +
      f * f * f * convMatrix 3 i := fun i => rfl
  refine ⟨?_, ?_, ?_, ?_⟩
  · rw [e]
    unfold keys
    rw [abs_of_nonneg (by linarith)]
    by_cases hz : f = 0
    · subst hz; simp [convMatrix]; norm_num
    · have : 0 < f := lt_of_le_of_ne h0 (Ne.symm hz)
      rw [if_neg (by linarith), if_pos (by linarith)]
      simp [convMatrix]; ring
  · rw [e]
    unfold keys
    rw [abs_of_nonneg h0, if_pos h1.le]
    simp [convMatrix]; ring
  · rw [e]
    unfold keys
    rw [abs_of_nonpos (by linarith), if_pos (by linarith)]
    simp [convMatrix]; ring
  · rw [e]
    unfold keys
    rw [abs_of_nonpos (by linarith), if_neg (by linarith)]
    by_cases hz : f = 0
    · subst hz; simp [convMatrix]
    · have : 0 < f := lt_of_le_of_ne h0 (Ne.symm hz)
      rw [if_pos (by linarith)]
      simp [convMatrix]; ring

theorem sum4_eq (w : ℕ → K) (v : ℕ → Option K) : sum4 w v = (do
    let a ← v 0
    let b ← v 1
    let c ← v 2
    let d ← v 3
    some (w 0 * a + w 1 * b + w 2 * c + w 3 * d)) := by
  have : sum4 w v = oadd (oadd (oadd (oadd (some 0) (omul (w 0) (v 0))) (omul (w 1) (v 1))) (omul (w 2) (v 2)))
      (omul (w 3) (v 3)) := rfl
  rw [this]
  cases v 0 <;> cases v 1 <;> cases v 2 <;> cases v 3 <;> simp [oadd, omul]

theorem floor_deep (n : ℕ) (x : K) : (1 ≤ ⌊x⌋ ∧ ⌊x⌋ + 2 < (n : ℤ)) ↔ Deep n x := by
  unfold Deep
  rw [Int.le_floor, Int.cast_one]
  constructor
  · rintro ⟨h1, h2⟩
    refine ⟨h1, ?_⟩
    have : x < ((n : ℤ) - 2 : ℤ) := Int.floor_lt.mp (by omega)
    push_cast at this; exact this
  · rintro ⟨h1, h2⟩
    refine ⟨h1, ?_⟩
    have : ⌊x⌋ < (n : ℤ) - 2 := Int.floor_lt.mpr (by push_cast; exact h2)
    omega

theorem sum4_conv (x : K) (hx : 1 ≤ ⌊x⌋) (g : ℕ → Option K) :
    sum4 (powersTimesMatrix (x - (⌊x⌋ : ℤ))) (fun i => g (⌊x⌋.toNat - 1 + i)) = conv x g := by
  have h0 : 0 ≤ x - (⌊x⌋ : ℤ) := by have := Int.floor_le x; linarith
  have h1 : x - (⌊x⌋ : ℤ) < 1 := by have := Int.lt_floor_add_one x; linarith
  obtain ⟨w0, w1, w2, w3⟩ := weights _ h0 h1
  rw [sum4_eq]
  unfold conv
  dsimp only
  have hn : ((⌊x⌋.toNat : ℕ) : K) = ((⌊x⌋ : ℤ) : K) := by
    have : ((⌊x⌋.toNat : ℕ) : ℤ) = ⌊x⌋ := Int.toNat_of_nonneg (by omega)
    rw [← Int.cast_natCast, this]
  rw [w0, w1, w2, w3, hn]
  rw [show ⌊x⌋.toNat - 1 + 0 = ⌊x⌋.toNat - 1 by omega, show ⌊x⌋.toNat - 1 + 1 = ⌊x⌋.toNat by omega,
    show ⌊x⌋.toNat - 1 + 2 = ⌊x⌋.toNat + 1 by omega, show ⌊x⌋.toNat - 1 + 3 = ⌊x⌋.toNat + 2 by omega]
  rw [show x - ((⌊x⌋ : ℤ) : K) + 1 = x - (((⌊x⌋ : ℤ) : K) - 1) by ring,
    show x - ((⌊x⌋ : ℤ) : K) - 1 = x - (((⌊x⌋ : ℤ) : K) + 1) by ring,
    show x - ((⌊x⌋ : ℤ) : K) - 2 = x - (((⌊x⌋ : ℤ) : K) + 2) by ring]

theorem sum4_congr (w : ℕ → K) (u v : ℕ → Option K) (h : ∀ j < 4, u j = v j) : sum4 w u = sum4 w v := by
  rw [sum4_eq, sum4_eq, h 0 (by omega), h 1 (by omega), h 2 (by omega), h 3 (by omega)]

/-- **C76.** Bicubic interpolation reads only the sixteen cells around the position, in every layer; the result is the
convolution with Keys' kernel, undefined as soon as one of the sixteen cells is undefined or the position has not two
cells on each side. -/
theorem C76_bicubic (infield : List (Option K)) (ix iy iz : ℕ) (x y : K) (hl : infield.length = ix * iy * iz)
    (h31 : ix * iy * iz < 2 ^ 31) (hix : ix < 2 ^ 31) (hiy : iy < 2 ^ 31)
    (hx : -2 ^ 31 ≤ ⌊x⌋ ∧ ⌊x⌋ < 2 ^ 31 - 2) (hy : -2 ^ 31 ≤ ⌊y⌋ ∧ ⌊y⌋ < 2 ^ 31 - 2) :
    bicubic infield x y ix iy iz = .ok ((List.range iz).map fun z => bicubicSpec infield ix iy z x y) := by
  unfold bicubic
  rw [int32_ok hx.1 (by omega), Res.ok_bind, int32_ok hy.1 (by omega), Res.ok_bind]
  dsimp only
  have ex : ∀ (n : ℕ) (a : ℤ), -2 ^ 31 ≤ a ∧ a < 2 ^ 31 - 2 →
      hasTwo a n = Res.ok (decide (1 ≤ a ∧ a + 2 < (n : ℤ))) := by
    intro n a ha
    unfold hasTwo
    by_cases h : 1 ≤ a
    · rw [if_pos h, int32_ok (by omega) (by omega), Res.ok_bind]
      congr 1
      simp [h]
    · rw [if_neg h]
      congr 1
      simp [h]
  rw [ex ix _ hx, ex iy _ hy]
  simp only [Res.ok_bind, andAlso]
  have hall : ¬ (Deep ix x ∧ Deep iy y) → (Res.ok (List.replicate (iz : ℤ).toNat none) : Res (List (Option K))) =
      .ok ((List.range iz).map fun z => bicubicSpec infield ix iy z x y) := by
    intro h
    congr 1
    unfold bicubicSpec
    simp only [if_neg h]
    simp
  by_cases dx : Deep ix x
  · by_cases dy : Deep iy y
    · have fx := (floor_deep ix x).2 dx
      have fy := (floor_deep iy y).2 dy
      rw [decide_eq_true fx, decide_eq_true fy]
      simp only [if_true, Res.ok_bind]
      rw [Int.toNat_natCast]
      refine mapM_range_ok iz _ _ fun z hz => ?_
      have hcell : ∀ i < 4, ∀ j < 4, (arrayPos (⌊x⌋ + (i : ℕ) - 1) (⌊y⌋ + (j : ℕ) - 1) z ix iy >>= fun p => readI infield p) =
          .ok (cell infield ix iy z (⌊x⌋.toNat - 1 + i) (⌊y⌋.toNat - 1 + j)) := by
        intro i hi j hj
        have e1 : ⌊x⌋ + (i : ℤ) - 1 = ((⌊x⌋.toNat - 1 + i : ℕ) : ℤ) := by omega
        have e2 : ⌊y⌋ + (j : ℤ) - 1 = ((⌊y⌋.toNat - 1 + j : ℕ) : ℤ) := by omega
        obtain ⟨r1, r2⟩ := readI_cell infield (i := ⌊x⌋.toNat - 1 + i) (j := ⌊y⌋.toNat - 1 + j) hl (by omega) (by omega) hz
        rw [e1, e2, arrayPos_ok (by omega) (by omega), Res.ok_bind, r2]
      rw [mapM_range_ok 4 _ (fun i => (List.range 4).map fun j =>
        cell infield ix iy z (⌊x⌋.toNat - 1 + i) (⌊y⌋.toNat - 1 + j))
        (fun i hi => mapM_range_ok 4 _ _ fun j hj => hcell i hi j hj)]
      rw [Res.ok_bind]
      congr 1
      unfold bicubicSpec
      rw [if_pos ⟨dx, dy⟩, ← sum4_conv y fy.1]
      have : ∀ j < 4, (sum4 (powersTimesMatrix (x - (⌊x⌋ : ℤ))) fun i =>
          (((List.range 4).map fun i => (List.range 4).map fun j =>
            cell infield ix iy z (⌊x⌋.toNat - 1 + i) (⌊y⌋.toNat - 1 + j)).getD i []).getD j none) =
          conv x fun i => cell infield ix iy z i (⌊y⌋.toNat - 1 + j) := by
        intro j hj
        rw [← sum4_conv x fx.1, sum4_eq, sum4_eq]
        have hj4 : j = 0 ∨ j = 1 ∨ j = 2 ∨ j = 3 := by omega
        rcases hj4 with rfl | rfl | rfl | rfl <;> rfl
      exact sum4_congr _ _ _ this
    · rw [decide_eq_false (fun h => dy ((floor_deep iy y).1 h))]
      simp only [Bool.false_eq_true, if_false, Res.ok_bind, ite_self]
      exact hall fun h => dy h.2
  · rw [decide_eq_false (fun h => dx ((floor_deep ix x).1 h))]
    simp only [Bool.false_eq_true, if_false, Res.ok_bind]
    exact hall fun h => dx h.1

example : (bicubic ((List.range 32).map fun i : ℕ => some (i : ℚ)) (5 / 2) 1 4 4 2) = .ok [none, none] ∧
    (bicubic ((List.range 32).map fun i : ℕ => some (i : ℚ)) 1 1 4 4 2) = .ok [some 5, some 21] := by decide +kernel

theorem keys_zero : keys (0 : K) = 1 := by simp [keys]
theorem keys_one : keys (1 : K) = 0 := by simp [keys]; norm_num
theorem keys_neg_one : keys (-1 : K) = 0 := by simp [keys]; norm_num
theorem keys_neg_two : keys (-2 : K) = 0 := by simp [keys]

/-- Convolution at a cell gives the value of the cell, if the four cells are defined. -/
theorem conv_at_cell (n : ℕ) (g : ℕ → Option K) (v : K) (hg : g n = some v) (h1 : g (n - 1) ≠ none)
    (h2 : g (n + 1) ≠ none) (h3 : g (n + 2) ≠ none) : conv (n : K) g = some v := by
  unfold conv
  rw [Int.floor_natCast, Int.toNat_natCast]
  dsimp only
  obtain ⟨a, ha⟩ := Option.ne_none_iff_exists'.1 h1
  obtain ⟨c, hc⟩ := Option.ne_none_iff_exists'.1 h2
  obtain ⟨d, hd⟩ := Option.ne_none_iff_exists'.1 h3
  rw [ha, hg, hc, hd]
  simp only [Option.bind_eq_bind, Option.bind_some]
  congr 1
  rw [show (n : K) - ((n : K) - 1) = 1 by ring, show (n : K) - n = 0 by ring, show (n : K) - (n + 1) = -1 by ring,
    show (n : K) - (n + 2) = -2 by ring, keys_zero, keys_one, keys_neg_one, keys_neg_two]
  ring

/-- **C76.** At a cell of the grid the result is the value of that cell, if the sixteen cells are defined. -/
theorem C76_grid_values (infield : List (Option K)) (ix iy z i j : ℕ) (hi : 1 ≤ i ∧ i + 2 < ix) (hj : 1 ≤ j ∧ j + 2 < iy)
    (hdef : ∀ a b, i ≤ a + 1 → a ≤ i + 2 → j ≤ b + 1 → b ≤ j + 2 → cell infield ix iy z a b ≠ none) :
    bicubicSpec infield ix iy z (i : K) (j : K) = cell infield ix iy z i j := by
  have dx : Deep ix (i : K) := (floor_deep ix _).1 (by rw [Int.floor_natCast]; omega)
  have dy : Deep iy (j : K) := (floor_deep iy _).1 (by rw [Int.floor_natCast]; omega)
  unfold bicubicSpec
  rw [if_pos ⟨dx, dy⟩]
  have row : ∀ b, j ≤ b + 1 → b ≤ j + 2 → ∃ v, cell infield ix iy z i b = some v ∧
      conv (i : K) (fun a => cell infield ix iy z a b) = some v := by
    intro b hb1 hb2
    obtain ⟨v, hv⟩ := Option.ne_none_iff_exists'.1 (hdef i b (by omega) (by omega) hb1 hb2)
    exact ⟨v, hv, conv_at_cell i _ v hv (hdef _ b (by omega) (by omega) hb1 hb2)
      (hdef _ b (by omega) (by omega) hb1 hb2) (hdef _ b (by omega) (by omega) hb1 hb2)⟩
  obtain ⟨v, hv, hc⟩ := row j (by omega) (by omega)
  have ne : ∀ b, j ≤ b + 1 → b ≤ j + 2 → conv (i : K) (fun a => cell infield ix iy z a b) ≠ none := by
    intro b h1 h2
    obtain ⟨w, -, hw⟩ := row b h1 h2
    rw [hw]; simp
  rw [hv]
  exact conv_at_cell j _ v hc (ne _ (by omega) (by omega)) (ne _ (by omega) (by omega)) (ne _ (by omega) (by omega))

/-- Convolution of the values of a quadratic polynomial gives its value at the position. -/
theorem conv_quadratic (x : K) (hx : 1 ≤ ⌊x⌋) (g : ℕ → Option K) (p q r : K)
    (hg : ∀ k, ⌊x⌋ ≤ k + 1 → k ≤ ⌊x⌋ + 2 → g k.toNat = some (p + q * k + r * k ^ 2)) :
    conv x g = some (p + q * x + r * x ^ 2) := by
  rw [← sum4_conv x hx, sum4_eq]
  have e : ∀ k : ℕ, k < 4 → g (⌊x⌋.toNat - 1 + k) =
      some (p + q * ((⌊x⌋ : ℤ) - 1 + k : K) + r * ((⌊x⌋ : ℤ) - 1 + k : K) ^ 2) := by
    intro k hk
    have := hg (⌊x⌋ - 1 + k) (by omega) (by omega)
    rw [show (⌊x⌋ - 1 + (k : ℤ)).toNat = ⌊x⌋.toNat - 1 + k by omega] at this
    rw [this]
    push_cast
    rfl
  rw [e 0 (by omega), e 1 (by omega), e 2 (by omega), e 3 (by omega)]
  simp only [Option.bind_eq_bind, Option.bind_some]
  congr 1
  set n : K := ((⌊x⌋ : ℤ) : K)
  have hw : ∀ i, powersTimesMatrix (x - n) i = 0 + 1 * convMatrix 0 i + (x - n) * convMatrix 1 i +
      (x - n) * (x - n) * convMatrix 2 i + (x - n) * (x - n) * (x - n) * convMatrix 3 i := fun i => rfl
  rw [hw, hw, hw, hw]
  simp [convMatrix]
  ring

/-- **C76.** A field that is a polynomial of degree at most 2 in each coordinate around the position is reproduced: the
result is the value of the polynomial. -/
theorem C76_quadratic_fields (infield : List (Option K)) (ix iy z : ℕ) (x y : K) (hx : Deep ix x) (hy : Deep iy y)
    (c : ℕ → ℕ → K)
    (hf : ∀ i j : ℕ, x - 2 < i → (i : K) ≤ x + 2 → y - 2 < j → (j : K) ≤ y + 2 → cell infield ix iy z i j =
      some ((c 0 0 + c 1 0 * i + c 2 0 * (i : K) ^ 2) + (c 0 1 + c 1 1 * i + c 2 1 * (i : K) ^ 2) * j +
        (c 0 2 + c 1 2 * i + c 2 2 * (i : K) ^ 2) * (j : K) ^ 2)) :
    bicubicSpec infield ix iy z x y =
      some ((c 0 0 + c 1 0 * x + c 2 0 * x ^ 2) + (c 0 1 + c 1 1 * x + c 2 1 * x ^ 2) * y +
        (c 0 2 + c 1 2 * x + c 2 2 * x ^ 2) * y ^ 2) := by
  have near : ∀ (u : K) (k : ℤ), ⌊u⌋ ≤ k + 1 → k ≤ ⌊u⌋ + 2 → u - 2 < k ∧ (k : K) ≤ u + 2 := by
    intro u k h1 h2
    have a1 := Int.lt_floor_add_one u
    have a2 := Int.floor_le u
    have b1 : ((⌊u⌋ : ℤ) : K) ≤ (k : K) + 1 := by exact_mod_cast h1
    have b2 : (k : K) ≤ ((⌊u⌋ : ℤ) : K) + 2 := by exact_mod_cast h2
    constructor <;> linarith
  have fx := ((floor_deep ix x).2 hx).1
  have fy := ((floor_deep iy y).2 hy).1
  have cast : ∀ k : ℤ, 0 ≤ k → ((k.toNat : ℕ) : K) = (k : K) := by
    intro k hk
    rw [← Int.cast_natCast, Int.toNat_of_nonneg hk]
  unfold bicubicSpec
  rw [if_pos ⟨hx, hy⟩]
  refine conv_quadratic y fy _ _ _ _ fun k k1 k2 => ?_
  rw [show (c 0 0 + c 1 0 * x + c 2 0 * x ^ 2) + (c 0 1 + c 1 1 * x + c 2 1 * x ^ 2) * (k : K) +
      (c 0 2 + c 1 2 * x + c 2 2 * x ^ 2) * (k : K) ^ 2 =
      (c 0 0 + c 0 1 * k + c 0 2 * (k : K) ^ 2) + (c 1 0 + c 1 1 * k + c 1 2 * (k : K) ^ 2) * x +
      (c 2 0 + c 2 1 * k + c 2 2 * (k : K) ^ 2) * x ^ 2 by ring]
  refine conv_quadratic x fx _ _ _ _ fun l l1 l2 => ?_
  obtain ⟨n1, n2⟩ := near x l l1 l2
  obtain ⟨n3, n4⟩ := near y k k1 k2
  have := hf l.toNat k.toNat (by rwa [cast l (by omega)]) (by rwa [cast l (by omega)])
    (by rwa [cast k (by omega)]) (by rwa [cast k (by omega)])
  rw [this, cast l (by omega), cast k (by omega)]
  congr 1
  ring

/-- i² + j² at (3/2, 5/4) is 61/16. -/
example : bicubic ((List.range 25).map fun p => some (((p % 5) ^ 2 + (p / 5) ^ 2 : ℕ) : ℚ)) (3 / 2) (5 / 4) 5 5 1 =
    .ok [some (61 / 16)] := by decide +kernel

/-- Unlike bilinear interpolation (C32) the result can lie outside the range of the cells used: a single cell of value
0 among ones gives a value above 1. -/
theorem C76_overshoot :
    bicubic ((List.range 36).map fun p => some (if p = 7 then (0 : ℚ) else 1)) (5 / 2) 1 6 6 1 = .ok [some (17 / 16)] := by
  decide +kernel

end Fimex.Interp
