import Verif.Interp.HorizontalProps

/-!
# Interpolation between two fields

Model of `mifi_get_values_nearest_f`, `..._linear_f`, `..._linear_weak_extrapol_f`,
`..._linear_no_extrapol_f`, `..._linear_const_extrapol_f`, `..._log_f` and `..._log_log_f`,
`src/interpolation.c:415-546`, and theorems (C34).  The logarithm is a parameter; the return code
`MIFI_ERROR` is `throws`.
-/

namespace Fimex.Interp

variable {K : Type} [Field K] [LinearOrder K]

/-- Subtraction with undefined operands. -/
def osub (a b : Option K) : Option K := do
  let a ← a
  let b ← b
  some (a - b)

/-- src/interpolation.c:415-424 `mifi_get_values_nearest_f`. -/
def nearest (infieldA : List (Option K)) (n : ℕ) : Res (List (Option K)) := readRange infieldA 0 n

/-- src/interpolation.c:428-437 `mifi_get_values_linear_f_simple_`. -/
def linearSimple (infieldA infieldB : List (Option K)) (n : ℕ) (f : K) : Res (List (Option K)) :=
  (List.range n).mapM fun i : ℕ => do
    let iA ← readAt infieldA i
    let iB ← readAt infieldB i
    .ok (oadd iA (omul f (osub iB iA)))

/-- src/interpolation.c:440, 477 and 507. -/
def fraction (a b x : K) : K := if a = b then 0 else (x - a) / (b - a)

/-- src/interpolation.c:438-452 `mifi_get_values_linear_f` (and 454-474 `_d`). -/
def linear (infieldA infieldB : List (Option K)) (n : ℕ) (a b x : K) : Res (List (Option K)) :=
  let f := fraction a b x
  if f = 0 then readRange infieldA 0 n
  else if f = 1 then readRange infieldB 0 n
  else linearSimple infieldA infieldB n f

/-- src/interpolation.c:475-494 `mifi_get_values_linear_conf_extrapol_f`. -/
def linearConf (leftLimit rightLimit : K) (infieldA infieldB : List (Option K)) (n : ℕ) (a b x : K) :
    Res (List (Option K)) :=
  let f := fraction a b x
  if f = 0 then readRange infieldA 0 n
  else if f = 1 then readRange infieldB 0 n
  else if f ≥ leftLimit ∧ f ≤ rightLimit then linearSimple infieldA infieldB n f
  else .ok (List.replicate n none)

/-- src/interpolation.c:496-499. -/
def linearWeak (infieldA infieldB : List (Option K)) (n : ℕ) (a b x : K) : Res (List (Option K)) :=
  linearConf (-1) 2 infieldA infieldB n a b x

/-- src/interpolation.c:500-503. -/
def linearNo (infieldA infieldB : List (Option K)) (n : ℕ) (a b x : K) : Res (List (Option K)) :=
  linearConf 0 1 infieldA infieldB n a b x

/-- src/interpolation.c:505-516. -/
def linearConst (infieldA infieldB : List (Option K)) (n : ℕ) (a b x : K) : Res (List (Option K)) :=
  let f := fraction a b x
  if f ≥ 1 then readRange infieldB 0 n
  else if f ≤ 0 then readRange infieldA 0 n
  else linearSimple infieldA infieldB n f

/-- src/interpolation.c:521-532 `mifi_get_values_log_f`. -/
def logInterp (log : K → K) (infieldA infieldB : List (Option K)) (n : ℕ) (a b x : K) : Res (List (Option K)) :=
  if a ≤ 0 ∨ b ≤ 0 ∨ x ≤ 0 then .throws
  else linear infieldA infieldB n (log a) (log b) (log x)

/-- src/interpolation.c:534-546 `mifi_get_values_log_log_f`; the return value of the inner call is ignored. -/
def logLogInterp (log : K → K) (e : K) (infieldA infieldB : List (Option K)) (n : ℕ) (a b x : K) :
    Res (List (Option K)) :=
  if a ≤ 0 ∨ b ≤ 0 ∨ x ≤ 0 then .throws
  else logInterp log infieldA infieldB n (log (a + e)) (log (b + e)) (log (x + e))

/-! ## Specification and theorems -/

/-- The value at `x` of the straight line with value `u` at `a` and `v` at `b`; undefined as soon as a value
it depends on is: at `a` only `u`, at `b` only `v`. -/
def lineValue (a b x : K) (u v : Option K) : Option K :=
  if x = a then u
  else if x = b then v
  else match u, v with
    | some u, some v => some (u + (x - a) * (v - u) / (b - a))
    | _, _ => none

/-- Pointwise application to the first `n` values of two fields. -/
def pointwise (f : Option K → Option K → Option K) (A B : List (Option K)) (n : ℕ) : List (Option K) :=
  (List.range n).map fun i => f (A.getD i none) (B.getD i none)

omit [Field K] [LinearOrder K] in
theorem pointwise_left (A B : List (Option K)) (n : ℕ) (hA : n ≤ A.length) :
    readRange A 0 n = .ok (pointwise (fun u _ => u) A B n) := by
  unfold readRange pointwise
  rw [if_pos (by omega)]
  congr 1
  apply List.ext_getElem
  · simp; omega
  · intro i h1 h2
    simp at h1
    simp [show i < A.length by omega]

omit [Field K] [LinearOrder K] in
theorem pointwise_right (A B : List (Option K)) (n : ℕ) (hB : n ≤ B.length) :
    readRange B 0 n = .ok (pointwise (fun _ v => v) A B n) := by
  rw [pointwise_left B A n hB]; rfl

variable [IsStrictOrderedRing K]

omit [IsStrictOrderedRing K] in
theorem linearSimple_eq (A B : List (Option K)) (n : ℕ) (f : K) (hA : n ≤ A.length) (hB : n ≤ B.length) :
    linearSimple A B n f = .ok (pointwise (fun u v => oadd u (omul f (osub v u))) A B n) := by
  unfold linearSimple pointwise
  apply mapM_range_ok
  intro i hi
  have h1 : readAt A i = .ok (A.getD i none) := by simp [readAt, show i < A.length by omega]
  have h2 : readAt B i = .ok (B.getD i none) := by simp [readAt, show i < B.length by omega]
  rw [h1, h2]
  rfl

omit [IsStrictOrderedRing K] in
theorem fraction_zero {a b x : K} (hab : a ≠ b) : fraction a b x = 0 ↔ x = a := by
  have : b - a ≠ 0 := sub_ne_zero.mpr hab.symm
  unfold fraction
  rw [if_neg hab, div_eq_zero_iff]
  constructor
  · rintro (h | h)
    · exact sub_eq_zero.mp h
    · exact absurd h this
  · intro h; left; rw [h, sub_self]

omit [IsStrictOrderedRing K] in
theorem fraction_one {a b x : K} (hab : a ≠ b) : fraction a b x = 1 ↔ x = b := by
  have : b - a ≠ 0 := sub_ne_zero.mpr hab.symm
  unfold fraction
  rw [if_neg hab, div_eq_one_iff_eq this]
  constructor
  · intro h; exact sub_left_injective h
  · intro h; rw [h]

omit [IsStrictOrderedRing K] in
theorem line_eq {a b x : K} (hab : a ≠ b) (hxa : x ≠ a) (hxb : x ≠ b) (u v : Option K) :
    oadd u (omul (fraction a b x) (osub v u)) = lineValue a b x u v := by
  have : b - a ≠ 0 := sub_ne_zero.mpr hab.symm
  unfold lineValue fraction
  rw [if_neg hab, if_neg hxa, if_neg hxb]
  cases u <;> cases v <;> simp [oadd, omul, osub]
  field_simp

/-- C34: linear interpolation of two fields is, value by value, the straight line through the two values; at
`a` it is field A and at `b` it is field B whatever the other field contains. -/
theorem C34_linear (A B : List (Option K)) (n : ℕ) (a b x : K) (hA : n ≤ A.length) (hB : n ≤ B.length)
    (hab : a ≠ b) : linear A B n a b x = .ok (pointwise (lineValue a b x) A B n) := by
  unfold linear
  simp only
  by_cases hxa : x = a
  · rw [if_pos ((fraction_zero hab).mpr hxa), pointwise_left A B n hA]
    congr 2; funext u v
    unfold lineValue; rw [if_pos hxa]
  · rw [if_neg (mt (fraction_zero hab).mp hxa)]
    by_cases hxb : x = b
    · rw [if_pos ((fraction_one hab).mpr hxb), pointwise_right A B n hB]
      congr 2; funext u v
      unfold lineValue; rw [if_neg hxa, if_pos hxb]
    · rw [if_neg (mt (fraction_one hab).mp hxb), linearSimple_eq A B n _ hA hB]
      congr 2; funext u v
      exact line_eq hab hxa hxb u v

example : linear ([some 1, none, some 3] : List (Option ℚ)) [some 5, some 6, none] 3 10 20 15 =
    .ok [some 3, none, none] ∧
    linear ([some 1, none, some 3] : List (Option ℚ)) [some 5, some 6, none] 3 10 20 10 =
    .ok [some 1, none, some 3] := by decide +kernel

/-- `x` lies in the closed interval with the ends `a` and `b`. -/
def InInterval (a b x : K) : Prop := a ≤ x ∧ x ≤ b ∨ b ≤ x ∧ x ≤ a

/-- C34: for a coordinate between `a` and `b` the result is between the two values. -/
theorem C34_between (a b x u v w : K) (hab : a ≠ b) (hx : InInterval a b x)
    (h : lineValue a b x (some u) (some v) = some w) : min u v ≤ w ∧ w ≤ max u v := by
  unfold lineValue at h
  by_cases hxa : x = a
  · rw [if_pos hxa] at h
    rw [← Option.some.inj h]; exact ⟨min_le_left _ _, le_max_left _ _⟩
  · rw [if_neg hxa] at h
    by_cases hxb : x = b
    · rw [if_pos hxb] at h
      rw [← Option.some.inj h]; exact ⟨min_le_right _ _, le_max_right _ _⟩
    · rw [if_neg hxb] at h
      have hw := Option.some.inj h
      have hne : b - a ≠ 0 := sub_ne_zero.mpr hab.symm
      have h0 : 0 ≤ (x - a) / (b - a) ∧ (x - a) / (b - a) ≤ 1 := by
        rcases hx with ⟨h1, h2⟩ | ⟨h1, h2⟩
        · have hp : 0 < b - a := lt_of_le_of_ne (by linarith) hne.symm
          exact ⟨div_nonneg (by linarith) hp.le, (div_le_one hp).mpr (by linarith)⟩
        · have hp : b - a < 0 := lt_of_le_of_ne (by linarith) hne
          exact ⟨div_nonneg_of_nonpos (by linarith) hp.le, (div_le_one_of_neg hp).mpr (by linarith)⟩
      have := mix_between (a := u) (b := v) h0.1 h0.2
      have e : (1 - (x - a) / (b - a)) * u + (x - a) / (b - a) * v = w := by
        rw [← hw]; field_simp; ring
      rw [e] at this
      exact this

omit [Field K] [LinearOrder K] [IsStrictOrderedRing K] in
theorem pointwise_none (A B : List (Option K)) (n : ℕ) :
    (Res.ok (List.replicate n none) : Res (List (Option K))) = .ok (pointwise (fun _ _ => none) A B n) := by
  congr 1
  symm
  rw [List.eq_replicate_iff]
  simp [pointwise]

theorem linearConf_eq (l r : K) (hl : l ≤ 0) (hr : 1 ≤ r) (A B : List (Option K)) (n : ℕ) (a b x : K)
    (hA : n ≤ A.length) (hB : n ≤ B.length) (hab : a ≠ b) :
    linearConf l r A B n a b x = .ok (pointwise
      (if l ≤ fraction a b x ∧ fraction a b x ≤ r then lineValue a b x else fun _ _ => none) A B n) := by
  unfold linearConf
  simp only
  by_cases hxa : x = a
  · have h0 := (fraction_zero hab).mpr hxa
    rw [if_pos h0, pointwise_left A B n hA, h0, if_pos ⟨hl, by linarith⟩]
    congr 2; funext u v
    unfold lineValue; rw [if_pos hxa]
  · rw [if_neg (mt (fraction_zero hab).mp hxa)]
    by_cases hxb : x = b
    · have h1 := (fraction_one hab).mpr hxb
      rw [if_pos h1, pointwise_right A B n hB, h1, if_pos ⟨by linarith, hr⟩]
      congr 2; funext u v
      unfold lineValue; rw [if_neg hxa, if_pos hxb]
    · rw [if_neg (mt (fraction_one hab).mp hxb)]
      by_cases hlim : l ≤ fraction a b x ∧ fraction a b x ≤ r
      · rw [if_pos hlim, if_pos hlim, linearSimple_eq A B n _ hA hB]
        congr 2; funext u v
        exact line_eq hab hxa hxb u v
      · rw [if_neg hlim, if_neg hlim, pointwise_none A B]

/-- The coordinate at the multiple `t` of the step from `a` to `b`. -/
theorem fraction_bounds {a b x l r : K} (hab : a ≠ b) :
    (l ≤ fraction a b x ∧ fraction a b x ≤ r) ↔
      (a < b ∧ a + l * (b - a) ≤ x ∧ x ≤ a + r * (b - a)) ∨
      (b < a ∧ a + r * (b - a) ≤ x ∧ x ≤ a + l * (b - a)) := by
  unfold fraction
  rw [if_neg hab]
  rcases lt_or_gt_of_ne hab with h | h
  · have hp : 0 < b - a := by linarith
    rw [le_div_iff₀ hp, div_le_iff₀ hp]
    constructor
    · rintro ⟨h1, h2⟩; left; exact ⟨h, by linarith, by linarith⟩
    · rintro (⟨_, h1, h2⟩ | ⟨h', _, _⟩)
      · exact ⟨by linarith, by linarith⟩
      · exact absurd h' (not_lt.mpr h.le)
  · have hp : b - a < 0 := by linarith
    rw [le_div_iff_of_neg hp, div_le_iff_of_neg hp]
    constructor
    · rintro ⟨h1, h2⟩; right; exact ⟨h, by linarith, by linarith⟩
    · rintro (⟨h', _, _⟩ | ⟨_, h1, h2⟩)
      · exact absurd h' (not_lt.mpr h.le)
      · exact ⟨by linarith, by linarith⟩

/-- C34: without extrapolation, linear inside the interval between `a` and `b` and undefined outside. -/
theorem C34_no_extrapolation (A B : List (Option K)) (n : ℕ) (a b x : K) (hA : n ≤ A.length) (hB : n ≤ B.length)
    (hab : a ≠ b) : (InInterval a b x → linearNo A B n a b x = .ok (pointwise (lineValue a b x) A B n)) ∧
      (¬ InInterval a b x → linearNo A B n a b x = .ok (List.replicate n none)) := by
  unfold linearNo
  rw [linearConf_eq 0 1 le_rfl le_rfl A B n a b x hA hB hab]
  have key : (0 ≤ fraction a b x ∧ fraction a b x ≤ 1) ↔ InInterval a b x := by
    rw [fraction_bounds hab]
    unfold InInterval
    rcases lt_or_gt_of_ne hab with h | h
    · constructor
      · rintro (⟨_, h1, h2⟩ | ⟨h', _, _⟩)
        · left; exact ⟨by linarith, by linarith⟩
        · exact absurd h' (not_lt.mpr h.le)
      · rintro (⟨h1, h2⟩ | ⟨h1, h2⟩)
        · left; exact ⟨h, by linarith, by linarith⟩
        · exfalso; linarith
    · constructor
      · rintro (⟨h', _, _⟩ | ⟨_, h1, h2⟩)
        · exact absurd h' (not_lt.mpr h.le)
        · right; exact ⟨by linarith, by linarith⟩
      · rintro (⟨h1, h2⟩ | ⟨h1, h2⟩)
        · exfalso; linarith
        · right; exact ⟨h, by linarith, by linarith⟩
  constructor
  · intro hi; rw [if_pos (key.mpr hi)]
  · intro hi; rw [if_neg (mt key.mp hi), ← pointwise_none]

/-- C34: the weak form is linear up to one interval length beyond each end and undefined farther outside. -/
theorem C34_weak_extrapolation (A B : List (Option K)) (n : ℕ) (a b x : K) (hA : n ≤ A.length) (hB : n ≤ B.length)
    (hab : a ≠ b) :
    (InInterval (a - (b - a)) (b + (b - a)) x → linearWeak A B n a b x = .ok (pointwise (lineValue a b x) A B n)) ∧
    (¬ InInterval (a - (b - a)) (b + (b - a)) x → linearWeak A B n a b x = .ok (List.replicate n none)) := by
  unfold linearWeak
  rw [linearConf_eq (-1) 2 (by norm_num) (by norm_num) A B n a b x hA hB hab]
  have key : (-1 ≤ fraction a b x ∧ fraction a b x ≤ 2) ↔ InInterval (a - (b - a)) (b + (b - a)) x := by
    rw [fraction_bounds hab]
    unfold InInterval
    rcases lt_or_gt_of_ne hab with h | h
    · constructor
      · rintro (⟨_, h1, h2⟩ | ⟨h', _, _⟩)
        · left; exact ⟨by linarith, by linarith⟩
        · exact absurd h' (not_lt.mpr h.le)
      · rintro (⟨h1, h2⟩ | ⟨h1, h2⟩)
        · left; exact ⟨h, by linarith, by linarith⟩
        · exfalso; linarith
    · constructor
      · rintro (⟨h', _, _⟩ | ⟨_, h1, h2⟩)
        · exact absurd h' (not_lt.mpr h.le)
        · right; exact ⟨by linarith, by linarith⟩
      · rintro (⟨h1, h2⟩ | ⟨h1, h2⟩)
        · exfalso; linarith
        · right; exact ⟨h, by linarith, by linarith⟩
  constructor
  · intro hi; rw [if_pos (key.mpr hi)]
  · intro hi; rw [if_neg (mt key.mp hi), ← pointwise_none]

/-- C34: the constant form is linear inside the interval and the field at the nearer end outside. -/
theorem C34_constant_extrapolation (A B : List (Option K)) (n : ℕ) (a b x : K) (hA : n ≤ A.length)
    (hB : n ≤ B.length) (hab : a ≠ b) :
    (InInterval a b x → linearConst A B n a b x = .ok (pointwise (lineValue a b x) A B n)) ∧
    (¬ InInterval a b x → |x - a| < |x - b| → linearConst A B n a b x = .ok (A.take n)) ∧
    (¬ InInterval a b x → |x - b| < |x - a| → linearConst A B n a b x = .ok (B.take n)) := by
  have ht : ∀ C : List (Option K), n ≤ C.length → readRange C 0 n = .ok (C.take n) := by
    intro C hC; unfold readRange; rw [if_pos (by omega)]; rfl
  have hf : fraction a b x = (x - a) / (b - a) := by unfold fraction; rw [if_neg hab]
  have hne : b - a ≠ 0 := sub_ne_zero.mpr hab.symm
  unfold linearConst
  simp only
  refine ⟨?_, ?_, ?_⟩
  · intro hi
    have hb : 0 ≤ fraction a b x ∧ fraction a b x ≤ 1 := by
      rw [hf]
      rcases hi with ⟨h1, h2⟩ | ⟨h1, h2⟩
      · have hp : 0 < b - a := lt_of_le_of_ne (by linarith) hne.symm
        exact ⟨div_nonneg (by linarith) hp.le, (div_le_one hp).mpr (by linarith)⟩
      · have hp : b - a < 0 := lt_of_le_of_ne (by linarith) hne
        exact ⟨div_nonneg_of_nonpos (by linarith) hp.le, (div_le_one_of_neg hp).mpr (by linarith)⟩
    by_cases h1 : fraction a b x ≥ 1
    · have hxb := (fraction_one hab).mp (le_antisymm hb.2 h1)
      rw [if_pos h1, pointwise_right A B n hB]
      congr 2; funext u v
      unfold lineValue; rw [if_neg (by rw [hxb]; exact hab.symm), if_pos hxb]
    · rw [if_neg h1]
      by_cases h0 : fraction a b x ≤ 0
      · have hxa := (fraction_zero hab).mp (le_antisymm h0 hb.1)
        rw [if_pos h0, pointwise_left A B n hA]
        congr 2; funext u v
        unfold lineValue; rw [if_pos hxa]
      · rw [if_neg h0, linearSimple_eq A B n _ hA hB]
        congr 2; funext u v
        apply line_eq hab
        · intro h; exact h0 ((fraction_zero hab).mpr h).le
        · intro h; exact h1 ((fraction_one hab).mpr h).ge
  · intro hi hnear
    have h0 : fraction a b x < 0 := by
      rw [hf]
      rcases lt_or_gt_of_ne hab with h | h
      · apply div_neg_of_neg_of_pos _ (by linarith)
        by_contra hc
        push Not at hc
        have hx : b < x := by
          by_contra hb
          exact hi (Or.inl ⟨by linarith, not_lt.mp hb⟩)
        rw [abs_of_nonneg hc, abs_of_pos (by linarith)] at hnear
        linarith
      · apply div_neg_of_pos_of_neg _ (by linarith)
        by_contra hc
        push Not at hc
        have hx : x < b := by
          by_contra hb
          exact hi (Or.inr ⟨not_lt.mp hb, by linarith⟩)
        rw [abs_of_nonpos hc, abs_of_neg (by linarith)] at hnear
        linarith
    rw [if_neg (by rw [ge_iff_le, not_le]; linarith), if_pos h0.le, ht A hA]
  · intro hi hnear
    have h0 : fraction a b x ≥ 1 := by
      rw [hf]
      rcases lt_or_gt_of_ne hab with h | h
      · rw [ge_iff_le, one_le_div (by linarith)]
        by_contra hc
        push Not at hc
        have hx : x < a := by
          by_contra hb
          exact hi (Or.inl ⟨not_lt.mp hb, by linarith⟩)
        rw [abs_of_neg (show x - b < 0 by linarith), abs_of_neg (by linarith)] at hnear
        linarith
      · rw [ge_iff_le, one_le_div_of_neg (by linarith)]
        by_contra hc
        push Not at hc
        have hx : a < x := by
          by_contra hb
          exact hi (Or.inr ⟨by linarith, not_lt.mp hb⟩)
        rw [abs_of_pos (show 0 < x - b by linarith), abs_of_pos (by linarith)] at hnear
        linarith
    rw [if_pos h0, ht B hB]

example : linearNo ([some 1] : List (Option ℚ)) [some 5] 1 10 20 21 = .ok [none] ∧
    linearWeak ([some 1] : List (Option ℚ)) [some 5] 1 20 10 25 = .ok [some (-1)] ∧
    linearWeak ([some 1] : List (Option ℚ)) [some 5] 1 20 10 31 = .ok [none] ∧
    linearConst ([some 1] : List (Option ℚ)) [some 5] 1 20 10 31 = .ok [some 1] ∧
    linearConst ([some 1] : List (Option ℚ)) [some 5] 1 20 10 3 = .ok [some 5] := by decide +kernel

/-- C34: the hypothesis that the two coordinates differ is needed.  With equal coordinates every form returns
field A, also the form without extrapolation at a coordinate outside. -/
theorem C34_equal_coordinates (A B : List (Option K)) (n : ℕ) (a x : K) (hA : n ≤ A.length) :
    linear A B n a a x = .ok (A.take n) ∧ linearNo A B n a a x = .ok (A.take n) ∧
    linearWeak A B n a a x = .ok (A.take n) ∧ linearConst A B n a a x = .ok (A.take n) := by
  have ht : readRange A 0 n = .ok (A.take n) := by unfold readRange; rw [if_pos (by omega)]; rfl
  have hf : fraction a a x = 0 := by unfold fraction; rw [if_pos rfl]
  unfold linear linearNo linearWeak linearConf linearConst
  simp only [hf, ht]
  refine ⟨rfl, rfl, rfl, ?_⟩
  rw [if_neg (by rw [ge_iff_le, not_le]; exact zero_lt_one), if_pos le_rfl]

/-- C34: choosing the nearest of two fields gives the first one, whatever the second one is (the caller passes the
nearer field first). -/
theorem C34_nearest (A : List (Option K)) (n : ℕ) :
    (n ≤ A.length → nearest A n = .ok (A.take n)) ∧ (A.length < n → nearest A n = .ub) := by
  unfold nearest readRange
  exact ⟨fun h => by rw [if_pos (by omega)]; rfl, fun h => if_neg (by omega)⟩

/-- C34 for the logarithmic forms: for positive coordinates, with a strictly increasing logarithm, the result
is field A at `a` and field B at `b`. -/
theorem C34_log_endpoints (log : K → K) (hlog : ∀ x y, 0 < x → x < y → log x < log y) (e : K) (he : 0 < e)
    (hle : 0 ≤ log e) (A B : List (Option K)) (n : ℕ) (a b : K) (hA : n ≤ A.length) (hB : n ≤ B.length)
    (ha : 0 < a) (hb : 0 < b) (hab : a ≠ b) :
    logInterp log A B n a b a = .ok (A.take n) ∧ logInterp log A B n a b b = .ok (B.take n) ∧
    logLogInterp log e A B n a b a = .ok (A.take n) ∧ logLogInterp log e A B n a b b = .ok (B.take n) := by
  have ht : ∀ C : List (Option K), n ≤ C.length → readRange C 0 n = .ok (C.take n) := by
    intro C hC; unfold readRange; rw [if_pos (by omega)]; rfl
  have hinj : ∀ x y, 0 < x → 0 < y → x ≠ y → log x ≠ log y := by
    intro x y hx hy hxy
    rcases lt_or_gt_of_ne hxy with h | h
    · exact (hlog x y hx h).ne
    · exact (hlog y x hy h).ne'
  have key : ∀ a b, 0 < a → 0 < b → a ≠ b → logInterp log A B n a b a = .ok (A.take n) ∧
      logInterp log A B n a b b = .ok (B.take n) := by
    intro a b ha hb hab
    have hl := hinj a b ha hb hab
    have c1 : ¬ (a ≤ 0 ∨ b ≤ 0 ∨ a ≤ 0) := by push Not; exact ⟨ha, hb, ha⟩
    have c2 : ¬ (a ≤ 0 ∨ b ≤ 0 ∨ b ≤ 0) := by push Not; exact ⟨ha, hb, hb⟩
    constructor
    · unfold logInterp linear
      rw [if_neg c1]
      simp only
      rw [if_pos ((fraction_zero hl).mpr rfl), ht A hA]
    · unfold logInterp linear
      rw [if_neg c2]
      simp only
      rw [if_neg (mt (fraction_zero hl).mp hl.symm), if_pos ((fraction_one hl).mpr rfl), ht B hB]
  have hpos : ∀ x, 0 < x → 0 < log (x + e) := fun x hx => lt_of_le_of_lt hle (hlog e (x + e) he (by linarith))
  have k2 := key (log (a + e)) (log (b + e)) (hpos a ha) (hpos b hb)
    (hinj _ _ (by linarith) (by linarith) (by intro h; exact hab (add_right_cancel h)))
  refine ⟨(key a b ha hb hab).1, (key a b ha hb hab).2, ?_, ?_⟩
  · unfold logLogInterp
    rw [if_neg (by push Not; exact ⟨ha, hb, ha⟩)]
    exact k2.1
  · unfold logLogInterp
    rw [if_neg (by push Not; exact ⟨ha, hb, hb⟩)]
    exact k2.2

/-- C34 for the logarithmic form: between `a` and `b` the result is between the two values. -/
theorem C34_log_between (log : K → K) (hlog : ∀ x y, 0 < x → x < y → log x < log y) (A B : List (Option K))
    (n : ℕ) (a b x : K) (hA : n ≤ A.length) (hB : n ≤ B.length) (ha : 0 < a) (hab : a < b) (h1 : a ≤ x)
    (h2 : x ≤ b) :
    ∃ out, logInterp log A B n a b x = .ok out ∧ out.length = n ∧
      ∀ i u v w, i < n → A[i]? = some (some u) → B[i]? = some (some v) → out[i]? = some (some w) →
        min u v ≤ w ∧ w ≤ max u v := by
  have hmono : ∀ x y, 0 < x → x ≤ y → log x ≤ log y := by
    intro x y hx hxy
    rcases hxy.eq_or_lt with h | h
    · rw [h]
    · exact (hlog x y hx h).le
  have hl : log a ≠ log b := (hlog a b ha hab).ne
  unfold logInterp
  rw [if_neg (by push Not; exact ⟨ha, by linarith, by linarith⟩), C34_linear A B n _ _ _ hA hB hl]
  refine ⟨_, rfl, by simp [pointwise], ?_⟩
  intro i u v w hi hu hv hw
  simp [pointwise, hi, hu, hv] at hw
  exact C34_between (log a) (log b) (log x) u v w hl
    (Or.inl ⟨hmono a x ha h1, hmono x b (by linarith) h2⟩) hw

/-- The hypotheses on the logarithm hold for instance for the identity (as far as endpoints are concerned). -/
example : logInterp (fun x : ℚ => x) [some 1] [some 5] 1 10 20 15 = .ok [some 3] ∧
    logInterp (fun x : ℚ => x) [some 1] [some 5] 1 10 (-20) 15 = .throws := by decide +kernel

/-- C34: coordinates that are not positive are refused by the logarithmic forms. -/
theorem C34_log_refuses (log : K → K) (e : K) (A B : List (Option K)) (n : ℕ) (a b x : K)
    (h : a ≤ 0 ∨ b ≤ 0 ∨ x ≤ 0) :
    logInterp log A B n a b x = .throws ∧ logLogInterp log e A B n a b x = .throws := by
  unfold logInterp logLogInterp
  rw [if_pos h, if_pos h]
  exact ⟨rfl, rfl⟩

end Fimex.Interp
