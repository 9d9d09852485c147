import Verif.Scale.Lemmas

/-!
# Properties C07, C08, C62: repacking, reading in units, writing back

Specification vocabulary: `phys scale offset v` is the physical value of a packed value (CF
conventions: `scale_factor * packed + add_offset`).
-/

namespace Fimex.Scale

variable {K : Type} [Field K] [LinearOrder K] [IsStrictOrderedRing K] [FloorRing K]

/-- CF packing: the physical value of a packed value. -/
def phys (scale offset v : K) : K := scale * v + offset

omit [LinearOrder K] [IsStrictOrderedRing K] [FloorRing K] in
theorem phys_inv {s o s' o' v : K} (h : s' ≠ 0) :
    phys s' o' (s / s' * v + (o - o') / s') = phys s o v := by
  unfold phys; field_simp; ring

/-- **C07**, floating point target. Whatever the input type: the conversion succeeds, the old fill value
becomes the new fill value, every other number keeps its physical value exactly, and NaN becomes the
new fill value or stays NaN. -/
theorem C07_float_target_keeps_physical_value (tin : DType) (oldFill newFill : Option K)
    (s o s' o' : K) (data : List (Option K)) (hs : s' ≠ 0)
    (hfill : ValidVal tin oldFill) (hdata : ∀ x ∈ data, ValidVal tin x) :
    ∃ out, convertDataType tin .real oldFill s o none newFill s' o' data = .ok out ∧
      List.Forall₂ (fun x y =>
        (x = none → y = newFill ∨ y = none) ∧
        (∀ v, x = some v → oldFill = some v → y = newFill) ∧
        (∀ v, x = some v → oldFill ≠ some v → ∃ w, y = some w ∧ phys s' o' w = phys s o v))
        data out := by
  simp only [convertDataType]
  split
  · rename_i h
    obtain ⟨hf, rfl, rfl⟩ := h
    obtain ⟨f, rfl, rfl⟩ := feq_some.1 hf
    refine mapM_ok _ _ _ fun x hx => ⟨x, ?_, ?_, ?_, ?_⟩
    · cases tin with
      | real => rfl
      | int b sg =>
        obtain ⟨z, rfl, _⟩ := hdata x hx
        rfl
    · exact fun h => .inr h
    · rintro v rfl h; exact h.symm
    · rintro v rfl _; exact ⟨v, rfl, rfl⟩
  · refine mapM_ok _ _ _ fun x hx => ?_
    simp only [scaleValue, staticCast_valid hfill, Res.ok_bind]
    rw [staticCast_valid (t := .real) (x := newFill) trivial, Res.ok_bind]
    cases x with
    | none => exact ⟨newFill, by simp, by simp⟩
    | some v =>
      by_cases hv : oldFill = some v
      · subst hv
        refine ⟨newFill, by simp [feq], by simp, by simp, ?_⟩
        rintro w hw h; exact absurd hw.symm fun e => h (by rw [e])
      · refine ⟨some (s / s' * v + (o - o') / s'), ?_, by simp, ?_, ?_⟩
        · have : feq (some v) oldFill = false := by
            cases oldFill with
            | none => rfl
            | some f => simp only [feq, decide_eq_false_iff_not]; rintro rfl; exact hv rfl
          simp [this, castRound]
        · rintro w hw h; exact absurd (hw ▸ h) hv
        · rintro w hw h
          cases hw
          exact ⟨_, rfl, phys_inv hs⟩

/-- Non-vacuity: short data with fill value to another packing. -/
example : convertDataType (.int 16 true) .real (some (-32767)) (1 / 10) (100 : ℚ) none none 2 0
    [some 5, some (-32767), some 0] = .ok [some (201 / 4), none, some 50] := by decide +kernel

/-- **C07**, integer target. When every rounded result fits the target type (for types wider
than 32 bits also 32 bits, see `C07_int64_target_is_corrupted`) and the data has no NaN, the conversion succeeds; the old fill value
becomes the new one and every other number keeps its physical value up to half of a packing step. -/
theorem C07_int_target_within_half_step (tin : DType) (b : Nat) (sg : Bool) (hb : 1 ≤ b)
    (oldFill newFill : Option K) (s o s' o' : K) (data : List (Option K)) (hs : s' ≠ 0)
    (hfill : ValidVal tin oldFill) (hfill' : ValidVal (.int b sg) newFill)
    (hdata : ∀ x ∈ data, ValidVal tin x ∧ x ≠ none)
    (hrange : ∀ v, some v ∈ data → oldFill ≠ some v → Fits b sg (lround ((phys s o v - o') / s')))
    (hfillrange : tin = .real → oldFill = newFill → ∀ z : Int, newFill = some (z : K) → Fits b sg z) :
    ∃ out, convertDataType tin (.int b sg) oldFill s o none newFill s' o' data = .ok out ∧
      List.Forall₂ (fun x y =>
        (x = oldFill → y = newFill) ∧
        (∀ v, x = some v → oldFill ≠ some v →
          ∃ z : Int, y = some (z : K) ∧ lo b sg ≤ z ∧ z ≤ hi b sg ∧
            |phys s' o' (z : K) - phys s o v| ≤ |s'| / 2))
        data out := by
  have key : ∀ v : K, |phys s' o' ((lround ((phys s o v - o') / s') : Int) : K) - phys s o v| ≤ |s'| / 2 := by
    intro v
    have h := abs_sub_lround ((phys s o v - o') / s')
    generalize lround ((phys s o v - o') / s') = z at h ⊢
    have e : phys s' o' (z : K) - phys s o v = -(s' * ((phys s o v - o') / s' - z)) := by
      unfold phys; field_simp; ring
    rw [e, abs_neg, abs_mul]
    calc |s'| * |(phys s o v - o') / s' - z| ≤ |s'| * (1 / 2) :=
          mul_le_mul_of_nonneg_left h (abs_nonneg _)
      _ = |s'| / 2 := by ring
  simp only [convertDataType]
  split
  · rename_i h
    obtain ⟨hf, rfl, rfl⟩ := h
    obtain ⟨f, rfl, rfl⟩ := feq_some.1 hf
    have q : ∀ v : K, (phys s o v - o) / s = v := by intro v; unfold phys; field_simp; ring
    refine mapM_ok _ _ _ fun x hx => ?_
    obtain ⟨hv, hn⟩ := hdata x hx
    obtain ⟨v, rfl⟩ := Option.ne_none_iff_exists'.1 hn
    obtain ⟨zf, hzf, hzf1, hzf2⟩ := hfill'
    have hzf : f = zf := by simpa using hzf
    have hfit : tin = .real → Fits b sg (lround v) := by
      intro ht
      by_cases hvf : some f = some v
      · cases hvf
        rw [hzf, lround_intCast]
        exact hfillrange ht rfl zf (by rw [hzf])
      · simpa [q] using hrange v hx hvf
    have kv := key v
    rw [q] at kv
    cases tin with
    | real =>
      refine ⟨some ((lround v : Int) : K), ?_, ?_, ?_⟩
      · simp only [castValue]; exact castRound_int hb (hfit rfl)
      · intro h; cases h
        rw [hzf, lround_intCast]
      · intro w hw _; cases hw
        exact ⟨_, rfl, (hfit rfl).1, (hfit rfl).2.1, kv⟩
    | int b' sg' =>
      obtain ⟨z, hz, hz1, hz2⟩ := hv
      have hz : v = z := by simpa using hz
      have hzin : lo b sg ≤ z ∧ z ≤ hi b sg := by
        by_cases hvf : f = v
        · have : (zf : K) = z := by rw [← hzf, ← hz, hvf]
          have : zf = z := by exact_mod_cast this
          subst this; exact ⟨hzf1, hzf2⟩
        · have := hrange v hx (by simpa using hvf)
          rw [q, hz, lround_intCast] at this
          exact ⟨this.1, this.2.1⟩
      have hcast : castValue (.int b' sg') (.int b sg) (some v) = .ok (some v) := by
        simp only [castValue]
        split
        · rfl
        · rw [hz, trunc_intCast, wrap_eq hb hzin.1 hzin.2]
      refine ⟨some v, hcast, fun h => h, fun w hw _ => ?_⟩
      cases hw
      refine ⟨z, by rw [hz], hzin.1, hzin.2, ?_⟩
      rw [hz]
      simp only [sub_self, abs_zero]
      positivity
  · refine mapM_ok _ _ _ fun x hx => ?_
    obtain ⟨hv, hn⟩ := hdata x hx
    obtain ⟨v, rfl⟩ := Option.ne_none_iff_exists'.1 hn
    simp only [scaleValue, staticCast_valid hfill, staticCast_valid hfill', Res.ok_bind]
    by_cases hvf : oldFill = some v
    · subst hvf
      refine ⟨newFill, by simp [feq], by simp, ?_⟩
      rintro w hw h; exact absurd hw.symm fun e => h (by rw [e])
    · have hfeq : feq (some v) oldFill = false := by
        cases oldFill with
        | none => rfl
        | some f => simp only [feq, decide_eq_false_iff_not]; rintro rfl; exact hvf rfl
      have e : s / s' * v + (o - o') / s' = (phys s o v - o') / s' := by
        unfold phys; field_simp; ring
      refine ⟨some ((lround ((phys s o v - o') / s') : Int) : K), ?_, fun h => absurd h.symm hvf, ?_⟩
      · simp only [hfeq, Bool.false_eq_true, false_or, reduceCtorEq, if_false, Option.map_some, e]
        exact castRound_int hb (hrange v hx hvf)
      · intro w hw _; cases hw
        exact ⟨_, rfl, (hrange v hx hvf).1, (hrange v hx hvf).2.1, key v⟩

/-- Unsigned 32 bit targets are not damaged by the detour. -/
example : convertDataType .real (.int 32 false) none 1 (0 : ℚ) none (some 0) 1 0 [some 4294967295] =
    .ok [some 4294967295] := by decide +kernel

/-- Non-vacuity: doubles to packed shorts, fill value included; 5.13 is stored as 51 tenths. -/
example : convertDataType .real (.int 16 true) (some (-999)) 1 (0 : ℚ) none (some (-32767)) (1 / 10) 0
    [some (513 / 100), some (-999), some (-5 / 100)] =
    .ok [some 51, some (-32767), some (-1)] := by decide +kernel

/-- 64 bit integer targets are damaged beyond 32 bits, because rounding goes through `int`:
`2^31` becomes `-2^31`. Hence the 32 bit clause of `Fits`. -/
theorem C07_int64_target_is_corrupted :
    convertDataType .real (.int 64 true) none 1 (0 : ℚ) none (some (-1)) 1 0 [some 2147483648] =
      .ok [some (-2147483648)] := by decide +kernel

/-- A value outside the target type is stored modulo the type's size, not clamped: 70000 as a short
is 4464. Hence the range hypothesis. -/
theorem C07_out_of_range_wraps :
    convertDataType .real (.int 16 true) none 1 (0 : ℚ) none (some (-1)) 1 0 [some 70000] =
      .ok [some 4464] := by decide +kernel

/-- NaN in floating point data converted to an integer type with equal fill value, scale and offset
is not replaced by the fill value: it is rounded, with an unspecified result. -/
theorem C07_nan_with_equal_encoding_is_undefined :
    convertDataType .real (.int 16 true) (some (-999)) 1 (0 : ℚ) none (some (-999)) 1 0 [none] = .ub ∧
    convertDataType .real (.int 16 true) (some (-999)) 1 (0 : ℚ) none (some (-998)) 1 0 [none] =
      .ok [some (-998)] := by decide +kernel

/-- The reported linear coefficients of a converter describe its function. -/
def Converter.Faithful (uc : Converter K) : Prop :=
  ∀ a b, uc.linear = some (a, b) → ∀ x, uc.convert x = a * x + b

/-- **C08.** Reading data in a unit: fill values and NaN become NaN, every other packed value becomes
the unit conversion of its physical value - on the fast path for linear conversions as well as on the
general path. -/
theorem C08_scaled_unit_is_scale_then_convert (t : DType) (fill : Option K) (s o : K)
    (uc : Converter K) (huc : uc.Faithful) (data : List (Option K))
    (hfill : ValidVal t fill) :
    scaleDataToUnit t fill s o uc data =
      .ok (data.map fun x => match x with
        | none => none
        | some v => if fill = some v then none else some (uc.convert (phys s o v))) := by
  have hfe : ∀ v : K, fill ≠ some v → feq (some v) fill = false := by
    intro v h
    cases fill with
    | none => rfl
    | some f => simp only [feq, decide_eq_false_iff_not]; rintro rfl; exact h rfl
  unfold scaleDataToUnit
  split
  · rename_i a b hl
    unfold scaleDataLinear convertDataType
    have : feq fill (none : Option K) = false := by cases fill <;> rfl
    simp only [this, Bool.false_eq_true, false_and, if_false]
    refine mapM_eq _ _ _ fun x hx => ?_
    simp only [scaleValue, staticCast_valid hfill, Res.ok_bind]
    rw [staticCast_valid (t := .real) (x := (none : Option K)) trivial, Res.ok_bind]
    cases x with
    | none => simp
    | some v =>
      by_cases hv : fill = some v
      · subst hv; simp [feq]
      · simp only [hfe v hv, hv, if_false, Bool.false_eq_true, false_or, reduceCtorEq, Option.map_some,
          castRound, huc a b hl, phys]
        congr 2; ring
  · unfold scaleDataConv convertDataType
    refine mapM_eq _ _ _ fun x hx => ?_
    simp only [scaleValueUnits, staticCast_valid hfill, Res.ok_bind]
    rw [staticCast_valid (t := .real) (x := (none : Option K)) trivial, Res.ok_bind]
    cases x with
    | none => simp
    | some v =>
      by_cases hv : fill = some v
      · subst hv; simp [feq]
      · simp only [hfe v hv, hv, if_false, Bool.false_eq_true, false_or, reduceCtorEq, Option.map_some,
          castRound, phys]
        congr 2; ring

/-- Non-vacuity: packed shorts in Kelvin read as Celsius. -/
example : scaleDataToUnit (.int 16 true) (some (-1)) (1 / 10) (200 : ℚ) (linearConverter 1 (-27315 / 100))
    [some 732, some (-1)] = .ok [some (5 / 100), none] := by decide +kernel

/-- **C08**, the converters are faithful: an equal-unit or explicitly linear converter always, and the
udunits converter for every affine conversion (which it recognises as linear). -/
theorem C08_linear_converters_are_faithful (a b : K) (f : K → K) (hf : ∀ x, f x = a * x + b) :
    (linearConverter a b).Faithful ∧ (ud2Converter f).Faithful ∧
      (ud2Converter f).linear = some (a, b) := by
  have h1 : (ud2Converter f).linear = some (a, b) := by
    have hl : ud2IsLinear f = true := by
      simp only [ud2IsLinear, hf, Bool.and_eq_true, Bool.not_eq_true', decide_eq_false_iff_not, not_lt, gt_iff_lt]
      refine ⟨⟨⟨?_, ?_⟩, ?_⟩, ?_⟩ <;> (ring_nf; simp)
    simp only [ud2Converter, hl, if_true, Option.some.injEq]
    unfold ud2ScaleOffset
    simp only [hf, mul_zero, zero_add, mul_one, add_sub_cancel_right]
    split
    · rename_i h
      have ht : -b / a ≠ 0 := div_ne_zero (neg_ne_zero.2 h.2) h.1
      rw [mul_div_cancel_right₀ _ ht]
      simp
    · rfl
  refine ⟨?_, ?_, h1⟩
  · intro a' b' h x
    cases h; rfl
  · intro a' b' h x
    rw [h1] at h
    cases h
    exact hf x

/-- The linearity test samples five points with an absolute tolerance, so a slightly curved
conversion is taken for linear, and the fast path then departs from it without bound. -/
theorem C08_curved_converter_taken_for_linear :
    let f : ℚ → ℚ := fun x => x + x * (x - 1) / 1000000000000
    (ud2Converter f).linear = some (1, 0) ∧ f 1000000000 - 1000000000 > 999999 := by
  decide +kernel

/-- **C62.** Reading packed data scaled to a unit and writing the result back from that unit restores
the packed data: with converters that are inverse to each other, for every packed integer variable,
NaN-free or not, every value that survives 32 bit rounding comes back unchanged, the fill value too. -/
theorem C62_scaled_write_back_restores_packed (b : Nat) (sg : Bool) (hb : 1 ≤ b) (fill : Option K)
    (s o : K) (hs : s ≠ 0) (there back : Converter K) (h1 : there.Faithful) (h2 : back.Faithful)
    (hinv : ∀ x, back.convert (there.convert x) = x) (data : List (Option K))
    (hfill : ValidVal (.int b sg) fill)
    (hdata : ∀ x ∈ data, ∃ z : Int, x = some (z : K) ∧ Fits b sg z) :
    (scaleDataToUnit (.int b sg) fill s o there data >>= unscaleDataFromUnit (.int b sg) fill s o back)
      = .ok data := by
  rw [C08_scaled_unit_is_scale_then_convert _ _ _ _ _ h1 _ hfill, Res.ok_bind]
  set g : Option K → Option K := fun x => match x with
        | none => none
        | some v => if fill = some v then none else some (there.convert (phys s o v)) with hg
  have hmm : ∀ (f : Option K → Res (Option K)), (∀ x ∈ data, f (g x) = .ok x) →
      (data.map g).mapM f = .ok data := by
    intro f h
    clear hdata
    induction data with
    | nil => rfl
    | cons a l ih =>
      simp [List.mapM_cons, h a (by simp), ih fun x hx => h x (by simp [hx])]
  have hround : ∀ z : Int, Fits b sg z → castRound (.int b sg) (some (z : K)) = .ok (some (z : K)) := by
    intro z hz
    have := castRound_int (K := K) (x := (z : K)) hb (by rw [lround_intCast]; exact hz)
    rwa [lround_intCast] at this
  unfold unscaleDataFromUnit
  split
  · rename_i a c hl
    unfold convertDataType
    simp only [feq, Bool.false_eq_true, false_and, if_false]
    refine hmm _ fun x hx => ?_
    obtain ⟨z, rfl, hz⟩ := hdata x hx
    simp only [scaleValue, staticCast_valid hfill]
    rw [staticCast_valid (t := .real) (x := (none : Option K)) trivial, Res.ok_bind, Res.ok_bind]
    by_cases hv : fill = some (z : K)
    · subst hv; simp [hg]
    · simp only [hg, hv, if_false, feq, Bool.false_eq_true, false_or, reduceCtorEq, Option.map_some]
      have e := hinv (phys s o z)
      rw [h2 a c hl] at e
      have : a / s * there.convert (phys s o z) + (c - o) / s = z := by
        have : a / s * there.convert (phys s o z) + (c - o) / s =
            ((a * there.convert (phys s o z) + c) - o) / s := by ring
        rw [this, e]; unfold phys; field_simp; ring
      rw [this]; exact hround z hz
  · unfold convertDataType
    refine hmm _ fun x hx => ?_
    obtain ⟨z, rfl, hz⟩ := hdata x hx
    simp only [scaleValueUnits, staticCast_valid hfill]
    rw [staticCast_valid (t := .real) (x := (none : Option K)) trivial, Res.ok_bind, Res.ok_bind]
    by_cases hv : fill = some (z : K)
    · subst hv; simp [hg]
    · simp only [hg, hv, if_false, feq, Bool.false_eq_true, false_or, reduceCtorEq, Option.map_some]
      have : (back.convert (1 * there.convert (phys s o z) + 0) - o) * (1 / s) = z := by
        rw [one_mul, add_zero, hinv]; unfold phys; field_simp; ring
      rw [this]; exact hround z hz

/-- Non-vacuity: the Kelvin/Celsius example there and back. -/
example : (scaleDataToUnit (.int 16 true) (some (-1)) (1 / 10) (200 : ℚ) (linearConverter 1 (-27315 / 100))
    [some 732, some (-1)] >>= unscaleDataFromUnit (.int 16 true) (some (-1)) (1 / 10) 200
      (linearConverter 1 (27315 / 100))) = .ok [some 732, some (-1)] := by decide +kernel

/-- Writing back integer typed data is undefined: the absent fill value NaN is cast to the integer
type of the data (include/fimex/DataUtils.h:51). -/
theorem C62_integer_typed_data_is_undefined :
    convertDataType (.int 32 true) (.int 16 true) none 1 (0 : ℚ) none (some (-1)) (1 / 10) 0 [some 3] = .ub := by
  decide +kernel

end Fimex.Scale
