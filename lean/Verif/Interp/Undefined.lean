import Verif.Scale.Lemmas

/-!
# Fill values before and after interpolation

Model of `mifi_bad2nanf` and `mifi_nanf2bad` (`src/interpolation.c:1064-1082`), `data2InterpolationArray` and
`interpolationArray2Data` (`src/CDMInterpolator.cc:140-151`), with C59.

Values are elements of an ordered field, `none` is NaN.  Interpolation works with `float`: `rnd` is the rounding of a number to `float`
(overflow not modelled), the only rounding in the model.  Arrays are shared, so there is a heap: `asFloat()` of `float` data returns the same
array without a copy (`src/DataImpl.h:354-366`), and `mifi_bad2nanf` writes into it.
-/

namespace Fimex.Interp.Undefined

open Fimex.Scale

variable {K : Type} [Field K] [LinearOrder K] [IsStrictOrderedRing K] [FloorRing K]

/-! ## Model -/

/-- Numeric data types. -/
inductive Num where
  | f32
  | f64
  | int (bits : Nat) (signed : Bool)
deriving DecidableEq

/-- The type without its precision. -/
def Num.d : Num → DType
  | .f32 => .real
  | .f64 => .real
  | .int b s => .int b s

/-- src/interpolation.c:1064-1072 `mifi_bad2nanf`; the `double` argument is rounded by the call. -/
def bad2nan (rnd : K → K) (bad : Option K) (a : List (Option K)) : List (Option K) :=
  match bad.map rnd with
  | none => a
  | some b => a.map fun v => if feq v (some b) then none else v

/-- src/interpolation.c:1074-1082 `mifi_nanf2bad`. -/
def nan2bad (bad : Option K) (a : List (Option K)) : List (Option K) :=
  match bad with
  | none => a
  | some b => a.map fun v => if v.isNone then some b else v

/-- `Data::asFloat()`: the heap and the address of the array. -/
def asFloat (rnd : K → K) (h : List (List (Option K))) (addr : Nat) (t : Num) : Res (List (List (Option K)) × Nat) :=
  match t with
  | .f32 => .ok (h, addr)
  | _ => do
    let a ← readAt h addr
    .ok (h ++ [a.map fun v => v.map rnd], h.length)

/-- src/CDMInterpolator.cc:140-145 `data2InterpolationArray`. -/
def data2InterpolationArray (rnd : K → K) (h : List (List (Option K))) (addr : Nat) (t : Num) (bad : Option K) :
    Res (List (List (Option K)) × Nat) := do
  let (h, x) ← asFloat rnd h addr t
  let a ← readAt h x
  .ok (h.set x (bad2nan rnd bad a), x)

/-- Storing a number in the type, after the conversion. -/
def store (rnd : K → K) (t : Num) (x : Option K) : Option K := if t = .f32 then x.map rnd else x

/-- src/CDMInterpolator.cc:147-151 `interpolationArray2Data`: the values of the new data. The old fill value is NaN, the conversion is
`ScaleValue` without scaling. -/
def interpolationArray2Data (rnd : K → K) (t : Num) (h : List (List (Option K))) (x : Nat) (bad : Option K) : Res (List (Option K)) := do
  let a ← readAt h x
  let r ← convertDataType .real t.d none 1 0 none bad 1 0 a
  .ok (r.map (store rnd t))

/-- There and back without anything in between: the data of the caller afterwards, and the result. -/
def thereAndBack (rnd : K → K) (t : Num) (h : List (List (Option K))) (addr : Nat) (bad : Option K) :
    Res (List (List (Option K)) × List (Option K)) := do
  let (h, x) ← data2InterpolationArray rnd h addr t bad
  let r ← interpolationArray2Data rnd t h x bad
  .ok (h, r)

/-! ## Specification -/

/-- A stored value of the type: `float`s are unchanged by rounding, integers in range survive the conversions and are `float`s. -/
def Valid (rnd : K → K) (t : Num) (x : Option K) : Prop :=
  match t with
  | .f64 => True
  | .f32 => x.map rnd = x
  | .int b s => ∃ z : Int, x = some (z : K) ∧ Fits b s z ∧ rnd (z : K) = z

/-! ## Theorems -/

theorem scale_one (t : DType) (bad x : Option K) (hb : staticCast t bad = .ok bad) :
    scaleValue .real t none 1 0 bad 1 0 x = (match x with | none => .ok bad | some v => castRound t (some v)) := by
  unfold scaleValue
  rw [hb]
  cases x with
  | none => simp [staticCast, feq]
  | some v => simp [staticCast, feq]

theorem back (t : Num) (hb : t.d.WF) (rnd : K → K) (h : List (List (Option K))) (x : Nat) (a : List (Option K)) (hx : h[x]? = some a)
    (bad : Option K) (hbad : staticCast t.d bad = .ok bad)
    (ha : ∀ v ∈ a, v = none ∨ castRound t.d v = .ok v) :
    interpolationArray2Data rnd t h x bad = .ok (a.map fun v => store rnd t (if v.isNone then bad else v)) := by
  have hr : readAt h x = .ok a := by simp [readAt, hx]
  have hf : feq (none : Option K) bad = false := by cases bad <;> rfl
  unfold interpolationArray2Data
  rw [hr, Res.ok_bind]
  have hc : convertDataType .real t.d none 1 0 none bad 1 0 a = .ok (a.map fun v => if v.isNone then bad else v) := by
    unfold convertDataType
    dsimp only
    rw [if_neg (by simp [hf])]
    apply Scale.mapM_eq
    intro v hv
    rw [scale_one _ _ _ hbad]
    rcases ha v hv with rfl | h1
    · rfl
    · cases v with
      | none => rfl
      | some v => simpa using h1
  rw [hc, Res.ok_bind, List.map_map]
  rfl

theorem or_none (bad : Option K) (a : List (Option K)) : nan2bad bad a = a.map fun v => v.or bad := by
  unfold nan2bad
  cases bad with
  | none => simp
  | some b =>
    apply List.map_congr_left
    intro v _
    cases v <;> simp

/-- **C59.** The two C functions on one array of `float`s: NaN becomes the fill value, if there is one; everything else comes back. -/
theorem C59_nan_and_back (rnd : K → K) (bad : Option K) (a : List (Option K)) (hb : Valid rnd .f32 bad) :
    nan2bad bad (bad2nan rnd bad a) = a.map fun v => v.or bad := by
  have hb' : bad.map rnd = bad := hb
  rw [or_none]
  unfold bad2nan
  rw [hb']
  cases bad with
  | none => rfl
  | some b =>
    dsimp only
    rw [List.map_map]
    apply List.map_congr_left
    intro v _
    cases v with
    | none => simp [feq]
    | some v =>
      by_cases hvb : v = b
      · simp [feq, hvb]
      · simp [feq, hvb]

/-- **C59.** `float` data: the result is the data, except that NaN becomes the fill value when there is one. In particular data without NaN,
or with NaN as fill value, come back unchanged. -/
theorem C59_float_round_trip (rnd : K → K) (h : List (List (Option K))) (addr : Nat) (a : List (Option K)) (ha : h[addr]? = some a)
    (bad : Option K) (hb : Valid rnd .f32 bad) (hv : ∀ v ∈ a, Valid rnd .f32 v) :
    ∃ h' r, thereAndBack rnd .f32 h addr bad = .ok (h', r) ∧ (r = a.map fun v => v.or bad) ∧ ((none ∉ a ∨ bad = none) → r = a) := by
  have hl : addr < h.length := by
    by_contra hc
    rw [List.getElem?_eq_none (by omega)] at ha; cases ha
  have hr : readAt h addr = .ok a := by simp [readAt, ha]
  have hget : (h.set addr (bad2nan rnd bad a))[addr]? = some (bad2nan rnd bad a) := by
    rw [List.getElem?_set_self hl]
  have hmem : ∀ v ∈ bad2nan rnd bad a, v = none ∨ v ∈ a := by
    intro v hv
    unfold bad2nan at hv
    split at hv
    · exact Or.inr hv
    · obtain ⟨w, hw, rfl⟩ := List.mem_map.1 hv
      split
      · exact Or.inl rfl
      · exact Or.inr hw
  have hback := back (K := K) .f32 trivial rnd (h.set addr (bad2nan rnd bad a)) addr _ hget bad rfl (fun v _ => Or.inr rfl)
  have hres : ((bad2nan rnd bad a).map fun v => store rnd .f32 (if v.isNone then bad else v)) = nan2bad bad a := by
    have hb' : bad.map rnd = bad := hb
    unfold bad2nan nan2bad store
    rw [hb']
    cases bad with
    | none =>
      dsimp only
      rw [List.map_eq_iff]
      intro i
      cases hi : a[i]? with
      | none => rfl
      | some v =>
        have := hv v (List.mem_of_getElem? hi)
        cases v with
        | none => simp
        | some v => simpa [Valid] using this.symm
    | some b =>
      have hbb : rnd b = b := by simpa using hb'
      dsimp only
      rw [List.map_map]
      apply List.map_congr_left
      intro v hv'
      have := hv v hv'
      cases v with
      | none => simp [feq, hbb]
      | some v =>
        have hvv : rnd v = v := by simpa [Valid] using this
        by_cases hvb : v = b
        · subst hvb; simp [feq, hbb]
        · simp [feq, hvb, hvv]
  refine ⟨h.set addr (bad2nan rnd bad a), nan2bad bad a, ?_, or_none bad a, ?_⟩
  · unfold thereAndBack data2InterpolationArray asFloat
    simp only [Res.ok_bind, hr]
    rw [hback, Res.ok_bind, hres]
  · intro hn
    unfold nan2bad
    cases bad with
    | none => rfl
    | some b =>
      rcases hn with hn | hn
      · rw [List.map_eq_iff]
        intro i
        cases hi : a[i]? with
        | none => rfl
        | some v =>
          cases v with
          | none => exact absurd (List.mem_of_getElem? hi) hn
          | some v => simp
      · cases hn

example : thereAndBack (K := ℚ) id .f32 [[some 1, some 9, none]] 0 (some 9) = .ok ([[some 1, none, none]], [some 1, some 9, some 9]) := by
  decide +kernel

/-- **C59.** Integer data with an integer fill value: the data come back unchanged when every value and the fill value is a `float`, and the
array of the reader is not touched. -/
theorem C59_integer_round_trip (rnd : K → K) (b : Nat) (s : Bool) (hb : 1 ≤ b) (h : List (List (Option K))) (addr : Nat)
    (a : List (Option K)) (ha : h[addr]? = some a) (bad : Option K) (hbad : Valid rnd (.int b s) bad)
    (hv : ∀ v ∈ a, Valid rnd (.int b s) v) :
    ∃ h', thereAndBack rnd (.int b s) h addr bad = .ok (h', a) ∧ h'.take h.length = h := by
  have hr : readAt h addr = .ok a := by simp [readAt, ha]
  have hmap : (a.map fun v => v.map rnd) = a := by
    conv_rhs => rw [← List.map_id a]
    apply List.map_congr_left
    intro v hv'
    obtain ⟨z, rfl, _, hz⟩ := hv v hv'
    simp [hz]
  have hbr : bad.map rnd = bad := by
    obtain ⟨z, rfl, _, hz⟩ := hbad
    simp [hz]
  have hget : ((h ++ [a]).set h.length (bad2nan rnd bad a))[h.length]? = some (bad2nan rnd bad a) := by simp
  have hcast : ∀ v ∈ a, castRound (.int b s) v = .ok v := by
    intro v hv'
    obtain ⟨z, rfl, hz, _⟩ := hv v hv'
    rw [castRound_int hb (by rw [lround_intCast]; exact hz), lround_intCast]
  have hmem : ∀ v ∈ bad2nan rnd bad a, v = none ∨ castRound (.int b s) v = .ok v := by
    intro v hv
    unfold bad2nan at hv
    split at hv
    · exact Or.inr (hcast v hv)
    · obtain ⟨w, hw, rfl⟩ := List.mem_map.1 hv
      split
      · exact Or.inl rfl
      · exact Or.inr (hcast w hw)
  have hsc : staticCast (.int b s) bad = .ok bad := by
    obtain ⟨z, rfl, hz, _⟩ := hbad
    exact staticCast_valid ⟨z, rfl, hz.1, hz.2.1⟩
  have hback := back (.int b s) hb rnd _ h.length _ hget bad hsc hmem
  have hres : ((bad2nan rnd bad a).map fun v => store rnd (.int b s) (if v.isNone then bad else v)) = a := by
    unfold bad2nan
    rw [hbr]
    obtain ⟨zb, rfl, _, _⟩ := hbad
    dsimp only
    rw [List.map_map]
    conv_rhs => rw [← List.map_id a]
    apply List.map_congr_left
    intro v hv'
    obtain ⟨z, rfl, _, _⟩ := hv v hv'
    by_cases hzb : (z : K) = zb
    · simp [feq, hzb, store]
    · simp [feq, hzb, store]
  refine ⟨(h ++ [a]).set h.length (bad2nan rnd bad a), ?_, ?_⟩
  · unfold thereAndBack data2InterpolationArray asFloat
    simp only [hr, Res.ok_bind, hmap]
    have hr2 : readAt (h ++ [a]) h.length = .ok a := by simp [readAt]
    rw [hr2, Res.ok_bind]
    rw [Res.ok_bind]
    dsimp only
    rw [hback, Res.ok_bind, hres]
  · rw [List.set_append_right _ _ (by omega)]
    simp

example : thereAndBack (K := ℚ) id (.int 16 true) [[some 1, some (-9)]] 0 (some (-9)) = .ok ([[some 1, some (-9)], [some 1, none]], [some 1, some (-9)]) := by
  decide +kernel

/-- **C59.** `double` data come back rounded to `float`; the fill value comes back exactly, and the array of the reader is not touched. -/
theorem C59_double_is_rounded (rnd : K → K) (h : List (List (Option K))) (addr : Nat) (a : List (Option K)) (ha : h[addr]? = some a)
    (bad : Option K) :
    ∃ h' r, thereAndBack rnd .f64 h addr bad = .ok (h', r) ∧ h'.take h.length = h ∧
      r = a.map fun v => match v with
        | none => bad
        | some v => if bad.map rnd = some (rnd v) then bad else some (rnd v) := by
  have hr : readAt h addr = .ok a := by simp [readAt, ha]
  have hget : ((h ++ [a.map fun v => v.map rnd]).set h.length (bad2nan rnd bad (a.map fun v => v.map rnd)))[h.length]? =
      some (bad2nan rnd bad (a.map fun v => v.map rnd)) := by simp
  have hback := back (K := K) .f64 trivial rnd _ h.length _ hget bad rfl (fun v _ => Or.inr rfl)
  refine ⟨(h ++ [a.map fun v => v.map rnd]).set h.length (bad2nan rnd bad (a.map fun v => v.map rnd)), _, ?_, ?_, rfl⟩
  · unfold thereAndBack data2InterpolationArray asFloat
    simp only [hr, Res.ok_bind]
    have hr2 : readAt (h ++ [a.map fun v => v.map rnd]) h.length = .ok (a.map fun v => v.map rnd) := by simp [readAt]
    rw [hr2, Res.ok_bind]
    rw [Res.ok_bind]
    dsimp only
    rw [hback, Res.ok_bind]
    congr 2
    unfold bad2nan
    cases bad with
    | none =>
      simp only [Option.map_none, List.map_map]
      apply List.map_congr_left
      intro v _
      cases v <;> simp [store]
    | some b =>
      simp only [Option.map_some, List.map_map]
      apply List.map_congr_left
      intro v _
      cases v with
      | none => simp [store, feq]
      | some v =>
        by_cases hvb : rnd v = rnd b
        · simp [store, feq, hvb]
        · simp [store, feq, hvb, Ne.symm hvb]
  · rw [List.set_append_right _ _ (by omega)]
    simp

/-- The `float` data given to `data2InterpolationArray` are changed: fill values in the array of the reader become NaN. -/
theorem C59_float_data_of_reader_changed :
    data2InterpolationArray (K := ℚ) id [[some 1, some 9]] 0 .f32 (some 9) = .ok ([[some 1, none]], 0) := by decide +kernel

/-- An integer that is not a `float` is changed, and may become the fill value: with rounding to even numbers above 4 (as `float` does above
`2^24`), 9 becomes the fill value 8. -/
theorem C59_large_integers_change :
    thereAndBack (K := ℚ) (fun v => if v > 4 then ((Int.floor (v / 2)) * 2 : Int) else v) (.int 32 true) [[some 3, some 9, some 7]] 0
      (some 8) = .ok ([[some 3, some 9, some 7], [some 3, none, some 6]], [some 3, some 8, some 6]) := by decide +kernel

/-- Integer data without a fill value (NaN): the conversion of NaN to the type is undefined, even if all values are numbers. -/
theorem C59_integer_without_fill_undefined :
    thereAndBack (K := ℚ) id (.int 16 true) [[some 1]] 0 none = .ub := by decide +kernel

end Fimex.Interp.Undefined
