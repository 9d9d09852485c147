import Verif.DataCopy.Model

/-!
# Property C06: copying values touches only the target range
-/

namespace Fimex.DataCopy

variable {α : Type}

theorem writeAt_ok (dst vals : List α) (p : Nat) (h : p + vals.length ≤ dst.length) :
    ∃ out, writeAt dst p vals = .ok out ∧ out.length = dst.length ∧
      ∀ i, out[i]? = if p ≤ i ∧ i < p + vals.length then vals[i - p]? else dst[i]? := by
  refine ⟨dst.take p ++ vals ++ dst.drop (p + vals.length), by simp [writeAt, h], ?_, ?_⟩
  · simp; omega
  · intro i
    have hp : (dst.take p).length = p := by simp; omega
    split
    · rename_i hi
      rw [List.getElem?_append_left (by simp; omega), List.getElem?_append_right (by omega), hp]
    · rename_i hi
      by_cases h1 : i < p
      · rw [List.getElem?_append_left (by simp; omega), List.getElem?_append_left (by omega)]
        simp [h1]
      · rw [List.getElem?_append_right (by simp; omega)]
        simp only [List.length_append, hp, List.getElem?_drop]
        congr 1; omega

/-- **C06.** Copying `[first, last)` of a source to position `p ≤ size` of a target, with the number
of values moved `k = min(last, source size) - first` cut to the room left: the call raises exactly
when `first` is beyond the source; otherwise exactly the `k` positions from `p` on get the source
values in order, and every other value and the length stay as they were. -/
theorem C06_copy_touches_only_range (dst src : List α) (p first last : Nat)
    (hp : p ≤ dst.length) (hsize : dst.length + src.length < two64) :
    (src.length < first → copyData dst p src first last = .throws) ∧
    (first ≤ src.length →
      ∃ out, copyData dst p src first last = .ok out ∧ out.length = dst.length ∧
        ∀ i, out[i]? =
          if p ≤ i ∧ i < p + min (min last src.length - first) (dst.length - p)
          then src[first + (i - p)]? else dst[i]?) := by
  constructor
  · intro h; simp [copyData, h]
  · intro h
    have hw : wadd (wsub dst.length p) first = dst.length - p + first := by
      rw [wsub_eq hp (by omega), wadd_eq (by omega)]
    unfold copyData
    rw [if_neg (by omega)]
    simp only [hw]
    split
    · rename_i hlt
      have hr : first + (min (dst.length - p + first) (min last src.length) - first) ≤ src.length := by
        omega
      simp only [readRange, hr, if_true, Res.ok_bind]
      have hl : ((src.drop first).take
          (min (dst.length - p + first) (min last src.length) - first)).length =
          min (min last src.length - first) (dst.length - p) := by
        simp; omega
      obtain ⟨out, e, h1, h2⟩ := writeAt_ok dst ((src.drop first).take
        (min (dst.length - p + first) (min last src.length) - first)) p (by rw [hl]; omega)
      refine ⟨out, e, h1, fun i => ?_⟩
      rw [h2 i, hl]
      split
      · rename_i hi
        rw [List.getElem?_take, if_pos (by omega), List.getElem?_drop]
      · rfl
    · rename_i hlt
      refine ⟨dst, rfl, rfl, fun i => ?_⟩
      rw [if_neg (by omega)]

/-- Non-vacuity: the request is longer than the room left and is cut. -/
example : copyData [0, 0, 0, 0] 2 [1, 2, 3, 4, 5] 1 (two64 - 1) = .ok [0, 0, 2, 3] ∧
    copyData [0, 0] 0 [1] 2 5 = .throws := by decide

/-- A start position beyond the target is not rejected: the room left underflows and the copy
writes outside the target. Hence the hypothesis `p ≤ dst.length`. -/
theorem C06_start_beyond_target_is_ub : copyData [0, 0] 3 [1, 2] 0 2 = .ub := by decide

/-- **C06** for `createDataSlice`: the result has the requested length, its values are the source
values from the start position on as far as they exist, the remaining ones are indeterminate. -/
theorem C06_createDataSlice (data : List α) (s n : Nat) (hs : s ≤ data.length)
    (hsize : n + data.length < two64) :
    ∃ out, createDataSlice data s n = .ok out ∧ out.length = n ∧
      ∀ i, i < n → out[i]? = some data[s + i]? := by
  have hw : wadd s n = s + n := wadd_eq (by omega)
  obtain ⟨out, e, h1, h2⟩ := (C06_copy_touches_only_range (List.replicate n none) (data.map some)
    0 s (s + n) (by simp) (by simpa using hsize)).2 (by simpa using hs)
  refine ⟨out, by simp [createDataSlice, hw, e], by simpa using h1, fun i hi => ?_⟩
  rw [h2 i]
  simp only [List.length_replicate, List.length_map, Nat.zero_le, true_and, Nat.zero_add, Nat.sub_zero]
  split
  · rename_i hc
    simp [List.getElem?_eq_getElem (show s + i < data.length by omega)]
  · rename_i hc
    simp [hi, List.getElem?_eq_none (show data.length ≤ s + i by omega)]

/-- Every value of the result is defined exactly when the source holds enough values. -/
theorem C06_createDataSlice_defined_iff (data : List α) (s n : Nat) (hs : s ≤ data.length)
    (hn : 0 < n) (hsize : n + data.length < two64) :
    (∃ vals : List α, createDataSlice data s n = .ok (vals.map some)) ↔ s + n ≤ data.length := by
  obtain ⟨out, e, h1, h2⟩ := C06_createDataSlice data s n hs hsize
  constructor
  · rintro ⟨vals, hv⟩
    rw [e] at hv
    cases hv
    have := h2 (n - 1) (by omega)
    simp only [List.length_map] at h1
    rw [List.getElem?_map, List.getElem?_eq_getElem (by omega)] at this
    simp only [Option.map_some, Option.some.injEq] at this
    have := (List.getElem?_eq_some_iff.1 this.symm).1
    omega
  · intro h
    refine ⟨(data.drop s).take n, ?_⟩
    rw [e]
    congr 1
    apply List.ext_getElem?
    intro i
    by_cases hi : i < n
    · rw [h2 i hi, List.getElem?_map, List.getElem?_take, if_pos hi, List.getElem?_drop,
        List.getElem?_eq_getElem (by omega)]
      simp
    · rw [List.getElem?_eq_none (by omega), List.getElem?_eq_none (by simp; omega)]

example : createDataSlice [1, 2, 3] 1 2 = .ok [some 2, some 3] ∧
    createDataSlice [1, 2, 3] 2 3 = .ok [some 3, none, none] := by decide

/-- **C06** for iterator ranges: rejected exactly when the values do not fit, never partially
written. -/
theorem C06_setFromRange (dst vals : List α) (p : Nat) (hsize : vals.length + p < two64) :
    (dst.length < p + vals.length → setFromRange dst vals p = .throws) ∧
    (p + vals.length ≤ dst.length →
      ∃ out, setFromRange dst vals p = .ok out ∧ out.length = dst.length ∧
      ∀ i, out[i]? = if p ≤ i ∧ i < p + vals.length then vals[i - p]? else dst[i]?) := by
  have hw : wadd vals.length p = vals.length + p := wadd_eq hsize
  constructor
  · intro h; simp only [setFromRange, hw]; rw [if_pos (by omega)]
  · intro h
    obtain ⟨out, e, h1, h2⟩ := writeAt_ok dst vals p h
    refine ⟨out, ?_, h1, h2⟩
    simp only [setFromRange, hw]
    rw [if_neg (by omega)]; exact e

example : setFromRange [0, 0, 0] [7, 8] 1 = .ok [0, 7, 8] ∧ setFromRange [0, 0, 0] [7, 8] 2 = .throws := by
  decide

end Fimex.DataCopy
