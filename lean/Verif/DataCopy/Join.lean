import Verif.DataCopy.Model

/-! # Filling an array block by block -/

namespace Fimex.DataCopy

variable {α : Type}

/-- Copying a block to the end of what is already filled. -/
theorem copyData_append (pre rest d : List α) (last : Nat) (hl : d.length ≤ last)
    (hr : d.length ≤ rest.length) (hsize : (pre ++ rest).length < two64) :
    copyData (pre ++ rest) pre.length d 0 last = .ok (pre ++ d ++ rest.drop d.length) := by
  have hlen : (pre ++ rest).length = pre.length + rest.length := by simp
  have hw : wadd (wsub (pre ++ rest).length pre.length) 0 = rest.length := by
    rw [wsub_eq (by omega) (by omega), wadd_eq (by omega)]; omega
  unfold copyData
  rw [if_neg (by omega)]
  simp only [hw]
  rw [Nat.min_eq_right hl, Nat.min_eq_right hr]
  by_cases hd : 0 < d.length
  · rw [if_pos hd]
    simp only [readRange, Nat.sub_zero, Nat.zero_add, Nat.le_refl, if_true, Res.ok_bind, List.drop_zero,
      List.take_length, writeAt]
    rw [if_pos (by omega)]
    simp [List.drop_append, List.drop_eq_nil_of_le]
  · rw [if_neg hd]
    have : d = [] := List.length_eq_zero_iff.1 (by omega)
    simp [this]

end Fimex.DataCopy
