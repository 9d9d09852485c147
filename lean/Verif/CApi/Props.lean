import Verif.CApi.Model
import Mathlib.Data.List.Induction
import Mathlib.Algebra.Order.Field.Rat
import Mathlib.Tactic.NormNum

/-!
# The interface for C (C130): properties
-/

namespace Fimex.CApi
open SB

/-! ## Memory -/

/-- What copying does. -/
theorem copyTo_eq {A : Type} : ∀ (vs dest : List A) (i : Nat), i + vs.length ≤ dest.length →
    copyTo vs dest i = .ok (dest.take i ++ vs ++ dest.drop (i + vs.length)) := by
  intro vs
  induction vs with
  | nil => intro dest i h; simp [copyTo]
  | cons v vs ih =>
    intro dest i h
    simp only [List.length_cons] at h
    have hi : i < dest.length := by omega
    rw [copyTo, store, if_pos hi]
    show copyTo vs (dest.set i v) (i + 1) = _
    rw [ih _ _ (by rw [List.length_set]; omega)]
    congr 1
    have h1 : (dest.set i v).take (i + 1) = dest.take i ++ [v] := by
      rw [List.take_add_one, List.take_set_of_le (Nat.le_refl i)]
      simp [hi]
    have h2 : (dest.set i v).drop (i + 1 + vs.length) = dest.drop (i + (v :: vs).length) := by
      rw [List.drop_set_of_lt (by omega)]
      congr 1
      simp only [List.length_cons]; omega
    rw [h1, h2]
    simp

theorem copyTo_ub {A : Type} : ∀ (vs dest : List A) (i : Nat), vs ≠ [] → dest.length < i + vs.length → copyTo vs dest i = .ub := by
  intro vs
  induction vs with
  | nil => intro dest i h; exact absurd rfl h
  | cons v vs ih =>
    intro dest i _ h
    rw [copyTo, store]
    by_cases hi : i < dest.length
    · rw [if_pos hi]
      show copyTo vs (dest.set i v) (i + 1) = _
      simp only [List.length_cons] at h
      refine ih _ _ ?_ (by rw [List.length_set]; omega)
      rintro rfl
      simp at h; omega
    · rw [if_neg hi]; rfl

/-! ## Texts -/

/-- Specification: the memory of a text and the number returned: the text and zeros if there is room for it and a zero, otherwise zeros only. -/
def memoryOf (src : List Char) (n : Nat) : List Char × Int :=
  if src.length < n then (src ++ List.replicate (n - src.length) nul, src.length + 1) else (List.replicate n nul, 0)

theorem sizeT_nonneg {n : Int} (h : 0 ≤ n) (h' : n < 2 ^ 31) : sizeT n = n.toNat := by
  unfold sizeT two64
  rw [Int.emod_eq_of_lt h (by norm_num at h' ⊢; omega)]

/-- **C130.** Copying a text fills exactly the memory that the caller gives, and is undefined exactly if less memory is there than said or the size is negative. -/
theorem C130_text (src dest : List Char) (n : Int) (hn : n < 2 ^ 31) :
    stringCpy src dest n = if 0 ≤ n ∧ n ≤ dest.length then .ok ((memoryOf src n.toNat).1 ++ dest.drop n.toNat, (memoryOf src n.toNat).2) else .ub := by
  unfold stringCpy
  by_cases h0 : 0 ≤ n
  · obtain ⟨k, rfl⟩ := Int.eq_ofNat_of_zero_le h0
    rw [sizeT_nonneg h0 hn]
    simp only [Int.toNat_natCast, Nat.cast_nonneg, true_and, Nat.cast_le]
    by_cases hf : src.length + 1 ≤ k
    · rw [if_pos hf]
      unfold memoryOf
      have hm : src.length < k := by omega
      rw [if_pos hm]
      by_cases hk : k ≤ dest.length
      · rw [if_pos hk, copyTo_eq _ _ _ (by simp; omega)]
        simp only [Res.bind, fillTo]
        have hm1 : ¬ (k : Int) < ((src.length + 1 : Nat) : Int) := by omega
        rw [if_neg hm1]
        have e : ((k : Int) - ((src.length + 1 : Nat) : Int)).toNat = k - (src.length + 1) := by omega
        rw [e, copyTo_eq _ _ _ (by simp; omega)]
        simp only [List.take_zero, List.nil_append, List.length_append, List.length_cons, List.length_nil, List.length_replicate, Nat.zero_add]
        refine congrArg Res.ok (Prod.ext ?_ (by simp))
        have e1 : (src ++ [nul] ++ dest.drop (src.length + 1)).take (src.length + 1) = src ++ [nul] := by
          rw [List.take_append_of_le_length (by simp), List.take_of_length_le (by simp)]
        have e2 : (src ++ [nul] ++ dest.drop (src.length + 1)).drop (src.length + 1 + (k - (src.length + 1))) = dest.drop k := by
          rw [List.drop_append, List.drop_eq_nil_of_le (by simp), List.nil_append, List.drop_drop]
          congr 1
          simp; omega
        show List.take _ _ ++ _ ++ List.drop _ _ = _
        rw [e1, e2]
        have e3 : List.replicate (k - src.length) nul = nul :: List.replicate (k - (src.length + 1)) nul := by
          rw [← List.replicate_succ]; congr 1; omega
        rw [e3]
        simp
      · rw [if_neg hk]
        by_cases hd : src.length + 1 ≤ dest.length
        · rw [copyTo_eq _ _ _ (by simp; omega)]
          simp only [Res.bind, fillTo]
          have hm1 : ¬ (k : Int) < ((src.length + 1 : Nat) : Int) := by omega
          rw [if_neg hm1, copyTo_ub]
          · intro h; simp at h; omega
          · simp; omega
        · rw [copyTo_ub _ _ _ (by simp) (by simp; omega)]; rfl
    · rw [if_neg hf]
      unfold memoryOf
      have hm : ¬ src.length < k := by omega
      rw [if_neg hm]
      simp only [Res.bind, fillTo]
      have hm0 : ¬ (k : Int) < ((0 : Nat) : Int) := by omega
      rw [if_neg hm0]
      have e : ((k : Int) - ((0 : Nat) : Int)).toNat = k := by omega
      rw [e]
      by_cases hk : k ≤ dest.length
      · rw [if_pos hk, copyTo_eq _ _ _ (by simp; omega)]
        simp
      · rw [if_neg hk, copyTo_ub _ _ _ (by simp; omega) (by simp; omega)]
  · have hm : ¬ (0 ≤ n ∧ n ≤ (dest.length : Int)) := fun h => h0 h.1
    rw [if_neg hm]
    have key : ∀ (d : List Char) (p : Nat), fillTo d p n nul = .ub := by
      intro d p
      unfold fillTo
      have hp : n < (p : Int) := by omega
      rw [if_pos hp]
    by_cases hf : src.length + 1 ≤ sizeT n
    · rw [if_pos hf]
      by_cases hd : src.length + 1 ≤ dest.length
      · rw [copyTo_eq _ _ _ (by simp; omega)]
        simp only [Res.bind, key]
      · rw [copyTo_ub _ _ _ (by simp) (by simp; omega)]; rfl
    · rw [if_neg hf]
      simp only [Res.bind, key]

/-- **C130.** A text without zeros is read back if there is room for it; otherwise nothing is read and zero is returned. -/
theorem C130_text_read (src dest : List Char) (n : Int) (hn : n < 2 ^ 31) (h0 : 0 < n) (hd : n ≤ dest.length) (hs : nul ∉ src) :
    ∃ d k, stringCpy src dest n = .ok (d, k) ∧ (src.length < n → cText d = src ∧ k = src.length + 1) ∧ (n ≤ src.length → cText d = [] ∧ k = 0) ∧
      d.length = dest.length ∧ d.drop n.toNat = dest.drop n.toNat := by
  rw [C130_text src dest n hn, if_pos ⟨by omega, hd⟩]
  refine ⟨_, _, rfl, ?_, ?_, ?_, ?_⟩
  · intro h
    unfold memoryOf
    rw [if_pos (by omega)]
    refine ⟨?_, rfl⟩
    obtain ⟨j, hj⟩ : ∃ j, n.toNat - src.length = j + 1 := ⟨n.toNat - src.length - 1, by omega⟩
    rw [hj, List.replicate_succ]
    unfold cText
    simp only [List.append_assoc, List.cons_append]
    rw [List.takeWhile_append_of_pos (by intro c hc; simp only [ne_eq, decide_not, Bool.not_eq_eq_eq_not, Bool.not_true, decide_eq_false_iff_not]; rintro rfl; exact hs hc),
      List.takeWhile_cons_of_neg (by simp), List.append_nil]
  · intro h
    unfold memoryOf
    rw [if_neg (by omega)]
    refine ⟨?_, rfl⟩
    obtain ⟨j, hj⟩ : ∃ j, n.toNat = j + 1 := ⟨n.toNat - 1, by omega⟩
    simp only [hj, List.replicate_succ, List.cons_append]
    unfold cText
    rw [List.takeWhile_cons_of_neg (by simp)]
  · unfold memoryOf
    split_ifs <;> simp <;> omega
  · unfold memoryOf
    split_ifs
    · rw [List.drop_append, List.drop_eq_nil_of_le (by simp; omega), List.nil_append, List.drop_drop]
      congr 1
      simp; omega
    · rw [List.drop_append, List.drop_eq_nil_of_le (by simp), List.nil_append, List.drop_drop]
      congr 1
      simp

/-- A name of two letters in memory for four. -/
example : stringCpy "xc".toList "abcdef".toList 4 = .ok (['x', 'c', nul, nul, 'e', 'f'], 3) ∧ stringCpy "xc".toList "abcdef".toList 2 = .ok ([nul, nul, 'c', 'd', 'e', 'f'], 0) := by
  constructor <;> decide +kernel

/-- **C130.** A missing longitude should be reported by -1; it is an empty text, with 1 returned. -/
theorem C130_no_longitude (dest : List Char) (n : Int) (hn : n < 2 ^ 31) (h0 : 0 < n) (hd : n ≤ dest.length) : ∃ d, longitudeCpy none dest n = .ok (d, 1) ∧ cText d = [] := by
  obtain ⟨d, k, h, h1, _⟩ := C130_text_read [] dest n hn h0 hd (by simp)
  obtain ⟨e1, rfl⟩ := h1 (by simpa using h0)
  exact ⟨d, h, e1⟩

/-! ## Names -/

/-- **C130.** Names by number are all names in order; behind them the null pointer is returned (documented is an empty text). -/
theorem C130_names (names : List (List Char)) :
    (∀ k n, names[k]? = some n → nameAt names k = .ok (some n)) ∧ ∀ k, names.length ≤ k → nameAt names k = .ok none := by
  constructor
  · intro k n h
    unfold nameAt at'
    rw [h]; rfl
  · intro k h
    unfold nameAt at'
    rw [List.getElem?_eq_none h]; rfl

/-! ## Regions -/

/-- Numbers of the interface. -/
def Small (cs : List (String × Nat × Nat)) : Prop := ∀ c ∈ cs, c.2.1 < 2 ^ 32 ∧ c.2.2 < 2 ^ 32

theorem setDims_run (cs : List (String × Nat × Nat)) : ∀ b : Builder, setDims (some b) cs = some (run b (cs.map fun c => Call.set c.1 c.2.1 c.2.2)).1 := by
  induction cs with
  | nil => intro b; rfl
  | cons c cs ih =>
    intro b
    rw [setDims]
    have e : (setDim (some b) c.1 c.2.1 c.2.2).1 = some (setStartAndSize b c.1 c.2.1 c.2.2).1 := by
      unfold setDim
      dsimp only
      generalize setStartAndSize b c.1 c.2.1 c.2.2 = r
      obtain ⟨b', r⟩ := r
      cases r <;> rfl
    rw [e, ih]
    rfl

theorem run_dimPos (cs : List (String × Nat × Nat)) : ∀ b : Builder, (run b (cs.map fun c => Call.set c.1 c.2.1 c.2.2)).1.dimPos = b.dimPos := by
  induction cs with
  | nil => intro b; rfl
  | cons c cs ih =>
    intro b
    have e : (setStartAndSize b c.1 c.2.1 c.2.2).1.dimPos = b.dimPos := by
      unfold setStartAndSize
      split
      · rfl
      · rfl
      · split
        · split
          · rfl
          · split
            · rfl
            · dsimp only
              split <;> rfl
        · rfl
        · rfl
    exact (ih _).trans e

theorem accepted_small {cs : List (String × Nat × Nat)} (h : Small cs) (len : String → Nat) : ∀ rs : List (Res Unit),
    ∀ m ∈ acceptedMeanings len (cs.map fun c => Call.set c.1 c.2.1 c.2.2) rs, meaningNoWrap m := by
  induction cs with
  | nil => intro rs m hm; cases rs <;> simp [acceptedMeanings] at hm
  | cons c cs ih =>
    intro rs m hm
    cases rs with
    | nil => simp [acceptedMeanings] at hm
    | cons r rs =>
      simp only [List.map_cons, acceptedMeanings, List.mem_append] at hm
      rcases hm with hm | hm
      · split_ifs at hm
        · simp only [meaning, Option.toList_some, List.mem_singleton] at hm
          obtain ⟨h1, h2⟩ := h c (by simp)
          rw [hm]
          unfold meaningNoWrap two64
          dsimp only
          norm_num at h1 h2 ⊢; omega
        · cases hm
      · exact ih (fun c hc => h c (by simp [hc])) rs m hm

/-- **C130.** After any calls, the regions read are those of the builder, inside of the dimensions, as long as lengths are numbers of the interface; the rest of both arrays is not
changed. -/
theorem C130_regions (names : List String) (sizes : List Nat) (b0 : Builder) (hi : SB.init names sizes (names.map fun _ => false) = .ok b0) (hn : names.Nodup)
    (hs : ∀ s ∈ sizes, s < 2 ^ 32) (cs : List (String × Nat × Nat)) (hc : Small cs) (start size : List Nat) (h1 : names.length ≤ start.length) (h2 : names.length ≤ size.length) :
    ∃ st sz, getStartSize (setDims (some b0) cs) start size = .ok (0, st ++ start.drop names.length, sz ++ size.drop names.length) ∧
      st.length = names.length ∧ sz.length = names.length ∧
      ∀ (i : Nat) (n : String) (l : Nat), names[i]? = some n → sizes[i]? = some l → ∃ a c, st[i]? = some a ∧ sz[i]? = some c ∧ a + c ≤ l ∧
        getStartAndSize (run b0 (cs.map fun c => Call.set c.1 c.2.1 c.2.2)).1 n = .ok (a, c) := by
  rw [setDims_run]
  have hlen : names.length = sizes.length := by
    unfold SB.init at hi
    split_ifs at hi with h
    · simp only [not_or, not_not] at h; exact h.1
  have hfill : fillDimPos 0 names [] = names.zipIdx := by simpa using fill_eq names 0 [] hn (by simp)
  have hb0 : b0.dimPos = names.zipIdx := by
    unfold SB.init at hi
    split_ifs at hi
    · cases hi; exact hfill
  let len : String → Nat := fun n => match mapGet b0.dimPos n with
    | some p => sizes.getD p 0
    | none => 0
  have hle : ∀ k p, mapGet b0.dimPos k = some p → sizes[p]? = some (len k) := by
    intro k p h
    have hp : p < sizes.length := by
      rw [hb0, ← hfill] at h
      exact mapGet_fill_lt names 0 [] sizes.length (by simp [mapGet]) (by omega) k p h
    simp only [len, h]
    simp [List.getD, hp]
  obtain ⟨r1, r2, r3, r4⟩ := C01_region_inside_after_any_history names sizes _ b0 hi (cs.map fun c => Call.set c.1 c.2.1 c.2.2) len hle (accepted_small hc len _)
  have hd := run_dimPos cs b0
  generalize hB : (run b0 (cs.map fun c => Call.set c.1 c.2.1 c.2.2)).1 = B at r1 r2 r3 r4 hd
  have key : ∀ (i : Nat) (n : String) (l : Nat), names[i]? = some n → sizes[i]? = some l → ∃ a c, B.start[i]? = some a ∧ B.size[i]? = some c ∧ a + c ≤ l ∧
      getStartAndSize B n = .ok (a, c) := by
    intro i n l h3 h4
    have hil : i < names.length := (List.getElem?_eq_some_iff.1 h3).1
    have ha : B.start[i]? = some (B.start[i]'(by omega)) := List.getElem?_eq_getElem _
    have hc : B.size[i]? = some (B.size[i]'(by omega)) := List.getElem?_eq_getElem _
    obtain ⟨mx, h5, h6⟩ := r4 i _ _ (by simp [h3]) ha hc
    rw [h4] at h5
    cases h5
    refine ⟨_, _, ha, hc, h6, ?_⟩
    have hpos : SB.getDimPos B n = .ok i := by
      unfold SB.getDimPos
      rw [hd, hb0, mapGet_zipIdx names 0 hn i n h3, Nat.zero_add]
    unfold getStartAndSize
    rw [hpos]
    simp only [Res.ok_bind, at', ha, hc]
  have small : ∀ v ∈ B.start ++ B.size, uint v = v := by
    intro v hv
    have : ∃ i, i < names.length ∧ (B.start[i]? = some v ∨ B.size[i]? = some v) := by
      rcases List.mem_append.1 hv with hv | hv
      · obtain ⟨i, hi, e⟩ := List.getElem_of_mem hv
        exact ⟨i, by omega, .inl (by rw [← e]; exact List.getElem?_eq_getElem _)⟩
      · obtain ⟨i, hi, e⟩ := List.getElem_of_mem hv
        exact ⟨i, by omega, .inr (by rw [← e]; exact List.getElem?_eq_getElem _)⟩
    obtain ⟨i, hil, hv⟩ := this
    have hil' : i < sizes.length := by omega
    obtain ⟨a, c, k1, k2, k3, _⟩ := key i _ _ (List.getElem?_eq_getElem hil) (List.getElem?_eq_getElem hil')
    have := hs _ (List.getElem_mem hil')
    unfold uint
    apply Nat.mod_eq_of_lt
    rcases hv with hv | hv
    · rw [k1] at hv; cases hv; omega
    · rw [k2] at hv; cases hv; omega
  have e1 : B.start.map uint = B.start := by
    conv_rhs => rw [← List.map_id B.start]
    exact List.map_congr_left fun v hv => small v (List.mem_append_left _ hv)
  have e2 : B.size.map uint = B.size := by
    conv_rhs => rw [← List.map_id B.size]
    exact List.map_congr_left fun v hv => small v (List.mem_append_right _ hv)
  refine ⟨B.start, B.size, ?_, r2, r3, key⟩
  unfold getStartSize
  simp only [e1, e2]
  rw [copyTo_eq _ _ _ (by omega), copyTo_eq _ _ _ (by omega)]
  simp [Res.bind, r2, r3]

/-- **C130.** A call that is refused ends in an exception, not in a number, and changes nothing. -/
theorem C130_refused (names : List String) (sizes : List Nat) (b0 : Builder) (hi : SB.init names sizes (names.map fun _ => false) = .ok b0)
    (cs : List (String × Nat × Nat)) (n : String) (a c : Nat) (h : (setDim (setDims (some b0) cs) n a c).2 ≠ .ok 0) :
    (setDim (setDims (some b0) cs) n a c).2 = .throws ∧ (setDim (setDims (some b0) cs) n a c).1 = setDims (some b0) cs := by
  rw [setDims_run] at h ⊢
  have key := C01_raising_call_has_no_effect names sizes _ b0 hi (cs.map fun c => Call.set c.1 c.2.1 c.2.2) (.set n a c)
  simp only [call] at key
  unfold setDim at h ⊢
  dsimp only at h ⊢
  generalize hr : setStartAndSize (run b0 (cs.map fun c => Call.set c.1 c.2.1 c.2.2)).1 n a c = r at h key ⊢
  obtain ⟨b', r⟩ := r
  cases r with
  | ok u => exact absurd rfl h
  | throws =>
    obtain ⟨k1, _⟩ := key (by simp)
    exact ⟨rfl, congrArg some k1⟩
  | ub => exact absurd (key (by simp)).2 (by simp)

/-- Two dimensions; a region is set, another is refused, and the regions are read into longer arrays. -/
example : ∃ b, SB.init ["x", "y"] [5, 4] [false, false] = .ok b ∧
    getStartSize (setDims (some b) [("x", 1, 3), ("y", 3, 2)]) [7, 7, 7] [8, 8] = .ok (0, [1, 0, 7], [3, 4]) ∧ (setDim (some b) "y" 3 2).2 = .throws :=
  ⟨⟨[("x", 0), ("y", 1)], [], [5, 4], [false, false], [0, 0], [5, 4]⟩, by decide, by decide, by decide⟩

/-- **C130.** Lengths of 2³² and more are not reported as they are. -/
theorem C130_long : ∃ b, SB.init ["x"] [2 ^ 32 + 1] [false] = .ok b ∧ getStartSize (some b) [0] [0] = .ok (0, [0], [1]) :=
  ⟨⟨[("x", 0)], [], [2 ^ 32 + 1], [false], [0], [2 ^ 32 + 1]⟩, by decide, by decide⟩

/-- **C130.** Types and sizes are those of the name; for a name that is not there both are zero, without exception. -/
theorem C130_types (vars dims : List (List Char × Nat)) (name : List Char) :
    (∀ pre t rest, vars = pre ++ (name, t) :: rest → name ∉ pre.map (·.1) → typeNumber vars name = .ok t) ∧ (name ∉ vars.map (·.1) → typeNumber vars name = .ok 0) ∧
    (∀ pre n rest, dims = pre ++ (name, n) :: rest → name ∉ pre.map (·.1) → dimensionSize dims name = n) ∧ (name ∉ dims.map (·.1) → dimensionSize dims name = 0) := by
  have h1 : ∀ (l pre rest : List (List Char × Nat)) (t : Nat), l = pre ++ (name, t) :: rest → name ∉ pre.map (·.1) → l.find? (·.1 = name) = some (name, t) := by
    rintro l pre rest t rfl hn
    rw [List.find?_append]
    have : pre.find? (·.1 = name) = none := by
      rw [List.find?_eq_none]
      intro x hx
      simp only [decide_eq_true_eq]
      rintro rfl
      exact hn (List.mem_map_of_mem hx)
    rw [this]
    simp
  have h0 : ∀ l : List (List Char × Nat), name ∉ l.map (·.1) → l.find? (·.1 = name) = none := by
    intro l hn
    rw [List.find?_eq_none]
    intro x hx
    simp only [decide_eq_true_eq]
    rintro rfl
    exact hn (List.mem_map_of_mem hx)
  unfold typeNumber dimensionSize caught
  refine ⟨fun pre t rest e hn => ?_, fun hn => ?_, fun pre t rest e hn => ?_, fun hn => ?_⟩
  · rw [h1 _ _ _ _ e hn]
  · rw [h0 _ hn]
  · rw [h1 _ _ _ _ e hn]
  · rw [h0 _ hn]

/-- **C130.** A copy of a text is read as the text, whatever follows it in memory. -/
theorem C130_dup (src more : List Char) : cText (stringDup src ++ more) = cText src ∧ nul ∈ stringDup src := by
  unfold stringDup
  refine ⟨?_, by simp⟩
  unfold cText
  induction src with
  | nil => simp
  | cons c s ih =>
    by_cases h : c = nul
    · simp [h]
    · simp only [List.takeWhile_cons, ne_eq, h, not_false_eq_true, decide_true, if_true, List.cons_append]
      simp at ih ⊢
      exact ih

/-- **C130.** A null pointer for the slice builder is an error and nothing else. -/
theorem C130_null (name : String) (a c : Nat) (start size : List Nat) :
    setDim none name a c = (none, .ok (-1)) ∧ getStartSize none start size = .ok (-1, start, size) ∧ ndims none = 0 := ⟨rfl, rfl, rfl⟩

/-- **C130.** Names of dimensions are those of the variable; a number behind them ends in an exception. -/
theorem C130_dim_names (names : List String) (hn : names.Nodup) (entries : List (String × Nat)) (hp : entries.Perm names.zipIdx) (pos : Int) (h0 : 0 ≤ pos) (h1 : pos < 2 ^ 31) :
    dimName (some entries) pos = match names[pos.toNat]? with | some n => .ok n | none => .throws := by
  have e : getDimensionNames entries = .ok names := by
    have hi : SB.init names (names.map fun _ => 0) (names.map fun _ => false) = .ok ⟨fillDimPos 0 names [], [], names.map fun _ => 0, names.map fun _ => false,
        (names.map fun _ => 0).map fun _ => 0, names.map fun _ => 0⟩ := by
      unfold SB.init
      rw [if_neg (by simp)]
    refine C02_names_in_shape_order names _ _ _ hi hn [] entries ?_
    have hfill : fillDimPos 0 names [] = names.zipIdx := by simpa using fill_eq names 0 [] hn (by simp)
    simpa [run, hfill] using hp
  unfold dimName
  simp only [e, Res.bind, at', sizeT_nonneg h0 h1]
  cases names[pos.toNat]? <;> rfl

/-! ## Values -/

/-- **C130.** Reading into given memory is undefined exactly if there is less memory than values or a pointer is missing; else the values are at its beginning and the rest is not
changed, or there is an error and nothing is changed. -/
theorem C130_filled {V : Type} (plain : Builder → Res (List V)) (converted : List Char → Builder → Res (List V)) (b : Builder) (u : List Char) (d : List V) (size : Nat)
    (vs : Res (List V)) (hv : vs = if u = [] then plain b else converted u b) (hub : vs ≠ .ub) :
    (vs = .throws → fillScaled plain converted (some b) (some u) (some d) size = .ok (-1, some d, size)) ∧
    ∀ l, vs = .ok l → fillScaled plain converted (some b) (some u) (some d) size =
      if l.length ≤ d.length then .ok (0, some (l ++ d.drop l.length), l.length) else .ub := by
  have e : (if u ≠ [] then converted u b else plain b) = vs := by
    rw [hv]; by_cases h : u = [] <;> simp [h]
  unfold fillScaled
  simp only [e]
  constructor
  · rintro rfl; rfl
  · rintro l rfl
    dsimp only
    by_cases h : l.length ≤ d.length
    · rw [if_pos h, copyTo_eq _ _ _ (by omega)]
      simp [Res.bind]
    · rw [if_neg h, copyTo_ub _ _ _ (by rintro rfl; simp at h) (by omega)]
      rfl

example : fillScaled (fun _ => .ok [1, 2]) (fun _ _ => .ok [3, 4, 5]) (some ⟨[], [], [], [], [], []⟩) (some ['m']) (some [9, 9, 9, 9]) 7 = .ok (0, some [3, 4, 5, 9], 3) ∧
    fillScaled (fun _ => .ok [1, 2]) (fun _ _ => .ok [3, 4, 5]) (some ⟨[], [], [], [], [], []⟩) (some []) (some [9]) 7 = .ub := by
  decide +kernel

/-- **C130.** New memory holds all values and the number is theirs; without values or without room there is an error, and then no memory is left behind. -/
theorem C130_new_memory {V : Type} (room : Nat → Bool) (values : Res (List V)) (data data' : Option (List V)) (size size' : Nat) (k : Int)
    (h : getDouble room values data size = .ok (k, data', size')) :
    (k = 0 → ∃ vs, values = .ok vs ∧ data' = some vs ∧ size' = vs.length) ∧ (k ≠ 0 → k = -1 ∧ ((data' = data ∧ size' = size) ∨ (data' = none ∧ size' = 0))) := by
  unfold getDouble at h
  cases values with
  | throws => cases h; simp
  | ub => cases h
  | ok vs =>
    dsimp only at h
    split_ifs at h <;> cases h <;> simp

example : getDouble (· < 4) (.ok [1, 2, 3]) none 9 = .ok (0, some [1, 2, 3], 3) ∧ getDouble (· < 3) (.ok [1, 2, 3]) none 9 = .ok (-1, none, 0) := by decide

/-- **C130.** A value other than zero is returned only if the file is as before; with zero, exactly the given values were put, or there were none. -/
theorem C130_written {V S : Type} (put : Option (List Char → Builder → List V → S → Res S)) (sb : Option Builder) (units : Option (List Char)) (data : Option (List V)) (size : Nat)
    (file file' : S) (k : Int) (h : writeScaled put sb units data size file = .ok (k, file')) :
    (k ≠ 0 → file' = file) ∧ (k = 0 → (size = 0 ∧ file' = file) ∨
      ∃ f u b d, put = some f ∧ units = some u ∧ sb = some b ∧ data = some d ∧ size ≤ d.length ∧ f u b (d.take size) file = .ok file') := by
  unfold writeScaled at h
  by_cases h0 : size = 0
  · rw [if_pos h0] at h; cases h; exact ⟨by simp, fun _ => .inl ⟨h0, rfl⟩⟩
  · rw [if_neg h0] at h
    cases data with
    | none => cases h; simp
    | some d =>
      cases put with
      | none => cases h; simp
      | some f =>
        cases units with
        | none => cases h
        | some u =>
          cases sb with
          | none => cases h
          | some b =>
            dsimp only at h
            by_cases hd : d.length < size
            · rw [if_pos hd] at h; cases h
            · rw [if_neg hd] at h
              cases hf : f u b (d.take size) file with
              | throws => rw [hf] at h; cases h; simp
              | ub => rw [hf] at h; cases h
              | ok s =>
                rw [hf] at h
                cases h
                exact ⟨by simp, fun _ => .inr ⟨f, u, b, d, rfl, rfl, rfl, rfl, by omega, hf⟩⟩

example : writeScaled (V := Nat) (S := List Nat) (some fun _ _ l s => .ok (s ++ l)) (some ⟨[], [], [], [], [], []⟩) (some []) (some [1, 2, 3]) 2 [9] = .ok (0, [9, 1, 2]) := by
  decide +kernel

/-! ## Functions called for values -/

variable {K : Type} [Field K] [DecidableEq K]

/-- Specification: the function given last for a variable. -/
def lastCall (name : String) (fs : List (String × Callback K)) : Option (Callback K) := (fs.reverse.find? (·.1 = name)).map (·.2)

/-- Attributes of a variable with a function. -/
def retyped (m : Meaning K) : Meaning K := { m with type := double, scale := 1, offset := 0 }

omit [Field K] [DecidableEq K] in
theorem lastCall_append (name : String) (fs : List (String × Callback K)) (f : String × Callback K) :
    lastCall name (fs ++ [f]) = if f.1 = name then some f.2 else lastCall name fs := by
  unfold lastCall
  rw [List.reverse_append, List.reverse_singleton, List.singleton_append, List.find?_cons]
  by_cases h : f.1 = name <;> simp [h]

omit [DecidableEq K] in
theorem setCallbacks_append (fs : List (String × Callback K)) (f : String × Callback K) : ∀ c : CReader K,
    setCallbacks c (fs ++ [f]) = match setCall (setCallbacks c fs) f.1 f.2 with | .ok c' => c' | _ => setCallbacks c fs := by
  induction fs with
  | nil => intro c; rfl
  | cons g fs ih => intro c; rw [List.cons_append, setCallbacks, ih]; rfl

theorem any_map_fst {B : Type} (g : String × B → String × B) (hg : ∀ v, (g v).1 = v.1) (l : List (String × B)) (name : String) :
    (l.map g).any (·.1 = name) = l.any (·.1 = name) := by
  rw [List.any_map]
  congr 1
  funext v
  simp [hg v]

omit [DecidableEq K] in
theorem setCallbacks_eq (r : Source K) (fs : List (String × Callback K)) : setCallbacks (newCReader r) fs =
    ⟨r, r.vars.map fun v => (v.1, if (lastCall v.1 fs).isSome then retyped v.2 else v.2), fun n => if r.vars.any (·.1 = n) then lastCall n fs else none⟩ := by
  induction fs using List.reverseRecOn with
  | nil =>
    unfold newCReader lastCall
    simp [setCallbacks]
  | append_singleton fs f ih =>
    rw [setCallbacks_append, ih]
    unfold setCall
    dsimp only
    rw [any_map_fst (fun v => (v.1, if (lastCall v.1 fs).isSome = true then retyped v.2 else v.2)) (fun _ => rfl)]
    by_cases h : r.vars.any (·.1 = f.1) = true
    · rw [if_pos h]
      dsimp only
      congr 1
      · rw [List.map_map]
        apply List.map_congr_left
        intro v _
        simp only [Function.comp, lastCall_append]
        by_cases hv : v.1 = f.1
        · rw [if_pos hv, if_pos hv.symm]
          refine Prod.ext rfl ?_
          simp only [Option.isSome_some, if_true]
          split_ifs <;> rfl
        · have hv' : ¬ f.1 = v.1 := fun e => hv e.symm
          rw [if_neg hv, if_neg hv']
      · funext n
        rw [lastCall_append]
        by_cases hn : n = f.1
        · subst hn
          rw [if_pos rfl, if_pos h, if_pos rfl]
        · have hn' : ¬ f.1 = n := fun e => hn e.symm
          rw [if_neg hn, if_neg hn']
    · rw [if_neg h]
      dsimp only
      congr 1
      · apply List.map_congr_left
        intro v hv
        have e : ¬ f.1 = v.1 := fun e => h (List.any_eq_true.2 ⟨v, hv, by simp [e]⟩)
        rw [lastCall_append, if_neg e]
      · funext n
        rw [lastCall_append]
        by_cases hn : f.1 = n
        · subst hn
          rw [if_neg h, if_neg h]
        · rw [if_neg hn]

theorem find_map_fst {B : Type} (g : String × B → B) (l : List (String × B)) (name : String) :
    (l.map fun v => (v.1, g v)).find? (·.1 = name) = (l.find? (·.1 = name)).map fun v => (v.1, g v) := by
  rw [List.find?_map]
  rfl

/-- **C130.** After any calls that set functions, scaled values of a variable are those of the function set last, called with the scaled values of the reader below; a value is
missing then if it is the fill value.  An error of the function is an exception, and variables without function are as before. -/
theorem C130_callbacks (dflt : Nat → K) (r : Source K) (fs : List (String × Callback K)) (name : String) (pos : Nat) (m : Meaning K) (hm : r.find name = .ok m) :
    scaled dflt ((setCallbacks (newCReader r) fs).source dflt) name pos = match lastCall name fs with
      | none => scaled dflt r name pos
      | some f => (scaled dflt r name pos).bind fun vs => if (f name pos vs).1 ≠ 0 then .throws else
          match m.fill with
          | none => .ok ((f name pos vs).2.map fun v => if v = some (dflt double) then none else v)
          | some (t, x) => if t = double then .ok ((f name pos vs).2.map fun v => if v = some x then none else v) else .throws := by
  have hf : ∃ v, r.vars.find? (·.1 = name) = some v ∧ v.1 = name ∧ v.2 = m := by
    unfold Source.find at hm
    cases hv : r.vars.find? (·.1 = name) with
    | none => rw [hv] at hm; cases hm
    | some v =>
      rw [hv] at hm
      cases hm
      exact ⟨v, rfl, by simpa using List.find?_some hv, rfl⟩
  obtain ⟨v, hv, hv1, hv2⟩ := hf
  have hany : r.vars.any (·.1 = name) = true := List.any_eq_true.2 ⟨v, List.mem_of_find?_eq_some hv, by simp [hv1]⟩
  rw [setCallbacks_eq]
  have hfind : (CReader.source dflt ⟨r, r.vars.map fun v => (v.1, if (lastCall v.1 fs).isSome then retyped v.2 else v.2),
      fun n => if r.vars.any (·.1 = n) then lastCall n fs else none⟩).find name = .ok (if (lastCall name fs).isSome then retyped m else m) := by
    unfold Source.find CReader.source
    dsimp only
    rw [find_map_fst, hv]
    simp only [Option.map_some, hv1, hv2]
  have hraw : (CReader.source dflt ⟨r, r.vars.map fun v => (v.1, if (lastCall v.1 fs).isSome then retyped v.2 else v.2),
      fun n => if r.vars.any (·.1 = n) then lastCall n fs else none⟩).raw name pos = match lastCall name fs with
        | none => r.raw name pos
        | some f => (scaled dflt r name pos).bind fun vs => if (f name pos vs).1 ≠ 0 then .throws else .ok (f name pos vs).2 := by
    unfold CReader.source CReader.raw
    dsimp only
    rw [if_pos hany]
    cases lastCall name fs <;> rfl
  conv_lhs => unfold scaled
  rw [hraw, hfind]
  cases hl : lastCall name fs with
  | none =>
    simp only [Option.isSome_none, Bool.false_eq_true, if_false]
    unfold scaled
    rw [hm]
  | some f =>
    simp only [Option.isSome_some, if_true]
    cases hs : scaled dflt r name pos with
    | throws => rfl
    | ub => rfl
    | ok vs =>
      simp only [Res.bind]
      by_cases h1 : (f name pos vs).1 ≠ 0
      · rw [if_pos h1, if_pos h1]
      · rw [if_neg h1, if_neg h1]
        dsimp only
        unfold fillValue retyped
        cases hfl : m.fill with
        | none =>
          dsimp only
          congr 1
          apply List.map_congr_left
          intro v _
          unfold unpack
          split_ifs
          · rfl
          · cases v <;> simp
        | some f' =>
          obtain ⟨t, x⟩ := f'
          dsimp only
          by_cases ht : t = double
          · rw [if_neg (by simp [ht]), if_pos ht]
            dsimp only
            congr 1
            apply List.map_congr_left
            intro v _
            unfold unpack
            split_ifs
            · rfl
            · cases v <;> simp
          · rw [if_pos (fun e => ht e.symm), if_neg ht]

/-- **C130.** A variable that is not of type double and has a fill value cannot be read with scale any more once it has a function. -/
theorem C130_fill_type (dflt : Nat → K) (r : Source K) (name : String) (f : Callback K) (pos : Nat) (m : Meaning K) (hm : r.find name = .ok m) (t : Nat) (x : K)
    (hf : m.fill = some (t, x)) (ht : t ≠ double) (vs : List (Option K)) : scaled dflt ((setCallbacks (newCReader r) [(name, f)]).source dflt) name pos ≠ .ok vs := by
  rw [C130_callbacks dflt r _ name pos m hm]
  have e : lastCall name [(name, f)] = some f := by simp [lastCall]
  rw [e, hf]
  dsimp only
  cases scaled dflt r name pos with
  | throws => simp [Res.bind]
  | ub => simp [Res.bind]
  | ok vs' =>
    simp only [Res.bind]
    split_ifs <;> simp

omit [DecidableEq K] in
/-- **C130.** Setting a function returns zero exactly for variables there are, and otherwise changes nothing. -/
theorem C130_set_callback (c : CReader K) (name : String) (f : Callback K) :
    (∃ c', setCallback (some c) name f = .ok (0, some c') ∧ name ∈ c.vars.map (·.1) ∧ c'.calls name = some f ∧ c'.below = c.below) ∨
    (setCallback (some c) name f = .ok (-1, some c) ∧ name ∉ c.vars.map (·.1)) := by
  unfold setCallback
  by_cases h : (c.vars.any (·.1 = name)) = true
  · left
    obtain ⟨v, h1, h2⟩ := List.any_eq_true.1 h
    have e : ∃ c', setCall c name f = .ok c' ∧ c'.calls name = some f ∧ c'.below = c.below := by
      unfold setCall
      rw [if_pos h]
      exact ⟨_, rfl, if_pos rfl, rfl⟩
    obtain ⟨c', e1, e2, e3⟩ := e
    exact ⟨c', by simp only [e1], List.mem_map.2 ⟨v, h1, by simpa using h2⟩, e2, e3⟩
  · right
    have e : setCall c name f = .throws := by
      unfold setCall
      rw [if_neg h]
    refine ⟨by simp only [e], fun hm => h ?_⟩
    obtain ⟨v, h1, h2⟩ := List.mem_map.1 hm
    exact List.any_eq_true.2 ⟨v, h1, by simp [h2]⟩

/-- A variable of type double with scale and fill value. -/
def sampleSource : Source ℚ := ⟨[("t", ⟨double, 1 / 10, 0, some (double, 999)⟩), ("u", ⟨2, 1, 0, none⟩)], fun _ _ => .ok [some 9990, some 5, some 999]⟩

/-- Functions that add one, and that fail at position 3. -/
def sampleCalls : List (String × Callback ℚ) := [("t", fun _ _ l => (0, l)), ("v", fun _ _ l => (0, l)), ("t", fun _ p l => (if p = 3 then 1 else 0, l.map (Option.map (· + 1))))]

example : scaled (fun _ => -1) ((setCallbacks (newCReader sampleSource) sampleCalls).source fun _ => -1) "t" 0 = .ok [some 1000, some (3 / 2), none] ∧
    scaled (fun _ => -1) ((setCallbacks (newCReader sampleSource) sampleCalls).source fun _ => -1) "t" 3 = .throws := by
  constructor <;> decide +kernel

/-- **C130.** A value that is equal to the packed fill value becomes missing with a function that does nothing. -/
theorem C130_fill_value : scaled (fun _ => -1) sampleSource "t" 0 = .ok [some 999, some (1 / 2), none] ∧
    scaled (fun _ => -1) ((setCallbacks (newCReader sampleSource) [("t", fun _ _ l => (0, l))]).source fun _ => -1) "t" 0 = .ok [none, some (1 / 2), none] := by
  constructor <;> decide +kernel

end Fimex.CApi
