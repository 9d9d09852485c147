import Verif.Fill.Props
import Verif.Search.Model
import Mathlib.Data.List.Sort
import Mathlib.Tactic.Tauto

/-!
# Masking by status values

Model of `findDefinedExtreme` and the masking part of `CDMQualityExtractor::getDataSlice`,
`src/CDMQualityExtractor.cc:214-389`, and of `getValidValues`, lines 73-101, with C54.

The status slice is given (in the code it may come from another reader, or from a recursive call).  `none` is NaN; values are
exact.  Data elements have any type; the fill value is given in that type.  If data and status are the same array the code
works in place; the outcome is the same, as each cell is read before it is written and kept or overwritten by the fill value.
-/

namespace Fimex.Quality

open Fimex.Fill

set_option linter.unusedSectionVars false

variable {K : Type} [LinearOrder K] {D : Type}

/-! ## Model -/

/-- What is configured for the variable: allowed values (`variableValues`) or `variableFlags`. -/
inductive Rule (K : Type) where
  | values (vs : List K)
  | all
  | max (m : K)
  | min (m : K)
  | highest
  | lowest
  | other

/-- Attributes of the status variable: `valid_min`, `valid_max` (or both from `valid_range`) and the fill value. -/
structure Limits (K : Type) where
  validMin : Option K
  validMax : Option K
  fill : Option K

/-- A loop that makes some values undefined; comparisons with NaN are false. -/
def dropIf (p : K → Bool) (sd : List (Option K)) : List (Option K) :=
  sd.map fun x => match x with
    | some y => if p y then none else some y
    | none => none

/-- The loop is left out without limit. -/
def dropWith (l : Option K) (p : K → K → Bool) (sd : List (Option K)) : List (Option K) :=
  match l with
  | some m => dropIf (p m) sd
  | none => sd

/-- src/CDMQualityExtractor.cc:300-326. -/
def clean (lim : Limits K) (sd : List (Option K)) : List (Option K) :=
  dropWith lim.fill (fun m y => y = m) (dropWith lim.validMax (fun m y => y > m) (dropWith lim.validMin (fun m y => y < m) sd))

/-- src/CDMQualityExtractor.cc:226-230: the position is not advanced. -/
def extremeLoop (minmax : K → K → K) : ℕ → List (Option K) → Option K → Option (Option K)
  | 0, _, _ => none
  | _ + 1, [], e => some e
  | f + 1, x :: rest, e =>
    extremeLoop minmax f (x :: rest) (match x, e with
      | some y, some z => some (minmax z y)
      | some _, none => none
      | none, e => e)

/-- src/CDMQualityExtractor.cc:214-233 `findDefinedExtreme`; running out of rounds gives `none`. -/
def findDefinedExtreme (minmax : K → K → K) (fuel : ℕ) (sd : List (Option K)) : Option (Option K) :=
  match sd.dropWhile (·.isSome) with
  | [] => some none
  | x :: rest => extremeLoop minmax fuel (x :: rest) x

/-- src/CDMQualityExtractor.cc:286-362: status values left over, and the sorted values to use. -/
def useValues (fuel : ℕ) (r : Rule K) (lim : Limits K) (sd : List (Option K)) : Option (Res (List (Option K) × List K)) :=
  match r with
  | .values vs => some (.ok (sd, vs.insertionSort (· ≤ ·)))
  | .all => some (.ok (clean lim sd, []))
  | .max m => some (.ok (dropIf (fun y => y > m) (clean lim sd), []))
  | .min m => some (.ok (dropIf (fun y => y < m) (clean lim sd), []))
  | .highest => (findDefinedExtreme Max.max fuel (clean lim sd)).map fun e => .ok (clean lim sd, e.toList)
  | .lowest => (findDefinedExtreme Min.min fuel (clean lim sd)).map fun e => .ok (clean lim sd, e.toList)
  | .other => some .throws

/-- `std::binary_search`; NaN compares as neither smaller nor larger. -/
def binarySearch (vs : List K) (x : Option K) : Bool :=
  match x with
  | none => vs.length ≠ 0
  | some y =>
    match vs[Search.lowerBound vs y]? with
    | some z => !decide (y < z)
    | none => false

/-- src/CDMQualityExtractor.cc:363-372. -/
def keepValues (vs : List K) (sd : List (Option K)) : List (Option K) :=
  if vs.length > 0 then sd.map fun x => if binarySearch vs x then x else none else sd

/-- src/CDMQualityExtractor.cc:376-381: one pass over the status values from `iD`. -/
def maskRow (sd : List (Option K)) (fill : D) (iD : ℕ) (data : List D) : Res (List D) :=
  forN (fun i d => do
    let s ← readAt sd (i - iD)
    if s.isNone then writeAt d i fill else .ok d) iD sd.length data

/-- src/CDMQualityExtractor.cc:374-382; at least one value is passed in each round, so `data.length` rounds are enough. -/
def maskRows (sd : List (Option K)) (fill : D) : ℕ → ℕ → List D → Res (List D)
  | 0, _, d => .ok d
  | f + 1, iD, d => if iD < d.length then maskRow sd fill iD d >>= maskRows sd fill f (iD + sd.length) else .ok d

/-- src/CDMQualityExtractor.cc:262-388 for a variable with status: `len` is the size of a slice.  The ratio of the sizes is a
`double` converted to `int`, which is undefined if it is infinite or too large. -/
def getDataSlice (fuel : ℕ) (r : Rule K) (lim : Limits K) (fill : D) (len : ℕ) (data : List D) (sd : List (Option K)) :
    Option (Res (List D)) :=
  if data.length = 0 ∧ sd.length = 0 then some (.ok (List.replicate len fill))
  else if sd.length = 0 ∨ data.length ≥ 2 ^ 31 * sd.length then some .ub
  else if data.length % sd.length = 0 ∧ data.length ≥ sd.length then
    (useValues fuel r lim sd).map fun u => u >>= fun (sd, vs) => maskRows (keepValues vs sd) fill data.length 0 data
  else some (.ok data)

/-- `autoConfString`. -/
inductive AutoConf (K : Type) where
  | values (vs : List K)
  | all
  | highest
  | lowest
  | other

/-- src/CDMQualityExtractor.cc:73-101 `getValidValues`; `validVals` is an empty vector, element 0 does not exist. -/
def getValidValues (conf : AutoConf K) (attr : List K) : Res (List K) :=
  match conf with
  | .values vs => .ok vs
  | .all => .ok attr
  | .highest => if attr.length > 0 then readAt attr (attr.length - 1) >>= writeAt [] 0 else .ok []
  | .lowest => if attr.length > 0 then readAt attr 0 >>= writeAt [] 0 else .ok []
  | .other => .ok []

/-! ## Specification -/

/-- The status value allows the data value: it is defined and, with a list of values, in the list (if that is not empty),
else within the limits and not the fill value. -/
def Allowed (r : Rule K) (lim : Limits K) (x : Option K) : Prop :=
  ∃ y, x = some y ∧ match r with
    | .values vs => vs = [] ∨ y ∈ vs
    | .max M => (∀ m, lim.validMin = some m → m ≤ y) ∧ (∀ m, lim.validMax = some m → y ≤ m) ∧ lim.fill ≠ some y ∧ y ≤ M
    | .min M => (∀ m, lim.validMin = some m → m ≤ y) ∧ (∀ m, lim.validMax = some m → y ≤ m) ∧ lim.fill ≠ some y ∧ M ≤ y
    | _ => (∀ m, lim.validMin = some m → m ≤ y) ∧ (∀ m, lim.validMax = some m → y ≤ m) ∧ lim.fill ≠ some y

/-- Rules the theorem is about. -/
def Rule.Direct : Rule K → Prop
  | .values _ | .all | .max _ | .min _ => True
  | _ => False

/-! ## Lemmas -/

theorem binarySearch_iff (vs : List K) (hs : vs.Pairwise (· ≤ ·)) (y : K) : binarySearch vs (some y) = true ↔ y ∈ vs := by
  obtain ⟨h1, h2⟩ := Search.lowerBound_spec vs hs y
  unfold binarySearch
  dsimp only
  by_cases hlt : Search.lowerBound vs y < vs.length
  · rw [List.getElem?_eq_getElem hlt]
    simp only [Bool.not_eq_true', decide_eq_false_iff_not, not_lt]
    have h3 := (h2 _ hlt).1 (le_refl _)
    constructor
    · intro h
      rw [le_antisymm h3 h]
      exact List.getElem_mem hlt
    · intro h
      obtain ⟨i, hi, he⟩ := List.getElem_of_mem h
      have h4 := (h2 i hi).2 he.ge
      exact (Search.sorted_le hs hlt hi h4).trans he.le
  · rw [List.getElem?_eq_none (by omega)]
    simp only [Bool.false_eq_true, false_iff]
    intro h
    obtain ⟨i, hi, he⟩ := List.getElem_of_mem h
    have h4 := (h2 i hi).2 he.ge
    omega

theorem dropIf_get (p : K → Bool) (sd : List (Option K)) (i : ℕ) :
    (dropIf p sd)[i]? = sd[i]?.map fun x => match x with | some y => if p y then none else some y | none => none := by
  unfold dropIf
  rw [List.getElem?_map]

/-- Status values after the loops, one by one. -/
def drop1 (p : K → Bool) (x : Option K) : Option K := match x with | some y => if p y then none else some y | none => none

def dropW1 (l : Option K) (p : K → K → Bool) (x : Option K) : Option K := match l with | some m => drop1 (p m) x | none => x

theorem dropWith_eq (l : Option K) (p : K → K → Bool) (sd : List (Option K)) : dropWith l p sd = sd.map (dropW1 l p) := by
  cases l with
  | none =>
    have : dropW1 (none : Option K) p = id := rfl
    rw [this, List.map_id]
    rfl
  | some m => rfl

def clean1 (lim : Limits K) (x : Option K) : Option K :=
  dropW1 lim.fill (fun m y => y = m) (dropW1 lim.validMax (fun m y => y > m) (dropW1 lim.validMin (fun m y => y < m) x))

theorem clean_eq (lim : Limits K) (sd : List (Option K)) : clean lim sd = sd.map (clean1 lim) := by
  unfold clean
  rw [dropWith_eq, dropWith_eq, dropWith_eq, List.map_map, List.map_map]
  rfl

theorem drop1_some {p : K → Bool} {x : Option K} {y : K} : drop1 p x = some y ↔ x = some y ∧ p y = false := by
  unfold drop1
  cases x with
  | none => simp
  | some z =>
    dsimp only
    by_cases h : p z = true
    · rw [if_pos h]
      constructor
      · intro h; cases h
      · rintro ⟨h1, h2⟩; cases h1; rw [h] at h2; cases h2
    · rw [if_neg h]
      constructor
      · intro h1; cases h1; exact ⟨rfl, by simpa using h⟩
      · exact fun h1 => h1.1

theorem dropW1_some {l : Option K} {p : K → K → Bool} {x : Option K} {y : K} :
    dropW1 l p x = some y ↔ x = some y ∧ ∀ m, l = some m → p m y = false := by
  cases l with
  | none => simp [dropW1]
  | some m =>
    show drop1 (p m) x = some y ↔ _
    rw [drop1_some]
    simp

theorem clean1_some (lim : Limits K) (x : Option K) (y : K) : clean1 lim x = some y ↔
    x = some y ∧ (∀ m, lim.validMin = some m → m ≤ y) ∧ (∀ m, lim.validMax = some m → y ≤ m) ∧ lim.fill ≠ some y := by
  unfold clean1
  rw [dropW1_some, dropW1_some, dropW1_some]
  simp only [decide_eq_false_iff_not, not_lt, gt_iff_lt]
  constructor
  · rintro ⟨⟨⟨h1, h2⟩, h3⟩, h4⟩
    exact ⟨h1, h2, h3, fun h => h4 y h rfl⟩
  · rintro ⟨h1, h2, h3, h4⟩
    exact ⟨⟨⟨h1, h2⟩, h3⟩, fun m hm he => h4 (by rw [hm, he])⟩

/-- Status values after all steps for one value. -/
def final1 (r : Rule K) (lim : Limits K) (x : Option K) : Option K :=
  match r with
  | .values vs => if vs = [] then x else x.bind fun y => if y ∈ vs then some y else none
  | .max m => drop1 (fun y => y > m) (clean1 lim x)
  | .min m => drop1 (fun y => y < m) (clean1 lim x)
  | _ => clean1 lim x

theorem final1_none (r : Rule K) (hr : r.Direct) (lim : Limits K) (x : Option K) :
    final1 r lim x = none ↔ ¬ Allowed r lim x := by
  have key : (∃ y, final1 r lim x = some y) ↔ Allowed r lim x := by
    unfold Allowed
    refine exists_congr fun y => ?_
    cases r with
    | values vs =>
      unfold final1
      dsimp only
      by_cases hv : vs = []
      · rw [if_pos hv]; simp [hv]
      · rw [if_neg hv]
        cases x with
        | none => simp
        | some z =>
          simp only [Option.bind_some, hv, false_or]
          constructor
          · intro h
            by_cases hz : z ∈ vs
            · rw [if_pos hz] at h; cases h; exact ⟨rfl, hz⟩
            · rw [if_neg hz] at h; cases h
          · rintro ⟨h1, h2⟩
            cases h1
            rw [if_pos h2]
    | all => exact clean1_some lim x y
    | max m =>
      unfold final1
      dsimp only
      rw [drop1_some, clean1_some]
      simp only [decide_eq_false_iff_not, not_lt, gt_iff_lt]
      tauto
    | min m =>
      unfold final1
      dsimp only
      rw [drop1_some, clean1_some]
      simp only [decide_eq_false_iff_not, not_lt]
      tauto
    | highest => exact hr.elim
    | lowest => exact hr.elim
    | other => exact hr.elim
  rw [← key, not_exists]
  cases final1 r lim x <;> simp

theorem useValues_direct (fuel : ℕ) (r : Rule K) (hr : r.Direct) (lim : Limits K) (sd : List (Option K)) :
    ∃ sd' vs, useValues fuel r lim sd = some (.ok (sd', vs)) ∧ keepValues vs sd' = sd.map (final1 r lim) := by
  cases r with
  | values vs =>
    refine ⟨sd, vs.insertionSort (· ≤ ·), rfl, ?_⟩
    have hp := List.perm_insertionSort (· ≤ ·) vs
    have hs : (vs.insertionSort (· ≤ ·)).Pairwise (· ≤ ·) := List.pairwise_insertionSort _ vs
    unfold keepValues
    by_cases hv : vs = []
    · subst hv
      have : final1 (.values ([] : List K)) lim = id := by
        funext x; unfold final1; dsimp only; rw [if_pos rfl]; rfl
      rw [this, List.map_id]
      simp
    · have hlen : (vs.insertionSort (· ≤ ·)).length > 0 := by
        rw [hp.length_eq]; exact List.length_pos_of_ne_nil hv
      rw [if_pos hlen]
      apply List.map_congr_left
      intro x _
      unfold final1
      dsimp only
      rw [if_neg hv]
      cases x with
      | none => simp
      | some y =>
        have := binarySearch_iff _ hs y
        rw [hp.mem_iff] at this
        simp only [Option.bind_some]
        by_cases hy : y ∈ vs
        · rw [if_pos (this.2 hy), if_pos hy]
        · rw [if_neg (fun h => hy (this.1 h)), if_neg hy]
  | all => exact ⟨_, [], rfl, by simp [keepValues, clean_eq]; intros; rfl⟩
  | max m =>
    refine ⟨_, [], rfl, ?_⟩
    unfold keepValues
    rw [if_neg (by simp), clean_eq]
    unfold dropIf
    rw [List.map_map]
    rfl
  | min m =>
    refine ⟨_, [], rfl, ?_⟩
    unfold keepValues
    rw [if_neg (by simp), clean_eq]
    unfold dropIf
    rw [List.map_map]
    rfl
  | highest => exact hr.elim
  | lowest => exact hr.elim
  | other => exact hr.elim

theorem maskRow_spec (sd : List (Option K)) (fill : D) (iD : ℕ) (data : List D) (h : iD + sd.length ≤ data.length) :
    ∃ d, maskRow sd fill iD data = .ok d ∧ d.length = data.length ∧
      (∀ i, iD ≤ i → i < iD + sd.length → d[i]? = if sd[i - iD]? = some none then some fill else data[i]?) ∧
      (∀ i, ¬ (iD ≤ i ∧ i < iD + sd.length) → d[i]? = data[i]?) := by
  obtain ⟨d, h1, h2, h3, h4⟩ := forN_inv
    (body := fun i d => do
      let s ← readAt sd (i - iD)
      if s.isNone then writeAt d i fill else .ok d)
    (fun k (d : List D) => d.length = data.length ∧
      (∀ i, iD ≤ i → i < k → d[i]? = if sd[i - iD]? = some none then some fill else data[i]?) ∧
      (∀ i, ¬ (iD ≤ i ∧ i < k) → d[i]? = data[i]?)) sd.length iD data
    (by
      intro i s hi hlt ⟨g1, g2, g3⟩
      have hlt' : i - iD < sd.length := by omega
      have hr : readAt sd (i - iD) = .ok sd[i - iD] := by
        unfold readAt
        rw [List.getElem?_eq_getElem hlt']
      have hg : sd[i - iD]? = some sd[i - iD] := List.getElem?_eq_getElem hlt'
      rw [hr, Res.ok_bind]
      cases hx : sd[i - iD] with
      | none =>
        have : writeAt s i fill = .ok (s.set i fill) := writeAt_of fill (by omega)
        refine ⟨s.set i fill, by simpa using this, by simpa using g1, ?_, ?_⟩
        · intro j hj1 hj2
          by_cases hji : j = i
          · subst hji
            rw [List.getElem?_set_self (by omega), hg, hx, if_pos rfl]
          · rw [List.getElem?_set_ne (by omega)]
            exact g2 j hj1 (by omega)
        · intro j hj
          rw [List.getElem?_set_ne (by omega)]
          exact g3 j (by omega)
      | some y =>
        refine ⟨s, by simp, g1, ?_, ?_⟩
        · intro j hj1 hj2
          by_cases hji : j = i
          · subst hji
            rw [hg, hx, if_neg (by simp)]
            exact g3 j (by omega)
          · exact g2 j hj1 (by omega)
        · intro j hj
          exact g3 j (by omega))
    ⟨rfl, fun i h1 h2 => by omega, fun _ _ => rfl⟩
  exact ⟨d, h1, h2, h3, h4⟩

theorem maskRows_spec (sd : List (Option K)) (hs : 0 < sd.length) (fill : D) (n : ℕ) : ∀ (f k : ℕ) (data : List D),
    data.length = (k + n) * sd.length → n ≤ f →
    ∃ d, maskRows sd fill f (k * sd.length) data = .ok d ∧ d.length = data.length ∧
      (∀ i, k * sd.length ≤ i → i < data.length → d[i]? = if sd[i % sd.length]? = some none then some fill else data[i]?) ∧
      (∀ i, i < k * sd.length → d[i]? = data[i]?) := by
  induction n with
  | zero =>
    intro f k data hl hf
    have hnot : ¬ k * sd.length < data.length := by rw [hl]; simp
    refine ⟨data, ?_, rfl, fun i h1 h2 => by rw [Nat.add_zero] at hl; omega, fun _ _ => rfl⟩
    cases f with
    | zero => rfl
    | succ f => unfold maskRows; rw [if_neg hnot]
  | succ n ih =>
    intro f k data hl hf
    obtain ⟨f, rfl⟩ : ∃ g, f = g + 1 := ⟨f - 1, by omega⟩
    have hexp : data.length = k * sd.length + sd.length + n * sd.length := by rw [hl]; ring
    obtain ⟨d1, a1, a2, a3, a4⟩ := maskRow_spec sd fill (k * sd.length) data (by omega)
    obtain ⟨d2, b1, b2, b3, b4⟩ := ih f (k + 1) d1 (by rw [a2, hl]; ring) (by omega)
    have hk1 : (k + 1) * sd.length = k * sd.length + sd.length := by ring
    rw [hk1] at b1 b3 b4
    refine ⟨d2, ?_, by rw [b2, a2], ?_, ?_⟩
    · unfold maskRows
      rw [if_pos (by omega), a1, Res.ok_bind]
      exact b1
    · intro i hi1 hi2
      by_cases h : i < k * sd.length + sd.length
      · rw [b4 i h, a3 i hi1 h]
        have : i % sd.length = i - k * sd.length := by
          obtain ⟨j, rfl⟩ : ∃ j, i = k * sd.length + j := ⟨i - k * sd.length, by omega⟩
          rw [Nat.add_comm, Nat.add_mul_mod_self_right, Nat.mod_eq_of_lt (by omega)]
          omega
        rw [this]
      · rw [b3 i (by omega) (by omega), a4 i (by omega)]
    · intro i hi
      rw [b4 i (by omega), a4 i (by omega)]

/-! ## Theorems -/

open Classical in
/-- **C54.** If the size of the data is a multiple of the size of the status, each data value is replaced by the fill value
exactly if its status value is not allowed, the status repeated over outer layers; all others are unchanged.  For allowed
values, and for "all", "max:" and "min:" together with valid range and fill value of the status. -/
theorem C54_masked_exactly (fuel : ℕ) (r : Rule K) (hr : r.Direct) (lim : Limits K) (fill : D) (len : ℕ) (data : List D)
    (sd : List (Option K)) (k : ℕ) (hs : 0 < sd.length) (hk : 0 < k) (hk2 : k < 2 ^ 31) (hd : data.length = k * sd.length) :
    ∃ out, getDataSlice fuel r lim fill len data sd = some (.ok out) ∧ out.length = data.length ∧
      ∀ i (hi : i < data.length) (h' : i % sd.length < sd.length),
        out[i]? = some (if Allowed r lim sd[i % sd.length] then data[i] else fill) := by
  obtain ⟨sd', vs, u1, u2⟩ := useValues_direct fuel r hr lim sd
  have hlen : (sd.map (final1 r lim)).length = sd.length := by simp
  have hle : sd.length ≤ k * sd.length := Nat.le_mul_of_pos_left _ hk
  have hub : ¬ (sd.length = 0 ∨ data.length ≥ 2 ^ 31 * sd.length) := by
    have := Nat.mul_lt_mul_of_pos_right hk2 hs
    omega
  obtain ⟨out, m1, m2, m3, _⟩ := maskRows_spec (sd.map (final1 r lim)) (by omega) fill k data.length 0 data
    (by rw [hlen, hd, Nat.zero_add]) (by rw [hd]; exact Nat.le_mul_of_pos_right k hs)
  refine ⟨out, ?_, m2, ?_⟩
  · unfold getDataSlice
    rw [if_neg (by omega), if_neg hub, if_pos ⟨by rw [hd]; simp, by omega⟩, u1]
    simp only [Option.map_some, Res.ok_bind]
    rw [u2]
    rw [Nat.zero_mul] at m1
    rw [m1]
  · intro i hi h'
    rw [m3 i (by simp) hi, hlen]
    rw [List.getElem?_map, List.getElem?_eq_getElem h', List.getElem?_eq_getElem hi]
    simp only [Option.map_some, Option.some.injEq]
    by_cases hall : Allowed r lim sd[i % sd.length]
    · rw [if_pos hall, if_neg (fun h => (final1_none r hr lim _).1 h hall)]
    · rw [if_neg hall, if_pos ((final1_none r hr lim _).2 hall)]

example : getDataSlice 0 (.values [3, 1] : Rule ℚ) ⟨none, none, none⟩ (-1 : ℤ) 4 [10, 20, 30, 40] [some 1, some 2] =
    some (.ok [10, -1, 30, -1]) ∧
    getDataSlice 0 (.max 5 : Rule ℚ) ⟨some 0, none, some 3⟩ (-1 : ℤ) 4 [10, 20, 30, 40, 50] [some 1, some (-2), some 3, some 6, none] =
    some (.ok [10, -1, -1, -1, -1]) := by decide +kernel

/-- **C54.** Other sizes: nothing is masked if the sizes do not fit; a slice of fill values is returned if both are empty. -/
theorem C54_other_sizes (fuel : ℕ) (r : Rule K) (lim : Limits K) (fill : D) (len : ℕ) (data : List D) (sd : List (Option K)) :
    (0 < sd.length → data.length < 2 ^ 31 * sd.length → (data.length % sd.length ≠ 0 ∨ data.length < sd.length) →
      getDataSlice fuel r lim fill len data sd = some (.ok data)) ∧
    (data = [] → sd = [] → getDataSlice fuel r lim fill len data sd = some (.ok (List.replicate len fill))) := by
  constructor
  · intro h1 h2 h3
    unfold getDataSlice
    rw [if_neg (by omega), if_neg (by omega), if_neg (by omega)]
  · rintro rfl rfl
    rfl

/-- A status slice without values for data with values: the ratio is infinite and its conversion undefined. -/
theorem C54_empty_status_undefined (fuel : ℕ) (r : Rule K) (lim : Limits K) (fill : D) (len : ℕ) (data : List D)
    (h : data ≠ []) : getDataSlice fuel r lim fill len data [] = some .ub := by
  have : data.length ≠ 0 := by simpa using h
  unfold getDataSlice
  rw [if_neg (by omega), if_pos (by simp)]

theorem dropWhile_nil {l : List (Option K)} : l.dropWhile (·.isSome) = [] ↔ ∀ x ∈ l, x.isSome = true := by
  induction l with
  | nil => simp
  | cons a l ih =>
    cases a with
    | none => simp
    | some y => simp [ih]

theorem extremeLoop_diverges (minmax : K → K → K) (x : Option K) (rest : List (Option K)) (fuel : ℕ) : ∀ e,
    extremeLoop minmax fuel (x :: rest) e = none := by
  induction fuel with
  | zero => intro e; rfl
  | succ f ih => intro e; exact ih _

/-- The search for the highest or lowest status value never ends if any status value is undefined; else it finds none. -/
theorem C54_extreme_never_found (minmax : K → K → K) (sd : List (Option K)) :
    ((∃ x ∈ sd, x = none) → ∀ fuel, findDefinedExtreme minmax fuel sd = none) ∧
    ((∀ x ∈ sd, x ≠ none) → ∀ fuel, findDefinedExtreme minmax fuel sd = some none) := by
  constructor
  · rintro ⟨x, hx, rfl⟩ fuel
    unfold findDefinedExtreme
    cases h : sd.dropWhile (·.isSome) with
    | nil =>
      have := dropWhile_nil.1 h none hx
      cases this
    | cons y ys => exact extremeLoop_diverges minmax y ys fuel y
  · intro h fuel
    unfold findDefinedExtreme
    have : sd.dropWhile (·.isSome) = [] := by
      rw [dropWhile_nil]
      intro x hx
      exact Option.isSome_iff_ne_none.2 (h x hx)
    rw [this]

/-- So "highest" masks nothing although one status value is lower, and does not end with an undefined one. -/
theorem C54_highest_fails :
    getDataSlice 9 (.highest : Rule ℚ) ⟨none, none, none⟩ (-1 : ℤ) 2 [10, 20] [some 1, some 2] = some (.ok [10, 20]) ∧
    (∀ fuel, getDataSlice fuel (.highest : Rule ℚ) ⟨none, none, none⟩ (-1 : ℤ) 2 [10, 20] [some 1, none] = none) := by
  constructor
  · decide +kernel
  · intro fuel
    unfold getDataSlice
    rw [if_neg (by decide), if_neg (by decide), if_pos (by decide)]
    have h := (C54_extreme_never_found Max.max [some (1 : ℚ), none]).1 ⟨none, by simp, rfl⟩ fuel
    show Option.map _ ((findDefinedExtreme Max.max fuel [some (1 : ℚ), none]).map _) = none
    rw [h]
    rfl

/-- The automatic configuration with "highest" or "lowest" writes outside an empty vector. -/
theorem C54_auto_configuration_undefined (attr : List K) (h : attr ≠ []) :
    getValidValues .highest attr = .ub ∧ getValidValues .lowest attr = .ub := by
  have : attr.length > 0 := List.length_pos_of_ne_nil h
  have h1 : readAt attr (attr.length - 1) = .ok attr[attr.length - 1] := by
    unfold readAt; rw [List.getElem?_eq_getElem (by omega)]
  have h2 : readAt attr 0 = .ok attr[0] := by
    unfold readAt; rw [List.getElem?_eq_getElem this]
  unfold getValidValues
  dsimp only
  rw [if_pos this, if_pos this, h1, h2]
  exact ⟨rfl, rfl⟩

end Fimex.Quality
