import Verif.Basic
import Mathlib.Data.List.Nodup
import Mathlib.Data.List.Perm.Subperm
import Mathlib.Data.List.Range

/-!
# Fresh names

Model of `findUniqueDimVarName`, `findUniqueVarName` and `findUniqueDimName`, `src/CDMReaderUtils.cc:163-193`, with C45.
The CDM is the lists of its variable and dimension names.  `type2string` of a non-negative number is its decimal
notation (`toString`).  The counter of the second and third function is an `int`; it is a natural number here (it
overflows only when a dataset has 2^31 names).
-/

namespace Fimex.Names

/-! ## Model -/

/-- `cdm.hasVariable(n) || cdm.hasDimension(n)` -/
def taken (vars dims : List String) (n : String) : Bool := vars.contains n || dims.contains n

/-- src/CDMReaderUtils.cc:168-172: the loop from `i` on, `n` iterations left. -/
def numbered (vars dims : List String) (base : String) : ℕ → ℕ → Res String
  | 0, _ => .throws
  | n + 1, i =>
    let name := base ++ toString i
    if taken vars dims name = false then .ok name else numbered vars dims base n (i + 1)

/-- src/CDMReaderUtils.cc:163-174 `findUniqueDimVarName`. -/
def findUniqueDimVarName (vars dims : List String) (base : String) : Res String :=
  if taken vars dims base = false then .ok base else numbered vars dims base 99 0

/-- src/CDMReaderUtils.cc:178-181: the loop with the present candidate and the counter; `fuel` iterations at most. -/
def uniqueLoop (names : List String) (name : String) : ℕ → String → ℕ → Option String
  | 0, _, _ => none
  | fuel + 1, candidate, i =>
    if names.contains candidate = true then uniqueLoop names name fuel (name ++ toString (i + 1)) (i + 1)
    else some candidate

/-- src/CDMReaderUtils.cc:176-183 `findUniqueVarName` (`names`: the variables) and 185-193 `findUniqueDimName` (`names`:
the dimensions). -/
def findUniqueName (names : List String) (name : String) (fuel : ℕ) : Option String :=
  uniqueLoop names name fuel name 0

/-! ## Theorems -/

theorem taken_iff (vars dims : List String) (n : String) : taken vars dims n = true ↔ n ∈ vars ∨ n ∈ dims := by
  simp [taken]

theorem toString_inj {a b : ℕ} (h : toString a = toString b) : a = b := by
  have h' : (Nat.repr a).toList = (Nat.repr b).toList := congrArg String.toList h
  rw [Nat.toList_repr, Nat.toList_repr] at h'
  have := congrArg (fun l => Nat.ofDigitChars 10 l 0) h'
  simpa [Nat.ofDigitChars_ten_toDigits] using this

theorem candidate_inj (name : String) {a b : ℕ} (h : name ++ toString a = name ++ toString b) : a = b := by
  have h' := congrArg String.toList h
  rw [String.toList_append, String.toList_append, List.append_cancel_left_eq] at h'
  exact toString_inj (String.toList_inj.1 h')

theorem numbered_spec (vars dims : List String) (base : String) : ∀ (n i : ℕ),
    (∃ k, k < n ∧ numbered vars dims base n i = .ok (base ++ toString (i + k)) ∧
      (base ++ toString (i + k)) ∉ vars ∧ (base ++ toString (i + k)) ∉ dims ∧
      ∀ j, j < k → taken vars dims (base ++ toString (i + j)) = true) ∨
    (numbered vars dims base n i = .throws ∧ ∀ j, j < n → taken vars dims (base ++ toString (i + j)) = true) := by
  intro n
  induction n with
  | zero => intro i; right; exact ⟨rfl, fun j h => absurd h (by omega)⟩
  | succ n ih =>
    intro i
    unfold numbered
    dsimp only
    cases ht : taken vars dims (base ++ toString i) with
    | false =>
      left
      have : ¬ ((base ++ toString i) ∈ vars ∨ (base ++ toString i) ∈ dims) := by
        rw [← taken_iff, ht]; simp
      refine ⟨0, by omega, ?_, fun h => this (Or.inl h), fun h => this (Or.inr h), fun j h => absurd h (by omega)⟩
      rw [if_pos rfl]; rfl
    | true =>
      rw [if_neg (by simp)]
      have hall : ∀ m, (∀ j, j < m → taken vars dims (base ++ toString (i + 1 + j)) = true) →
          ∀ j, j < m + 1 → taken vars dims (base ++ toString (i + j)) = true := by
        intro m h j hj
        cases j with
        | zero => exact ht
        | succ j => rw [show i + (j + 1) = i + 1 + j by omega]; exact h j (by omega)
      rcases ih (i + 1) with ⟨k, hk, e, h1, h2, h3⟩ | ⟨e, h3⟩
      · left
        rw [show i + 1 + k = i + (k + 1) by omega] at e h1 h2
        exact ⟨k + 1, by omega, e, h1, h2, hall k h3⟩
      · right
        exact ⟨e, hall n h3⟩

/-- **C45.** A name returned is neither a variable nor a dimension of the dataset, it is the wanted one if that is free
and otherwise the wanted one with the smallest number that makes it free; the call raises only if the wanted name and
its numbers 0 to 98 are all taken. -/
theorem C45_fresh_dim_var_name (vars dims : List String) (base : String) :
    (∀ n, findUniqueDimVarName vars dims base = .ok n →
      n ∉ vars ∧ n ∉ dims ∧
      (n = base ∨ ((base ∈ vars ∨ base ∈ dims) ∧ ∃ k, k < 99 ∧ n = base ++ toString k ∧
        ∀ j, j < k → base ++ toString j ∈ vars ∨ base ++ toString j ∈ dims))) ∧
    (findUniqueDimVarName vars dims base = .throws ↔
      (base ∈ vars ∨ base ∈ dims) ∧ ∀ j, j < 99 → base ++ toString j ∈ vars ∨ base ++ toString j ∈ dims) ∧
    findUniqueDimVarName vars dims base ≠ .ub := by
  unfold findUniqueDimVarName
  cases ht : taken vars dims base with
  | false =>
    rw [if_pos rfl]
    have hno : ¬ (base ∈ vars ∨ base ∈ dims) := by rw [← taken_iff, ht]; simp
    refine ⟨?_, ?_, by simp⟩
    · intro n h
      cases h
      exact ⟨fun h => hno (Or.inl h), fun h => hno (Or.inr h), Or.inl rfl⟩
    · constructor
      · intro h; cases h
      · rintro ⟨h, _⟩; exact absurd h hno
  | true =>
    rw [if_neg (by simp)]
    have hb := (taken_iff vars dims base).1 ht
    rcases numbered_spec vars dims base 99 0 with ⟨k, hk, e, h1, h2, h3⟩ | ⟨e, h3⟩
    · simp only [Nat.zero_add] at e h1 h2 h3
      rw [e]
      refine ⟨?_, ?_, by simp⟩
      · intro n h
        cases h
        exact ⟨h1, h2, Or.inr ⟨hb, k, hk, rfl, fun j hj => (taken_iff _ _ _).1 (h3 j hj)⟩⟩
      · constructor
        · intro h; cases h
        · rintro ⟨_, h⟩
          rcases h k hk with h | h
          · exact absurd h h1
          · exact absurd h h2
    · simp only [Nat.zero_add] at h3
      rw [e]
      refine ⟨fun n h => (by cases h), ?_, by simp⟩
      exact ⟨fun _ => ⟨hb, fun j hj => (taken_iff _ _ _).1 (h3 j hj)⟩, fun _ => rfl⟩

example : findUniqueDimVarName ["x", "x0"] ["x1"] "x" = .ok "x2" ∧ findUniqueDimVarName ["y"] [] "x" = .ok "x" := by
  decide

theorem uniqueLoop_spec (names : List String) (name : String) : ∀ (fuel i : ℕ) (candidate : String),
    (candidate = name ∧ i = 0 ∨ candidate = name ++ toString i) →
    (∀ r, uniqueLoop names name fuel candidate i = some r → r ∉ names ∧
      (r = candidate ∨ candidate ∈ names ∧ ∃ k, i < k ∧ r = name ++ toString k ∧
        ∀ j, i < j → j < k → name ++ toString j ∈ names)) ∧
    (uniqueLoop names name fuel candidate i = none →
      ∀ j, i < j → j < i + fuel → name ++ toString j ∈ names) := by
  intro fuel
  induction fuel with
  | zero => intro i c _; exact ⟨fun r h => by simp [uniqueLoop] at h, fun _ j h1 h2 => by omega⟩
  | succ fuel ih =>
    intro i c hc
    unfold uniqueLoop
    by_cases hm : names.contains c = true
    · rw [if_pos hm]
      have hm' : c ∈ names := by simpa using hm
      obtain ⟨h1, h2⟩ := ih (i + 1) (name ++ toString (i + 1)) (Or.inr rfl)
      refine ⟨?_, ?_⟩
      · intro r hr
        obtain ⟨a, b⟩ := h1 r hr
        refine ⟨a, Or.inr ⟨hm', ?_⟩⟩
        rcases b with rfl | ⟨hin, k, hk, rfl, hj⟩
        · exact ⟨i + 1, by omega, rfl, fun j _ _ => by omega⟩
        · refine ⟨k, by omega, rfl, fun j h1 h2 => ?_⟩
          by_cases he : j = i + 1
          · rw [he]; exact hin
          · exact hj j (by omega) h2
      · intro hn j hj1 hj2
        by_cases he : j = i + 1
        · cases fuel with
          | zero => omega
          | succ fuel =>
            unfold uniqueLoop at hn
            by_cases hm2 : names.contains (name ++ toString (i + 1)) = true
            · rw [he]; simpa using hm2
            · rw [if_neg hm2] at hn; simp at hn
        · exact h2 hn j (by omega) (by omega)
    · rw [if_neg hm]
      refine ⟨?_, fun h => by simp at h⟩
      intro r hr
      simp only [Option.some.injEq] at hr
      subst hr
      exact ⟨by simpa using hm, Or.inl rfl⟩

/-- **C45.** For every dataset the search ends, and its result is not in use: the wanted name if that is free, otherwise
the wanted name with the smallest positive number that makes it free. -/
theorem C45_fresh_name (names : List String) (name : String) (fuel : ℕ) (hf : names.length + 1 < fuel) :
    ∃ r, findUniqueName names name fuel = some r ∧ r ∉ names ∧
      (r = name ∨ name ∈ names ∧ ∃ k, 0 < k ∧ r = name ++ toString k ∧
        ∀ j, 0 < j → j < k → name ++ toString j ∈ names) := by
  obtain ⟨h1, h2⟩ := uniqueLoop_spec names name fuel 0 name (Or.inl ⟨rfl, rfl⟩)
  cases h : uniqueLoop names name fuel name 0 with
  | some r => exact ⟨r, h, h1 r h⟩
  | none =>
    exfalso
    have hall := h2 h
    have hsub : (List.range (names.length + 1)).map (fun j => name ++ toString (j + 1)) ⊆ names := by
      intro x hx
      obtain ⟨j, hj, rfl⟩ := List.mem_map.1 hx
      rw [List.mem_range] at hj
      exact hall (j + 1) (by omega) (by omega)
    have hnd : ((List.range (names.length + 1)).map (fun j => name ++ toString (j + 1))).Nodup :=
      List.Nodup.map_on (fun a _ b _ hab => by have := candidate_inj name hab; omega) List.nodup_range
    have := (List.subperm_of_subset hnd hsub).length_le
    simp at this
    omega

example : findUniqueName ["x", "x1", "x3"] "x" 5 = some "x2" := by decide

/-- Both functions number from different starts: a name taken once gets the number 0 from the first one and 1 from the
others. -/
theorem C45_numbering_differs : findUniqueDimVarName ["x"] [] "x" = .ok "x0" ∧ findUniqueName ["x"] "x" 3 = some "x1" := by
  decide

end Fimex.Names
