import Verif.Basic
import Mathlib.Tactic.Cases

/-!
# Names of interpolation methods

Model of `mifi_string_to_interpolation_method`, `src/interpolation.c:62-108`, with C57.
-/

namespace Fimex.Tables

/-! ## Model -/

/-- include/fimex/mifi_constants.h:55-147. -/
inductive Method where
  | unknown | nearestNeighbor | bilinear | bicubic | coordNN | coordNNKD
  | forwardSum | forwardMean | forwardMedian | forwardMax | forwardMin
  | forwardUndefSum | forwardUndefMean | forwardUndefMedian | forwardUndefMax | forwardUndefMin
deriving DecidableEq

/-- src/interpolation.c:62-70 `mifi_string_equal`: same length and same first characters (texts without zero characters). -/
def stringEqual (a b : List Char) : Bool := a.length = b.length ∧ (a.take a.length) = (b.take a.length)

/-- src/interpolation.c:72-108 `mifi_string_to_interpolation_method`. -/
def stringToMethod (s : List Char) : Method :=
  if stringEqual "bilinear".toList s then .bilinear
  else if stringEqual "nearestneighbor".toList s then .nearestNeighbor
  else if stringEqual "bicubic".toList s then .bicubic
  else if stringEqual "coord_nearestneighbor".toList s then .coordNN
  else if stringEqual "coord_kdtree".toList s then .coordNNKD
  else if stringEqual "forward_sum".toList s then .forwardSum
  else if stringEqual "forward_mean".toList s then .forwardMean
  else if stringEqual "forward_median".toList s then .forwardMedian
  else if stringEqual "forward_max".toList s then .forwardMax
  else if stringEqual "forward_min".toList s then .forwardMin
  else if stringEqual "forward_undef_sum".toList s then .forwardUndefSum
  else if stringEqual "forward_undef_mean".toList s then .forwardUndefMean
  else if stringEqual "forward_undef_median".toList s then .forwardUndefMedian
  else if stringEqual "forward_undef_max".toList s then .forwardUndefMax
  else if stringEqual "forward_undef_min".toList s then .forwardMin
  else .unknown

/-! ## Specification -/

/-- The name of each method. -/
def methodName : Method → List Char
  | .unknown => []
  | .nearestNeighbor => "nearestneighbor".toList
  | .bilinear => "bilinear".toList
  | .bicubic => "bicubic".toList
  | .coordNN => "coord_nearestneighbor".toList
  | .coordNNKD => "coord_kdtree".toList
  | .forwardSum => "forward_sum".toList
  | .forwardMean => "forward_mean".toList
  | .forwardMedian => "forward_median".toList
  | .forwardMax => "forward_max".toList
  | .forwardMin => "forward_min".toList
  | .forwardUndefSum => "forward_undef_sum".toList
  | .forwardUndefMean => "forward_undef_mean".toList
  | .forwardUndefMedian => "forward_undef_median".toList
  | .forwardUndefMax => "forward_undef_max".toList
  | .forwardUndefMin => "forward_undef_min".toList

/-! ## Theorems -/

theorem ite_cases' {α : Type} {p : Prop} [Decidable p] {a b x : α} (h : (if p then a else b) = x) :
    (p ∧ a = x) ∨ (¬ p ∧ b = x) := by
  by_cases hp : p
  · rw [if_pos hp] at h; exact Or.inl ⟨hp, h⟩
  · rw [if_neg hp] at h; exact Or.inr ⟨hp, h⟩

theorem stringEqual_iff (a b : List Char) : stringEqual a b = true ↔ b = a := by
  unfold stringEqual
  simp only [List.take_length, decide_eq_true_eq]
  constructor
  · rintro ⟨h1, h2⟩
    rw [h1, List.take_length] at h2
    exact h2.symm
  · rintro rfl
    simp

/-- **C57.** Every method but one is selected by its own name.  Missing for the full statement: `forward_undef_min`, for
which it is false (see below). -/
theorem C57_method_names_partial (m : Method) (hm : m ≠ .forwardUndefMin) : stringToMethod (methodName m) = m := by
  cases m <;> first | exact absurd rfl hm | decide

/-- **C57.** A text is refused exactly if it is not the name of a method. -/
theorem C57_unknown_names (s : List Char) :
    stringToMethod s = .unknown ↔ ∀ m, m ≠ .unknown → s ≠ methodName m := by
  unfold stringToMethod
  simp only [stringEqual_iff]
  constructor
  · intro h m hm hs
    subst hs
    cases m <;> first | exact absurd rfl hm | revert h; decide
  · intro h
    rw [if_neg (show s ≠ "bilinear".toList from h .bilinear (by decide))]
    rw [if_neg (show s ≠ "nearestneighbor".toList from h .nearestNeighbor (by decide))]
    rw [if_neg (show s ≠ "bicubic".toList from h .bicubic (by decide))]
    rw [if_neg (show s ≠ "coord_nearestneighbor".toList from h .coordNN (by decide))]
    rw [if_neg (show s ≠ "coord_kdtree".toList from h .coordNNKD (by decide))]
    rw [if_neg (show s ≠ "forward_sum".toList from h .forwardSum (by decide))]
    rw [if_neg (show s ≠ "forward_mean".toList from h .forwardMean (by decide))]
    rw [if_neg (show s ≠ "forward_median".toList from h .forwardMedian (by decide))]
    rw [if_neg (show s ≠ "forward_max".toList from h .forwardMax (by decide))]
    rw [if_neg (show s ≠ "forward_min".toList from h .forwardMin (by decide))]
    rw [if_neg (show s ≠ "forward_undef_sum".toList from h .forwardUndefSum (by decide))]
    rw [if_neg (show s ≠ "forward_undef_mean".toList from h .forwardUndefMean (by decide))]
    rw [if_neg (show s ≠ "forward_undef_median".toList from h .forwardUndefMedian (by decide))]
    rw [if_neg (show s ≠ "forward_undef_max".toList from h .forwardUndefMax (by decide))]
    rw [if_neg (show s ≠ "forward_undef_min".toList from h .forwardUndefMin (by decide))]

example : stringToMethod "bicubi".toList = .unknown ∧ stringToMethod "bicubic ".toList = .unknown := by decide

/-- The method for the minimum with undefined values cannot be selected by any text: its name selects the other one. -/
theorem C57_undef_min_unreachable :
    stringToMethod "forward_undef_min".toList = .forwardMin ∧ ∀ s, stringToMethod s ≠ .forwardUndefMin := by
  constructor
  · decide
  · intro s h
    unfold stringToMethod at h
    iterate 15
      rcases ite_cases' h with ⟨_, h⟩ | ⟨_, h⟩
      · cases h
    cases h

end Fimex.Tables
