import Verif.Basic
import Mathlib.Data.List.Basic
import Mathlib.Data.List.Forall2
import Mathlib.Tactic.ByContra
import Mathlib.Tactic.Tauto

/-!
# Comparing shapes

Model of `compareCDMVarShapes`, `src/CDMReaderUtils.cc:121-161`, with C44, and of the shape comparison at the end of
`is_compatible`, `src/CDMMergeUtils.cc:197-236`, with C66.  A shape is the list of its dimension lengths (in the first
function looked up in `getCDMDimensionSizes`).
-/

namespace Fimex.Shapes

/-! ## Model -/

/-- src/CDMReaderUtils.cc:137-139 and 152-154: `while (s2 != end && size == 1) s2++`. -/
def skipOnes : List ℕ → List ℕ
  | [] => []
  | n :: s => if n = 1 then skipOnes s else n :: s

/-- src/CDMReaderUtils.cc:130-160, the loop over the first shape. -/
def compareShapes : List ℕ → List ℕ → Bool
  | [], s2 => (skipOnes s2).isEmpty
  | n :: s1, s2 =>
    if n = 1 then compareShapes s1 s2
    else
      match skipOnes s2 with
      | [] => false
      | m :: s2' => if n ≠ m then false else compareShapes s1 s2'

/-! ## Specification and theorems -/

theorem skipOnes_filter (s : List ℕ) : (skipOnes s).filter (· ≠ 1) = s.filter (· ≠ 1) := by
  induction s with
  | nil => rfl
  | cons n s ih =>
    unfold skipOnes
    by_cases h : n = 1
    · rw [if_pos h, ih, h]; simp
    · rw [if_neg h]

theorem skipOnes_cases (s : List ℕ) : skipOnes s = [] ∧ s.filter (· ≠ 1) = [] ∨
    ∃ m s', skipOnes s = m :: s' ∧ s.filter (· ≠ 1) = m :: s'.filter (· ≠ 1) := by
  have hf := skipOnes_filter s
  cases hk : skipOnes s with
  | nil => rw [hk] at hf; left; exact ⟨rfl, by simpa using hf.symm⟩
  | cons m s' =>
    right
    refine ⟨m, s', rfl, ?_⟩
    have hm : m ≠ 1 := by
      have : ∀ s : List ℕ, ∀ m s', skipOnes s = m :: s' → m ≠ 1 := by
        intro s
        induction s with
        | nil => intro m s' h; simp [skipOnes] at h
        | cons n s ih =>
          intro m s' h
          unfold skipOnes at h
          by_cases hn : n = 1
          · rw [if_pos hn] at h; exact ih m s' h
          · rw [if_neg hn] at h
            simp only [List.cons.injEq] at h
            exact h.1 ▸ hn
      exact this s m s' hk
    rw [← hf, hk, List.filter_cons_of_pos (by simpa using hm)]

/-- **C44.** Two shapes compare equal exactly when they are equal after removing all dimensions of length one. -/
theorem C44_shapes_equal_up_to_ones (s1 s2 : List ℕ) :
    compareShapes s1 s2 = true ↔ s1.filter (· ≠ 1) = s2.filter (· ≠ 1) := by
  induction s1 generalizing s2 with
  | nil =>
    unfold compareShapes
    rcases skipOnes_cases s2 with ⟨h1, h2⟩ | ⟨m, s', h1, h2⟩
    · rw [h1, h2]; simp
    · rw [h1, h2]; simp
  | cons n s1 ih =>
    unfold compareShapes
    by_cases hn : n = 1
    · rw [if_pos hn, ih, List.filter_cons_of_neg (by simpa using hn)]
    · rw [if_neg hn, List.filter_cons_of_pos (by simpa using hn)]
      rcases skipOnes_cases s2 with ⟨h1, h2⟩ | ⟨m, s', h1, h2⟩
      · rw [h1, h2]; simp
      · rw [h1, h2]
        dsimp only
        by_cases hm : n ≠ m
        · rw [if_pos hm]
          simp [hm]
        · rw [if_neg hm, ih]
          simp only [ne_eq, not_not] at hm
          rw [hm, List.cons.injEq]
          simp

example : compareShapes [1, 4, 1, 3] [4, 3, 1] = true ∧ compareShapes [4, 3] [3, 4] = false ∧
    compareShapes [4, 3] [4, 3, 2] = false := by decide

/-! ## Compatibility of the shapes of two variables to be merged -/

/-- What the comparison looks at for one dimension. -/
structure Dim where
  length : ℕ
  geoX : Bool
  geoY : Bool
deriving DecidableEq

/-- src/CDMMergeUtils.cc:199-208: hopping over dimensions of length one. -/
def hop : List Dim → List Dim
  | [] => []
  | d :: s => if d.length = 1 then hop s else d :: s

/-- src/CDMMergeUtils.cc:198-234: the loop with both shapes from the current positions on (fuel: `shapeB.size()`); the
loop condition ends it as soon as one of the shapes is at its end. -/
def compatibleLoop : ℕ → List Dim → List Dim → Bool
  | _, [], _ => true
  | _, _ :: _, [] => true
  | 0, _ :: _, _ :: _ => true
  | fuel + 1, b :: sB, t :: sT =>
    match hop (b :: sB), hop (t :: sT) with
    | [], [] => true
    | [], _ :: _ => false
    | _ :: _, [] => false
    | b' :: sB', t' :: sT' =>
      if b'.geoX ≠ t'.geoX ∨ b'.geoY ≠ t'.geoY then false
      else if (b'.geoX || b'.geoY) = false ∧ b'.length ≠ t'.length then false
      else compatibleLoop fuel sB' sT'

/-- src/CDMMergeUtils.cc:195-236, for shapes with different dimension names. -/
def compatible (sB sT : List Dim) : Bool := compatibleLoop sB.length sB sT

/-- Two dimensions can be merged: both the x axis, or both the y axis, or neither and of equal length. -/
def Matches (b t : Dim) : Prop := b.geoX = t.geoX ∧ b.geoY = t.geoY ∧ (b.geoX = true ∨ b.geoY = true ∨ b.length = t.length)

/-- The dimensions of length other than one. -/
def long (s : List Dim) : List Dim := s.filter fun d => d.length ≠ 1

theorem hop_cases (s : List Dim) : hop s = [] ∧ long s = [] ∨
    ∃ d s', hop s = d :: s' ∧ long s = d :: long s' ∧ s'.length < s.length := by
  induction s with
  | nil => left; exact ⟨rfl, rfl⟩
  | cons d s ih =>
    unfold hop long
    by_cases h : d.length = 1
    · rw [if_pos h, List.filter_cons_of_neg (by simpa using h)]
      rcases ih with h1 | ⟨d', s', h1, h2, h3⟩
      · left; exact h1
      · right; exact ⟨d', s', h1, h2, by simp; omega⟩
    · rw [if_neg h, List.filter_cons_of_pos (by simpa using h)]
      right; exact ⟨d, s, rfl, rfl, by simp⟩

theorem compatibleLoop_sound : ∀ (fuel : ℕ) (sB sT : List Dim), sB.length ≤ fuel → compatibleLoop fuel sB sT = true →
    ∃ n, List.Forall₂ Matches ((long sB).take n) ((long sT).take n) ∧
      ((long sB).length ≤ n ∨ (long sT).length ≤ n) := by
  intro fuel
  induction fuel with
  | zero =>
    intro sB sT hf _
    have : sB = [] := List.length_eq_zero_iff.1 (by omega)
    subst this
    exact ⟨0, by simp, by simp [long]⟩
  | succ fuel ih =>
    intro sB sT hf h
    cases sB with
    | nil => exact ⟨0, by simp, by simp [long]⟩
    | cons b sB =>
      cases sT with
      | nil => exact ⟨0, by simp, by simp [long]⟩
      | cons t sT =>
        unfold compatibleLoop at h
        rcases hop_cases (b :: sB) with ⟨h1, h2⟩ | ⟨b', sB', h1, h2, h3⟩
        · rcases hop_cases (t :: sT) with ⟨g1, g2⟩ | ⟨t', sT', g1, g2, g3⟩
          · exact ⟨0, by simp, by simp [h2]⟩
          · rw [h1, g1] at h; simp at h
        · rcases hop_cases (t :: sT) with ⟨g1, g2⟩ | ⟨t', sT', g1, g2, g3⟩
          · rw [h1, g1] at h; simp at h
          · rw [h1, g1] at h
            dsimp only at h
            by_cases c1 : b'.geoX ≠ t'.geoX ∨ b'.geoY ≠ t'.geoY
            · rw [if_pos c1] at h; simp at h
            · rw [if_neg c1] at h
              by_cases c2 : (b'.geoX || b'.geoY) = false ∧ b'.length ≠ t'.length
              · rw [if_pos c2] at h; simp at h
              · rw [if_neg c2] at h
                obtain ⟨n, f, l⟩ := ih sB' sT' (by simp at hf h3; omega) h
                refine ⟨n + 1, ?_, ?_⟩
                · rw [h2, g2, List.take_succ_cons, List.take_succ_cons]
                  refine List.Forall₂.cons ?_ f
                  have hx : b'.geoX = t'.geoX := by by_contra hc; exact c1 (Or.inl hc)
                  have hy : b'.geoY = t'.geoY := by by_contra hc; exact c1 (Or.inr hc)
                  refine ⟨hx, hy, ?_⟩
                  by_cases hl : b'.length = t'.length
                  · exact Or.inr (Or.inr hl)
                  · by_contra hc
                    apply c2
                    refine ⟨?_, hl⟩
                    cases hX : b'.geoX with
                    | true => exact absurd (Or.inl hX) hc
                    | false =>
                      cases hY : b'.geoY with
                      | true => exact absurd (Or.inr (Or.inl hY)) hc
                      | false => rfl
                · rw [h2, g2]; simp only [List.length_cons]; omega

theorem compatibleLoop_complete : ∀ (fuel : ℕ) (sB sT : List Dim),
    List.Forall₂ Matches (long sB) (long sT) → compatibleLoop fuel sB sT = true := by
  intro fuel
  induction fuel with
  | zero => intro sB sT _; cases sB <;> cases sT <;> rfl
  | succ fuel ih =>
    intro sB sT hf
    cases sB with
    | nil => rfl
    | cons b sB =>
      cases sT with
      | nil => rfl
      | cons t sT =>
        unfold compatibleLoop
        rcases hop_cases (b :: sB) with ⟨h1, h2⟩ | ⟨b', sB', h1, h2, h3⟩
        · rcases hop_cases (t :: sT) with ⟨g1, g2⟩ | ⟨t', sT', g1, g2, g3⟩
          · rw [h1, g1]
          · rw [h2, g2] at hf; cases hf
        · rcases hop_cases (t :: sT) with ⟨g1, g2⟩ | ⟨t', sT', g1, g2, g3⟩
          · rw [h2, g2] at hf; cases hf
          · rw [h1, g1]
            dsimp only
            rw [h2, g2] at hf
            cases hf with
            | cons hm hf =>
              obtain ⟨hx, hy, hz⟩ := hm
              rw [if_neg (by rintro (h | h); exacts [h hx, h hy]), if_neg ?_]
              · exact ih sB' sT' hf
              · rintro ⟨h1, h2⟩
                rw [Bool.or_eq_false_iff] at h1
                rcases hz with h | h | h
                · rw [h1.1] at h; cases h
                · rw [h1.2] at h; cases h
                · exact h2 h

/-- **C66.** Shapes whose dimensions of length other than one match one by one are always accepted; accepted shapes match
in all of these dimensions up to the end of the shorter list.  Missing: that no dimension is left over. -/
theorem C66_compatible_shapes_partial (sB sT : List Dim) :
    (List.Forall₂ Matches (long sB) (long sT) → compatible sB sT = true) ∧
    (compatible sB sT = true → ∃ n, List.Forall₂ Matches ((long sB).take n) ((long sT).take n) ∧
      ((long sB).length ≤ n ∨ (long sT).length ≤ n)) :=
  ⟨compatibleLoop_complete _ _ _, compatibleLoop_sound _ _ _ (Nat.le_refl _)⟩

example : compatible [⟨10, true, false⟩, ⟨1, false, false⟩, ⟨8, false, true⟩] [⟨5, true, false⟩, ⟨4, false, true⟩] = true ∧
    compatible [⟨10, true, false⟩, ⟨3, false, false⟩] [⟨5, true, false⟩, ⟨4, false, false⟩] = false := by decide

/-- A dimension left over at the end of one shape is not noticed: a variable on five levels counts as compatible with
one without levels, because the loop ends with the shorter shape. -/
theorem C66_left_over_dimension_accepted :
    compatible [⟨10, true, false⟩, ⟨8, false, true⟩] [⟨10, true, false⟩, ⟨8, false, true⟩, ⟨5, false, false⟩] = true ∧
    ¬ List.Forall₂ Matches (long [⟨10, true, false⟩, ⟨8, false, true⟩])
      (long [⟨10, true, false⟩, ⟨8, false, true⟩, ⟨5, false, false⟩]) := by
  refine ⟨by decide, fun h => ?_⟩
  have := h.length_eq
  simp [long] at this

end Fimex.Shapes
