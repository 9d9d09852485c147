import Verif.Basic
import Mathlib.Data.Prod.Lex
import Mathlib.Algebra.Order.Field.Basic
import Mathlib.Algebra.Order.Group.Abs
import Mathlib.Algebra.Order.Ring.Rat
import Mathlib.Algebra.Field.Rat
import Mathlib.Tactic.Linarith
import Mathlib.Tactic.Ring
import Mathlib.Tactic.Tauto

/-!
# Order of grid definitions

Model of `GridDefinition::operator<`, `src/GridDefinition.cc:104-158`, with C47.  Exact arithmetic, no NaN; the texts of
the projections are elements of a linear order.
-/

namespace Fimex.GridDef

/-! ## Model -/

/-- The members compared. -/
structure Grid (P K : Type) where
  proj : P
  xSize : ℕ
  ySize : ℕ
  xIncr : K
  yIncr : K
  xStart : K
  yStart : K
  lonStart : K
  latStart : K
  resolution : K

variable {P K : Type} [LinearOrder P] [Field K] [LinearOrder K]

/-- `if (a < b) return true; else if (b < a) return false;` and then the rest. -/
def ltThen {α : Type} [LT α] [DecidableRel (α := α) (· < ·)] (a b : α) (rest : Bool) : Bool :=
  if a < b then true else if b < a then false else rest

/-- The same with a tolerance. -/
def ltThenTol (d a b : K) (rest : Bool) : Bool :=
  if a + d < b then true else if b + d < a then false else rest

/-- src/GridDefinition.cc:143. -/
def delta (a b : Grid P K) : K := 5 / 100 * (|a.xIncr| + |b.xIncr| + |a.yIncr| + |b.yIncr|) / 4

/-- src/GridDefinition.cc:131-155: which comparison of the starts depends on the left grid only. -/
def startLt (a b : Grid P K) : Bool :=
  if a.resolution > 0 then
    let res := max a.resolution b.resolution
    ltThenTol res a.lonStart b.lonStart (ltThenTol res a.latStart b.latStart false)
  else
    ltThenTol (delta a b) a.xStart b.xStart (ltThenTol (delta a b) a.yStart b.yStart false)

/-- src/GridDefinition.cc:102-158 `operator<`. -/
def lt (a b : Grid P K) : Bool :=
  ltThen a.proj b.proj <| ltThen a.xSize b.xSize <| ltThen a.ySize b.ySize <|
    ltThen a.xIncr b.xIncr <| ltThen a.yIncr b.yIncr <| startLt a b

/-! ## Specification -/

/-- Equal in everything compared exactly. -/
def SameKey (a b : Grid P K) : Prop :=
  a.proj = b.proj ∧ a.xSize = b.xSize ∧ a.ySize = b.ySize ∧ a.xIncr = b.xIncr ∧ a.yIncr = b.yIncr

/-- Both have a resolution, or neither has. -/
def SameMode (a b : Grid P K) : Prop := 0 < a.resolution ↔ 0 < b.resolution

/-- Two numbers are equal or further apart than `d`. -/
def Apart (d x y : K) : Prop := x = y ∨ d < |x - y|

/-- The starts of two grids that agree otherwise are equal or further apart than the tolerance, and both are compared
the same way. -/
def Separated (a b : Grid P K) : Prop :=
  SameMode a b ∧ (SameKey a b →
    (0 < a.resolution → Apart (max a.resolution b.resolution) a.lonStart b.lonStart ∧
      Apart (max a.resolution b.resolution) a.latStart b.latStart) ∧
    (¬ 0 < a.resolution → Apart (delta a b) a.xStart b.xStart ∧ Apart (delta a b) a.yStart b.yStart))

/-- Requirements of `std::map` on its order, for keys from `S`. -/
structure StrictWeakOn (S : List (Grid P K)) (r : Grid P K → Grid P K → Bool) : Prop where
  irrefl : ∀ a ∈ S, r a a = false
  asymm : ∀ a ∈ S, ∀ b ∈ S, r a b = true → r b a = false
  trans : ∀ a ∈ S, ∀ b ∈ S, ∀ c ∈ S, r a b = true → r b c = true → r a c = true
  incomp : ∀ a ∈ S, ∀ b ∈ S, ∀ c ∈ S, r a b = false → r b a = false → r b c = false → r c b = false →
    r a c = false ∧ r c a = false

/-! ## Theorems -/

theorem ltThen_iff {α : Type} [LinearOrder α] (a b : α) (rest : Bool) :
    ltThen a b rest = true ↔ a < b ∨ a = b ∧ rest = true := by
  unfold ltThen
  rcases lt_trichotomy a b with h | h | h
  · rw [if_pos h]; simp [h]
  · subst h; simp
  · rw [if_neg (not_lt.2 h.le), if_pos h]
    simp [not_lt.2 h.le, h.ne']

theorem lt_iff (a b : Grid P K) : lt a b = true ↔
    a.proj < b.proj ∨ a.proj = b.proj ∧ (a.xSize < b.xSize ∨ a.xSize = b.xSize ∧ (a.ySize < b.ySize ∨
      a.ySize = b.ySize ∧ (a.xIncr < b.xIncr ∨ a.xIncr = b.xIncr ∧ (a.yIncr < b.yIncr ∨ a.yIncr = b.yIncr ∧
        startLt a b = true)))) := by
  unfold lt
  rw [ltThen_iff, ltThen_iff, ltThen_iff, ltThen_iff, ltThen_iff]

variable [IsStrictOrderedRing K]

theorem ltThenTol_self (d x : K) (hd : 0 ≤ d) (rest : Bool) : ltThenTol d x x rest = rest := by
  unfold ltThenTol
  rw [if_neg (by linarith [hd] : ¬ x + d < x), if_neg (by linarith : ¬ x + d < x)]

theorem delta_nonneg (a b : Grid P K) : 0 ≤ delta a b := by
  unfold delta
  have h1 := abs_nonneg a.xIncr
  have h2 := abs_nonneg b.xIncr
  have h3 := abs_nonneg a.yIncr
  have h4 := abs_nonneg b.yIncr
  have : (0 : K) ≤ 5 / 100 := by norm_num
  have h5 := mul_nonneg this (by linarith : 0 ≤ |a.xIncr| + |b.xIncr| + |a.yIncr| + |b.yIncr|)
  exact div_nonneg h5 (by norm_num)

theorem delta_comm (a b : Grid P K) : delta a b = delta b a := by
  unfold delta
  congr 2
  ring

theorem startLt_self (a : Grid P K) : startLt a a = false := by
  unfold startLt
  by_cases h : a.resolution > 0
  · rw [if_pos h]
    dsimp only
    rw [max_self, ltThenTol_self _ _ h.le, ltThenTol_self _ _ h.le]
  · rw [if_neg h, ltThenTol_self _ _ (delta_nonneg a a), ltThenTol_self _ _ (delta_nonneg a a)]

theorem ltThenTol_asymm {d x y : K} (hd : 0 ≤ d) {r r' : Bool} (h : ltThenTol d x y r = true)
    (hr : r = true → r' = false) : ltThenTol d y x r' = false := by
  unfold ltThenTol at *
  by_cases h1 : x + d < y
  · rw [if_neg (by linarith : ¬ y + d < x), if_pos h1]
  · rw [if_neg h1] at h
    by_cases h2 : y + d < x
    · rw [if_pos h2] at h; cases h
    · rw [if_neg h2] at h
      rw [if_neg h2, if_neg h1]
      exact hr h

/-- Grids compared the same way are never both smaller than the other. -/
theorem startLt_asymm {a b : Grid P K} (hm : SameMode a b) (h : startLt a b = true) : startLt b a = false := by
  unfold startLt at *
  by_cases ha : a.resolution > 0
  · have hb : b.resolution > 0 := hm.1 ha
    rw [if_pos ha] at h
    rw [if_pos hb]
    dsimp only at h ⊢
    rw [max_comm b.resolution]
    have hd : 0 ≤ max a.resolution b.resolution := le_max_of_le_left ha.le
    exact ltThenTol_asymm hd h fun h => ltThenTol_asymm hd h fun h => (by cases h)
  · have hb : ¬ b.resolution > 0 := fun h => ha (hm.2 h)
    rw [if_neg ha] at h
    rw [if_neg hb, delta_comm b a]
    exact ltThenTol_asymm (delta_nonneg a b) h fun h => ltThenTol_asymm (delta_nonneg a b) h fun h => (by cases h)

/-- **C47.** No grid definition is smaller than itself; and of two that both have, or both lack, a longitude-latitude
resolution, not both are smaller than the other. -/
theorem C47_irreflexive_asymmetric (a b : Grid P K) :
    lt a a = false ∧ (SameMode a b → lt a b = true → lt b a = false) := by
  constructor
  · cases h : lt a a with
    | false => rfl
    | true =>
      rw [lt_iff] at h
      simp [startLt_self] at h
  · intro hm h
    cases h' : lt b a with
    | false => rfl
    | true =>
      exfalso
      rw [lt_iff] at h h'
      rcases h with h | ⟨e1, h⟩
      · rcases h' with h' | ⟨e, _⟩
        · exact absurd h' (not_lt.2 h.le)
        · exact h.ne' e
      rcases h' with h' | ⟨_, h'⟩
      · exact h'.ne' e1
      rcases h with h | ⟨e2, h⟩
      · rcases h' with h' | ⟨e, _⟩
        · exact absurd h' (not_lt.2 h.le)
        · exact h.ne' e
      rcases h' with h' | ⟨_, h'⟩
      · exact h'.ne' e2
      rcases h with h | ⟨e3, h⟩
      · rcases h' with h' | ⟨e, _⟩
        · exact absurd h' (not_lt.2 h.le)
        · exact h.ne' e
      rcases h' with h' | ⟨_, h'⟩
      · exact h'.ne' e3
      rcases h with h | ⟨e4, h⟩
      · rcases h' with h' | ⟨e, _⟩
        · exact absurd h' (not_lt.2 h.le)
        · exact h.ne' e
      rcases h' with h' | ⟨_, h'⟩
      · exact h'.ne' e4
      rcases h with h | ⟨e5, h⟩
      · rcases h' with h' | ⟨e, _⟩
        · exact absurd h' (not_lt.2 h.le)
        · exact h.ne' e
      rcases h' with h' | ⟨_, h'⟩
      · exact h'.ne' e5
      rw [startLt_asymm hm h] at h'
      cases h'

/-- Place of a grid in a lexicographic order. -/
def place (a : Grid P K) : P ×ₗ ℕ ×ₗ ℕ ×ₗ K ×ₗ K ×ₗ K ×ₗ K :=
  toLex (a.proj, toLex (a.xSize, toLex (a.ySize, toLex (a.xIncr, toLex (a.yIncr,
    if 0 < a.resolution then toLex (a.lonStart, a.latStart) else toLex (a.xStart, a.yStart))))))

theorem ltThenTol_apart {d x y : K} (hd : 0 ≤ d) (h : Apart d x y) (r : Bool) :
    ltThenTol d x y r = true ↔ x < y ∨ x = y ∧ r = true := by
  rcases h with h | h
  · subst h
    rw [ltThenTol_self _ _ hd]; simp
  · unfold ltThenTol
    rcases lt_trichotomy x y with hxy | hxy | hxy
    · rw [abs_sub_comm, abs_of_pos (sub_pos.2 hxy)] at h
      rw [if_pos (by linarith)]
      simp [hxy]
    · subst hxy
      simp at h
      exact absurd hd (not_le.2 h)
    · rw [abs_of_pos (sub_pos.2 hxy)] at h
      rw [if_neg (by linarith), if_pos (by linarith)]
      simp [not_lt.2 hxy.le, hxy.ne']

theorem startLt_iff {a b : Grid P K} (hs : Separated a b) (hk : SameKey a b) : startLt a b = true ↔
    (if 0 < a.resolution then toLex (a.lonStart, a.latStart) else toLex (a.xStart, a.yStart)) <
    (if 0 < b.resolution then toLex (b.lonStart, b.latStart) else toLex (b.xStart, b.yStart)) := by
  obtain ⟨hm, hsep⟩ := hs
  obtain ⟨s1, s2⟩ := hsep hk
  unfold startLt
  by_cases ha : 0 < a.resolution
  · have hb := hm.1 ha
    have hd : 0 ≤ max a.resolution b.resolution := le_max_of_le_left ha.le
    rw [if_pos ha, if_pos ha, if_pos hb, Prod.Lex.toLex_lt_toLex]
    dsimp only
    rw [ltThenTol_apart hd (s1 ha).1, ltThenTol_apart hd (s1 ha).2]
    simp
  · have hb : ¬ 0 < b.resolution := fun h => ha (hm.2 h)
    have hd := delta_nonneg a b
    rw [if_neg ha, if_neg ha, if_neg hb, Prod.Lex.toLex_lt_toLex]
    dsimp only
    rw [ltThenTol_apart hd (s2 ha).1, ltThenTol_apart hd (s2 ha).2]
    simp

theorem lt_iff_place {a b : Grid P K} (hs : Separated a b) : lt a b = true ↔ place a < place b := by
  rw [lt_iff]
  unfold place
  simp only [Prod.Lex.toLex_lt_toLex]
  constructor
  · rintro (h | ⟨e1, h | ⟨e2, h | ⟨e3, h | ⟨e4, h | ⟨e5, h⟩⟩⟩⟩⟩)
    · exact Or.inl h
    · exact Or.inr ⟨e1, Or.inl h⟩
    · exact Or.inr ⟨e1, Or.inr ⟨e2, Or.inl h⟩⟩
    · exact Or.inr ⟨e1, Or.inr ⟨e2, Or.inr ⟨e3, Or.inl h⟩⟩⟩
    · exact Or.inr ⟨e1, Or.inr ⟨e2, Or.inr ⟨e3, Or.inr ⟨e4, Or.inl h⟩⟩⟩⟩
    · exact Or.inr ⟨e1, Or.inr ⟨e2, Or.inr ⟨e3, Or.inr ⟨e4, Or.inr ⟨e5, (startLt_iff hs ⟨e1, e2, e3, e4, e5⟩).1 h⟩⟩⟩⟩⟩
  · rintro (h | ⟨e1, h | ⟨e2, h | ⟨e3, h | ⟨e4, h | ⟨e5, h⟩⟩⟩⟩⟩)
    · exact Or.inl h
    · exact Or.inr ⟨e1, Or.inl h⟩
    · exact Or.inr ⟨e1, Or.inr ⟨e2, Or.inl h⟩⟩
    · exact Or.inr ⟨e1, Or.inr ⟨e2, Or.inr ⟨e3, Or.inl h⟩⟩⟩
    · exact Or.inr ⟨e1, Or.inr ⟨e2, Or.inr ⟨e3, Or.inr ⟨e4, Or.inl h⟩⟩⟩⟩
    · exact Or.inr ⟨e1, Or.inr ⟨e2, Or.inr ⟨e3, Or.inr ⟨e4, Or.inr ⟨e5, (startLt_iff hs ⟨e1, e2, e3, e4, e5⟩).2 h⟩⟩⟩⟩⟩

/-- **C47.** The order meets the requirements of a map for every set of grids that are compared the same way and whose
starts are, among grids otherwise equal, equal or further apart than the tolerance.  Missing for the full statement:
other sets, for which it is false (see below). -/
theorem C47_map_order_partial (S : List (Grid P K)) (hS : ∀ a ∈ S, ∀ b ∈ S, Separated a b) : StrictWeakOn S lt := by
  have key : ∀ a ∈ S, ∀ b ∈ S, (lt a b = true ↔ place a < place b) := fun a ha b hb => lt_iff_place (hS a ha b hb)
  have keyF : ∀ a ∈ S, ∀ b ∈ S, (lt a b = false ↔ ¬ place a < place b) := by
    intro a ha b hb
    rw [← key a ha b hb, Bool.not_eq_true]
  refine ⟨?_, ?_, ?_, ?_⟩
  · intro a ha
    exact (keyF a ha a ha).2 (lt_irrefl _)
  · intro a ha b hb h
    exact (keyF b hb a ha).2 (not_lt.2 ((key a ha b hb).1 h).le)
  · intro a ha b hb c hc h1 h2
    exact (key a ha c hc).2 (lt_trans ((key a ha b hb).1 h1) ((key b hb c hc).1 h2))
  · intro a ha b hb c hc h1 h2 h3 h4
    have e1 : place a = place b := le_antisymm (not_lt.1 ((keyF b hb a ha).1 h2)) (not_lt.1 ((keyF a ha b hb).1 h1))
    have e2 : place b = place c := le_antisymm (not_lt.1 ((keyF c hc b hb).1 h4)) (not_lt.1 ((keyF b hb c hc).1 h3))
    have e3 : place a = place c := e1.trans e2
    exact ⟨(keyF a ha c hc).2 (by rw [e3]; exact lt_irrefl _), (keyF c hc a ha).2 (by rw [e3]; exact lt_irrefl _)⟩

/-- A grid with a given longitude and latitude of the start and resolution. -/
def sample (lon lat x res : ℚ) : Grid ℕ ℚ := ⟨0, 10, 10, 1, 1, x, 0, lon, lat, res⟩

example : ∀ a ∈ [sample 5 60 0 (1/10), sample 6 60 0 (1/10), sample 5 62 0 (1/10)],
    ∀ b ∈ [sample 5 60 0 (1/10), sample 6 60 0 (1/10), sample 5 62 0 (1/10)], Separated a b := by
  intro a ha b hb
  simp only [List.mem_cons, List.not_mem_nil, or_false] at ha hb
  rcases ha with rfl | rfl | rfl <;> rcases hb with rfl | rfl | rfl <;>
    refine ⟨by simp [SameMode, sample], fun _ => ⟨fun _ => ⟨?_, ?_⟩, fun h => absurd (by simp [sample]) h⟩⟩ <;>
    simp [Apart, sample] <;> norm_num [abs]

/-- Two grids of which only one has a resolution can each be smaller than the other. -/
theorem C47_mixed_modes_not_asymmetric :
    lt (sample 5 60 9 1) (sample 8 60 0 0) = true ∧ lt (sample 8 60 0 0) (sample 5 60 9 1) = true := by decide +kernel

/-- The tolerance makes the order intransitive: a < b and b < c, but c < a (and not a < c). -/
theorem C47_not_transitive :
    lt (sample 8 60 0 5) (sample 5 70 0 5) = true ∧ lt (sample 5 70 0 5) (sample 1 80 0 5) = true ∧
    lt (sample 8 60 0 5) (sample 1 80 0 5) = false ∧ lt (sample 1 80 0 5) (sample 8 60 0 5) = true := by decide +kernel

/-- Being equivalent is not transitive: a and b, b and c are within the tolerance, a and c are not. -/
theorem C47_equivalence_not_transitive :
    lt (sample 1 60 0 5) (sample 5 60 0 5) = false ∧ lt (sample 5 60 0 5) (sample 1 60 0 5) = false ∧
    lt (sample 5 60 0 5) (sample 9 60 0 5) = false ∧ lt (sample 9 60 0 5) (sample 5 60 0 5) = false ∧
    lt (sample 1 60 0 5) (sample 9 60 0 5) = true := by decide +kernel

end Fimex.GridDef
