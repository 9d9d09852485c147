import Verif.Basic
import Mathlib.Order.Basic
import Mathlib.Data.Nat.Basic
import Mathlib.Tactic.Tauto

/-!
# Smallest and largest element in one pass

Model of `include/fimex/min_max.h` and theorems (C49).  An iterator is an index together with the element it
points to.
-/

namespace Fimex.MinMax

variable {α : Type} [LinearOrder α]

/-- include/fimex/min_max.h:47-72, the loop and the treatment of a last single element; `i` is the index of
the first element of the rest. -/
def loop (mini maxi : ℕ × α) (i : ℕ) : List α → (ℕ × α) × (ℕ × α)
  | [] => (mini, maxi)
  | [e1] =>
    let mini' := if e1 < mini.2 then (i, e1) else mini
    let maxi' := if maxi.2 < e1 then (i, e1) else maxi
    (mini', maxi')
  | e1 :: e2 :: rest =>
    if e1 < e2 then
      let mini' := if e1 < mini.2 then (i, e1) else mini
      let maxi' := if maxi.2 < e2 then (i + 1, e2) else maxi
      loop mini' maxi' (i + 2) rest
    else
      let mini' := if e2 < mini.2 then (i + 1, e2) else mini
      let maxi' := if maxi.2 < e1 then (i, e1) else maxi
      loop mini' maxi' (i + 2) rest

/-- include/fimex/min_max.h:39-74 `min_max_element`; for an empty range both results are `end`. -/
def minMaxElement (l : List α) : Option ((ℕ × α) × (ℕ × α)) :=
  match l with
  | [] => none
  | a :: rest => some (loop (0, a) (0, a) 1 rest)

/-- include/fimex/min_max.h:76-85 `minimize`: the new value and whether it changed. -/
def minimize (a b : α) : α × Bool := if b < a then (b, true) else (a, false)

/-- include/fimex/min_max.h:87-96 `maximize`. -/
def maximize (a b : α) : α × Bool := if b > a then (b, true) else (a, false)

/-- include/fimex/min_max.h:98-105 `minimaximize`. -/
def minimaximize (mi ma b : α) : α × α := if b < mi then (b, ma) else if ma < b then (mi, b) else (mi, ma)

/-! ## Theorems -/

/-- `m` points to a smallest and `M` to a largest element of the first `n` elements. -/
def Inv (l : List α) (n : ℕ) (m M : ℕ × α) : Prop :=
  m.1 < n ∧ M.1 < n ∧ l[m.1]? = some m.2 ∧ l[M.1]? = some M.2 ∧
    ∀ k < n, ∀ v, l[k]? = some v → m.2 ≤ v ∧ v ≤ M.2

theorem inv_step (l : List α) (n : ℕ) (m M : ℕ × α) (e : α) (h : Inv l n m M) (he : l[n]? = some e) :
    Inv l (n + 1) (if e < m.2 then (n, e) else m) (if M.2 < e then (n, e) else M) := by
  obtain ⟨h1, h2, h3, h4, h5⟩ := h
  refine ⟨?_, ?_, ?_, ?_, ?_⟩
  · split
    · exact Nat.lt_succ_self n
    · omega
  · split
    · exact Nat.lt_succ_self n
    · omega
  · split
    · exact he
    · exact h3
  · split
    · exact he
    · exact h4
  · intro k hk v hv
    by_cases hkn : k = n
    · subst hkn
      rw [he] at hv
      rw [← Option.some.inj hv]
      constructor
      · split
        · exact le_rfl
        · rename_i h; exact not_lt.mp h
      · split
        · exact le_rfl
        · rename_i h; exact not_lt.mp h
    · obtain ⟨a, b⟩ := h5 k (by omega) v hv
      constructor
      · split
        · rename_i h; exact le_trans h.le a
        · exact a
      · split
        · rename_i h; exact le_trans b h.le
        · exact b

theorem inv_pair (l : List α) (n : ℕ) (m M : ℕ × α) (e1 e2 : α) (h : Inv l n m M) (he1 : l[n]? = some e1)
    (he2 : l[n + 1]? = some e2) :
    (e1 < e2 → Inv l (n + 2) (if e1 < m.2 then (n, e1) else m) (if M.2 < e2 then (n + 1, e2) else M)) ∧
    (¬ e1 < e2 → Inv l (n + 2) (if e2 < m.2 then (n + 1, e2) else m) (if M.2 < e1 then (n, e1) else M)) := by
  obtain ⟨h1, h2, h3, h4, h5⟩ := h
  have hall : ∀ (m' M' : ℕ × α), m'.1 < n + 2 → M'.1 < n + 2 → l[m'.1]? = some m'.2 → l[M'.1]? = some M'.2 →
      m'.2 ≤ m.2 → m'.2 ≤ e1 → m'.2 ≤ e2 → M.2 ≤ M'.2 → e1 ≤ M'.2 → e2 ≤ M'.2 → Inv l (n + 2) m' M' := by
    intro m' M' a b c d e f g h i j
    refine ⟨a, b, c, d, ?_⟩
    intro k hk v hv
    by_cases hk1 : k = n
    · subst hk1; rw [he1] at hv; rw [← Option.some.inj hv]; exact ⟨f, i⟩
    · by_cases hk2 : k = n + 1
      · subst hk2; rw [he2] at hv; rw [← Option.some.inj hv]; exact ⟨g, j⟩
      · obtain ⟨x, y⟩ := h5 k (by omega) v hv
        exact ⟨le_trans e x, le_trans y h⟩
  constructor
  · intro hlt
    by_cases c1 : e1 < m.2 <;> by_cases c2 : M.2 < e2
    · rw [if_pos c1, if_pos c2]
      exact hall _ _ (by simp) (by simp) he1 he2 c1.le le_rfl hlt.le c2.le hlt.le le_rfl
    · rw [if_pos c1, if_neg c2]
      exact hall _ _ (by simp) (by omega) he1 h4 c1.le le_rfl hlt.le le_rfl
        (le_trans hlt.le (not_lt.mp c2)) (not_lt.mp c2)
    · rw [if_neg c1, if_pos c2]
      exact hall _ _ (by omega) (by simp) h3 he2 le_rfl (not_lt.mp c1) (le_trans (not_lt.mp c1) hlt.le) c2.le
        hlt.le le_rfl
    · rw [if_neg c1, if_neg c2]
      exact hall _ _ (by omega) (by omega) h3 h4 le_rfl (not_lt.mp c1) (le_trans (not_lt.mp c1) hlt.le) le_rfl
        (le_trans hlt.le (not_lt.mp c2)) (not_lt.mp c2)
  · intro hge
    have hlt := not_lt.mp hge
    by_cases c1 : e2 < m.2 <;> by_cases c2 : M.2 < e1
    · rw [if_pos c1, if_pos c2]
      exact hall _ _ (by simp) (by simp) he2 he1 c1.le hlt le_rfl c2.le le_rfl hlt
    · rw [if_pos c1, if_neg c2]
      exact hall _ _ (by simp) (by omega) he2 h4 c1.le hlt le_rfl le_rfl (not_lt.mp c2)
        (le_trans hlt (not_lt.mp c2))
    · rw [if_neg c1, if_pos c2]
      exact hall _ _ (by omega) (by simp) h3 he1 le_rfl (le_trans (not_lt.mp c1) hlt) (not_lt.mp c1) c2.le le_rfl
        hlt
    · rw [if_neg c1, if_neg c2]
      exact hall _ _ (by omega) (by omega) h3 h4 le_rfl (le_trans (not_lt.mp c1) hlt) (not_lt.mp c1) le_rfl
        (not_lt.mp c2) (le_trans hlt (not_lt.mp c2))

theorem loop_inv (l : List α) : ∀ (len : ℕ) (rest : List α), rest.length = len → ∀ (m M : ℕ × α) (i : ℕ),
    l.drop i = rest → i ≤ l.length → Inv l i m M → Inv l l.length (loop m M i rest).1 (loop m M i rest).2 := by
  intro len
  induction len using Nat.strongRecOn with
  | _ len ih =>
    intro rest hlen m M i hd hi h
    have hget : ∀ k v, rest[k]? = some v → l[i + k]? = some v := by
      intro k v hv; rw [← hd, List.getElem?_drop] at hv; exact hv
    have hl : l.length = i + rest.length := by rw [← hd, List.length_drop]; omega
    match rest, hlen, hd, hget, hl with
    | [], _, _, _, hl => simp only [loop]; simp at hl; rw [hl]; exact h
    | [e], _, _, hget, hl =>
      simp only [loop]
      simp at hl; rw [hl]
      exact inv_step l i m M e h (hget 0 e rfl)
    | e1 :: e2 :: rest, hlen, hd, hget, hl =>
      have hp := inv_pair l i m M e1 e2 h (hget 0 e1 rfl) (hget 1 e2 rfl)
      have hd2 : l.drop (i + 2) = rest := by
        have : l.drop (i + 2) = (l.drop i).drop 2 := by rw [List.drop_drop]
        rw [this, hd]; rfl
      simp at hlen hl
      by_cases hlt : e1 < e2
      · rw [loop]; rw [if_pos hlt]
        exact ih rest.length (by omega) rest rfl _ _ (i + 2) hd2 (by omega) (hp.1 hlt)
      · rw [loop]; rw [if_neg hlt]
        exact ih rest.length (by omega) rest rfl _ _ (i + 2) hd2 (by omega) (hp.2 hlt)

/-- C49: for a non-empty sequence the result is the position of an element that is smaller or equal, and of
one that is larger or equal, than all elements. -/
theorem C49_min_max_element (l : List α) (hne : l ≠ []) :
    ∃ m M, minMaxElement l = some (m, M) ∧ l[m.1]? = some m.2 ∧ l[M.1]? = some M.2 ∧
      ∀ v ∈ l, m.2 ≤ v ∧ v ≤ M.2 := by
  cases l with
  | nil => exact absurd rfl hne
  | cons a rest =>
    have := loop_inv (a :: rest) _ rest rfl (0, a) (0, a) 1 rfl (by simp)
      ⟨by simp, by simp, rfl, rfl, by
        intro k hk v hv
        have : k = 0 := by omega
        subst this
        simp at hv
        simp [hv]⟩
    obtain ⟨_, _, h3, h4, h5⟩ := this
    refine ⟨_, _, rfl, h3, h4, ?_⟩
    intro v hv
    obtain ⟨k, hk, hkv⟩ := List.mem_iff_getElem.mp hv
    exact h5 k hk v (by rw [List.getElem?_eq_getElem hk, hkv])

/-- C49: for an empty sequence both results are the end of the range. -/
theorem C49_empty : minMaxElement ([] : List α) = none := rfl

example : minMaxElement [3, 1, 4, 1, 5, 9, 2] = some ((1, 1), (5, 9)) := by decide
example : minMaxElement [3, 1, 4, 1, 5, 9] = some ((1, 1), (5, 9)) := by decide
example : minMaxElement [7] = some ((0, 7), (0, 7)) := by decide

/-- C49: `minimize` and `maximize` leave the smaller and larger value and report a change exactly when there is
one. -/
theorem C49_minimize_maximize (a b : α) :
    ((minimize a b).1 = min a b ∧ ((minimize a b).2 = true ↔ (minimize a b).1 ≠ a)) ∧
    ((maximize a b).1 = max a b ∧ ((maximize a b).2 = true ↔ (maximize a b).1 ≠ a)) := by
  unfold minimize maximize
  constructor
  · by_cases h : b < a
    · rw [if_pos h]; exact ⟨(min_eq_right h.le).symm, by simp [h.ne]⟩
    · rw [if_neg h]; exact ⟨(min_eq_left (not_lt.mp h)).symm, by simp⟩
  · by_cases h : b > a
    · rw [if_pos h]; exact ⟨(max_eq_right (le_of_lt h)).symm, by simp [ne_of_gt h]⟩
    · rw [if_neg h]; exact ⟨(max_eq_left (not_lt.mp h)).symm, by simp⟩

/-- C49: widening a range, started at some value, to all values of a sequence gives the smallest and the
largest value. -/
theorem C49_minimaximize (l : List α) : ∀ (mi ma : α), mi ≤ ma →
    l.foldl (fun s b => minimaximize s.1 s.2 b) (mi, ma) = (l.foldl min mi, l.foldl max ma) := by
  induction l with
  | nil => intro mi ma _; rfl
  | cons b l ih =>
    intro mi ma h
    simp only [List.foldl_cons]
    have e : minimaximize mi ma b = (min mi b, max ma b) := by
      unfold minimaximize
      by_cases h1 : b < mi
      · rw [if_pos h1, min_eq_right h1.le, max_eq_left (le_trans h1.le h)]
      · rw [if_neg h1]
        by_cases h2 : ma < b
        · rw [if_pos h2, min_eq_left (not_lt.mp h1), max_eq_right h2.le]
        · rw [if_neg h2, min_eq_left (not_lt.mp h1), max_eq_left (not_lt.mp h2)]
    rw [e]
    exact ih _ _ (le_trans (min_le_left _ _) (le_trans h (le_max_left _ _)))

/-- C49: started with an empty range (lower end above the upper end), widening to a single value does not give
that value as upper end. -/
theorem C49_minimaximize_empty_range : minimaximize 10 0 5 = (5, 0) := by decide

end Fimex.MinMax
