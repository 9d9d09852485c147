import Verif.Grib.Cut
import Mathlib.Tactic.Linarith
import Mathlib.Tactic.Ring
import Mathlib.Algebra.Order.Ring.Rat
import Mathlib.Data.Rat.Defs

/-!
# Cutting GRIB messages (C131): theorems

Points of a grid are those that GRIB defines: columns at `lonFirst + i·lonIncr`, and rows at `latFirst + j·latIncr` if rows are counted from the bottom and at
`latFirst - j·latIncr` otherwise.
-/

namespace Fimex.GribCut

variable {K : Type} [Field K] [LinearOrder K] [IsStrictOrderedRing K]

/-! ## Positions -/

theorem lastWhere_succ (p : Nat → Bool) (n : Nat) : lastWhere p (n + 1) = if p n then n else lastWhere p n := by
  unfold lastWhere
  rw [List.range_succ, List.foldl_append]
  rfl

theorem lastWhere_le (p : Nat → Bool) : ∀ (n i : Nat), i < n → p i = true → i ≤ lastWhere p n
  | 0, i, h, _ => by omega
  | n + 1, i, h, hp => by
    rw [lastWhere_succ]
    by_cases hn : p n = true
    · rw [if_pos hn]; omega
    · rw [if_neg hn]
      have : i ≠ n := by rintro rfl; exact hn hp
      exact lastWhere_le p n i (by omega) hp

theorem lastWhere_mem (p : Nat → Bool) : ∀ n, lastWhere p n = 0 ∨ (lastWhere p n < n ∧ p (lastWhere p n) = true)
  | 0 => .inl rfl
  | n + 1 => by
    rw [lastWhere_succ]
    by_cases hn : p n = true
    · rw [if_pos hn]; exact .inr ⟨by omega, hn⟩
    · rw [if_neg hn]
      rcases lastWhere_mem p n with h | ⟨h, h'⟩
      · exact .inl h
      · exact .inr ⟨by omega, h'⟩

theorem lastWhere_lt (p : Nat → Bool) {n : Nat} (h : 0 < n) : lastWhere p n < n := by
  rcases lastWhere_mem p n with e | ⟨e, _⟩ <;> omega

theorem eps_pos : (0 : K) < eps := by unfold eps; positivity

theorem value_lt {start incr : K} (h : 0 < incr) {i j : Nat} : value start incr i < value start incr j ↔ i < j := by
  unfold value
  rw [add_lt_add_iff_left, mul_lt_mul_iff_left₀ h, Nat.cast_lt]

theorem value_lt_neg {start incr : K} (h : incr < 0) {i j : Nat} : value start incr i < value start incr j ↔ j < i := by
  unfold value
  rw [add_lt_add_iff_left, mul_lt_mul_right_of_neg h, Nat.cast_lt]

omit [LinearOrder K] [IsStrictOrderedRing K] in
theorem value_succ (start incr : K) (i : Nat) : value start incr (i + 1) = value start incr i + incr := by
  unfold value; push_cast; ring

theorem wsub_eq {a b : Nat} (h : b ≤ a) : wsub a b = a - b := if_pos h

/-- **C131.** Positions for growing values: refused exactly if the bounds are exchanged by more than twice the tolerance; otherwise no value between the bounds is before the first
position, and none is at or behind the second one unless that is the last of all; and there are not more before and behind than the tolerance asks for. -/
theorem C131_up (start incr : K) (n : Nat) (first last : K) (hi : 0 < incr) (hn : 0 < n) :
    (last + eps < first - eps ∧ findFirstLast start incr n first last = .throws) ∨
    ∃ f l, ¬ last + eps < first - eps ∧ findFirstLast start incr n first last = .ok (f, l) ∧ f ≤ l ∧ l < n ∧
      (∀ i, i < n → first ≤ value start incr i → f ≤ i) ∧
      (∀ i, i < n → value start incr i ≤ last → i < l ∨ l = n - 1) ∧
      (∀ i, i < n → value start incr i ≤ first - eps → i ≤ f) ∧
      (l ≤ 1 ∨ value start incr (l - 1) < last + eps) := by
  have he := eps_pos (K := K)
  unfold findFirstLast
  dsimp only
  rw [if_pos hi]
  by_cases hx : last + eps < first - eps
  · exact .inl ⟨hx, if_pos hx⟩
  · right
    rw [if_neg hx]
    have hw : wsub n 1 = n - 1 := wsub_eq hn
    generalize hf : lastWhere (fun i => decide (value start incr i ≤ first - eps)) n = f
    generalize hg : lastWhere (fun i => decide (value start incr i < last + eps)) n = g
    have f1 : f = 0 ∨ (f < n ∧ value start incr f ≤ first - eps) := by
      have := lastWhere_mem (fun i => decide (value start incr i ≤ first - eps)) n
      rw [hf] at this
      simpa using this
    have f2 : ∀ i, i < n → value start incr i ≤ first - eps → i ≤ f := fun i h1 h2 => hf ▸ lastWhere_le _ n i h1 (by simpa using h2)
    have g1 : g = 0 ∨ (g < n ∧ value start incr g < last + eps) := by
      have := lastWhere_mem (fun i => decide (value start incr i < last + eps)) n
      rw [hg] at this
      simpa using this
    have g2 : ∀ i, i < n → value start incr i < last + eps → i ≤ g := fun i h1 h2 => hg ▸ lastWhere_le _ n i h1 (by simpa using h2)
    have hfl : f ≤ g + 1 := by
      rcases f1 with f1 | ⟨f1, f3⟩
      · omega
      · rcases Nat.eq_zero_or_pos f with h0 | h0
        · omega
        · have h1 : value start incr (f - 1) < value start incr f := (value_lt hi).2 (by omega)
          have := g2 (f - 1) (by omega) (by linarith)
          omega
    refine ⟨f, if n ≤ g + 1 then wsub n 1 else g + 1, hx, rfl, ?_, ?_, ?_, ?_, f2, ?_⟩
    · split_ifs with h
      · rw [hw]; rcases f1 with f1 | ⟨f1, _⟩ <;> omega
      · exact hfl
    · split_ifs <;> omega
    · intro i h1 h2
      rcases f1 with f1 | ⟨_, f3⟩
      · omega
      · exact le_of_lt ((value_lt hi).1 (show value start incr f < value start incr i by linarith))
    · intro i h1 h2
      have := g2 i h1 (by linarith)
      split_ifs with h
      · right; exact hw
      · left; omega
    · rcases g1 with g1 | ⟨g1, g3⟩
      · left; split_ifs <;> omega
      · right
        split_ifs with h
        · rw [hw]
          have : value start incr (n - 1 - 1) ≤ value start incr g := by
            rw [← not_lt, value_lt hi]; omega
          linarith
        · simpa using g3

/-- **C131.** The same for falling values and bounds in this order; here a value at the second bound is at the second position. -/
theorem C131_down (start incr : K) (n : Nat) (first last : K) (hi : incr < 0) (hn : 0 < n) :
    (first < last ∧ findFirstLast start incr n first last = .throws) ∨
    ∃ f l, last ≤ first ∧ findFirstLast start incr n first last = .ok (f, l) ∧ f ≤ l ∧ l < n ∧
      (∀ i, i < n → value start incr i ≤ first → f ≤ i) ∧
      (eps < -incr → ∀ i, i < n → last ≤ value start incr i → i ≤ l) ∧
      (∀ i, i < n → last + eps < value start incr i → i < l ∨ l = n - 1) ∧
      (∀ i, i < n → first + eps ≤ value start incr i → i ≤ f) ∧
      (l ≤ 1 ∨ last + eps < value start incr (l - 1)) := by
  have he := eps_pos (K := K)
  have hi0 : ¬ 0 < incr := by linarith [hi]
  unfold findFirstLast
  dsimp only
  rw [if_neg hi0]
  by_cases hx : first + eps < last + eps
  · exact .inl ⟨by linarith, if_pos hx⟩
  · right
    rw [if_neg hx]
    have hw : wsub n 1 = n - 1 := wsub_eq hn
    generalize hf : lastWhere (fun i => decide (first + eps ≤ value start incr i)) n = f
    generalize hg : lastWhere (fun i => decide (last + eps < value start incr i)) n = g
    have f1 : f = 0 ∨ (f < n ∧ first + eps ≤ value start incr f) := by
      have := lastWhere_mem (fun i => decide (first + eps ≤ value start incr i)) n
      rw [hf] at this
      simpa using this
    have f2 : ∀ i, i < n → first + eps ≤ value start incr i → i ≤ f := fun i h1 h2 => hf ▸ lastWhere_le _ n i h1 (by simpa using h2)
    have g1 : g = 0 ∨ (g < n ∧ last + eps < value start incr g) := by
      have := lastWhere_mem (fun i => decide (last + eps < value start incr i)) n
      rw [hg] at this
      simpa using this
    have g2 : ∀ i, i < n → last + eps < value start incr i → i ≤ g := fun i h1 h2 => hg ▸ lastWhere_le _ n i h1 (by simpa using h2)
    have hfl : f ≤ g + 1 := by
      rcases f1 with f1 | ⟨f1, f3⟩
      · omega
      · rcases Nat.eq_zero_or_pos f with h0 | h0
        · omega
        · have h1 : value start incr f < value start incr (f - 1) := (value_lt_neg hi).2 (by omega)
          have := g2 (f - 1) (by omega) (by linarith)
          omega
    refine ⟨f, if n ≤ g + 1 then wsub n 1 else g + 1, by linarith, rfl, ?_, ?_, ?_, ?_, ?_, f2, ?_⟩
    · split_ifs with h
      · rw [hw]; rcases f1 with f1 | ⟨f1, _⟩ <;> omega
      · exact hfl
    · split_ifs <;> omega
    · intro i h1 h2
      rcases f1 with f1 | ⟨_, f3⟩
      · omega
      · exact le_of_lt ((value_lt_neg hi).1 (show value start incr i < value start incr f by linarith))
    · intro he' i h1 h2
      split_ifs with h
      · omega
      · by_contra hc
        have h3 : ¬ last + eps < value start incr (g + 1) := fun h => by have := g2 (g + 1) (by omega) h; omega
        have h4 : value start incr i ≤ value start incr (g + 1 + 1) := by
          rw [← not_lt, value_lt_neg hi]; omega
        rw [value_succ] at h4
        linarith
    · intro i h1 h2
      have := g2 i h1 h2
      split_ifs with h
      · right; exact hw
      · left; omega
    · rcases g1 with g1 | ⟨g1, g3⟩
      · left; split_ifs <;> omega
      · right
        split_ifs with h
        · rw [hw]
          have : value start incr g ≤ value start incr (n - 1 - 1) := by
            rw [← not_lt, value_lt_neg hi]; omega
          linarith
        · simpa using g3

example : findFirstLast (10 : ℚ) 1 8 12 15 = .ok (1, 6) ∧ findFirstLast (10 : ℚ) (-1) 8 8 5 = .ok (1, 5) := by decide +kernel

/-! ## One message -/

/-- Specification: longitude of a column, and latitude of a row. -/
def Message.lon {V : Type} (m : Message K V) (i : Nat) : K := m.lonFirst + i * m.lonIncr

def Message.lat {V : Type} (m : Message K V) (j : Nat) : K := if m.bottom then m.latFirst + j * m.latIncr else m.latFirst - j * m.latIncr

/-- The value at a column and row. -/
def Message.at {V : Type} (m : Message K V) (i j : Nat) : Option V := if i < m.nLon ∧ j < m.nLat then m.values[i + m.nLon * j]? else none

theorem positions {start incr : K} {n : Nat} {first last : K} {f l : Nat} (h : findFirstLast start incr n first last = .ok (f, l)) (hi : incr ≠ 0) (hn : 0 < n) : f ≤ l ∧ l < n := by
  rcases lt_or_gt_of_ne hi with hi | hi
  · rcases C131_down start incr n first last hi hn with ⟨_, e⟩ | ⟨f', l', _, e, h1, h2, _⟩
    · rw [e] at h; cases h
    · rw [e] at h; cases h; exact ⟨h1, h2⟩
  · rcases C131_up start incr n first last hi hn with ⟨_, e⟩ | ⟨f', l', _, e, h1, h2, _⟩
    · rw [e] at h; cases h
    · rw [e] at h; cases h; exact ⟨h1, h2⟩

/-- How rows are searched. -/
def rows {V : Type} (m : Message K V) (b : Box K) : Res (Nat × Nat) :=
  if m.bottom then findFirstLast m.latFirst (-m.latIncr) m.nLat b.north b.south else findFirstLast m.latFirst m.latIncr m.nLat b.south b.north

omit [IsStrictOrderedRing K] in
/-- What cutting is, if the steps before succeed. -/
theorem cut_eq {V : Type} (m : Message K V) (b : Box K) : cut m (some b) =
    if m.regular = false ∨ m.right = true ∨ m.vertical = true ∨ m.alternating = true then .throws
    else (rows m b).bind fun la => (findFirstLast m.lonFirst m.lonIncr m.nLon b.west b.east).bind fun lo =>
      if m.values.length ≠ m.nLat * m.nLon then .throws
      else (Slice.slice m.values [m.nLon, m.nLat] [lo.1, la.1] [wsub lo.2 lo.1, wsub la.2 la.1]).bind fun out =>
        .ok { m with
          latFirst := value m.latFirst (if m.bottom then -m.latIncr else m.latIncr) la.1
          latLast := value m.latFirst (if m.bottom then -m.latIncr else m.latIncr) la.2
          nLat := wsub la.2 la.1
          lonFirst := value m.lonFirst m.lonIncr lo.1
          lonLast := value m.lonFirst m.lonIncr lo.2
          nLon := wsub lo.2 lo.1
          values := out } := by
  unfold cut rows
  dsimp only
  by_cases h1 : m.regular = true
  · by_cases h2 : m.right = true ∨ m.vertical = true ∨ m.alternating = true
    · have h2' : (m.right || m.vertical || m.alternating) = true := by simpa [or_assoc] using h2
      simp [h1, h2, h2']
    · have h2' : (m.right || m.vertical || m.alternating) = false := by
        simp only [not_or, Bool.not_eq_true] at h2
        simp [h2.1, h2.2.1, h2.2.2]
      simp only [h1, h2, h2']
      by_cases h3 : m.bottom = true <;> simp [h3]
  · simp [h1]

/-- **C131.** With a bounding box, a message is refused or becomes a part of it: values of columns and rows are those of the columns and rows behind the first ones, longitudes stay
with their columns, and each column between west and east is kept unless it is the last one. -/
theorem C131_part {V : Type} (m m' : Message K V) (b : Box K) (hlon : 0 < m.lonIncr) (hlat : 0 < m.latIncr) (h1 : 0 < m.nLon) (h2 : 0 < m.nLat) (h1' : m.nLon < two64)
    (h2' : m.nLat < two64) (h : cut m (some b) = .ok m') : ∃ p q, p + m'.nLon < m.nLon ∧ q + m'.nLat < m.nLat ∧ m'.values.length = m'.nLon * m'.nLat ∧
      (∀ i j, i < m'.nLon → j < m'.nLat → ∃ v, m'.at i j = some v ∧ m.at (p + i) (q + j) = some v) ∧
      (∀ i, m'.lon i = m.lon (p + i)) ∧
      (∀ i, i < m.nLon → b.west ≤ m.lon i → m.lon i ≤ b.east → p ≤ i ∧ (i < p + m'.nLon ∨ i = m.nLon - 1)) ∧
      m'.param = m.param ∧ m'.lonIncr = m.lonIncr ∧ m'.latIncr = m.latIncr ∧ m'.lonLast = m'.lon m'.nLon := by
  rw [cut_eq] at h
  by_cases hc : m.regular = false ∨ m.right = true ∨ m.vertical = true ∨ m.alternating = true
  · rw [if_pos hc] at h; cases h
  rw [if_neg hc] at h
  obtain ⟨⟨q, q'⟩, hr, h⟩ := Res.bind_eq_ok.1 h
  obtain ⟨⟨p, p'⟩, hp, h⟩ := Res.bind_eq_ok.1 h
  by_cases hv : m.values.length ≠ m.nLat * m.nLon
  · rw [if_pos hv] at h; cases h
  rw [if_neg hv] at h
  have hv' : m.values.length = m.nLat * m.nLon := not_not.1 hv
  have hq : q ≤ q' ∧ q' < m.nLat := by
    unfold rows at hr
    split_ifs at hr
    · exact positions hr (by linarith [hlat] : -m.latIncr < 0).ne h2
    · exact positions hr hlat.ne' h2
  have hp' := positions hp hlon.ne' h1
  have e1 : wsub p' p = p' - p := wsub_eq hp'.1
  have e2 : wsub q' q = q' - q := wsub_eq hq.1
  rw [e1, e2] at h
  obtain ⟨out, ho, h⟩ := Res.bind_eq_ok.1 h
  cases h
  obtain ⟨out', k1, k2, k3⟩ := Slice.C03_slice_is_hyperrectangle m.values [m.nLon, m.nLat] [p, q] [p' - p, q' - q] (by simp)
    ⟨by omega, by omega, trivial⟩ (by simp [h1', h2']) (by simp [hv', Nat.mul_comm])
  rw [k1] at ho
  cases ho
  refine ⟨p, q, by dsimp only; omega, by dsimp only; omega, by simpa using k2, ?_, ?_, ?_, rfl, rfl, rfl, ?_⟩
  · intro i j hi hj
    dsimp only at hi hj
    obtain ⟨v, v1, v2⟩ := k3 [i, j] ⟨hi, hj, trivial⟩
    refine ⟨v, ?_, ?_⟩
    · unfold Message.at
      rw [if_pos ⟨hi, hj⟩]
      simpa [pos] using v1
    · unfold Message.at
      rw [if_pos ⟨by omega, by omega⟩]
      simpa [pos, addIdx] using v2
  · intro i
    unfold Message.lon value
    push_cast
    ring
  · intro i hi hw he
    rcases C131_up m.lonFirst m.lonIncr m.nLon b.west b.east hlon h1 with ⟨_, e⟩ | ⟨f, l, _, e, _, _, c1, c2, _⟩
    · rw [e] at hp; cases hp
    · rw [e] at hp
      cases hp
      have d1 := c1 i hi hw
      refine ⟨d1, ?_⟩
      dsimp only
      rcases c2 i hi he with d2 | d2 <;> omega
  · unfold Message.lon value
    dsimp only
    push_cast [Nat.cast_sub hp'.1]
    ring

/-- **C131.** The last longitude that is written is never that of the last column. -/
theorem C131_last_longitude {V : Type} (m m' : Message K V) (b : Box K) (hlon : 0 < m.lonIncr) (hlat : 0 < m.latIncr) (h1 : 0 < m.nLon) (h2 : 0 < m.nLat) (h1' : m.nLon < two64)
    (h2' : m.nLat < two64) (h : cut m (some b) = .ok m') (hne : 0 < m'.nLon) : m'.lonLast ≠ m'.lon (m'.nLon - 1) := by
  obtain ⟨p, q, _, _, _, _, _, _, _, hl, _, e⟩ := C131_part m m' b hlon hlat h1 h2 h1' h2' h
  rw [e]
  unfold Message.lon
  have : (m'.nLon : K) = ((m'.nLon - 1 : Nat) : K) + 1 := by
    rw [← Nat.cast_succ]; congr 1; omega
  rw [this, hl]
  intro h
  have : m.lonIncr = 0 := by linarith
  exact hlon.ne' this

theorem lastWhere_zero (P : Nat → Bool) (n : Nat) (hP : ∀ i, 0 < i → P i = false) : lastWhere P n = 0 := by
  rcases lastWhere_mem P n with e | ⟨_, e⟩
  · exact e
  · rcases Nat.eq_zero_or_pos (lastWhere P n) with e0 | e0
    · exact e0
    · rw [hP _ e0] at e; cases e

theorem first_down {start incr : K} {n : Nat} {first last : K} (hi : ¬ 0 < incr) (hn : 1 < n) (hx : last ≤ first)
    (h1 : ∀ i, 0 < i → ¬ first + eps ≤ value start incr i) (h2 : ∀ i, 0 < i → ¬ last + eps < value start incr i) : findFirstLast start incr n first last = .ok (0, 1) := by
  unfold findFirstLast
  dsimp only
  have hx' : ¬ first + eps < last + eps := by linarith
  rw [if_neg hi, if_neg hx', lastWhere_zero _ n (fun i hi => decide_eq_false (h1 i hi)), lastWhere_zero _ n (fun i hi => decide_eq_false (h2 i hi)),
    if_neg (show ¬ n ≤ 0 + 1 by omega)]

theorem first_up {start incr : K} {n : Nat} {first last : K} (hi : 0 < incr) (hn : 1 < n) (hx : first ≤ last)
    (h1 : ∀ i, 0 < i → ¬ value start incr i ≤ first - eps) (h2 : ∀ i, 0 < i → ¬ value start incr i < last + eps) : findFirstLast start incr n first last = .ok (0, 1) := by
  have he := eps_pos (K := K)
  unfold findFirstLast
  dsimp only
  have hx' : ¬ last + eps < first - eps := by linarith
  rw [if_pos hi, if_neg hx', lastWhere_zero _ n (fun i hi => decide_eq_false (h1 i hi)), lastWhere_zero _ n (fun i hi => decide_eq_false (h2 i hi)),
    if_neg (show ¬ n ≤ 0 + 1 by omega)]

/-- **C131.** Whatever rows the box asks for, only the first one is kept: latitudes are searched in the wrong direction. -/
theorem C131_rows {V : Type} (m m' : Message K V) (b : Box K) (hlat : eps ≤ m.latIncr) (h2 : 1 < m.nLat)
    (hsn : b.south ≤ b.north) (hin : if m.bottom then m.latFirst ≤ b.south else b.north ≤ m.latFirst) (h : cut m (some b) = .ok m') :
    m'.nLat = 1 ∧ m'.latFirst = m.latFirst ∧ m'.latLast ≠ m.lat 1 := by
  have he := eps_pos (K := K)
  have hpos : 0 < m.latIncr := by linarith
  rw [cut_eq] at h
  by_cases hc : m.regular = false ∨ m.right = true ∨ m.vertical = true ∨ m.alternating = true
  · rw [if_pos hc] at h; cases h
  rw [if_neg hc] at h
  obtain ⟨la, hr, h⟩ := Res.bind_eq_ok.1 h
  obtain ⟨⟨p, p'⟩, hp, h⟩ := Res.bind_eq_ok.1 h
  by_cases hv : m.values.length ≠ m.nLat * m.nLon
  · rw [if_pos hv] at h; cases h
  rw [if_neg hv] at h
  obtain ⟨out, ho, h⟩ := Res.bind_eq_ok.1 h
  have hla : la = (0, 1) := by
    unfold rows at hr
    by_cases hb : m.bottom = true
    · rw [if_pos hb] at hin hr
      have hle : ∀ i : Nat, value m.latFirst (-m.latIncr) i ≤ m.latFirst := by
        intro i
        unfold value
        have : (0 : K) ≤ i * m.latIncr := by positivity
        linarith
      rw [first_down (by linarith) h2 hsn (fun i _ => by have := hle i; intro hh; linarith) (fun i _ => by have := hle i; intro hh; linarith)] at hr
      cases hr
      rfl
    · rw [if_neg hb] at hin hr
      have hge : ∀ i : Nat, 0 < i → m.latFirst + m.latIncr ≤ value m.latFirst m.latIncr i := by
        intro i hi
        unfold value
        have h1 : (1 : K) ≤ i := by exact_mod_cast hi
        have := mul_le_mul_of_nonneg_right h1 hpos.le
        linarith
      rw [first_up hpos h2 hsn (fun i hi => by have := hge i hi; intro hh; linarith) (fun i hi => by have := hge i hi; intro hh; linarith)] at hr
      cases hr
      rfl
  subst hla
  cases h
  have e1 : wsub 1 0 = 1 := by decide
  refine ⟨e1, by unfold value; simp, ?_⟩
  unfold value Message.lat
  dsimp only
  split_ifs with hb
  · intro h; push_cast at h; linarith
  · intro h; push_cast at h; linarith

/-- A message of four columns and three rows, from the top. -/
def sample : Message ℚ Nat :=
  ⟨130, true, false, false, false, false, 70, 68, 1, 3, 10, 13, 1, 4, [1, 2, 3, 4, 5, 6, 7, 8, 9, 10, 11, 12]⟩

/-- A message around the globe. -/
def globe : Message ℚ Nat := ⟨130, true, false, false, false, false, 70, 68, 1, 2, 0, 330, 30, 12, List.range 24⟩

omit [IsStrictOrderedRing K] in
theorem cut_of {V : Type} {m : Message K V} {b : Box K} {la lo : Nat × Nat} {out : List V}
    (hc : ¬ (m.regular = false ∨ m.right = true ∨ m.vertical = true ∨ m.alternating = true)) (h1 : rows m b = .ok la)
    (h2 : findFirstLast m.lonFirst m.lonIncr m.nLon b.west b.east = .ok lo) (hv : ¬ m.values.length ≠ m.nLat * m.nLon)
    (h3 : Slice.slice m.values [m.nLon, m.nLat] [lo.1, la.1] [wsub lo.2 lo.1, wsub la.2 la.1] = .ok out) :
    ∃ m', cut m (some b) = .ok m' ∧ m'.values = out ∧ m'.nLon = wsub lo.2 lo.1 ∧ m'.lonFirst = value m.lonFirst m.lonIncr lo.1 ∧ m'.lonIncr = m.lonIncr ∧
      m'.latFirst = value m.latFirst (if m.bottom then -m.latIncr else m.latIncr) la.1 ∧ m'.latLast = value m.latFirst (if m.bottom then -m.latIncr else m.latIncr) la.2 := by
  rw [cut_eq, if_neg hc, h1]
  simp only [Res.bind, h2, if_neg hv, h3]
  exact ⟨_, rfl, rfl, rfl, rfl, rfl, rfl, rfl⟩

/-- Columns at 11 and 12 are asked for and kept (and the one before), and the value 2 is still at 11 degrees; of rows at 69 and 68 none is. -/
theorem C131_sample : ∃ m', cut sample (some ⟨69, 12, 68, 11⟩) = .ok m' ∧ m'.values = [1, 2, 3] ∧ m'.nLon = 3 ∧ m'.lonFirst = 10 ∧ m'.latFirst = 70 ∧ m'.latLast = 71 := by
  obtain ⟨m', h1, h2, h3, h4, _, h5, h6⟩ := cut_of (m := sample) (b := ⟨69, 12, 68, 11⟩) (la := (0, 1)) (lo := (0, 3)) (out := [1, 2, 3]) (by decide) (by decide +kernel)
    (by decide +kernel) (by decide) (by decide +kernel)
  have e3 : wsub 3 0 = 3 := by decide
  dsimp only at h3
  rw [e3] at h3
  exact ⟨m', h1, h2, h3, h4.trans (by decide +kernel), h5.trans (by decide +kernel), h6.trans (by decide +kernel)⟩

/-- **C131.** The last column of a grid is not kept, although it is inside of the box. -/
theorem C131_last_column : ∃ m', cut sample (some ⟨70, 13, 68, 10⟩) = .ok m' ∧ (10 : ℚ) ≤ sample.lon 3 ∧ sample.lon 3 ≤ 13 ∧ ∀ i, i < m'.nLon → m'.lon i ≠ sample.lon 3 := by
  obtain ⟨m', h1, h2, h3, h4, h5, _⟩ := cut_of (m := sample) (b := ⟨70, 13, 68, 10⟩) (la := (0, 1)) (lo := (0, 3)) (out := [1, 2, 3]) (by decide) (by decide +kernel)
    (by decide +kernel) (by decide) (by decide +kernel)
  refine ⟨m', h1, by decide +kernel, by decide +kernel, fun i hi => ?_⟩
  have e3 : wsub 3 0 = 3 := by decide
  unfold Message.lon
  rw [h3] at hi
  dsimp only at hi
  rw [e3] at hi
  rw [h4, h5]
  have : i = 0 ∨ i = 1 ∨ i = 2 := by omega
  rcases this with rfl | rfl | rfl <;> decide +kernel

/-- **C131.** Columns west of the first one are not found behind 180 degrees. -/
theorem C131_dateline : ∃ m', cut globe (some ⟨70, 60, 68, -60⟩) = .ok m' ∧ globe.lon 10 = -60 + 360 ∧ ∀ i, i < m'.nLon → m'.lon i ≠ globe.lon 10 := by
  obtain ⟨m', h1, h2, h3, h4, h5, _⟩ := cut_of (m := globe) (b := ⟨70, 60, 68, -60⟩) (la := (0, 1)) (lo := (0, 3)) (out := [0, 1, 2]) (by decide) (by decide +kernel)
    (by decide +kernel) (by decide) (by decide +kernel)
  refine ⟨m', h1, by decide +kernel, fun i hi => ?_⟩
  have e3 : wsub 3 0 = 3 := by decide
  unfold Message.lon
  rw [h3] at hi
  dsimp only at hi
  rw [e3] at hi
  rw [h4, h5]
  have : i = 0 ∨ i = 1 ∨ i = 2 := by omega
  rcases this with rfl | rfl | rfl <;> decide +kernel

/-! ## Boxes and messages -/

omit [IsStrictOrderedRing K] in
/-- **C131.** A box is accepted exactly if its numbers are those of latitudes and longitudes in the right order; there may be more numbers. -/
theorem C131_box (l : List K) (b : Box K) : readBox l = some b ↔
    ∃ r, l = b.north :: b.east :: b.south :: b.west :: r ∧ b.north ≤ 90 ∧ -90 ≤ b.south ∧ b.south ≤ b.north ∧ b.east ≤ 180 ∧ -180 ≤ b.west ∧ b.west ≤ b.east := by
  constructor
  · intro h
    match l, h with
    | n :: e :: s :: w :: r, h =>
      rw [readBox] at h
      split_ifs at h with h1 h2 h3 h4 h5 h6
      cases h
      simp only [not_or, not_lt] at h1 h2 h3 h4 h5 h6
      exact ⟨r, rfl, h1.1, h2.2, h3, h4.1, h5.2, h6⟩
    | [], h => cases h
    | [_], h => cases h
    | [_, _], h => cases h
    | [_, _, _], h => cases h
  · rintro ⟨r, rfl, h1, h2, h3, h4, h5, h6⟩
    rw [readBox]
    have k1 : ¬ (90 < b.north ∨ b.north < -90) := by simp only [not_or, not_lt]; exact ⟨h1, h2.trans h3⟩
    have k2 : ¬ (90 < b.south ∨ b.south < -90) := by simp only [not_or, not_lt]; exact ⟨h3.trans h1, h2⟩
    have k4 : ¬ (180 < b.east ∨ b.east < -180) := by simp only [not_or, not_lt]; exact ⟨h4, h5.trans h6⟩
    have k5 : ¬ (180 < b.west ∨ b.west < -180) := by simp only [not_or, not_lt]; exact ⟨h6.trans h4, h5⟩
    rw [if_neg k1, if_neg k2, if_neg (not_lt.2 h3), if_neg k4, if_neg k5, if_neg (not_lt.2 h6)]

/-- **C131.** With such a box a message is refused exactly if its grid is another one, its scanning mode is not by rows from the left, or the number of values is wrong; it is never
undefined. -/
theorem C131_refused {V : Type} (m : Message K V) (b : Box K) (hlon : 0 < m.lonIncr) (hlat : 0 < m.latIncr) (h1 : 0 < m.nLon) (h2 : 0 < m.nLat) (h1' : m.nLon < two64)
    (h2' : m.nLat < two64) (hsn : b.south ≤ b.north) (hwe : b.west ≤ b.east) :
    cut m (some b) ≠ .ub ∧ (cut m (some b) = .throws ↔
      m.regular = false ∨ m.right = true ∨ m.vertical = true ∨ m.alternating = true ∨ m.values.length ≠ m.nLat * m.nLon) := by
  have he := eps_pos (K := K)
  have hr : ∃ q q', rows m b = .ok (q, q') ∧ q ≤ q' ∧ q' < m.nLat := by
    unfold rows
    split_ifs
    · rcases C131_down m.latFirst (-m.latIncr) m.nLat b.north b.south (by linarith) h2 with ⟨hh, _⟩ | ⟨f, l, _, e, k1, k2, _⟩
      · exact absurd hsn (not_le.2 hh)
      · exact ⟨f, l, e, k1, k2⟩
    · rcases C131_up m.latFirst m.latIncr m.nLat b.south b.north hlat h2 with ⟨hh, _⟩ | ⟨f, l, _, e, k1, k2, _⟩
      · exact absurd hsn (by linarith)
      · exact ⟨f, l, e, k1, k2⟩
  have hp : ∃ p p', findFirstLast m.lonFirst m.lonIncr m.nLon b.west b.east = .ok (p, p') ∧ p ≤ p' ∧ p' < m.nLon := by
    rcases C131_up m.lonFirst m.lonIncr m.nLon b.west b.east hlon h1 with ⟨hh, _⟩ | ⟨f, l, _, e, k1, k2, _⟩
    · exact absurd hwe (by linarith)
    · exact ⟨f, l, e, k1, k2⟩
  obtain ⟨q, q', hr, q1, q2⟩ := hr
  obtain ⟨p, p', hp, p1, p2⟩ := hp
  by_cases hc : m.regular = false ∨ m.right = true ∨ m.vertical = true ∨ m.alternating = true
  · rw [cut_eq, if_pos hc]
    refine ⟨by simp, by simp only [true_iff]; rcases hc with h | h | h | h <;> simp [h]⟩
  · by_cases hv : m.values.length ≠ m.nLat * m.nLon
    · have e : cut m (some b) = .throws := by
        rw [cut_eq, if_neg hc, hr, hp]
        simp only [Res.bind, if_pos hv]
      rw [e]
      exact ⟨by simp, by simp [hv]⟩
    · have hv' : m.values.length = m.nLat * m.nLon := not_not.1 hv
      obtain ⟨out, k1, _⟩ := Slice.C03_slice_is_hyperrectangle m.values [m.nLon, m.nLat] [p, q] [p' - p, q' - q] (by simp)
        ⟨by omega, by omega, trivial⟩ (by simp [h1', h2']) (by simp [hv', Nat.mul_comm])
      have e1 : wsub p' p = p' - p := wsub_eq p1
      have e2 : wsub q' q = q' - q := wsub_eq q1
      rw [← e1, ← e2] at k1
      obtain ⟨m', hm', _⟩ := cut_of (la := (q, q')) (lo := (p, p')) hc hr hp hv k1
      rw [hm']
      simp only [not_or] at hc
      refine ⟨by simp, ?_⟩
      simp [hc.1, hc.2.1, hc.2.2.1, hc.2.2.2, hv']

/-- Specification: what is written for a message, and whether it is an error. -/
def output {V : Type} (ps : List Int) (bb : Option (Box K)) : Next K V → List (Message K V)
  | .message m => if ps = [] ∨ m.param ∈ ps then (match cut m bb with | .ok c => [c] | _ => []) else []
  | _ => []

def isError {V : Type} (ps : List Int) (bb : Option (Box K)) : Next K V → Bool
  | .message m => if ps = [] ∨ m.param ∈ ps then (match cut m bb with | .ok _ => false | _ => true) else false
  | .faulty _ => true
  | .nothing _ => false

omit [IsStrictOrderedRing K] in
theorem step_eq {V : Type} (ps : List Int) (bb : Option (Box K)) (s : Nat × List (Message K V)) (r : Next K V) (hu : ∀ m, r = .message m → cut m bb ≠ .ub) :
    step ps bb s r = .ok (s.1 + (if isError ps bb r then 1 else 0), s.2 ++ output ps bb r) := by
  cases r with
  | nothing e => simp [step, isError, output]
  | faulty m => simp [step, isError, output]
  | message m =>
    have := hu m rfl
    unfold step handle isError output
    by_cases hp : ps = [] ∨ m.param ∈ ps
    · simp only [if_pos hp]
      cases hc : cut m bb with
      | ok c => simp [Res.bind]
      | throws => simp [Res.bind]
      | ub => exact absurd hc this
    · simp only [if_neg hp]
      simp

omit [IsStrictOrderedRing K] in
theorem steps_eq {V : Type} (ps : List Int) (bb : Option (Box K)) : ∀ (rs : List (Next K V)) (s : Nat × List (Message K V)), (∀ m, .message m ∈ rs → cut m bb ≠ .ub) →
    steps ps bb s rs = .ok (s.1 + rs.countP (isError ps bb), s.2 ++ rs.flatMap (output ps bb))
  | [], s, _ => by simp [steps]
  | r :: rs, s, h => by
    rw [steps, step_eq ps bb s r (fun m e => h m (by simp [e]))]
    simp only [Res.bind]
    rw [steps_eq ps bb rs _ (fun m hm => h m (List.mem_cons_of_mem _ hm)), List.countP_cons, List.flatMap_cons]
    congr 2
    · omega
    · simp

omit [IsStrictOrderedRing K] in
/-- **C131.** Of all files one after the other, the messages with the parameters asked for are written, cut and in order; messages that are refused are left out and counted. -/
theorem C131_messages {V : Type} (ps : List Int) (bb : Option (Box K)) (files : List (List (Next K V))) (h : ∀ m, .message m ∈ files.flatten → cut m bb ≠ .ub) :
    ∀ s : Nat × List (Message K V), gribCut ps bb s (files.map some) = .ok (s.1 + files.flatten.countP (isError ps bb), s.2 ++ files.flatten.flatMap (output ps bb)) := by
  induction files with
  | nil => intro s; simp [gribCut]
  | cons f fs ih =>
    intro s
    rw [List.map_cons, gribCut, steps_eq ps bb f s (fun m hm => h m (by simp [hm]))]
    simp only [Res.bind]
    rw [ih (fun m hm => h m (by rw [List.flatten_cons]; exact List.mem_append_right _ hm)), List.flatten_cons, List.countP_append, List.flatMap_append]
    congr 2
    · omega
    · simp

/-- Of these messages one is not asked for, one has another grid, and one cannot be read. -/
example : [Next.message { sample with param := 7 }, .message { sample with regular := false }, .nothing true].countP (isError [130] (some ⟨70, 13, 68, 10⟩)) = 1 := by
  have h1 : isError [130] (some (⟨70, 13, 68, 10⟩ : Box ℚ)) (.message { sample with param := 7 }) = false := by decide +kernel
  have h2 : isError [130] (some (⟨70, 13, 68, 10⟩ : Box ℚ)) (.message { sample with regular := false }) = true := by decide +kernel
  have h3 : isError (V := Nat) [130] (some (⟨70, 13, 68, 10⟩ : Box ℚ)) (.nothing true) = false := by decide +kernel
  simp [h1, h2, h3]

omit [IsStrictOrderedRing K] in
/-- **C131.** Without a box messages are copied unchanged. -/
theorem C131_copy {V : Type} (files : List (List (Message K V))) :
    main (K := K) [] none (files.map fun f => some (f.map Next.message)) = .ok (0, files.flatten) := by
  unfold main
  have e : (files.map fun f => some (f.map (Next.message (K := K) (V := V)))) = (files.map fun f => f.map Next.message).map some := by
    rw [List.map_map]; rfl
  dsimp only
  rw [e, C131_messages [] none _ (fun m _ => by simp [cut])]
  have hf : (files.map fun f => f.map (Next.message (K := K) (V := V))).flatten = files.flatten.map Next.message := by
    rw [List.map_flatten]
  rw [hf]
  simp only [Res.bind]
  have e1 : (files.flatten.map (Next.message (K := K) (V := V))).countP (isError [] none) = 0 := by
    rw [List.countP_eq_zero]
    intro r hr
    obtain ⟨m, _, rfl⟩ := List.mem_map.1 hr
    simp [isError, cut]
  have e2 : (files.flatten.map (Next.message (K := K) (V := V))).flatMap (output [] none) = files.flatten := by
    generalize files.flatten = l
    induction l with
    | nil => rfl
    | cons m l ih => rw [List.map_cons, List.flatMap_cons, ih]; simp [output, cut]
  rw [e1, e2]
  rfl

omit [IsStrictOrderedRing K] in
/-- **C131.** Messages that cannot be read are not reported, and neither are 256 refused messages. -/
theorem C131_silent {V : Type} (m : Message K V) (b : Box K) (l : List K) (hb : readBox l = some b) (hm : m.regular = false) :
    main [] (some l) [some [.nothing true]] = (.ok (0, []) : Res (Nat × List (Message K V))) ∧ main [] (some l) [some (List.replicate 256 (.message m))] = .ok (0, []) := by
  have hc : cut m (some b) = .throws := by simp [cut, hm]
  have hmain : ∀ fs : List (Option (List (Next K V))), main [] (some l) fs = (gribCut [] (some b) (0, []) fs).bind fun r => .ok (exitCode r.1, r.2) := by
    intro fs
    unfold main
    simp only [hb]
  rw [hmain, hmain]
  constructor
  · rfl
  · have := C131_messages (V := V) [] (some b) [List.replicate 256 (.message m)] (by
      intro m' hm'
      simp only [List.flatten_cons, List.flatten_nil, List.append_nil] at hm'
      have := List.eq_of_mem_replicate hm'
      cases this
      rw [hc]; simp) (0, [])
    rw [List.map_cons, List.map_nil] at this
    rw [this]
    have e : isError [] (some b) (Next.message m) = true := by simp [isError, hc]
    have e' : output [] (some b) (Next.message m) = [] := by simp [output, hc]
    have e3 : (List.replicate 256 (Next.message m)).countP (isError [] (some b)) = 256 := by rw [List.countP_replicate, if_pos e]
    have e4 : (List.replicate 256 (Next.message m)).flatMap (output [] (some b)) = [] := by
      rw [List.flatMap_eq_nil_iff]
      intro r hr
      rw [List.eq_of_mem_replicate hr, e']
    simp only [List.flatten_cons, List.flatten_nil, List.append_nil, e3, e4]
    have e5 : exitCode (0 + 256) = 0 := by decide
    simp only [Res.bind, e5]

omit [IsStrictOrderedRing K] in
/-- **C131.** A box that is not in order or outside of the globe, or has less than four numbers, ends the program with code 1 and without output. -/
theorem C131_bad_box {V : Type} (ps : List Int) (l : List K) (files : List (Option (List (Next K V))))
    (h : ∀ n e s w r, l = n :: e :: s :: w :: r → ¬ (n ≤ 90 ∧ -90 ≤ s ∧ s ≤ n ∧ e ≤ 180 ∧ -180 ≤ w ∧ w ≤ e)) : main ps (some l) files = .ok (1, []) := by
  have e : readBox l = none := by
    cases hb : readBox l with
    | none => rfl
    | some b =>
      obtain ⟨r, hl, hb⟩ := (C131_box l b).1 hb
      exact absurd hb (h _ _ _ _ r hl)
  unfold main
  simp only [e]

/-- South above north. -/
example : main [] (some [60, 10, 70, 5]) [some [Next.message sample]] = .ok (1, []) := by
  refine C131_bad_box _ _ _ ?_
  intro n e s w r h
  simp only [List.cons.injEq] at h
  obtain ⟨rfl, rfl, rfl, rfl, rfl⟩ := h
  norm_num

end Fimex.GribCut
