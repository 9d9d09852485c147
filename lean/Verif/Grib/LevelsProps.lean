import Verif.Grib.Levels
import Verif.Grib.GridLemmas
import Verif.Scale.Props
import Mathlib.Tactic.Linarith
import Mathlib.Tactic.Ring
import Mathlib.Tactic.NormNum
import Mathlib.Tactic.FieldSimp
import Mathlib.Data.List.GetD

/-!
# Levels, parameters and values of GRIB messages (C111)
-/

namespace Fimex.GribLevels
open Fimex.GribGrid

set_option linter.unusedSectionVars false

variable {K : Type} [Field K] [LinearOrder K]

/-! ## Coefficients -/

/-- State of the loop after the levels from `i` on: the values are means of neighbours, the ends are 0. -/
structure Below (ap b : List K) (i : ℕ) (pv : List K) : Prop where
  len : pv.length = 2 * (ap.length + 1)
  endA : pv[ap.length]? = some 0
  endB : pv[2 * ap.length + 1]? = some 0
  stepA : ∀ k x, i ≤ k → ap[k]? = some x → ∃ p q, pv[k]? = some p ∧ pv[k + 1]? = some q ∧ p + q = 2 * x
  stepB : ∀ k x, i ≤ k → b[k]? = some x → ∃ p q, pv[ap.length + 1 + k]? = some p ∧ pv[ap.length + 1 + k + 1]? = some q ∧ p + q = 2 * x

omit [Field K] [LinearOrder K] in
theorem readZ_nat (a : List K) (i : ℕ) : readZ a (i : ℤ) = readAt a i := by
  simp [readZ]

omit [Field K] [LinearOrder K] in
theorem writeZ_nat (a : List K) (i : ℕ) (v : K) (h : i < a.length) : writeZ a (i : ℤ) v = .ok (a.set i v) := by
  simp [writeZ]
  omega

omit [LinearOrder K] in
theorem pvLoop_down (ap b : List K) (hb : b.length = ap.length) : ∀ (j : ℕ) (pv : List K), j ≤ ap.length → Below ap b j pv →
    ∃ pv', pvLoop ap b ap.length (-1) j ((j : ℤ) - 1) pv = .ok pv' ∧ Below ap b 0 pv' := by
  intro j
  induction j with
  | zero => exact fun pv _ h => ⟨pv, rfl, h⟩
  | succ j ih =>
    intro pv hj h
    obtain ⟨a, ha⟩ : ∃ a, ap[j]? = some a := ⟨ap[j], List.getElem?_eq_getElem (by omega)⟩
    obtain ⟨c, hc⟩ : ∃ c, b[j]? = some c := ⟨b[j]'(by omega), List.getElem?_eq_getElem (by omega)⟩
    have hl := h.len
    obtain ⟨p, hp⟩ : ∃ p, pv[j + 1]? = some p := ⟨pv[j + 1]'(by omega), List.getElem?_eq_getElem (by omega)⟩
    obtain ⟨q, hq⟩ : ∃ q, pv[ap.length + 1 + (j + 1)]? = some q := ⟨pv[ap.length + 1 + (j + 1)]'(by omega), List.getElem?_eq_getElem (by omega)⟩
    have e1 : ((j + 1 : ℕ) : ℤ) - 1 = (j : ℤ) := by push_cast; ring
    have e2 : (j : ℤ) - -1 = ((j + 1 : ℕ) : ℤ) := by push_cast; ring
    have e3 : (ap.length : ℤ) + 1 + ((j + 1 : ℕ) : ℤ) = ((ap.length + 1 + (j + 1) : ℕ) : ℤ) := by push_cast; ring
    have e4 : (ap.length : ℤ) + 1 + (j : ℤ) = ((ap.length + 1 + j : ℕ) : ℤ) := by push_cast; ring
    have e5 : (j : ℤ) + -1 = (j : ℤ) - 1 := by ring
    rw [e1, pvLoop, e2, e3, e4, e5]
    simp only [readZ_nat]
    rw [readAt, ha, Res.ok_bind, readAt, hp, Res.ok_bind, writeZ_nat _ _ _ (by omega), Res.ok_bind, readAt, hc, Res.ok_bind, readAt,
      List.getElem?_set_ne (by omega), hq, Res.ok_bind, writeZ_nat _ _ _ (by simp; omega), Res.ok_bind]
    refine ih _ (by omega) ⟨by simp [hl], ?_, ?_, ?_, ?_⟩
    · rw [List.getElem?_set_ne (by omega), List.getElem?_set_ne (by omega)]
      exact h.endA
    · rw [List.getElem?_set_ne (by omega), List.getElem?_set_ne (by omega)]
      exact h.endB
    · intro k x hk hx
      have hkl : k < ap.length := (List.getElem?_eq_some_iff.1 hx).1
      by_cases hkj : k = j
      · subst hkj
        rw [ha] at hx
        obtain rfl : a = x := by simpa using hx
        refine ⟨2 * a - p, p, ?_, ?_, by ring⟩
        · rw [List.getElem?_set_ne (by omega), List.getElem?_set_self (by omega)]
        · rw [List.getElem?_set_ne (by omega), List.getElem?_set_ne (by omega)]
          exact hp
      · obtain ⟨p', q', h1, h2, h3⟩ := h.stepA k x (by omega) hx
        refine ⟨p', q', ?_, ?_, h3⟩
        · rw [List.getElem?_set_ne (by omega), List.getElem?_set_ne (by omega)]
          exact h1
        · rw [List.getElem?_set_ne (by omega), List.getElem?_set_ne (by omega)]
          exact h2
    · intro k x hk hx
      have hkl : k < b.length := (List.getElem?_eq_some_iff.1 hx).1
      by_cases hkj : k = j
      · subst hkj
        rw [hc] at hx
        obtain rfl : c = x := by simpa using hx
        refine ⟨2 * c - q, q, ?_, ?_, by ring⟩
        · rw [List.getElem?_set_self (by simp; omega)]
        · rw [List.getElem?_set_ne (by omega), List.getElem?_set_ne (by omega)]
          exact hq
      · obtain ⟨p', q', h1, h2, h3⟩ := h.stepB k x (by omega) hx
        refine ⟨p', q', ?_, ?_, h3⟩
        · rw [List.getElem?_set_ne (by omega), List.getElem?_set_ne (by omega)]
          exact h1
        · rw [List.getElem?_set_ne (by omega), List.getElem?_set_ne (by omega)]
          exact h2

omit [LinearOrder K] in
/-- Going up from the second level reads behind the coefficients. -/
theorem pvLoop_up (ap b : List K) (n : ℕ) (hn : ap.length = n) (hb : b.length = n) : ∀ (j i : ℕ) (pv : List K), 1 ≤ i → 1 ≤ j →
    i + j = n + 1 → pv.length = 2 * (n + 1) → pvLoop ap b n 1 j (i : ℤ) pv = .ub := by
  intro j
  induction j with
  | zero => intro i pv _ h; omega
  | succ j ih =>
    intro i pv hi _ hij hl
    rw [pvLoop]
    have e1 : (i : ℤ) - 1 = ((i - 1 : ℕ) : ℤ) := by omega
    have e3 : (n : ℤ) + 1 + ((i - 1 : ℕ) : ℤ) = ((n + 1 + (i - 1) : ℕ) : ℤ) := by push_cast; ring
    have e4 : (n : ℤ) + 1 + (i : ℤ) = ((n + 1 + i : ℕ) : ℤ) := by push_cast; ring
    have e5 : (i : ℤ) + 1 = ((i + 1 : ℕ) : ℤ) := by push_cast; ring
    rw [e1, e3, e4, e5]
    simp only [readZ_nat]
    by_cases h0 : j = 0
    · have : ap[i]? = none := List.getElem?_eq_none (by omega)
      simp [readAt, this]
    · obtain ⟨a, ha⟩ : ∃ a, ap[i]? = some a := ⟨ap[i], List.getElem?_eq_getElem (by omega)⟩
      obtain ⟨c, hc⟩ : ∃ c, b[i]? = some c := ⟨b[i]'(by omega), List.getElem?_eq_getElem (by omega)⟩
      obtain ⟨p, hp⟩ : ∃ p, pv[i - 1]? = some p := ⟨pv[i - 1]'(by omega), List.getElem?_eq_getElem (by omega)⟩
      obtain ⟨q, hq⟩ : ∃ q, pv[n + 1 + (i - 1)]? = some q := ⟨pv[n + 1 + (i - 1)]'(by omega), List.getElem?_eq_getElem (by omega)⟩
      rw [readAt, ha, Res.ok_bind, readAt, hp, Res.ok_bind, writeZ_nat _ _ _ (by omega), Res.ok_bind, readAt, hc, Res.ok_bind, readAt,
        List.getElem?_set_ne (by omega), hq, Res.ok_bind, writeZ_nat _ _ _ (by simp; omega), Res.ok_bind]
      exact ih (i + 1) _ (by omega) (by omega) (by omega) (by simp [hl])

theorem hybridPv_down (ap b : List K) (hb : b.length = ap.length) (x y : K) (hx : b[0]? = some x) (hy : b[b.length - 1]? = some y)
    (hxy : x < y) : ∃ pv, hybridPv ap b = .ok pv ∧ Below ap b 0 pv := by
  have hl : 0 < b.length := (List.getElem?_eq_some_iff.1 hx).1
  have e1 : (b.length : ℤ) - 1 = ((b.length - 1 : ℕ) : ℤ) := by omega
  have e0 : (0 : ℤ) = ((0 : ℕ) : ℤ) := rfl
  have hst : Below ap b ap.length (List.replicate (2 * (ap.length + 1)) (0 : K)) := by
    refine ⟨by simp, ?_, ?_, ?_, ?_⟩
    · rw [List.getElem?_replicate, if_pos (by omega)]
    · rw [List.getElem?_replicate, if_pos (by omega)]
    · intro k x hk hx
      have := (List.getElem?_eq_some_iff.1 hx).1
      omega
    · intro k x hk hx
      have := (List.getElem?_eq_some_iff.1 hx).1
      omega
  obtain ⟨pv, h1, h2⟩ := pvLoop_down ap b hb ap.length _ le_rfl hst
  refine ⟨pv, ?_, h2⟩
  unfold hybridPv
  simp only [hb, ne_eq, not_true_eq_false, if_false]
  rw [← hb, e0, readZ_nat, readAt, hx, Res.ok_bind, e1, readZ_nat, readAt, hy, Res.ok_bind, if_pos hxy, ← e1]
  rw [hb]
  exact h1

/-- **C111.** Coefficients are written exactly if there are as many of one kind as of the other and those of the surface grow from the
first to the last level; different numbers raise an error, and everything else is undefined behaviour: no level at all, and all
axes with the surface first. -/
theorem C111_written (ap b : List K) :
    (b.length ≠ ap.length → hybridPv ap b = .throws) ∧
    (b.length = ap.length → ((∃ pv, hybridPv ap b = .ok pv) ↔ ∃ x y, b.head? = some x ∧ b.getLast? = some y ∧ x < y)) ∧
    (b.length = ap.length → (hybridPv ap b = .ub ↔ b = [] ∨ ∃ x y, b.head? = some x ∧ b.getLast? = some y ∧ y ≤ x)) := by
  refine ⟨fun h => by simp [hybridPv, h], ?_⟩
  rw [← forall_and]
  intro hb
  rcases List.eq_nil_or_concat b with h0 | ⟨l, z, hz⟩
  · subst h0
    have : hybridPv ap ([] : List K) = .ub := by
      have : ap = [] := List.length_eq_zero_iff.1 (by simpa using hb.symm)
      subst this
      simp [hybridPv, readZ, readAt]
    simp [this]
  · have hlen : 0 < b.length := by rw [hz]; simp
    obtain ⟨x, hx⟩ : ∃ x, b[0]? = some x := ⟨b[0], List.getElem?_eq_getElem hlen⟩
    have hy : b[b.length - 1]? = some z := by rw [hz]; simp
    have hhead : b.head? = some x := by rw [← hx]; cases b <;> simp
    have hlast : b.getLast? = some z := by rw [List.getLast?_eq_getElem?]; exact hy
    have hne : b ≠ [] := by rintro rfl; simp at hlen
    rw [hhead, hlast]
    by_cases hxy : x < z
    · obtain ⟨pv, h1, -⟩ := hybridPv_down ap b hb x z hx hy hxy
      rw [h1]
      refine ⟨⟨fun _ => ⟨x, z, rfl, rfl, hxy⟩, fun _ => ⟨pv, rfl⟩⟩, ⟨(by intro h; cases h), ?_⟩⟩
      rintro (h | ⟨x', y', h1, h2, h3⟩)
      · exact absurd h hne
      · simp only [Option.some.injEq] at h1 h2
        subst h1 h2
        exact absurd hxy (not_lt.2 h3)
    · have hub : hybridPv ap b = .ub := by
        have e1 : (b.length : ℤ) - 1 = ((b.length - 1 : ℕ) : ℤ) := by omega
        have e0 : (0 : ℤ) = ((0 : ℕ) : ℤ) := rfl
        unfold hybridPv
        simp only [hb, ne_eq, not_true_eq_false, if_false]
        rw [← hb, e0, readZ_nat, readAt, hx, Res.ok_bind, e1, readZ_nat, readAt, hy, Res.ok_bind, if_neg hxy]
        rw [hb]
        have := pvLoop_up ap b ap.length rfl hb ap.length 1 (List.replicate (2 * (ap.length + 1)) (0 : K)) le_rfl (by omega) (by omega)
          (by simp)
        exact_mod_cast this
      rw [hub]
      refine ⟨⟨fun ⟨_, h⟩ => (by cases h), ?_⟩, ⟨fun _ => .inr ⟨x, z, rfl, rfl, not_lt.1 hxy⟩, fun _ => rfl⟩⟩
      rintro ⟨x', y', h1, h2, h3⟩
      simp only [Option.some.injEq] at h1 h2
      subst h1 h2
      exact absurd h3 hxy

/-! ### Reading -/

/-- What an element of mode `half` gives for a level: the first value for l of the n levels below, else nothing is said. -/
theorem halfValue_written (ap b pv : List K) (hb : b.length = ap.length) (h : Below ap b 0 pv) [CharZero K] (l : ℕ) (h1 : 1 ≤ l) (hl : l ≤ ap.length)
    (x y : K) (hx : ap[l - 1]? = some x) (hy : b[l - 1]? = some y) :
    halfValue false pv l = .ok x ∧ halfValue true pv l = .ok y := by
  have hlen := h.len
  have two : (2 : K) ≠ 0 := by norm_num
  obtain ⟨p, q, e1, e2, e3⟩ := h.stepA (l - 1) x (Nat.zero_le _) hx
  obtain ⟨p', q', f1, f2, f3⟩ := h.stepB (l - 1) y (Nat.zero_le _) hy
  have hh : pv.length / 2 = ap.length + 1 := by omega
  rw [show ap.length + 1 + (l - 1) = ap.length + 1 + l - 1 by omega] at f1 f2
  constructor
  · unfold halfValue
    simp only [Bool.false_eq_true, if_false, Nat.zero_add]
    rw [if_neg (by omega), if_pos (by omega), if_pos (by omega), readAt, e1, Res.ok_bind, readAt, e2, Res.ok_bind, e3]
    congr 1
    field_simp
  · unfold halfValue
    simp only [if_true, hh]
    rw [if_neg (by omega), if_pos (by omega), if_pos (by omega), readAt, f1, Res.ok_bind, readAt, f2, Res.ok_bind, f3]
    congr 1
    field_simp

/-- **C111.** The coefficients of hybrid levels that are written are read again, for any levels of the axis in any order, times the
scale factor of the configuration of the reader. -/
theorem C111_read_again [CharZero K] (ap b pv : List K) (hw : hybridPv ap b = .ok pv) (lv : List ℕ) (hlv : ∀ l ∈ lv, 1 ≤ l ∧ l ≤ ap.length)
    (hn : lv.length ≤ ap.length) (k : K) :
    readValues [(.half false, some k)] pv lv = .ok (lv.map fun l => ap.getD (l - 1) 0 * k) ∧
    readValues [(.half true, some k)] pv lv = .ok (lv.map fun l => b.getD (l - 1) 0 * k) := by
  have hb : b.length = ap.length := by
    by_contra h
    rw [(C111_written ap b).1 h] at hw
    cases hw
  obtain ⟨x, y, hx, hy, hxy⟩ := ((C111_written ap b).2.1 hb).1 ⟨pv, hw⟩
  have hx' : b[0]? = some x := by rw [← hx]; cases b <;> simp
  rw [List.getLast?_eq_getElem?] at hy
  obtain ⟨pv', h1, hB⟩ := hybridPv_down ap b hb x y hx' hy hxy
  rw [hw] at h1
  obtain rfl : pv = pv' := by simpa using h1
  have hlen := hB.len
  have hv : ∀ l ∈ lv, halfValue false pv l = .ok (ap.getD (l - 1) 0) ∧ halfValue true pv l = .ok (b.getD (l - 1) 0) := by
    intro l hl
    obtain ⟨a1, a2⟩ := hlv l hl
    have ha : ap[l - 1]? = some (ap.getD (l - 1) 0) := by
      rw [List.getD_eq_getElem?_getD, List.getElem?_eq_getElem (by omega)]; rfl
    have hc : b[l - 1]? = some (b.getD (l - 1) 0) := by
      rw [List.getD_eq_getElem?_getD, List.getElem?_eq_getElem (by omega)]; rfl
    exact halfValue_written ap b pv hb hB l a1 a2 _ _ ha hc
  have hle : ¬ pv.length / 2 < lv.length := by omega
  constructor
  · simp only [readValues, collect, modeValues, if_neg hle, Scale.mapM_eq _ _ _ (fun l hl => (hv l hl).1)]
    simp [List.map_map, Function.comp_def]
  · simp only [readValues, collect, modeValues, if_neg hle, Scale.mapM_eq _ _ _ (fun l hl => (hv l hl).2)]
    simp [List.map_map, Function.comp_def]

theorem map_levels (xs : List K) : (List.range' 1 xs.length).map (fun l => xs.getD (l - 1) 0 * 1) = xs := by
  apply List.ext_getElem
  · simp
  · intro i h1 h2
    simp [List.getD_eq_getElem?_getD, List.getElem?_eq_getElem h2]

/-- **C111.** The levels of a message are the positions from 1 (`C111_hybrid_level`); read for all of them, the axis has the same
coefficients. -/
theorem C111_all_levels [CharZero K] (ap b pv : List K) (hw : hybridPv ap b = .ok pv) :
    readValues [(.half false, some 1)] pv (List.range' 1 ap.length) = .ok ap ∧
    readValues [(.half true, some 1)] pv (List.range' 1 ap.length) = .ok b := by
  have hb : b.length = ap.length := by
    by_contra h
    rw [(C111_written ap b).1 h] at hw
    cases hw
  obtain ⟨h1, h2⟩ := C111_read_again ap b pv hw (List.range' 1 ap.length) (by intro l hl; simp [List.mem_range'_1] at hl; omega) (by simp) 1
  rw [h1, h2, map_levels]
  refine ⟨rfl, ?_⟩
  rw [← hb, map_levels]

/-- **C111, fails.** The coefficients at the border below the last level, which is the surface, are 0 for the pressure and 0 for the
surface pressure, whatever the axis: the surface is written with the pressure 0. -/
theorem C111_surface (ap b pv : List K) (hw : hybridPv ap b = .ok pv) : pv[ap.length]? = some 0 ∧ pv[2 * ap.length + 1]? = some 0 := by
  have hb : b.length = ap.length := by
    by_contra h
    rw [(C111_written ap b).1 h] at hw
    cases hw
  obtain ⟨x, y, hx, hy, hxy⟩ := ((C111_written ap b).2.1 hb).1 ⟨pv, hw⟩
  have hx' : b[0]? = some x := by rw [← hx]; cases b <;> simp
  rw [List.getLast?_eq_getElem?] at hy
  obtain ⟨pv', h1, hB⟩ := hybridPv_down ap b hb x y hx' hy hxy
  rw [hw] at h1
  obtain rfl : pv = pv' := by simpa using h1
  exact ⟨hB.endA, hB.endB⟩

/-- **C111.** The reader on any array of 2(n + 1) coefficients: levels from 1 to n are means of neighbours of the same half; level
0 raises an error for the first half, but for the second half is the mean over both halves, and so is level n + 1 for the first
half; levels above raise errors or are values of the other half. -/
theorem C111_halves (pv : List K) (n : ℕ) (hn : pv.length = 2 * (n + 1)) :
    (∀ l, 1 ≤ l → l ≤ n → halfValue false pv l = .ok ((pv.getD (l - 1) 0 + pv.getD l 0) / 2) ∧
      halfValue true pv l = .ok ((pv.getD (n + l) 0 + pv.getD (n + 1 + l) 0) / 2)) ∧
    halfValue false pv 0 = .throws ∧ halfValue true pv 0 = .ok ((pv.getD n 0 + pv.getD (n + 1) 0) / 2) ∧
    halfValue false pv (n + 1) = .ok ((pv.getD n 0 + pv.getD (n + 1) 0) / 2) ∧ halfValue true pv (n + 1) = .ok (pv.getD (2 * n + 1) 0) ∧
    (∀ l, n + 2 ≤ l → halfValue true pv l = .throws) := by
  have hh : pv.length / 2 = n + 1 := by omega
  have rd : ∀ i, i < pv.length → readAt pv i = .ok (pv.getD i 0) := by
    intro i hi
    rw [readAt, List.getElem?_eq_getElem hi, List.getD_eq_getElem?_getD, List.getElem?_eq_getElem hi]
    rfl
  have key1 : ∀ l, 1 ≤ l → l < pv.length → halfValue false pv l = .ok ((pv.getD (l - 1) 0 + pv.getD l 0) / 2) := by
    intro l h1 h2
    unfold halfValue
    simp only [Bool.false_eq_true, if_false, Nat.zero_add]
    rw [if_neg (by omega), if_pos (by omega), if_pos (by omega), rd _ (by omega), Res.ok_bind, rd _ (by omega), Res.ok_bind,
      show l - 1 + 1 = l by omega]
  have key2 : ∀ l, n + 1 + l < pv.length → halfValue true pv l = .ok ((pv.getD (n + l) 0 + pv.getD (n + 1 + l) 0) / 2) := by
    intro l h2
    unfold halfValue
    simp only [if_true, hh]
    rw [if_neg (by omega), if_pos (by omega), if_pos (by omega), rd _ (by omega), Res.ok_bind, rd _ (by omega), Res.ok_bind,
      show n + 1 + l - 1 + 1 = n + 1 + l by omega, show n + 1 + l - 1 = n + l by omega]
  refine ⟨fun l h1 h2 => ⟨key1 l h1 (by omega), key2 l (by omega)⟩, ?_, ?_, ?_, ?_, ?_⟩
  · simp [halfValue]
  · have := key2 0 (by omega)
    simpa using this
  · have := key1 (n + 1) (by omega) (by omega)
    simpa using this
  · unfold halfValue
    simp only [if_true, hh]
    rw [if_neg (by omega), if_pos (by omega), if_neg (by omega), rd _ (by omega), show pv.length - 1 = 2 * n + 1 by omega]
  · intro l hl
    unfold halfValue
    simp only [if_true, hh]
    rw [if_neg (by omega), if_neg (by omega)]

/-- **C111, fails.** Without means: the value of a level l ≥ 1 is that at position l of its half, counted from 1; level 0 of the second
half is the last of the first half, and the last value of the array is never read: its level raises an error. -/
theorem C111_extra (pv : List K) (n : ℕ) (hn : pv.length = 2 * n) (h0 : 0 < n) :
    (∀ l, 1 ≤ l → l ≤ n → extraValue false pv l = .ok (pv.getD (l - 1) 0)) ∧
    (∀ l, 1 ≤ l → l < n → extraValue true pv l = .ok (pv.getD (n + l - 1) 0)) ∧
    extraValue true pv 0 = .ok (pv.getD (n - 1) 0) ∧ extraValue true pv n = .throws := by
  have hh : pv.length / 2 = n := by omega
  have rd : ∀ i, i < pv.length → readAt pv i = .ok (pv.getD i 0) := by
    intro i hi
    rw [readAt, List.getElem?_eq_getElem hi, List.getD_eq_getElem?_getD, List.getElem?_eq_getElem hi]
    rfl
  refine ⟨fun l h1 h2 => ?_, fun l h1 h2 => ?_, ?_, ?_⟩
  · unfold extraValue
    simp only [Bool.false_eq_true, if_false, Nat.zero_add]
    rw [if_pos (by omega), if_neg (by omega), rd _ (by omega)]
  · unfold extraValue
    simp only [if_true, hh]
    rw [if_pos (by omega), if_neg (by omega), rd _ (by omega)]
  · unfold extraValue
    simp only [if_true, hh]
    rw [if_pos (by omega), if_neg (by omega), rd _ (by omega)]
    rfl
  · unfold extraValue
    simp only [if_true, hh]
    rw [if_neg (by omega)]

/-- The product of the scale factors of elements. -/
def factor (nodes : List (Mode K × Option K)) : K := (nodes.map fun n => n.2.getD 1).prod

/-- The values by the elements, one after the other, each times its own factor and those of all elements after it. -/
def scaled (pv : List K) (lv : List ℕ) : List (Mode K × Option K) → Res (List K)
  | [] => .ok []
  | n :: rest => do
    let vs ← modeValues pv lv n.1
    let more ← scaled pv lv rest
    .ok (vs.map (· * factor (n :: rest)) ++ more)

theorem collect_spec (pv : List K) (lv : List ℕ) : ∀ (nodes : List (Mode K × Option K)) (acc : List K),
    collect pv lv nodes acc = (do let more ← scaled pv lv nodes; .ok (acc.map (· * factor nodes) ++ more)) := by
  intro nodes
  induction nodes with
  | nil => intro acc; simp [collect, scaled, factor]
  | cons n rest ih =>
    obtain ⟨m, s⟩ := n
    intro acc
    rw [collect, scaled]
    cases hm : modeValues pv lv m with
    | throws => rfl
    | ub => rfl
    | ok vs =>
      rw [Res.ok_bind, Res.ok_bind, ih]
      cases hs : scaled pv lv rest with
      | throws => rfl
      | ub => rfl
      | ok more =>
        rw [Res.ok_bind, Res.ok_bind, Res.ok_bind]
        congr 1
        have hf : factor ((m, s) :: rest) = s.getD 1 * factor rest := by simp [factor]
        rw [hf]
        cases s with
        | none => simp
        | some k => simp [List.map_append, List.map_map, Function.comp_def, mul_assoc]

/-- **C111.** Values of several elements follow each other; the factor of an element applies to all values up to it, so that each is
multiplied by all factors from its own on. Without elements the values are the levels of the messages. -/
theorem C111_elements (nodes : List (Mode K × Option K)) (pv : List K) (lv : List ℕ) :
    readValues nodes pv lv = if nodes.length = 0 then .ok (lv.map (fun (i : ℕ) => (i : K))) else scaled pv lv nodes := by
  unfold readValues
  by_cases h : nodes = []
  · simp [h]
  · rw [if_neg h, if_neg (by simpa using h), collect_spec]
    cases scaled pv lv nodes <;> simp

/-! ## Levels -/

/-- **C111.** The levels of an axis with one entry in the configuration, given in the unit and packing of that entry: unpacked,
converted, packed. Without such an entry they are unpacked only, several entries raise an error. A variable without axis has the
level of the configuration, which must be there. -/
theorem C111_levels (U : Units K) (cfg : List (AxisConfig K)) (axis : Option (Axis K)) (es : List (Entry K)) (hes : entriesFor U cfg axis = .ok es) :
    (∀ e a c, es = [e] → axis = some a → a.data ≠ [] → e.scale.getD 1 ≠ 0 →
      (match e.units, a.units with | some g, some u => U.convert u g = .ok c | _, _ => c = (1, 0)) →
      getLevels U cfg axis = .ok (a.data.map fun x => some ((((x * a.scale + a.offset) * c.1 + c.2) - e.offset.getD 0) / e.scale.getD 1))) ∧
    (∀ e v, es = [e] → axis = none → e.value = some v → e.scale.getD 1 ≠ 0 →
      getLevels U cfg axis = .ok [some ((v - e.offset.getD 0) / e.scale.getD 1)]) ∧
    (∀ e, es = [e] → axis = none → e.value = none → getLevels U cfg axis = .throws) ∧
    (∀ a, es = [] → axis = some a → getLevels U cfg axis = .ok (a.data.map fun x => some (x * a.scale + a.offset))) ∧
    (2 ≤ es.length → getLevels U cfg axis = .throws) := by
  have un : ∀ s o x : K, s ≠ 0 → unscale s o x = some ((x - o) / s) := by
    intro s o x h
    rw [unscale, if_neg h]
    congr 1
    field_simp
    ring
  refine ⟨?_, ?_, ?_, ?_, ?_⟩
  · rintro e a c rfl rfl hd hs hc
    obtain ⟨x, xs, hx⟩ : ∃ x xs, a.data = x :: xs := by
      cases hh : a.data with
      | nil => exact absurd hh hd
      | cons x xs => exact ⟨x, xs, rfl⟩
    unfold getLevels
    rw [hes, Res.ok_bind]
    simp only [hx, List.map_cons, Res.ok_bind, Option.bind_some]
    cases hu : e.units with
    | none =>
      rw [hu] at hc
      obtain rfl : c = (1, 0) := hc
      simp [un _ _ _ hs]
    | some g =>
      cases hv : a.units with
      | none =>
        rw [hu, hv] at hc
        obtain rfl : c = (1, 0) := hc
        simp [un _ _ _ hs]
      | some u =>
        rw [hu, hv] at hc
        simp only at hc
        simp [hc, un _ _ _ hs]
  · rintro e v rfl rfl hv hs
    unfold getLevels
    rw [hes, Res.ok_bind]
    simp only [hv, Res.ok_bind, Option.bind_none]
    cases e.units <;> simp [un _ _ _ hs]
  · rintro e rfl rfl hv
    unfold getLevels
    rw [hes, Res.ok_bind]
    simp only [hv]
    rfl
  · rintro a rfl rfl
    unfold getLevels
    rw [hes, Res.ok_bind]
    simp [List.map_map, Function.comp_def]
  · intro h
    unfold getLevels
    rw [hes, Res.ok_bind]
    match es, h with
    | _ :: _ :: _, _ => rfl

section
variable [IsStrictOrderedRing K] [FloorRing K]

theorem toLong_spec (x : K) (t : ℤ) (h : toLong x = .ok t) : |(t : K) - x| < 1 ∧ |(t : K)| ≤ |x| ∧ ((t : K) = x ↔ ∃ z : ℤ, x = z) := by
  unfold toLong at h
  simp only at h
  by_cases hr : -2 ^ 63 ≤ (if 0 ≤ x then ⌊x⌋ else ⌈x⌉) ∧ (if 0 ≤ x then ⌊x⌋ else ⌈x⌉) < 2 ^ 63
  · rw [if_pos hr] at h
    have ht : (if 0 ≤ x then ⌊x⌋ else ⌈x⌉) = t := by simpa using h
    by_cases hx : 0 ≤ x
    · rw [if_pos hx] at ht
      subst ht
      have h1 := Int.floor_le x
      have h2 := Int.lt_floor_add_one x
      have h3 : (0 : K) ≤ (⌊x⌋ : K) := by exact_mod_cast Int.floor_nonneg.2 hx
      refine ⟨by rw [abs_lt]; constructor <;> linarith, by rw [abs_of_nonneg h3, abs_of_nonneg hx]; exact h1, fun e => ⟨_, e.symm⟩, ?_⟩
      rintro ⟨z, rfl⟩
      simp
    · rw [if_neg hx] at ht
      subst ht
      have h1 := Int.le_ceil x
      have h2 := Int.ceil_lt_add_one x
      have hx' : x < 0 := not_le.1 hx
      have h3 : (⌈x⌉ : K) ≤ 0 := by exact_mod_cast Int.ceil_le.2 (by simpa using hx'.le)
      refine ⟨by rw [abs_lt]; constructor <;> linarith, by rw [abs_of_nonpos h3, abs_of_neg hx']; linarith, fun e => ⟨_, e.symm⟩, ?_⟩
      rintro ⟨z, rfl⟩
      simp
  · rw [if_neg hr] at h
    cases h

/-- **C111.** The level in a message, unpacked by the packing of the entry, is the level of the axis up to less than the scale
factor, and equal to it exactly if the packed level is a whole number; levels that do not fit 64 bits are undefined
behaviour. Both editions. -/
theorem C111_level_kept (U : Units K) (cfg : List (AxisConfig K)) (axis : Option (Axis K)) (e : Entry K) (hes : entriesFor U cfg axis = .ok [e])
    (he : e.id ≠ 105) (s o w : K) (hs : s ≠ 0) (hyb : Option (List K × List K)) (pos : ℕ) :
    (∃ t : ℤ, (setLevel1 U cfg axis (some ((w - o) / s))).keys = [("indicatorOfTypeOfLevel", .long e.id), ("level", .long t)] ∧
      (setLevel1 U cfg axis (some ((w - o) / s))).out = .ok () ∧
      (setLevel2 U cfg axis hyb (some ((w - o) / s)) pos).keys = [("levelType", .long e.id), ("level", .long t)] ∧
      (setLevel2 U cfg axis hyb (some ((w - o) / s)) pos).out = .ok () ∧
      |(t : K) * s + o - w| < |s| ∧ ((t : K) * s + o = w ↔ ∃ z : ℤ, w = z * s + o)) ∨
    ((2 : K) ^ 63 ≤ |(w - o) / s| ∧ (setLevel1 U cfg axis (some ((w - o) / s))).out = .ub ∧
      (setLevel2 U cfg axis hyb (some ((w - o) / s)) pos).out = .ub) := by
  cases ht : toLong ((w - o) / s) with
  | ok t =>
    refine .inl ⟨t, ?_⟩
    obtain ⟨h1, -, h3⟩ := toLong_spec _ _ ht
    refine ⟨by simp [setLevel1, hes, need, put, levelLong, ht, done], by simp [setLevel1, hes, need, put, levelLong, ht, done],
      by simp [setLevel2, hes, he, need, put, levelLong, ht, done], by simp [setLevel2, hes, he, need, put, levelLong, ht, done], ?_, ?_⟩
    · have e1 : (t : K) * s + o - w = ((t : K) - (w - o) / s) * s := by field_simp; ring
      rw [e1, abs_mul]
      calc |(t : K) - (w - o) / s| * |s| < 1 * |s| := mul_lt_mul_of_pos_right h1 (abs_pos.2 hs)
        _ = |s| := one_mul _
    · constructor
      · intro h; exact ⟨t, h.symm⟩
      · rintro ⟨z, rfl⟩
        have : (t : K) = ((z : K) * s + o - o) / s := h3.2 ⟨z, by field_simp; ring⟩
        rw [this]
        field_simp
        ring
  | throws =>
    unfold toLong at ht
    simp only at ht
    by_cases hr : -2 ^ 63 ≤ (if 0 ≤ (w - o) / s then ⌊(w - o) / s⌋ else ⌈(w - o) / s⌉) ∧ (if 0 ≤ (w - o) / s then ⌊(w - o) / s⌋ else ⌈(w - o) / s⌉) < 2 ^ 63
    · rw [if_pos hr] at ht; cases ht
    · rw [if_neg hr] at ht; cases ht
  | ub =>
    refine .inr ⟨?_, by simp [setLevel1, hes, need, put, levelLong, ht], by simp [setLevel2, hes, he, need, put, levelLong, ht]⟩
    unfold toLong at ht
    simp only at ht
    by_contra hlt
    rw [not_le, abs_lt] at hlt
    have hno : ¬ (-2 ^ 63 ≤ (if 0 ≤ (w - o) / s then ⌊(w - o) / s⌋ else ⌈(w - o) / s⌉) ∧ (if 0 ≤ (w - o) / s then ⌊(w - o) / s⌋ else ⌈(w - o) / s⌉) < 2 ^ 63) := by
      intro h
      rw [if_pos h] at ht
      cases ht
    apply hno
    by_cases hx : 0 ≤ (w - o) / s
    · rw [if_pos hx]
      have := Int.floor_nonneg.2 hx
      exact ⟨by linarith, Int.floor_lt.2 (by have := hlt.2; push_cast; norm_num at this ⊢; exact this)⟩
    · rw [if_neg hx]
      have h0 : ⌈(w - o) / s⌉ ≤ 0 := Int.ceil_le.2 (by simpa using (not_le.1 hx).le)
      have h1 : (((-2 : ℤ) ^ 63 : ℤ) : K) < (⌈(w - o) / s⌉ : K) := by
        have := Int.le_ceil ((w - o) / s)
        have h2 := hlt.1
        push_cast
        norm_num at h2 ⊢
        linarith
      have h3 : (-2 : ℤ) ^ 63 < ⌈(w - o) / s⌉ := by exact_mod_cast h1
      constructor
      · have : (-2 : ℤ) ^ 63 = -2 ^ 63 := by norm_num
        omega
      · have : (0 : ℤ) < 2 ^ 63 := by norm_num
        omega

/-- **C111.** Hybrid levels of edition 2 have their position from 1 as level, whatever the value; the coefficients are needed. Without
a transformation the coefficients of the message before stay. -/
theorem C111_hybrid_level (U : Units K) (cfg : List (AxisConfig K)) (axis : Option (Axis K)) (e : Entry K) (hes : entriesFor U cfg axis = .ok [e])
    (he : e.id = 105) (level : Option K) (pos : ℕ) :
    (∀ ap b pv, hybridPv ap b = .ok pv → (setLevel2 U cfg axis (some (ap, b)) level pos).out = .ok () ∧
      (setLevel2 U cfg axis (some (ap, b)) level pos).keys = [("levelType", .long 105), ("PVPresent", .long 1), ("level", .long (pos + 1))]) ∧
    (∀ ap b, hybridPv ap b = .throws → (setLevel2 U cfg axis (some (ap, b)) level pos).out = .throws) ∧
    (∀ ap b, hybridPv ap b = .ub → (setLevel2 U cfg axis (some (ap, b)) level pos).out = .ub) ∧
    (setLevel2 U cfg axis none level pos).keys = [("levelType", .long 105), ("level", .long (pos + 1))] := by
  refine ⟨fun ap b pv h => ?_, fun ap b h => ?_, fun ap b h => ?_, ?_⟩ <;> simp [setLevel2, need, put, raise, done, *]

/-- **C111.** An axis that is not in the configuration, or more than once, gives no level. -/
theorem C111_no_level (U : Units K) (cfg : List (AxisConfig K)) (axis : Option (Axis K)) (es : List (Entry K)) (hes : entriesFor U cfg axis = .ok es)
    (h : es.length ≠ 1) (hyb : Option (List K × List K)) (level : Option K) (pos : ℕ) :
    setLevel1 U cfg axis level = ⟨[], .throws⟩ ∧ setLevel2 U cfg axis hyb level pos = ⟨[], .throws⟩ := by
  match es, h with
  | [], _ => simp [setLevel1, setLevel2, hes, need, raise]
  | _ :: _ :: _, _ => simp [setLevel1, setLevel2, hes, need, raise]

/-! ## Parameters -/

/-- **C111.** The parameter of a variable and level: the only element with its name, or if there is none with its name the only one with its
standard name, which has no level or the same level up to a millionth. -/
theorem C111_parameter_found (C : ParamConfig K) (name : String) (std : Option String) (level : Option K) (n : Param K) :
    getNode C name std level = .ok n ↔
      (C.byName name = [n] ∨ C.byName name = [] ∧ ∃ s, std = some s ∧ C.byStd s = [n]) ∧
      (n.level = none ∨ ∃ x l, n.level = some x ∧ level = some l ∧ |l - x| < 1 / 1000000 * l) := by
  have hnodes : nodesOf C name std = [n] ↔ (C.byName name = [n] ∨ C.byName name = [] ∧ ∃ s, std = some s ∧ C.byStd s = [n]) := by
    unfold nodesOf
    by_cases h : C.byName name = []
    · cases std <;> simp [h]
    · simp [h]
  rw [← hnodes]
  unfold getNode
  constructor
  · intro h
    match hn : nodesOf C name std, h with
    | [m], h =>
      simp only at h
      cases hm : m.level with
      | none =>
        rw [hm] at h
        obtain rfl : m = n := by simpa using h
        exact ⟨rfl, .inl hm⟩
      | some x =>
        rw [hm] at h
        cases level with
        | none => simp at h
        | some l =>
          simp only at h
          by_cases hc : |l - x| < 1 / 1000000 * l
          · rw [if_pos hc] at h
            obtain rfl : m = n := by simpa using h
            exact ⟨rfl, .inr ⟨x, l, hm, rfl, hc⟩⟩
          · rw [if_neg hc] at h; cases h
    | [], h => cases h
    | _ :: _ :: _, h => cases h
  · rintro ⟨h1, h2 | ⟨x, l, h2, rfl, h3⟩⟩
    · simp [h1, h2]
    · rw [h1]
      simp only [h2]
      rw [if_pos h3]

/-- **C111, fails.** A parameter with a level is never found for the level 0 or below, not even its own; elements of the same name
with different levels, for which the attribute is meant, are never found at all. -/
theorem C111_parameter_lost (C : ParamConfig K) (name : String) (std : Option String) :
    (∀ n x, C.byName name = [n] → n.level = some x → ∀ l, l ≤ 0 → getNode C name std (some l) = .throws) ∧
    (2 ≤ (C.byName name).length → ∀ l, getNode C name std l = .throws) := by
  constructor
  · intro n x h1 h2 l hl
    have : ¬ |l - x| < 1 / 1000000 * l := by
      have := abs_nonneg (l - x)
      intro h
      have : (1 : K) / 1000000 * l ≤ 0 := mul_nonpos_of_nonneg_of_nonpos (by norm_num) hl
      linarith
    simp only [getNode, nodesOf, h1, h2, ne_eq, List.cons_ne_self, not_false_eq_true, if_true]
    rw [if_neg this]
  · intro h l
    match hn : C.byName name, h with
    | _ :: _ :: _, _ => simp [getNode, nodesOf, hn]

theorem putAll_spec (l : List (String × Val K)) : putAll l = ⟨l, .ok ()⟩ := by
  induction l with
  | nil => rfl
  | cons kv rest ih => simp [putAll, ih, put]

/-- **C111.** What is set for a parameter: its number and table in edition 1; number, category and discipline in edition 2, where a missing one
raises an error before anything is set; then the attributes of the element. -/
theorem C111_parameter_set (C : ParamConfig K) (name : String) (std : Option String) (level : Option K) (n : Param K)
    (hn : getNode C name std level = .ok n) :
    (∀ p t, n.number = some p → n.table = some t → setParameter 1 C name std level =
      ⟨[("indicatorOfParameter", .long p), ("gribTablesVersionNo", .long t)] ++ n.attrs, .ok ()⟩) ∧
    (∀ p c d, n.number = some p → n.category = some c → n.discipline = some d → setParameter 2 C name std level =
      ⟨[("parameterNumber", .long p), ("parameterCategory", .long c), ("discipline", .long d)] ++ n.attrs, .ok ()⟩) ∧
    (n.number = none ∨ n.category = none ∨ n.discipline = none → setParameter 2 C name std level = ⟨[], .throws⟩) ∧
    (n.number = none ∨ n.table = none → (setParameter 1 C name std level).out = .throws) := by
  refine ⟨fun p t h1 h2 => ?_, fun p c d h1 h2 h3 => ?_, fun h => ?_, fun h => ?_⟩
  · simp [setParameter, hn, need, present, h1, h2, putAll_spec, put]
  · simp [setParameter, hn, need, h1, h2, h3, putAll_spec, put]
  · simp only [setParameter, hn, need]
    rcases h with h | h | h
    · simp [h, raise]
    · cases n.number <;> simp [h, raise]
    · cases n.number <;> cases n.category <;> simp [h, raise]
  · simp only [setParameter, hn, need]
    rcases h with h | h
    · simp [h, raise, present]
    · cases n.number <;> simp [h, raise, present, put]

/-! ## Values -/

/-- **C111.** Values of a message are those of the variable, unpacked and converted to the unit of the parameter, in the same order; fill
values stay fill values, and a NaN becomes one or stays. -/
theorem C111_values (t : Scale.DType) (fill : Option K) (scale offset : K) (unit : Option (K × K)) (data : List (Option K))
    (hfill : Scale.ValidVal t fill) (hdata : ∀ x ∈ data, Scale.ValidVal t x) :
    ∃ out, messageValues t fill scale offset unit data = .ok out ∧
      List.Forall₂ (fun x y => (x = none → y = fill ∨ y = none) ∧ (∀ v, x = some v → fill = some v → y = fill) ∧
        (∀ v, x = some v → fill ≠ some v → y = some ((scale * v + offset) * (unit.getD (1, 0)).1 + (unit.getD (1, 0)).2))) data out := by
  cases unit with
  | none =>
    obtain ⟨out, h1, h2⟩ := Scale.C07_float_target_keeps_physical_value t fill fill scale offset 1 0 data one_ne_zero hfill hdata
    refine ⟨out, h1, h2.imp ?_⟩
    rintro x y ⟨a1, a2, a3⟩
    refine ⟨a1, a2, fun v hv hf => ?_⟩
    obtain ⟨w, rfl, hw⟩ := a3 v hv hf
    simp [Scale.phys] at hw
    simp [hw]
  | some u =>
    obtain ⟨slope, uo⟩ := u
    obtain ⟨out, h1, h2⟩ := Scale.C07_float_target_keeps_physical_value t fill fill (scale * slope) (offset * slope + uo) 1 0 data one_ne_zero
      hfill hdata
    refine ⟨out, h1, h2.imp ?_⟩
    rintro x y ⟨a1, a2, a3⟩
    refine ⟨a1, a2, fun v hv hf => ?_⟩
    obtain ⟨w, rfl, hw⟩ := a3 v hv hf
    simp [Scale.phys] at hw
    simp [hw]
    ring

end

/-! ## Cases -/

/-- Three levels with the surface last: the borders swing around the coefficients and end with 0 at the surface. -/
theorem C111_toy :
    hybridPv ([1000, 2000, 500] : List ℚ) [0, 1 / 10, 9 / 10] = .ok [-1000, 3000, 1000, 0, 8 / 5, -8 / 5, 9 / 5, 0] ∧
    readValues [(.half false, some 1)] ([-1000, 3000, 1000, 0, 8 / 5, -8 / 5, 9 / 5, 0] : List ℚ) [3, 1] = .ok [500, 1000] := by
  decide +kernel

/-- **C111, fails.** The same levels with the surface first. -/
theorem C111_surface_first : hybridPv ([500, 2000, 1000] : List ℚ) [9 / 10, 1 / 10, 0] = .ub := by decide +kernel

/-- **C111, fails.** Levels between whole numbers are cut: two sigma levels get the same level. -/
theorem C111_levels_merged :
    let cfg : List (AxisConfig ℚ) := [⟨some "atmosphere_sigma_coordinate", none, [⟨104, none, none, none, none⟩]⟩]
    let axis : Option (Axis ℚ) := some ⟨[1 / 5, 9 / 10], 1, 0, some "atmosphere_sigma_coordinate", none⟩
    let U : Units ℚ := ⟨fun _ _ => false, fun _ _ => .throws⟩
    getLevels U cfg axis = .ok [some (1 / 5), some (9 / 10)] ∧
    (setLevel2 U cfg axis none (some (1 / 5)) 0).keys = (setLevel2 U cfg axis none (some (9 / 10)) 1).keys := by decide +kernel

/-- With a scale factor of a thousandth in the configuration they are kept. -/
theorem C111_levels_scaled :
    let cfg : List (AxisConfig ℚ) := [⟨some "atmosphere_sigma_coordinate", none, [⟨104, none, none, some (1 / 1000), none⟩]⟩]
    let axis : Option (Axis ℚ) := some ⟨[1 / 5, 9 / 10], 1, 0, some "atmosphere_sigma_coordinate", none⟩
    let U : Units ℚ := ⟨fun _ _ => false, fun _ _ => .throws⟩
    getLevels U cfg axis = .ok [some 200, some 900] ∧
    (setLevel2 U cfg axis none (some 200) 0).keys = [("levelType", .long 104), ("level", .long 200)] := by decide +kernel

/-- **C111, fails.** A value that is the fill value after unpacking counts as missing in the message: 1 with offset −1 and fill
value 0. -/
theorem C111_value_lost : messageValues (.int 16 true) (some 0) 1 (-1) none [some (1 : ℚ), some 0] = .ok [some 0, some 0] := by
  decide +kernel

end Fimex.GribLevels
