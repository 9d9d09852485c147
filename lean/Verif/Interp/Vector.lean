import Verif.Fill.Props
import Verif.Interp.GridDistance
import Verif.Interp.OneDim
import Mathlib.Algebra.Order.Field.Basic
import Mathlib.Tactic.Linarith
import Mathlib.Tactic.LinearCombination

/-!
# Rotation of vectors and directions

Model of `CachedVectorReprojection::reprojectValues` and `reprojectDirectionValues`, `src/CachedVectorReprojection.cc:43-53`,
with `vector_reproject_values_by_matrix_f` and `vector_reproject_direction_by_matrix_f`, `src/reproject.cc:482-527`, and of
the choice of the step length in `get_vector_reproject_matrix_proj`, `src/reproject.cc:362-396`; theorems (C78).

Undefined values are `none`.  The number of layers is not converted to `int` (simplification: fewer than `2^31` layers).
-/

namespace Fimex.Interp

open Fill (forN writeAt)

variable {K : Type}

/-! ## Model -/

/-- A cell of the matrix: cosine, sine, angle in degrees (src/reproject.cc:288-293). -/
structure Rotation (K : Type) where
  c : K
  s : K
  deg : K
deriving DecidableEq

section Values

variable [Field K]

/-- src/reproject.cc:491-499: one cell of one layer. -/
def rotateCell (m : List (Rotation K)) (layerSize z i : ℕ) (uv : List (Option K) × List (Option K)) :
    Res (List (Option K) × List (Option K)) := do
  let a ← readAt m i
  let u ← readAt uv.1 (z * layerSize + i)
  let v ← readAt uv.2 (z * layerSize + i)
  let u' ← writeAt uv.1 (z * layerSize + i) (osub (omul a.c u) (omul a.s v))
  let v' ← writeAt uv.2 (z * layerSize + i) (oadd (omul a.s u) (omul a.c v))
  .ok (u', v')

/-- src/reproject.cc:482-501 `vector_reproject_values_by_matrix_f`. -/
def rotateValues (m : List (Rotation K)) (sizeX sizeY : ℕ) (u v : List (Option K)) (oz : ℕ) :
    Res (List (Option K) × List (Option K)) :=
  forN (fun z uv => forN (rotateCell m (sizeX * sizeY) z) 0 (sizeX * sizeY) uv) 0 oz (u, v)

/-- src/CachedVectorReprojection.cc:43-47 `reprojectValues`. -/
def reprojectValues (m : List (Rotation K)) (sizeX sizeY : ℕ) (u v : List (Option K)) (size : ℕ) :
    Res (List (Option K) × List (Option K)) :=
  if sizeX * sizeY = 0 then .ub else rotateValues m sizeX sizeY u v (size / (sizeX * sizeY))

end Values

section Directions

variable [Field K] [LinearOrder K]

/-- src/reproject.cc:516-521: the new direction, brought back to 0..360. -/
def turn (angle rot : K) : K :=
  let a := angle - rot
  let a := if a < 0 then a + 360 else a
  if a > 360 then a - 360 else a

/-- src/reproject.cc:511-523: one cell of one layer. -/
def turnCell (m : List (Rotation K)) (layerSize z i : ℕ) (angles : List (Option K)) : Res (List (Option K)) := do
  let a ← readAt m i
  let x ← readAt angles (z * layerSize + i)
  writeAt angles (z * layerSize + i) (x.map (turn · a.deg))

/-- src/reproject.cc:503-525 `vector_reproject_direction_by_matrix_f`. -/
def turnValues (m : List (Rotation K)) (sizeX sizeY : ℕ) (angles : List (Option K)) (oz : ℕ) : Res (List (Option K)) :=
  forN (fun z a => forN (turnCell m (sizeX * sizeY) z) 0 (sizeX * sizeY) a) 0 oz angles

/-- src/CachedVectorReprojection.cc:49-53 `reprojectDirectionValues`. -/
def reprojectDirections (m : List (Rotation K)) (sizeX sizeY : ℕ) (angles : List (Option K)) (size : ℕ) :
    Res (List (Option K)) :=
  if sizeX * sizeY = 0 then .ub else turnValues m sizeX sizeY angles (size / (sizeX * sizeY))

/-- src/reproject.cc:369-391: the step before the check for tiny steps; `delta` is `defaultDelta`. -/
def rawStep (delta : K) (f : List K) (ox oy : ℕ) : Res K :=
  if ox > 1 then
    if oy > 1 then do
      let a ← readAt f (1 * ox + 1)
      let b ← readAt f 0
      let c ← readAt f ((oy / 2 + 1) * ox + (ox / 2 + 1))
      let d ← readAt f (oy / 2 * ox + ox / 2)
      .ok ((delta * (a - b) + delta * (c - d)) / 2)
    else do
      let a ← readAt f (0 * ox + 1)
      let b ← readAt f 0
      .ok (delta * (a - b))
  else if oy > 1 then do
    let a ← readAt f (1 * ox + 0)
    let b ← readAt f 0
    .ok (delta * (a - b))
  else do
    let b ← readAt f 0
    .ok (if b > 1 then b * delta else delta)

/-- src/reproject.cc:362-396: the step used in both directions; `tiny` is `1e-9`. -/
def step (delta tiny : K) (f : List K) (ox oy : ℕ) : Res K := do
  let d ← rawStep delta f ox oy
  .ok (if |d| < tiny then delta else d)

end Directions

/-! ## Theorems -/

section Values

variable [Field K]

/-- **C78.** In every layer each vector is multiplied by the rotation of its place in the layer; nothing outside the
arrays is accessed. -/
theorem C78_vectors_rotated (m : List (Rotation K)) (sizeX sizeY oz : ℕ) (u v : List (Option K))
    (h0 : 0 < sizeX * sizeY) (hm : m.length = sizeX * sizeY) (hu : u.length = sizeX * sizeY * oz)
    (hv : v.length = sizeX * sizeY * oz) :
    ∃ u' v', reprojectValues m sizeX sizeY u v u.length = .ok (u', v') ∧ u'.length = u.length ∧ v'.length = v.length ∧
      ∀ z i r x y, z < oz → i < sizeX * sizeY → m[i]? = some r → u[z * (sizeX * sizeY) + i]? = some x →
        v[z * (sizeX * sizeY) + i]? = some y →
        u'[z * (sizeX * sizeY) + i]? = some (do let a ← x; let b ← y; some (r.c * a - r.s * b)) ∧
        v'[z * (sizeX * sizeY) + i]? = some (do let a ← x; let b ← y; some (r.s * a + r.c * b)) := by
  generalize hL : sizeX * sizeY = L at *
  let Done : ℕ → ℕ → ℕ → ℕ → Prop := fun z i z' i' => z' < z ∨ z' = z ∧ i' < i
  let A : ℕ → ℕ → List (Option K) × List (Option K) → Prop := fun z i p =>
    p.1.length = L * oz ∧ p.2.length = L * oz ∧ ∀ z' i' r x y, z' < oz → i' < L → m[i']? = some r →
      u[z' * L + i']? = some x → v[z' * L + i']? = some y →
      (Done z i z' i' → p.1[z' * L + i']? = some (do let a ← x; let b ← y; some (r.c * a - r.s * b)) ∧
        p.2[z' * L + i']? = some (do let a ← x; let b ← y; some (r.s * a + r.c * b))) ∧
      (¬ Done z i z' i' → p.1[z' * L + i']? = some x ∧ p.2[z' * L + i']? = some y)
  obtain ⟨q, e, g1, g2, g3⟩ := Fill.forN_inv (body := fun z uv => forN (rotateCell m L z) 0 L uv) (fun z p => A z 0 p) oz 0 (u, v)
    (fun z p _ hz hA => by
      obtain ⟨p', h1, h2⟩ := Fill.forN_inv (body := rotateCell m L z) (fun i p => A z i p) L 0 p
        (fun i p _ hi hA => by
          rw [Nat.zero_add] at hz hi
          obtain ⟨l1, l2, hc⟩ := hA
          have hq : z * L + i < L * oz := rowcol_lt hi hz
          have hpu : z * L + i < p.1.length := by omega
          have hpv : z * L + i < p.2.length := by omega
          have hmi : i < m.length := by omega
          obtain ⟨x, hx⟩ : ∃ x, u[z * L + i]? = some x := ⟨_, List.getElem?_eq_getElem (by omega)⟩
          obtain ⟨y, hy⟩ : ∃ y, v[z * L + i]? = some y := ⟨_, List.getElem?_eq_getElem (by omega)⟩
          obtain ⟨k1, k2⟩ := (hc z i m[i] x y hz hi (List.getElem?_eq_getElem hmi) hx hy).2 (by simp [Done])
          refine ⟨(p.1.set (z * L + i) (osub (omul m[i].c x) (omul m[i].s y)),
            p.2.set (z * L + i) (oadd (omul m[i].s x) (omul m[i].c y))), ?_, by simpa using l1, by simpa using l2, ?_⟩
          · rw [List.getElem?_eq_getElem hpu] at k1
            rw [List.getElem?_eq_getElem hpv] at k2
            simp [rotateCell, readAt, writeAt, hmi, hpu, hpv, Option.some.inj k1, Option.some.inj k2]
          · intro z' i' r x' y' hz' hi' hr hx' hy'
            by_cases hs : z' * L + i' = z * L + i
            · obtain ⟨rfl, rfl⟩ := rowcol_inj hi' hi hs
              rw [List.getElem?_eq_getElem hmi] at hr
              rw [hx] at hx'
              rw [hy] at hy'
              obtain rfl := Option.some.inj hr
              obtain rfl := Option.some.inj hx'
              obtain rfl := Option.some.inj hy'
              refine ⟨fun _ => ?_, fun h => absurd (.inr ⟨rfl, Nat.lt_succ_self _⟩) h⟩
              simp only
              rw [List.getElem?_set_self hpu, List.getElem?_set_self hpv]
              cases x <;> cases y <;> simp [osub, oadd, omul]
            · have hd : Done z (i + 1) z' i' ↔ Done z i z' i' := by
                simp only [Done]
                constructor
                · rintro (h | ⟨rfl, h⟩)
                  · exact .inl h
                  · refine .inr ⟨rfl, ?_⟩
                    rcases Nat.lt_succ_iff_lt_or_eq.1 h with h | h
                    · exact h
                    · exact absurd (by rw [h]) hs
                · rintro (h | ⟨rfl, h⟩)
                  · exact .inl h
                  · exact .inr ⟨rfl, by omega⟩
              simp only [hd, List.getElem?_set_ne (Ne.symm hs)]
              exact hc z' i' r x' y' hz' hi' hr hx' hy') hA
      refine ⟨p', h1, h2.1, h2.2.1, fun z' i' r x y hz' hi' hr hx hy => ?_⟩
      have hd : Done (z + 1) 0 z' i' ↔ Done z (0 + L) z' i' := by
        simp only [Done]; omega
      rw [hd]
      exact h2.2.2 z' i' r x y hz' hi' hr hx hy)
    ⟨hu, hv, fun z' i' r x y _ _ _ hx hy => ⟨fun h => by simp only [Done] at h; omega, fun _ => ⟨hx, hy⟩⟩⟩
  refine ⟨q.1, q.2, ?_, by omega, by omega, fun z i r x y hz hi hr hx hy => (g3 z i r x y hz hi hr hx hy).1 (.inl (by omega))⟩
  unfold reprojectValues rotateValues
  rw [hL, if_neg (by omega), hu, Nat.mul_div_cancel_left _ h0]
  exact e

/-- **C78.** A rotation leaves the length of a vector unchanged, and the angle between two vectors of the same place. -/
theorem C78_length_kept (r : Rotation K) (hr : r.c ^ 2 + r.s ^ 2 = 1) (a b a' b' : K) :
    (r.c * a - r.s * b) * (r.c * a' - r.s * b') + (r.s * a + r.c * b) * (r.s * a' + r.c * b') = a * a' + b * b' ∧
    (r.c * a - r.s * b) ^ 2 + (r.s * a + r.c * b) ^ 2 = a ^ 2 + b ^ 2 := by
  constructor
  · linear_combination (a * a' + b * b') * hr
  · linear_combination (a ^ 2 + b ^ 2) * hr

end Values

example : reprojectValues [⟨0, 1, 90⟩, ⟨(1 : ℚ), 0, 0⟩] 2 1 [some 3, none, some 1, some 5] [some 4, some 7, some 2, some 6] 4 =
    .ok ([some (-4), none, some (-2), some 5], [some 3, none, some 1, some 6]) := by decide +kernel

section Directions

variable [Field K] [LinearOrder K] [IsStrictOrderedRing K]

/-- **C78.** A direction is reduced by the angle of the rotation, up to whole turns, and stays between 0 and 360. -/
theorem C78_direction_turned (angle rot : K) :
    (∃ k : ℤ, turn angle rot = angle - rot + 360 * k) ∧
    (0 ≤ angle → angle ≤ 360 → -360 ≤ rot → rot ≤ 360 → 0 ≤ turn angle rot ∧ turn angle rot ≤ 360) := by
  constructor
  · unfold turn
    dsimp only
    by_cases h1 : angle - rot < 0
    · rw [if_pos h1]
      by_cases h2 : angle - rot + 360 > 360
      · exact ⟨0, by rw [if_pos h2]; push_cast; ring⟩
      · exact ⟨1, by rw [if_neg h2]; push_cast; ring⟩
    · rw [if_neg h1]
      by_cases h2 : angle - rot > 360
      · exact ⟨-1, by rw [if_pos h2]; push_cast; ring⟩
      · exact ⟨0, by rw [if_neg h2]; push_cast; ring⟩
  · intro h1 h2 h3 h4
    unfold turn
    dsimp only
    split_ifs <;> constructor <;> linarith

omit [IsStrictOrderedRing K] in
/-- **C78.** In every layer each direction is turned by the rotation of its place in the layer, undefined directions stay
undefined; nothing outside the arrays is accessed. -/
theorem C78_directions_turned (m : List (Rotation K)) (sizeX sizeY oz : ℕ) (a : List (Option K))
    (h0 : 0 < sizeX * sizeY) (hm : m.length = sizeX * sizeY) (ha : a.length = sizeX * sizeY * oz) :
    ∃ a', reprojectDirections m sizeX sizeY a a.length = .ok a' ∧ a'.length = a.length ∧
      ∀ z i r x, z < oz → i < sizeX * sizeY → m[i]? = some r → a[z * (sizeX * sizeY) + i]? = some x →
        a'[z * (sizeX * sizeY) + i]? = some (x.map (turn · r.deg)) := by
  generalize hL : sizeX * sizeY = L at *
  let Done : ℕ → ℕ → ℕ → ℕ → Prop := fun z i z' i' => z' < z ∨ z' = z ∧ i' < i
  let A : ℕ → ℕ → List (Option K) → Prop := fun z i p =>
    p.length = L * oz ∧ ∀ z' i' r x, z' < oz → i' < L → m[i']? = some r → a[z' * L + i']? = some x →
      (Done z i z' i' → p[z' * L + i']? = some (x.map (turn · r.deg))) ∧ (¬ Done z i z' i' → p[z' * L + i']? = some x)
  obtain ⟨q, e, g1, g3⟩ := Fill.forN_inv (body := fun z a => forN (turnCell m L z) 0 L a) (fun z p => A z 0 p) oz 0 a
    (fun z p _ hz hA => by
      obtain ⟨p', h1, h2⟩ := Fill.forN_inv (body := turnCell m L z) (fun i p => A z i p) L 0 p
        (fun i p _ hi hA => by
          rw [Nat.zero_add] at hz hi
          obtain ⟨l1, hc⟩ := hA
          have hq : z * L + i < L * oz := rowcol_lt hi hz
          have hpu : z * L + i < p.length := by omega
          have hmi : i < m.length := by omega
          obtain ⟨x, hx⟩ : ∃ x, a[z * L + i]? = some x := ⟨_, List.getElem?_eq_getElem (by omega)⟩
          have k1 := (hc z i m[i] x hz hi (List.getElem?_eq_getElem hmi) hx).2 (by simp [Done])
          refine ⟨p.set (z * L + i) (x.map (turn · m[i].deg)), ?_, by simpa using l1, ?_⟩
          · rw [List.getElem?_eq_getElem hpu] at k1
            simp [turnCell, readAt, writeAt, hmi, hpu, Option.some.inj k1]
          · intro z' i' r x' hz' hi' hr hx'
            by_cases hs : z' * L + i' = z * L + i
            · obtain ⟨rfl, rfl⟩ := rowcol_inj hi' hi hs
              rw [List.getElem?_eq_getElem hmi] at hr
              rw [hx] at hx'
              obtain rfl := Option.some.inj hr
              obtain rfl := Option.some.inj hx'
              refine ⟨fun _ => ?_, fun h => absurd (.inr ⟨rfl, Nat.lt_succ_self _⟩) h⟩
              rw [List.getElem?_set_self hpu]
            · have hd : Done z (i + 1) z' i' ↔ Done z i z' i' := by
                simp only [Done]
                constructor
                · rintro (h | ⟨rfl, h⟩)
                  · exact .inl h
                  · refine .inr ⟨rfl, ?_⟩
                    rcases Nat.lt_succ_iff_lt_or_eq.1 h with h | h
                    · exact h
                    · exact absurd (by rw [h]) hs
                · rintro (h | ⟨rfl, h⟩)
                  · exact .inl h
                  · exact .inr ⟨rfl, by omega⟩
              rw [hd, List.getElem?_set_ne (Ne.symm hs)]
              exact hc z' i' r x' hz' hi' hr hx') hA
      refine ⟨p', h1, h2.1, fun z' i' r x hz' hi' hr hx => ?_⟩
      have hd : Done (z + 1) 0 z' i' ↔ Done z (0 + L) z' i' := by
        simp only [Done]; omega
      rw [hd]
      exact h2.2 z' i' r x hz' hi' hr hx)
    ⟨ha, fun z' i' r x _ _ _ hx => ⟨fun h => by simp only [Done] at h; omega, fun _ => hx⟩⟩
  refine ⟨q, ?_, by omega, fun z i r x hz hi hr hx => (g3 z i r x hz hi hr hx).1 (.inl (by omega))⟩
  unfold reprojectDirections turnValues
  rw [hL, if_neg (by omega), ha, Nat.mul_div_cancel_left _ h0]
  exact e

example : reprojectDirections [⟨0, 1, 90⟩, ⟨(1 : ℚ), 0, -45⟩] 2 1 [some 30, none, some 180, some 350] 4 =
    .ok [some 300, none, some 90, some 35] := by decide +kernel

theorem readAt_lt {α : Type} {a : List α} {i : ℕ} (h : i < a.length) : ∃ v, readAt a i = .ok v :=
  ⟨a[i], by unfold readAt; rw [List.getElem?_eq_getElem h]⟩

theorem readAt_ge {α : Type} {a : List α} {i : ℕ} (h : ¬ i < a.length) : readAt a i = .ub := by
  unfold readAt; rw [List.getElem?_eq_none (by omega)]

/-- **C78.** The step is never smaller than the smallest one allowed. -/
theorem C78_step_not_tiny (delta tiny d : K) (f : List K) (ox oy : ℕ) (ht : tiny ≤ |delta|)
    (h : step delta tiny f ox oy = .ok d) : tiny ≤ |d| := by
  unfold step at h
  rw [Res.bind_eq_ok] at h
  obtain ⟨r, -, h⟩ := h
  obtain rfl := Res.ok.inj h
  split_ifs with hc
  · exact ht
  · exact not_lt.1 hc

omit [IsStrictOrderedRing K] in
/-- **C78.** The step is found for fields of a single row or column and for fields of at least three columns and rows;
with exactly two rows, or two columns and at most four rows, the code reads outside the field. -/
theorem C78_step_defined_partial (delta tiny : K) (f : List K) (ox oy : ℕ) (hx : 0 < ox) (hy : 0 < oy)
    (hf : f.length = ox * oy) :
    ((ox = 1 ∨ oy = 1 ∨ 3 ≤ ox ∧ 3 ≤ oy ∨ ox = 2 ∧ 5 ≤ oy) → ∃ d, step delta tiny f ox oy = .ok d) ∧
    (¬ (ox = 1 ∨ oy = 1 ∨ 3 ≤ ox ∧ 3 ≤ oy ∨ ox = 2 ∧ 5 ≤ oy) → step delta tiny f ox oy = .ub) := by
  have h0 : 0 < ox * oy := Nat.mul_pos hx hy
  have c0 : 0 < f.length := by omega
  obtain ⟨v0, r0⟩ := readAt_lt c0
  unfold step rawStep
  constructor
  · intro h
    by_cases h1 : ox > 1
    · rw [if_pos h1]
      by_cases h2 : oy > 1
      · rw [if_pos h2]
        have c1 : 1 * ox + 1 < f.length := by
          have : ox * 2 ≤ ox * oy := Nat.mul_le_mul_left _ h2
          omega
        have c2 : (oy / 2 + 1) * ox + (ox / 2 + 1) < f.length := by
          rw [hf]
          rcases h with h | h | ⟨h, h'⟩ | ⟨h, h'⟩
          · omega
          · omega
          · exact rowcol_lt (by omega) (by omega)
          · subst h; omega
        have c3 : oy / 2 * ox + ox / 2 < f.length := by rw [hf]; exact rowcol_lt (by omega) (by omega)
        obtain ⟨v1, r1⟩ := readAt_lt c1
        obtain ⟨v2, r2⟩ := readAt_lt c2
        obtain ⟨v3, r3⟩ := readAt_lt c3
        rw [r1, Res.ok_bind, r0, Res.ok_bind, r2, Res.ok_bind, r3, Res.ok_bind, Res.ok_bind]
        exact ⟨_, rfl⟩
      · obtain rfl : oy = 1 := by omega
        rw [if_neg h2]
        have c1 : 0 * ox + 1 < f.length := by omega
        obtain ⟨v1, r1⟩ := readAt_lt c1
        rw [r1, Res.ok_bind, r0, Res.ok_bind, Res.ok_bind]
        exact ⟨_, rfl⟩
    · obtain rfl : ox = 1 := by omega
      rw [if_neg h1]
      by_cases h2 : oy > 1
      · rw [if_pos h2]
        have c1 : 1 * 1 + 0 < f.length := by omega
        obtain ⟨v1, r1⟩ := readAt_lt c1
        rw [r1, Res.ok_bind, r0, Res.ok_bind, Res.ok_bind]
        exact ⟨_, rfl⟩
      · rw [if_neg h2, r0, Res.ok_bind, Res.ok_bind]
        exact ⟨_, rfl⟩
  · intro h
    have h1 : ox > 1 := by omega
    have h2 : oy > 1 := by omega
    rw [if_pos h1, if_pos h2]
    have c1 : 1 * ox + 1 < f.length := by
      have : ox * 2 ≤ ox * oy := Nat.mul_le_mul_left _ h2
      omega
    have c2 : ¬ ((oy / 2 + 1) * ox + (ox / 2 + 1) < f.length) := by
      rw [hf]
      by_cases hy2 : oy = 2
      · subst hy2; omega
      · obtain rfl : ox = 2 := by omega
        omega
    obtain ⟨v1, r1⟩ := readAt_lt c1
    rw [r1, Res.ok_bind, r0, Res.ok_bind, readAt_ge c2]
    rfl

end Directions

/-- On a grid of two by two cells the code reads outside the field. -/
theorem C78_two_rows_undefined : step (1 / 1000 : ℚ) (1 / 1000000000) [1, 2, 1, 2] 2 2 = .ub := by decide +kernel

example : step (1 / 1000 : ℚ) (1 / 1000000000) [0, 1, 2, 0, 1, 2, 0, 1, 2] 3 3 = .ok (1 / 1000) := by decide +kernel

end Fimex.Interp
