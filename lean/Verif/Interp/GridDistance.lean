import Verif.Fill.Props
import Mathlib.Tactic.Ring

/-!
# Distances between grid cells

Model of `mifi_griddistance`, `src/interpolation.c:828-884`, and theorems (C77).  The great-circle distance of two
points is a parameter `dist`; a point is the pair of latitude and longitude.  `gridDistX` and `gridDistY` are always
accessed at the same index and are one list of pairs; its initial content is arbitrary.
-/

namespace Fimex.Interp

open Fill (forN writeAt)

variable {P K : Type}

/-! ## Model -/

/-- src/interpolation.c:838-845: one cell of a grid with a single row or column. -/
def lineCell (dist : P → P → K) (pts : List P) (p : ℕ) (a : List (K × K)) : Res (List (K × K)) := do
  let u ← readAt pts p
  let v ← readAt pts (p + 1)
  writeAt a p (dist u v, dist u v)

/-- src/interpolation.c:851-869: one inner cell. -/
def innerCell (dist : P → P → K) (pts : List P) (nx j i : ℕ) (a : List (K × K)) : Res (List (K × K)) := do
  let p := i + nx * j
  let u ← readAt pts p
  let right ← readAt pts (p + 1)
  let down ← readAt pts (p + nx)
  writeAt a p (dist u right, dist u down)

/-- `gridDist[p] = gridDist[q]`. -/
def copyCell (p q : ℕ) (a : List (K × K)) : Res (List (K × K)) := do
  let v ← readAt a q
  writeAt a p v

/-- src/interpolation.c:828-884 `mifi_griddistance`; `false` is the return value `MIFI_ERROR`. -/
def gridDistance [Zero K] (dist : P → P → K) (pts : List P) (nx ny : ℕ) (a : List (K × K)) :
    Res (List (K × K) × Bool) :=
  let fieldSize := nx * ny
  if fieldSize = 1 then do
    let a ← writeAt a 0 (0, 0)
    .ok (a, false)
  else if nx = 1 ∨ ny = 1 then do
    let a ← forN (lineCell dist pts) 0 (wsub fieldSize 1) a
    let a ← copyCell (wsub fieldSize 1) (wsub fieldSize 2) a
    .ok (a, true)
  else do
    let a ← forN (fun j a => forN (innerCell dist pts nx j) 0 (wsub nx 1) a) 0 (wsub ny 1) a
    let a ← forN (fun j a => copyCell (j * nx + wsub nx 1) (wsub (j * nx + wsub nx 1) 1) a) 0 ny a
    let a ← forN (fun i a => copyCell (wsub ny 1 * nx + i) (wsub (wsub ny 1 * nx + i) ny) a) 0 nx a
    .ok (a, true)

/-! ## Theorems -/

theorem copyCell_ok {a : List (K × K)} {p q : ℕ} (hp : p < a.length) (hq : q < a.length) :
    ∃ b, copyCell p q a = .ok b ∧ b.length = a.length ∧ b[p]? = a[q]? ∧ ∀ k, k ≠ p → b[k]? = a[k]? := by
  refine ⟨a.set p a[q], ?_, by simp, ?_, fun k hk => ?_⟩
  · simp [copyCell, readAt, writeAt, hp, hq]
  · simp [hp, hq]
  · rw [List.getElem?_set_ne (Ne.symm hk)]

theorem rowcol_inj {nx i i' j j' : ℕ} (hi : i < nx) (hi' : i' < nx) (h : j * nx + i = j' * nx + i') : j = j' ∧ i = i' := by
  have h1 : (j * nx + i) / nx = j := by
    rw [Nat.mul_comm, Nat.mul_add_div (by omega), Nat.div_eq_of_lt hi, Nat.add_zero]
  have h2 : (j' * nx + i') / nx = j' := by
    rw [Nat.mul_comm, Nat.mul_add_div (by omega), Nat.div_eq_of_lt hi', Nat.add_zero]
  have : j = j' := by rw [← h1, h, h2]
  subst this
  omega

theorem rowcol_lt {nx ny i j : ℕ} (hi : i < nx) (hj : j < ny) : j * nx + i < nx * ny := by
  have : (j + 1) * nx ≤ ny * nx := Nat.mul_le_mul_right _ hj
  rw [Nat.add_mul, Nat.one_mul, Nat.mul_comm ny] at this
  omega

variable [Zero K]

/-- **C77.** On a grid of at least two columns and rows: every cell that has a right and a lower neighbour gets the
distances to these two; every other cell of the last column gets those of its left neighbour; and the cells of the last
row get those of the cell `ny` positions before them in the array.  Nothing outside the arrays is accessed. -/
theorem C77_grid_distances (dist : P → P → K) (pts : List P) (nx ny : ℕ) (a : List (K × K)) (hx : 2 ≤ nx) (hy : 2 ≤ ny)
    (h64 : nx * ny < two64) (hp : pts.length = nx * ny) (ha : a.length = nx * ny) :
    ∃ r, gridDistance dist pts nx ny a = .ok (r, true) ∧ r.length = nx * ny ∧
      (∀ i j u right down, i + 1 < nx → j + 1 < ny → pts[j * nx + i]? = some u → pts[j * nx + (i + 1)]? = some right →
        pts[(j + 1) * nx + i]? = some down → r[j * nx + i]? = some (dist u right, dist u down)) ∧
      (∀ j, j + 1 < ny → r[j * nx + (nx - 1)]? = r[j * nx + (nx - 2)]?) ∧
      (∀ i, i < nx → r[(ny - 1) * nx + i]? = r[(ny - 1) * nx + i - ny]?) := by
  have hnx : nx < two64 := lt_of_le_of_lt (Nat.le_mul_of_pos_right nx (by omega)) h64
  have hny : ny < two64 := lt_of_le_of_lt (Nat.le_mul_of_pos_left ny (by omega)) h64
  have e1 : wsub nx 1 = nx - 1 := wsub_eq (by omega) hnx
  have e2 : wsub ny 1 = ny - 1 := wsub_eq (by omega) hny
  let A : ℕ → ℕ → List (K × K) → Prop := fun jj ii b => b.length = nx * ny ∧
    ∀ i j u right down, i + 1 < nx → j + 1 < ny → (j < jj ∨ j = jj ∧ i < ii) → pts[j * nx + i]? = some u →
      pts[j * nx + (i + 1)]? = some right → pts[(j + 1) * nx + i]? = some down →
      b[j * nx + i]? = some (dist u right, dist u down)
  -- the inner cells
  obtain ⟨b1, l1, hb1⟩ := Fill.forN_inv (body := fun j a => forN (innerCell dist pts nx j) 0 (wsub nx 1) a)
    (fun j b => A j 0 b) (wsub ny 1) 0 a (fun j b _ hj hA => by
      rw [e2] at hj
      obtain ⟨b', h1, h2⟩ := Fill.forN_inv (body := innerCell dist pts nx j) (fun i b => A j i b) (wsub nx 1) 0 b
        (fun i b _ hi hA => by
          rw [e1] at hi
          have q1 : j * nx + i < nx * ny := rowcol_lt (by omega) (by omega)
          have q2 : j * nx + (i + 1) < nx * ny := rowcol_lt (by omega) (by omega)
          have q3 : (j + 1) * nx + i < nx * ny := rowcol_lt (by omega) (by omega)
          have c1 : i + nx * j = j * nx + i := by ring
          have c3 : j * nx + i + nx = (j + 1) * nx + i := by ring
          obtain ⟨bl, bc⟩ := hA
          refine ⟨b.set (j * nx + i) (dist pts[j * nx + i] pts[j * nx + (i + 1)], dist pts[j * nx + i] pts[(j + 1) * nx + i]),
            ?_, by simpa using bl, ?_⟩
          · unfold innerCell
            dsimp only
            rw [c1, show j * nx + i + 1 = j * nx + (i + 1) by omega, c3]
            simp [readAt, writeAt, hp, bl, q1, q2, q3]
          · intro i' j' u right down hi' hj' hlt hu hr hd
            by_cases hsame : j' * nx + i' = j * nx + i
            · obtain ⟨rfl, rfl⟩ := rowcol_inj (by omega) (by omega) hsame
              rw [List.getElem?_set_self (by omega)]
              rw [List.getElem?_eq_getElem (by omega)] at hu hr hd
              rw [Option.some.inj hu, Option.some.inj hr, Option.some.inj hd]
            · rw [List.getElem?_set_ne (Ne.symm hsame)]
              refine bc i' j' u right down hi' hj' ?_ hu hr hd
              rcases hlt with h | ⟨h, h'⟩
              · exact .inl h
              · refine .inr ⟨h, ?_⟩
                rcases Nat.lt_succ_iff_lt_or_eq.1 h' with h'' | h''
                · exact h''
                · subst h; subst h''; exact absurd rfl hsame) hA
      refine ⟨b', h1, h2.1, fun i j' u right down hi hj' hlt => h2.2 i j' u right down hi hj' ?_⟩
      rw [Nat.zero_add, e1]
      rcases hlt with h | ⟨_, h⟩
      · rcases Nat.lt_succ_iff_lt_or_eq.1 h with h | h
        · exact .inl h
        · exact .inr ⟨h, by omega⟩
      · omega)
    ⟨ha, fun i j _ _ _ _ _ h => by omega⟩
  obtain ⟨bl1, bc1⟩ := hb1
  -- the last column
  obtain ⟨b2, l2, bl2, bc2, bd2⟩ := Fill.forN_inv
    (body := fun j a => copyCell (j * nx + wsub nx 1) (wsub (j * nx + wsub nx 1) 1) a)
    (fun j b => b.length = nx * ny ∧ (∀ k i, i + 1 < nx → b[k * nx + i]? = b1[k * nx + i]?) ∧
      ∀ k, k < j → b[k * nx + (nx - 1)]? = b[k * nx + (nx - 2)]?) ny 0 b1 (fun j b _ hj hI => by
      obtain ⟨bl, bc, bd⟩ := hI
      have q1 : j * nx + (nx - 1) < nx * ny := rowcol_lt (by omega) (by omega)
      have c2 : wsub (j * nx + (nx - 1)) 1 = j * nx + (nx - 2) := by rw [wsub_eq (by omega) (by omega)]; omega
      obtain ⟨b', g1, g2, g3, g4⟩ := copyCell_ok (a := b) (p := j * nx + (nx - 1)) (q := j * nx + (nx - 2)) (by omega) (by omega)
      refine ⟨b', by rw [e1, c2]; exact g1, by omega, fun k i hi => ?_, fun k hk => ?_⟩
      · rw [g4 _ (fun h => by have := (rowcol_inj (by omega) (by omega) h).2; omega), bc k i hi]
      · have hne : k * nx + (nx - 2) ≠ j * nx + (nx - 1) := fun h => by
          have := (rowcol_inj (by omega) (by omega) h).2; omega
        rw [g4 _ hne]
        by_cases hkj : k = j
        · subst hkj; exact g3
        · rw [g4 _ (fun h => hkj (rowcol_inj (by omega) (by omega) h).1), bd k (by omega)])
    ⟨bl1, fun _ _ _ => rfl, fun k hk => by omega⟩
  -- the last row
  have last : (ny - 1) * nx + nx = nx * ny := by
    obtain ⟨m, rfl⟩ : ∃ m, ny = m + 1 := ⟨ny - 1, by omega⟩
    rw [Nat.add_sub_cancel]; ring
  have hge : ny ≤ (ny - 1) * nx := by
    have : (ny - 1) * 2 ≤ (ny - 1) * nx := Nat.mul_le_mul_left _ hx
    omega
  obtain ⟨b3, l3, bl3, bc3, bd3⟩ := Fill.forN_inv
    (body := fun i a => copyCell (wsub ny 1 * nx + i) (wsub (wsub ny 1 * nx + i) ny) a)
    (fun i b => b.length = nx * ny ∧ (∀ k, k < (ny - 1) * nx → b[k]? = b2[k]?) ∧
      ∀ k, k < i → b[(ny - 1) * nx + k]? = b[(ny - 1) * nx + k - ny]?) nx 0 b2 (fun i b _ hi hI => by
      obtain ⟨bl, bc, bd⟩ := hI
      have c2 : wsub ((ny - 1) * nx + i) ny = (ny - 1) * nx + i - ny := wsub_eq (by omega) (by omega)
      obtain ⟨b', g1, g2, g3, g4⟩ := copyCell_ok (a := b) (p := (ny - 1) * nx + i) (q := (ny - 1) * nx + i - ny)
        (by omega) (by omega)
      refine ⟨b', by rw [e2, c2]; exact g1, by omega, fun k hk => ?_, fun k hk => ?_⟩
      · rw [g4 _ (by omega), bc k hk]
      · rw [g4 ((ny - 1) * nx + k - ny) (by omega)]
        by_cases hki : k = i
        · subst hki; exact g3
        · rw [g4 _ (by omega), bd k (by omega)])
    ⟨bl2, fun _ _ => rfl, fun k hk => by omega⟩
  have below : ∀ i j, i < nx → j + 1 < ny → j * nx + i < (ny - 1) * nx := by
    intro i j hi hj
    have := rowcol_lt (ny := ny - 1) hi (show j < ny - 1 by omega)
    rwa [Nat.mul_comm nx] at this
  have n1 : nx * ny ≠ 1 := by have := Nat.mul_le_mul hx hy; omega
  refine ⟨b3, ?_, bl3, ?_, ?_, ?_⟩
  · unfold gridDistance
    dsimp only
    rw [if_neg n1, if_neg (by omega), l1, Res.ok_bind, l2, Res.ok_bind, l3, Res.ok_bind]
  · intro i j u right down hi hj hu hr hd
    rw [bc3 _ (below i j (by omega) hj), bc2 j i hi]
    exact bc1 i j u right down hi hj (.inl (by omega)) hu hr hd
  · intro j hj
    rw [bc3 _ (below _ j (by omega) hj), bc3 _ (below _ j (by omega) hj)]
    exact bd2 j (by omega)
  · intro i hi
    exact bd3 i (by omega)

/-- **C77**, the last row, only for square grids: each cell gets the distances of the cell above it.  Missing: grids
with different numbers of columns and rows, where the code is wrong, see `C77_last_row_wrong`. -/
theorem C77_last_row_partial (dist : P → P → K) (pts : List P) (n : ℕ) (a r : List (K × K)) (hn : 2 ≤ n)
    (h64 : n * n < two64) (hp : pts.length = n * n) (ha : a.length = n * n)
    (h : gridDistance dist pts n n a = .ok (r, true)) :
    ∀ i, i < n → r[(n - 1) * n + i]? = r[(n - 2) * n + i]? := by
  obtain ⟨r', h1, -, -, -, h5⟩ := C77_grid_distances dist pts n n a hn hn h64 hp ha
  rw [h] at h1
  obtain rfl : r = r' := by simpa using h1
  intro i hi
  rw [h5 i hi]
  congr 1
  obtain ⟨m, rfl⟩ : ∃ m, n = m + 2 := ⟨n - 2, by omega⟩
  rw [show m + 2 - 1 = m + 1 by omega, show m + 2 - 2 = m by omega, Nat.add_mul, Nat.one_mul]
  omega

/-- On a grid of 3 columns and 2 rows the first cell of the last row gets the distances of the second cell of the row
above, not of the first. -/
theorem C77_last_row_wrong :
    gridDistance (fun u v : ℕ => v - u) [0, 1, 3, 10, 20, 40] 3 2 (List.replicate 6 (0, 0)) =
      .ok ([(1, 10), (2, 19), (2, 19), (2, 19), (2, 19), (2, 19)], true) := by decide +kernel

/-- **C77**, a single row or column: every cell gets the distance to the next one, the last cell that of the one before.
A single cell gets 0 and the result is an error. -/
theorem C77_line (dist : P → P → K) (pts : List P) (nx ny : ℕ) (a : List (K × K)) (hone : nx = 1 ∨ ny = 1)
    (h64 : nx * ny < two64) (hp : pts.length = nx * ny) (ha : a.length = nx * ny) :
    (2 ≤ nx * ny → ∃ r, gridDistance dist pts nx ny a = .ok (r, true) ∧ r.length = nx * ny ∧
      (∀ p u v, p + 1 < nx * ny → pts[p]? = some u → pts[p + 1]? = some v → r[p]? = some (dist u v, dist u v)) ∧
      r[nx * ny - 1]? = r[nx * ny - 2]?) ∧
    (nx * ny = 1 → gridDistance dist pts nx ny a = .ok ([(0, 0)], false)) := by
  constructor
  · intro h2
    have e1 : wsub (nx * ny) 1 = nx * ny - 1 := wsub_eq (by omega) h64
    have e2 : wsub (nx * ny) 2 = nx * ny - 2 := wsub_eq (by omega) h64
    obtain ⟨b, l, bl, bc⟩ := Fill.forN_inv (body := lineCell dist pts)
      (fun k b => b.length = nx * ny ∧ ∀ p u v, p < k → pts[p]? = some u → pts[p + 1]? = some v →
        b[p]? = some (dist u v, dist u v)) (wsub (nx * ny) 1) 0 a (fun k b _ hk hI => by
        obtain ⟨bl, bc⟩ := hI
        rw [e1] at hk
        have q1 : k < nx * ny := by omega
        have q2 : k + 1 < nx * ny := by omega
        refine ⟨b.set k (dist pts[k] pts[k + 1], dist pts[k] pts[k + 1]), ?_, by simpa using bl, fun p u v hpk hu hv => ?_⟩
        · simp [lineCell, readAt, writeAt, hp, bl, q1, q2]
        · by_cases h : p = k
          · subst h
            rw [List.getElem?_set_self (by omega)]
            rw [List.getElem?_eq_getElem (by omega)] at hu hv
            rw [Option.some.inj hu, Option.some.inj hv]
          · rw [List.getElem?_set_ne (Ne.symm h)]
            exact bc p u v (by omega) hu hv)
      ⟨ha, fun p _ _ h => by omega⟩
    obtain ⟨r, g1, g2, g3, g4⟩ := copyCell_ok (a := b) (p := nx * ny - 1) (q := nx * ny - 2) (by omega) (by omega)
    refine ⟨r, ?_, by omega, fun p u v hpk hu hv => ?_, ?_⟩
    · unfold gridDistance
      dsimp only
      rw [if_neg (by omega), if_pos hone, l, Res.ok_bind, e1, e2, g1, Res.ok_bind]
    · rw [g4 p (by omega)]
      exact bc p u v (by omega) hu hv
    · rw [g3, g4 _ (by omega)]
  · intro h1
    unfold gridDistance
    dsimp only
    rw [if_pos h1]
    rw [h1] at ha
    match a, ha with
    | [v], _ => rfl

example : gridDistance (fun u v : ℕ => v - u) [0, 1, 3] 1 3 [(9, 9), (9, 9), (9, 9)] =
    .ok ([(1, 1), (2, 2), (2, 2)], true) := by decide +kernel

end Fimex.Interp
