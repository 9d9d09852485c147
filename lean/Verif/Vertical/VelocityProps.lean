import Verif.Vertical.Velocity
import Verif.Interp.Layers
import Mathlib.Algebra.BigOperators.Intervals
import Mathlib.Tactic.FieldSimp
import Mathlib.Tactic.IntervalCases

/-!
# Vertical velocity: C80
-/

namespace Fimex.Vertical

open Fill (forN writeAt forN_inv readAt_of writeAt_of)
open Interp (mapM_range_ok)

/-! ## Specification -/

/-- An array with the values `f 0, …, f (n-1)`. -/
def Holds {α : Type} (l : List α) (n : ℕ) (f : ℕ → α) : Prop := l.length = n ∧ ∀ i < n, l[i]? = some (f i)

/-- An array with `nz` layers of `n` cells each; `f k ij` is the value of cell `ij` in layer `k`. -/
def Holds3 {α : Type} (l : List α) (n nz : ℕ) (f : ℕ → ℕ → α) : Prop :=
  l.length = n * nz ∧ ∀ k < nz, ∀ ij < n, l[ij + n * k]? = some (f k ij)

/-- Every full level but the first is half way between its half levels; the first half level is 0, the last one is
the surface. -/
def HalfLevels {K : Type} [Field K] (nz : ℕ) (full : ℕ → K) (surface : K) (half : ℕ → K) : Prop :=
  half 0 = 0 ∧ half nz = surface ∧ ∀ k, 1 ≤ k → k < nz → (half k + half (k + 1)) / 2 = full k

/-- The fields. -/
structure Atmosphere (K : Type) where
  nx : ℕ
  ny : ℕ
  nz : ℕ
  dx : K
  dy : K
  gx : ℕ → K
  gy : ℕ → K
  zs : ℕ → K
  ps : ℕ → K
  u : ℕ → ℕ → K
  v : ℕ → ℕ → K
  t : ℕ → ℕ → K
  /-- the half levels are at the pressures `A k + B k * ps` -/
  A : ℕ → K
  B : ℕ → K

namespace Atmosphere

variable {K : Type} [Field K] (m : Atmosphere K) (φ : Physics K)

/-- Pressure at a half level. -/
def P (k ij : ℕ) : K := m.A k + m.B k * m.ps ij

/-- Pressure difference over layer `k`. -/
def thick (k ij : ℕ) : K := m.P (k + 1) ij - m.P k ij

/-- Thickness of layer `k` in the logarithm of the pressure; that of the top layer, which is infinite, counts as 0. -/
def logThick (k ij : ℕ) : K := if k = 0 then 0 else φ.ln (m.P (k + 1) ij / m.P k ij)

/-- Weight of the full level in its layer (Simmons and Burridge). -/
def alpha (k ij : ℕ) : K := if k = 0 then φ.ln 2 else 1 - m.P k ij * m.logThick φ k ij / m.thick k ij

/-- Geopotential at full level `k`: that of the ground and the layers below. -/
def geopotential (k ij : ℕ) : K :=
  φ.g * m.zs ij + ∑ l ∈ Finset.Ico (k + 1) m.nz, φ.R * m.t l ij * m.logThick φ l ij + φ.R * m.t k ij * m.alpha φ k ij

/-- Divergence of the mass flux in layer `k` by centred differences. -/
def div (k i j : ℕ) : K :=
  let p := i + m.nx * j
  let mu := fun q => m.gy q / m.dy * m.u k q * m.thick k q
  let mv := fun q => m.gx q / m.dx * m.v k q * m.thick k q
  ((mu (p + 1) - mu (p - 1)) / (2 * m.dx) + (mv (p + m.nx) - mv (p - m.nx)) / (2 * m.dy)) /
    (m.gx p / m.dx * (m.gy p / m.dy))

/-- Work of the pressure: the divergence above and in the layer. -/
def omega (k i j : ℕ) : K :=
  let p := i + m.nx * j
  φ.R * m.t k p * (m.logThick φ k p * ∑ l ∈ Finset.Ico 1 k, m.div l i j + m.alpha φ k p * m.div k i j) / m.thick k p

/-- Sum of the slopes of the geopotential along both axes. -/
def rise (k i j : ℕ) : K :=
  let p := i + m.nx * j
  (m.geopotential φ k (p + 1) - m.geopotential φ k (p - 1)) / (2 * m.gx p) +
    (m.geopotential φ k (p + m.nx) - m.geopotential φ k (p - m.nx)) / (2 * m.gy p)

/-- The velocity in an inner cell. -/
def w (k i j : ℕ) : K := (m.omega φ k i j + m.rise φ k i j) / φ.g

end Atmosphere

/-- The nearest inner column or row. -/
def inward (n i : ℕ) : ℕ := min (max i 1) (n - 2)

/-- The arguments of a call hold the fields. -/
structure Call {K : Type} [Field K] (c : Column K) (junk : Junk K) (m : Atmosphere K) : Prop where
  nx : c.nx = m.nx
  ny : c.ny = m.ny
  nz : c.nz = m.nz
  dx : c.dx = m.dx
  dy : c.dy = m.dy
  gx : Holds c.gridDistX (m.nx * m.ny) m.gx
  gy : Holds c.gridDistY (m.nx * m.ny) m.gy
  zs : Holds c.zs (m.nx * m.ny) m.zs
  ps : Holds c.ps (m.nx * m.ny) m.ps
  u : Holds3 c.u (m.nx * m.ny) m.nz m.u
  v : Holds3 c.v (m.nx * m.ny) m.nz m.v
  t : Holds3 c.t (m.nx * m.ny) m.nz m.t
  ap : ∃ ap, Holds c.ap m.nz ap ∧ HalfLevels m.nz ap 0 m.A
  b : ∃ b, Holds c.b m.nz b ∧ HalfLevels m.nz b 1 m.B
  ah : junk.ah.length = m.nz + 1
  bh : junk.bh.length = m.nz + 1
  z : junk.z.length = m.nx * m.ny * m.nz
  w : junk.w.length = m.nx * m.ny * m.nz

/-- What makes sense physically: cells have an extent, and pressure is positive and grows downwards. -/
structure Sensible {K : Type} [Field K] [LinearOrder K] (m : Atmosphere K) : Prop where
  dx : m.dx ≠ 0
  dy : m.dy ≠ 0
  gx : ∀ ij < m.nx * m.ny, m.gx ij ≠ 0
  gy : ∀ ij < m.nx * m.ny, m.gy ij ≠ 0
  p : ∀ k, 1 ≤ k → k ≤ m.nz → ∀ ij < m.nx * m.ny, 0 < m.P k ij
  grows : ∀ k, 1 ≤ k → k < m.nz → ∀ ij < m.nx * m.ny, m.P k ij < m.P (k + 1) ij

/-! ## Lemmas -/

section

variable {α : Type}

theorem holds_map (n : ℕ) (f : ℕ → α) : Holds ((List.range n).map f) n f :=
  ⟨by simp, fun i hi => by simp [hi]⟩

theorem Holds.read {l : List α} {n : ℕ} {f : ℕ → α} (h : Holds l n f) {i : ℕ} (hi : i < n) : readAt l i = .ok (f i) :=
  readAt_of (h.2 i hi)

theorem cell_lt {n nz k ij : ℕ} (hk : k < nz) (hi : ij < n) : ij + n * k < n * nz := by
  have := Nat.mul_le_mul_left n hk
  rw [Nat.mul_succ] at this
  omega

theorem Holds3.read {l : List α} {n nz : ℕ} {f : ℕ → ℕ → α} (h : Holds3 l n nz f) {k ij : ℕ} (hk : k < nz) (hi : ij < n) :
    readAt l (ij + n * k) = .ok (f k ij) := readAt_of (h.2 k hk ij hi)

theorem cell_inj {n k k' i i' : ℕ} (hi : i < n) (hi' : i' < n) (h : i + n * k = i' + n * k') : k = k' ∧ i = i' := by
  have := Interp.rowcol_inj (nx := n) (j := k) (j' := k') hi hi' (by rw [Nat.mul_comm k, Nat.mul_comm k']; omega)
  exact this

end

variable {K : Type} [Field K] [LinearOrder K]

theorem quot_ok {a b : K} (h : b ≠ 0) : quot a b = .ok (a / b) := if_neg h

theorem logOf_ok {ln : K → K} {x : K} (h : 0 < x) : logOf ln x = .ok (ln x) := if_pos h

variable [IsStrictOrderedRing K]

theorem halfLevels_ok {nz : ℕ} {full : List K} {surface : K} {junk : List K} {f h : ℕ → K} (hn : 1 ≤ nz) (h64 : nz < two64)
    (hf : Holds full nz f) (hh : HalfLevels nz f surface h) (hj : junk.length = nz + 1) :
    ∃ r, halfLevels nz full surface junk = .ok r ∧ Holds r (nz + 1) h := by
  obtain ⟨h0, hs, hm⟩ := hh
  have e1 : wsub nz 1 = nz - 1 := wsub_eq hn h64
  unfold halfLevels
  rw [writeAt_of _ (by omega), Res.ok_bind, writeAt_of _ (by simp [hj]), Res.ok_bind, e1]
  obtain ⟨r, hr, hl, ha, hb⟩ := forN_inv (body := halfStep nz full)
    (fun q l => l.length = nz + 1 ∧ l[0]? = some (h 0) ∧ ∀ k, nz - q ≤ k → k ≤ nz → l[k]? = some (h k)) (nz - 1) 0
    ((junk.set 0 0).set nz surface) (fun q l _ hq ⟨l1, l2, l3⟩ => by
      have e2 : wsub (wsub nz 1) q = nz - 1 - q := by rw [e1]; exact wsub_eq (by omega) (by omega)
      have e3 : wadd (nz - 1 - q) 1 = nz - q := by rw [wadd_eq (by omega)]; omega
      refine ⟨l.set (nz - 1 - q) (h (nz - 1 - q)), ?_, by simpa using l1, ?_, ?_⟩
      · unfold halfStep
        simp only [e2, e3]
        rw [hf.read (by omega), Res.ok_bind, readAt_of (l3 (nz - q) (by omega) (by omega)), Res.ok_bind,
          writeAt_of _ (by omega)]
        have := hm (nz - 1 - q) (by omega) (by omega)
        rw [show nz - 1 - q + 1 = nz - q by omega] at this
        rw [show 2 * f (nz - 1 - q) - h (nz - q) = h (nz - 1 - q) by linarith]
      · rw [List.getElem?_set_ne (by omega)]; exact l2
      · intro k hk hk'
        by_cases hc : k = nz - 1 - q
        · subst hc; rw [List.getElem?_set_self (by omega)]
        · rw [List.getElem?_set_ne (Ne.symm hc)]; exact l3 k (by omega) hk')
    ⟨by simp [hj], by
      rw [List.getElem?_set_ne (by omega), List.getElem?_set_self (by omega), h0],
      fun k hk hk' => by
        obtain rfl : k = nz := by omega
        rw [List.getElem?_set_self (by simp [hj]), hs]⟩
  refine ⟨r, hr, hl, fun k hk => ?_⟩
  rcases Nat.eq_zero_or_pos k with rfl | hp
  · exact ha
  · exact hb k (by omega) (by omega)

section

variable {φ : Physics K} {c : Column K} {junk : Junk K} {m : Atmosphere K}

/-- The map factors of a cell. -/
def factors (m : Atmosphere K) (ij : ℕ) : Factors K :=
  ⟨m.gx ij / m.dx, m.gy ij / m.dy, 1 / (m.gx ij / m.dx), 1 / (m.gy ij / m.dy), 1 / (m.gx ij / m.dx) * (1 / (m.gy ij / m.dy))⟩

/-- The pressure variables of a cell. -/
def pressuresAt (φ : Physics K) (m : Atmosphere K) (k ij : ℕ) : Pressures K :=
  ⟨m.thick k ij, m.logThick φ k ij, m.alpha φ k ij⟩

omit [IsStrictOrderedRing K] in
theorem mapFactors_ok (hc : Call c junk m) (hs : Sensible m) :
    ∃ fac, mapFactors c = .ok fac ∧ Holds fac (m.nx * m.ny) (factors m) := by
  refine ⟨_, ?_, holds_map _ _⟩
  unfold mapFactors
  rw [hc.nx, hc.ny]
  refine mapM_range_ok _ _ _ fun ij hij => ?_
  unfold mapFactor
  rw [hc.dx, hc.dy, hc.gx.read hij, Res.ok_bind, quot_ok hs.dx, Res.ok_bind, hc.gy.read hij, Res.ok_bind, quot_ok hs.dy,
    Res.ok_bind, quot_ok (div_ne_zero (hs.gx ij hij) hs.dx), Res.ok_bind, quot_ok (div_ne_zero (hs.gy ij hij) hs.dy), Res.ok_bind]
  rfl

theorem pressures_ok (hc : Call c junk m) (hs : Sensible m) (hnz : 1 ≤ m.nz) {ah bh : List K}
    (ha : Holds ah (m.nz + 1) m.A) (hb : Holds bh (m.nz + 1) m.B) (hA0 : m.A 0 = 0) (hB0 : m.B 0 = 0) :
    ∃ pr, pressures φ c ah bh = .ok pr ∧ Holds3 pr (m.nx * m.ny) m.nz (pressuresAt φ m) := by
  have ht : (List.range (m.nx * m.ny)).mapM (topCell φ c ah bh) =
      .ok ((List.range (m.nx * m.ny)).map (pressuresAt φ m 0)) := by
    refine mapM_range_ok _ _ _ fun ij hij => ?_
    unfold topCell
    rw [ha.read (by omega), Res.ok_bind, ha.read (by omega), Res.ok_bind, hb.read (by omega), Res.ok_bind,
      hb.read (by omega), Res.ok_bind, hc.ps.read hij, Res.ok_bind]
    simp only [pressuresAt, Atmosphere.thick, Atmosphere.P, Atmosphere.logThick, Atmosphere.alpha, if_pos, hA0, hB0]
    congr 2
    ring
  have hr : (List.range (m.nz - 1)).mapM (fun q => (List.range (m.nx * m.ny)).mapM (layerCell φ c ah bh (q + 1))) =
      .ok ((List.range (m.nz - 1)).map fun q => (List.range (m.nx * m.ny)).map (pressuresAt φ m (q + 1))) := by
    refine mapM_range_ok _ _ _ fun q hq => mapM_range_ok _ _ _ fun ij hij => ?_
    have h1 : 0 < m.A (q + 1) + m.B (q + 1) * m.ps ij := hs.p (q + 1) (by omega) (by omega) ij hij
    have h2 : 0 < m.A (q + 1 + 1) + m.B (q + 1 + 1) * m.ps ij := hs.p (q + 1 + 1) (by omega) (by omega) ij hij
    have h3 : m.A (q + 1) + m.B (q + 1) * m.ps ij < m.A (q + 1 + 1) + m.B (q + 1 + 1) * m.ps ij :=
      hs.grows (q + 1) (by omega) (by omega) ij hij
    unfold layerCell
    rw [hc.ps.read hij, Res.ok_bind, ha.read (by omega), Res.ok_bind, hb.read (by omega), Res.ok_bind,
      ha.read (by omega), Res.ok_bind, hb.read (by omega), Res.ok_bind]
    dsimp only
    rw [quot_ok h1.ne', Res.ok_bind, logOf_ok (div_pos h2 h1), Res.ok_bind, quot_ok (sub_pos.2 h3).ne', Res.ok_bind]
    simp [pressuresAt, Atmosphere.thick, Atmosphere.P, Atmosphere.logThick, Atmosphere.alpha]
  have hL : ∀ l ∈ (List.range (m.nz - 1)).map fun q => (List.range (m.nx * m.ny)).map (pressuresAt φ m (q + 1)),
      l.length = m.nx * m.ny := by
    intro l hl
    obtain ⟨q, _, rfl⟩ := List.mem_map.1 hl
    simp
  refine ⟨_, by unfold pressures; rw [hc.nx, hc.ny, hc.nz, ht, Res.ok_bind, hr, Res.ok_bind], ?_, ?_⟩
  · rw [List.length_append, Interp.flatten_length _ _ hL]
    simp only [List.length_map, List.length_range]
    obtain ⟨n, hn⟩ : ∃ n, m.nz = n + 1 := ⟨m.nz - 1, by omega⟩
    rw [hn, Nat.add_sub_cancel, Nat.mul_succ, Nat.add_comm]
  · intro k hk ij hij
    rcases k with _ | k
    · rw [Nat.mul_zero, Nat.add_zero, List.getElem?_append_left (by simpa using hij)]
      simp [hij]
    · rw [List.getElem?_append_right (by simp [Nat.mul_succ]; omega)]
      simp only [List.length_map, List.length_range]
      rw [show ij + m.nx * m.ny * (k + 1) - m.nx * m.ny = k * (m.nx * m.ny) + ij by
        rw [Nat.mul_succ, Nat.mul_comm k]; omega, Interp.flatten_get _ _ hL _ _ hij]
      have : k < m.nz - 1 := by omega
      simp [List.getD, this, hij]

omit [IsStrictOrderedRing K] in
theorem hydro_ok (hc : Call c junk m) (hnz : 1 ≤ m.nz) (h31 : m.nz ≤ 2 ^ 31) {pr : List (Pressures K)}
    (hp : Holds3 pr (m.nx * m.ny) m.nz (pressuresAt φ m)) :
    ∃ z sum, hydro φ c pr junk.z = .ok (z, sum) ∧ Holds3 z (m.nx * m.ny) m.nz (m.geopotential φ) := by
  have hst : hydroStart φ c = .ok ((List.range (m.nx * m.ny)).map fun ij => m.zs ij * φ.g) := by
    unfold hydroStart
    rw [hc.nx, hc.ny]
    refine mapM_range_ok _ _ _ fun ij hij => ?_
    rw [hc.zs.read hij, Res.ok_bind]
  let N := m.nx * m.ny
  let S : ℕ → ℕ → K := fun q ij => φ.g * m.zs ij + ∑ l ∈ Finset.Ico q m.nz, φ.R * m.t l ij * m.logThick φ l ij
  have hS : ∀ k ij, k < m.nz → S k ij = S (k + 1) ij + φ.R * m.t k ij * m.logThick φ k ij := by
    intro k ij hk
    simp only [S]
    rw [Finset.sum_eq_sum_Ico_succ_bot hk]
    ring
  have hG : ∀ k ij, m.geopotential φ k ij = S (k + 1) ij + φ.R * m.t k ij * m.alpha φ k ij := fun _ _ => rfl
  unfold hydro
  rw [hc.nz, if_neg (by omega), hst, Res.ok_bind, hc.nx, hc.ny]
  obtain ⟨⟨z, sum⟩, hr, hI⟩ := forN_inv
    (body := fun q s => forN (hydroCell φ c pr (m.nz - 1 - q)) 0 (m.nx * m.ny) s)
    (fun q s => s.1.length = N * m.nz ∧ Holds s.2 N (S (m.nz - q)) ∧
      ∀ k, m.nz - q ≤ k → k < m.nz → ∀ ij < N, s.1[ij + N * k]? = some (m.geopotential φ k ij)) m.nz 0
    (junk.z, (List.range (m.nx * m.ny)).map fun ij => m.zs ij * φ.g) (fun q s _ hq ⟨l1, l2, l3⟩ => by
      obtain ⟨k, hk⟩ : ∃ k, m.nz - 1 - q = k := ⟨_, rfl⟩
      have hq' : m.nz - q = k + 1 := by omega
      rw [hq'] at l2 l3
      obtain ⟨s', h1, h2, h3, h4, h5, h6⟩ := forN_inv (body := hydroCell φ c pr k)
        (fun i s => s.1.length = N * m.nz ∧ s.2.length = N ∧ (∀ ij < N, ij < i → s.2[ij]? = some (S k ij)) ∧
          (∀ ij < N, i ≤ ij → s.2[ij]? = some (S (k + 1) ij)) ∧
          (∀ l, k ≤ l → l < m.nz → ∀ ij < N, k < l ∨ ij < i → s.1[ij + N * l]? = some (m.geopotential φ l ij))) N 0 s
        (fun i s _ hi ⟨a1, a2, a3, a4, a5⟩ => by
          have hi' : i < N := by omega
          have hkz : k < m.nz := by omega
          have hlt : i + N * k < s.1.length := by rw [a1]; exact cell_lt hkz hi'
          refine ⟨(s.1.set (i + N * k) (m.geopotential φ k i), s.2.set i (S k i)), ?_, by simpa using a1,
            by simpa using a2, ?_, ?_, ?_⟩
          · unfold hydroCell
            dsimp only
            rw [hc.nx, hc.ny, hc.t.read hkz hi', Res.ok_bind, hp.read hkz hi', Res.ok_bind, readAt_of (a4 i hi' le_rfl),
              Res.ok_bind, writeAt_of _ hlt, Res.ok_bind, writeAt_of _ (by omega), Res.ok_bind, hG, hS k i hkz]
            rfl
          · intro ij hij hlt'
            by_cases h : ij = i
            · subst h; rw [List.getElem?_set_self (by omega)]
            · rw [List.getElem?_set_ne (Ne.symm h)]; exact a3 ij hij (by omega)
          · intro ij hij hle
            rw [List.getElem?_set_ne (by omega)]; exact a4 ij hij (by omega)
          · intro l hl hl' ij hij hor
            by_cases h : ij + N * l = i + N * k
            · obtain ⟨rfl, rfl⟩ := cell_inj hij hi' h
              rw [List.getElem?_set_self hlt]
            · rw [List.getElem?_set_ne (Ne.symm h)]
              refine a5 l hl hl' ij hij ?_
              rcases hor with h' | h'
              · exact .inl h'
              · by_cases hkl : k < l
                · exact .inl hkl
                · obtain rfl : l = k := by omega
                  exact .inr (by
                    rcases Nat.lt_succ_iff_lt_or_eq.1 h' with h'' | h''
                    · exact h''
                    · exact absurd (by rw [h'']) h))
        ⟨l1, l2.1, fun ij _ h => by omega, fun ij hij _ => l2.2 ij hij, fun l hl hl' ij hij hor => by
          rcases hor with h | h
          · exact l3 l (by omega) hl' ij hij
          · omega⟩
      refine ⟨s', by rw [hk]; exact h1, h2, ⟨h3, fun ij hij => ?_⟩, fun l hl hl' ij hij => ?_⟩
      · rw [show m.nz - (q + 1) = k by omega]
        exact h4 ij hij (by omega)
      · exact h6 l (by omega) hl' ij hij (.inr (by omega)))
    ⟨hc.z, by
      have := holds_map N fun ij => m.zs ij * φ.g
      refine ⟨this.1, fun ij hij => ?_⟩
      rw [this.2 ij hij]
      simp [S, mul_comm], fun k hk hk' => by omega⟩
  exact ⟨z, sum, hr, hI.1, fun k hk ij hij => hI.2.2 k (by omega) hk ij hij⟩

/-! ### One layer -/

/-- The layer `k` of `w` holds the velocity in the cells with `p`, and the layers above are those of `w₀`. -/
def LayerDone (φ : Physics K) (m : Atmosphere K) (k : ℕ) (w₀ w : List K) (p : ℕ → ℕ → Prop) : Prop :=
  w.length = m.nx * m.ny * m.nz ∧ (∀ q < m.nx * m.ny * k, w[q]? = w₀[q]?) ∧
    ∀ i j, i < m.nx → j < m.ny → p i j →
      w[i + m.nx * j + m.nx * m.ny * k]? = some (m.w φ k (inward m.nx i) (inward m.ny j))

theorem cell2_lt {nx ny i j : ℕ} (hi : i < nx) (hj : j < ny) : i + nx * j < nx * ny := by
  have := Interp.rowcol_lt hi hj
  rw [Nat.mul_comm j] at this
  omega

theorem cell2_inj {nx i i' j j' : ℕ} (hi : i < nx) (hi' : i' < nx) (h : i + nx * j = i' + nx * j') : j = j' ∧ i = i' :=
  cell_inj hi hi' h

omit [LinearOrder K] [IsStrictOrderedRing K] in
theorem LayerDone.set {k : ℕ} {w₀ w : List K} {p p' : ℕ → ℕ → Prop} (h : LayerDone φ m k w₀ w p) (hk : k < m.nz) {i j : ℕ}
    (hi : i < m.nx) (hj : j < m.ny) (hp : ∀ i' j', i' < m.nx → j' < m.ny → p' i' j' → p i' j' ∨ i' = i ∧ j' = j) :
    LayerDone φ m k w₀ (w.set (i + m.nx * j + m.nx * m.ny * k) (m.w φ k (inward m.nx i) (inward m.ny j))) p' := by
  obtain ⟨h1, h2, h3⟩ := h
  have hlt : i + m.nx * j + m.nx * m.ny * k < w.length := by rw [h1]; exact cell_lt hk (cell2_lt hi hj)
  refine ⟨by simpa using h1, fun q hq => ?_, fun i' j' hi' hj' hp' => ?_⟩
  · rw [List.getElem?_set_ne (by omega)]; exact h2 q hq
  · by_cases he : i + m.nx * j + m.nx * m.ny * k = i' + m.nx * j' + m.nx * m.ny * k
    · obtain ⟨rfl, rfl⟩ := cell2_inj hi hi' (Nat.add_right_cancel he)
      rw [List.getElem?_set_self hlt]
    · rw [List.getElem?_set_ne he]
      rcases hp i' j' hi' hj' hp' with h | ⟨rfl, rfl⟩
      · exact h3 i' j' hi' hj' h
      · exact absurd rfl he

omit [LinearOrder K] [IsStrictOrderedRing K] in
theorem copyW_ok {k : ℕ} {w₀ w : List K} {p p' : ℕ → ℕ → Prop} (h : LayerDone φ m k w₀ w p) (hk : k < m.nz) {i j i' j' a b : ℕ}
    (hi : i < m.nx) (hj : j < m.ny) (hi' : i' < m.nx) (hj' : j' < m.ny) (hp : p i' j')
    (ha : a = i + m.nx * j + m.nx * m.ny * k) (hb : b = i' + m.nx * j' + m.nx * m.ny * k)
    (hx : inward m.nx i' = inward m.nx i) (hy : inward m.ny j' = inward m.ny j)
    (hor : ∀ x y, x < m.nx → y < m.ny → p' x y → p x y ∨ x = i ∧ y = j) :
    ∃ w', copyW a b w = .ok w' ∧ LayerDone φ m k w₀ w' p' := by
  have hlt : i + m.nx * j + m.nx * m.ny * k < w.length := by rw [h.1]; exact cell_lt hk (cell2_lt hi hj)
  refine ⟨_, ?_, h.set hk hi hj hor⟩
  unfold copyW
  rw [ha, hb, readAt_of (h.2.2 i' j' hi' hj' hp), Res.ok_bind, writeAt_of _ hlt, hx, hy]

omit [LinearOrder K] [IsStrictOrderedRing K] in
theorem edges_ok (hcx : c.nx = m.nx) (hcy : c.ny = m.ny) (hx : 3 ≤ m.nx) (hy : 3 ≤ m.ny) {k : ℕ} (hk : k < m.nz)
    (h64 : m.nx * m.ny * m.nz < two64) {w₀ w : List K}
    (h : LayerDone φ m k w₀ w fun i j => (1 ≤ i ∧ i + 1 < m.nx) ∧ 1 ≤ j ∧ j + 1 < m.ny) :
    ∃ w1 w2, forN (edgeRows c k) 1 (wsub c.nx 1 - 1) w = .ok w1 ∧ forN (edgeColumns c k) 0 c.ny w1 = .ok w2 ∧
      LayerDone φ m k w₀ w2 fun _ _ => True := by
  have hmul : m.nx * m.ny ≤ m.nx * m.ny * m.nz := Nat.le_mul_of_pos_right _ (by omega)
  have hnx : m.nx < two64 :=
    lt_of_le_of_lt (Nat.le_mul_of_pos_right m.nx (show 0 < m.ny by omega)) (lt_of_le_of_lt hmul h64)
  have hny : m.ny < two64 :=
    lt_of_le_of_lt (Nat.le_mul_of_pos_left m.ny (show 0 < m.nx by omega)) (lt_of_le_of_lt hmul h64)
  have e1 : wsub m.nx 1 = m.nx - 1 := wsub_eq (by omega) hnx
  have e2 : wsub m.ny 1 = m.ny - 1 := wsub_eq (by omega) hny
  have hrow : m.ny * k + m.ny ≤ m.ny * m.nz := by
    have := Nat.mul_le_mul_left m.ny hk
    rw [Nat.mul_succ] at this; omega
  have hyz : m.ny * m.nz ≤ m.nx * m.ny * m.nz := by
    rw [Nat.mul_assoc]; exact Nat.le_mul_of_pos_left _ (by omega)
  have hcell : ∀ i j, i < m.nx → j < m.ny → i + m.nx * j + m.nx * m.ny * k < two64 := fun i j hi hj =>
    lt_trans (cell_lt hk (cell2_lt hi hj)) h64
  have eidx : ∀ i j, i + m.nx * (j + m.ny * k) = i + m.nx * j + m.nx * m.ny * k := fun i j => by ring
  rw [hcx, hcy, e1]
  obtain ⟨w1, r1, d1⟩ := forN_inv (body := edgeRows c k)
    (fun q w => LayerDone φ m k w₀ w fun i j => (1 ≤ i ∧ i + 1 < m.nx) ∧ ((1 ≤ j ∧ j + 1 < m.ny) ∨ i < q)) (m.nx - 1 - 1) 1 w
    (fun i w hi hi' hd => by
      unfold edgeRows
      dsimp only
      rw [hcx, hcy]
      obtain ⟨w', c1, c2⟩ := copyW_ok (p' := fun i' j => (1 ≤ i' ∧ i' + 1 < m.nx) ∧ ((1 ≤ j ∧ j + 1 < m.ny) ∨ i' < i ∨ i' = i ∧ j = 0))
        hd hk (i := i) (j := 0) (i' := i) (j' := 1) (a := i + m.nx * (0 + m.ny * k)) (b := i + m.nx * (0 + m.ny * k) + m.nx)
        (by omega) (by omega) (by omega) (by omega) ⟨by omega, by omega⟩ (by ring) (by ring) rfl
        (by unfold inward; omega) (fun x y _ _ hp => by omega)
      have ea : i + m.nx * wadd (wsub m.ny 1) (m.ny * k) = i + m.nx * (m.ny - 1) + m.nx * m.ny * k := by
        rw [e2, wadd_eq (by omega), eidx]
      have eb : wsub (i + m.nx * (m.ny - 1) + m.nx * m.ny * k) m.nx = i + m.nx * (m.ny - 2) + m.nx * m.ny * k := by
        have hb := hcell i (m.ny - 1) (by omega) (by omega)
        have : m.nx * (m.ny - 1) = m.nx * (m.ny - 2) + m.nx := by
          rw [← Nat.mul_succ, show (m.ny - 2).succ = m.ny - 1 by omega]
        rw [wsub_eq (by omega) hb]
        omega
      obtain ⟨w'', c3, c4⟩ := copyW_ok (p' := fun i' j => (1 ≤ i' ∧ i' + 1 < m.nx) ∧ ((1 ≤ j ∧ j + 1 < m.ny) ∨ i' < i + 1))
        c2 hk (i := i) (j := m.ny - 1) (i' := i) (j' := m.ny - 2)
        (b := wsub (i + m.nx * wadd (wsub m.ny 1) (m.ny * k)) m.nx) (by omega) (by omega) (by omega) (by omega)
        ⟨by omega, by omega⟩ ea (by rw [ea]; exact eb) rfl (by unfold inward; omega) (fun x y _ _ hp => by omega)
      exact ⟨w'', by rw [c1, Res.ok_bind, c3], c4⟩)
    ⟨h.1, h.2.1, fun i j hi hj hp => h.2.2 i j hi hj ⟨hp.1, by omega⟩⟩
  obtain ⟨w2, r2, d2⟩ := forN_inv (body := edgeColumns c k)
    (fun q w => LayerDone φ m k w₀ w fun i j => (1 ≤ i ∧ i + 1 < m.nx) ∨ j < q) m.ny 0 w1
    (fun j w _ hj hd => by
      unfold edgeColumns
      dsimp only
      rw [hcx, hcy]
      obtain ⟨w', c1, c2⟩ := copyW_ok (p' := fun i j' => (1 ≤ i ∧ i + 1 < m.nx) ∨ j' < j ∨ j' = j ∧ i = 0)
        hd hk (i := 0) (j := j) (i' := 1) (j' := j) (a := m.nx * (j + m.ny * k)) (b := m.nx * (j + m.ny * k) + 1)
        (by omega) (by omega) (by omega) (by omega) (by omega) (by ring) (by ring) (by unfold inward; omega) rfl
        (fun x y _ _ hp => by omega)
      have hb := hcell (m.nx - 1) j (by omega) (by omega)
      rw [← eidx] at hb
      have ea : wadd (wsub m.nx 1) (m.nx * (j + m.ny * k)) = m.nx - 1 + m.nx * j + m.nx * m.ny * k := by
        rw [e1, wadd_eq hb, eidx]
      have eb : wsub (m.nx - 1 + m.nx * j + m.nx * m.ny * k) 1 = m.nx - 2 + m.nx * j + m.nx * m.ny * k := by
        rw [eidx] at hb
        rw [wsub_eq (by omega) hb]; omega
      obtain ⟨w'', c3, c4⟩ := copyW_ok (p' := fun i j' => (1 ≤ i ∧ i + 1 < m.nx) ∨ j' < j + 1)
        c2 hk (i := m.nx - 1) (j := j) (i' := m.nx - 2) (j' := j)
        (b := wsub (wadd (wsub m.nx 1) (m.nx * (j + m.ny * k))) 1) (by omega) (by omega) (by omega) (by omega)
        (by omega) ea (by rw [ea]; exact eb) (by unfold inward; omega) rfl (fun x y _ _ hp => by omega)
      exact ⟨w'', by rw [c1, Res.ok_bind, c3], c4⟩)
    ⟨d1.1, d1.2.1, fun i j hi hj hp => d1.2.2 i j hi hj ⟨by omega, by omega⟩⟩
  refine ⟨w1, w2, r1, r2, d2.1, d2.2.1, fun i j hi hj _ => d2.2.2 i j hi hj (.inr (by omega))⟩

/-- The divergence above layer `k` is summed in the inner cells with `done`, that above layer `k - 1` in the others. -/
def SumDone (m : Atmosphere K) (k : ℕ) (sum : List K) (done : ℕ → ℕ → Prop) : Prop :=
  sum.length = m.nx * m.ny ∧ ∀ i j, 1 ≤ i → i + 1 < m.nx → 1 ≤ j → j + 1 < m.ny →
    (done i j → sum[i + m.nx * j]? = some (∑ l ∈ Finset.Ico 1 (k + 1), m.div l i j)) ∧
    (¬ done i j → sum[i + m.nx * j]? = some (∑ l ∈ Finset.Ico 1 k, m.div l i j))

theorem inner_ok (hc : Call c junk m) (hs : Sensible m) (hg : φ.g ≠ 0) {k : ℕ} (hk1 : 1 ≤ k) (hk : k < m.nz)
    {fac : List (Factors K)} {pr : List (Pressures K)} {z : List K} {uv : List (K × K)} {w₀ w sum : List K} {p p' : ℕ → ℕ → Prop}
    (hf : Holds fac (m.nx * m.ny) (factors m)) (hp : Holds3 pr (m.nx * m.ny) m.nz (pressuresAt φ m))
    (hz : Holds3 z (m.nx * m.ny) m.nz (m.geopotential φ))
    (huv : Holds uv (m.nx * m.ny) fun q => (m.gy q / m.dy * m.u k q * m.thick k q, m.gx q / m.dx * m.v k q * m.thick k q))
    {i j : ℕ} (hi : 1 ≤ i) (hi' : i + 1 < m.nx) (hj : 1 ≤ j) (hj' : j + 1 < m.ny)
    (hw : LayerDone φ m k w₀ w p) (hsum : SumDone m k sum p) (hij : ¬ p i j)
    (hpp : ∀ x y, x < m.nx → y < m.ny → (p' x y ↔ p x y ∨ x = i ∧ y = j)) :
    ∃ s, innerVelocity φ c fac pr z uv (1 / (2 * m.dx)) (1 / (2 * m.dy)) k j i (w, sum) = .ok s ∧
      LayerDone φ m k w₀ s.1 p' ∧ SumDone m k s.2 p' := by
  have q0 : i + m.nx * j < m.nx * m.ny := cell2_lt (by omega) (by omega)
  have hnxj : m.nx ≤ m.nx * j := Nat.le_mul_of_pos_right _ (by omega)
  have q1 : i + m.nx * j + 1 < m.nx * m.ny := by
    have := cell2_lt (i := i + 1) (j := j) (nx := m.nx) (ny := m.ny) (by omega) (by omega); omega
  have q2 : i + m.nx * j + m.nx < m.nx * m.ny := by
    have := cell2_lt (i := i) (j := j + 1) (nx := m.nx) (ny := m.ny) (by omega) (by omega)
    rw [Nat.mul_succ] at this; omega
  have hdiv : divergence c (factors m (i + m.nx * j)) uv (1 / (2 * m.dx)) (1 / (2 * m.dy)) (i + m.nx * j) =
      .ok (m.div k i j) := by
    unfold divergence
    rw [huv.read q1, Res.ok_bind, huv.read (by omega), Res.ok_bind, hc.nx, huv.read q2, Res.ok_bind, huv.read (by omega),
      Res.ok_bind]
    simp only [factors, Atmosphere.div, div_eq_mul_inv, mul_inv, one_mul]
    congr 1
    ring
  have hsl : slope c (factors m (i + m.nx * j)) z (1 / (2 * m.dx)) (1 / (2 * m.dy)) (i + m.nx * j + m.nx * m.ny * k) =
      .ok (m.rise φ k i j) := by
    unfold slope
    rw [show i + m.nx * j + m.nx * m.ny * k + 1 = i + m.nx * j + 1 + m.nx * m.ny * k by omega,
      show i + m.nx * j + m.nx * m.ny * k - 1 = i + m.nx * j - 1 + m.nx * m.ny * k by omega, hc.nx,
      show i + m.nx * j + m.nx * m.ny * k + m.nx = i + m.nx * j + m.nx + m.nx * m.ny * k by omega,
      show i + m.nx * j + m.nx * m.ny * k - m.nx = i + m.nx * j - m.nx + m.nx * m.ny * k by omega,
      hz.read hk q1, Res.ok_bind, hz.read hk (by omega), Res.ok_bind, hz.read hk q2, Res.ok_bind, hz.read hk (by omega),
      Res.ok_bind]
    have h1 := hs.dx
    have h2 := hs.dy
    have h3 := hs.gx _ q0
    have h4 := hs.gy _ q0
    simp only [factors, Atmosphere.rise]
    congr 1
    field_simp
  have hth : (pressuresAt φ m k (i + m.nx * j)).dp ≠ 0 := (sub_pos.2 (hs.grows k hk1 hk _ q0)).ne'
  have hix : inward m.nx i = i := by unfold inward; omega
  have hjy : inward m.ny j = j := by unfold inward; omega
  have hset := hw.set hk (i := i) (j := j) (p' := p') (by omega) (by omega) fun x y hx hy h => (hpp x y hx hy).1 h
  rw [hix, hjy] at hset
  refine ⟨(w.set (i + m.nx * j + m.nx * m.ny * k) (m.w φ k i j),
    sum.set (i + m.nx * j) (∑ l ∈ Finset.Ico 1 (k + 1), m.div l i j)), ?_, hset, by simpa using hsum.1, ?_⟩
  · unfold innerVelocity
    dsimp only
    rw [hc.nx, hc.ny, hf.read q0, Res.ok_bind, hdiv, Res.ok_bind, hc.t.read hk q0, Res.ok_bind, hp.read hk q0, Res.ok_bind,
      readAt_of ((hsum.2 i j hi hi' hj hj').2 hij), Res.ok_bind, quot_ok hth, Res.ok_bind, hsl, Res.ok_bind, quot_ok hg,
      Res.ok_bind, writeAt_of _ (by rw [hw.1]; exact cell_lt hk q0), Res.ok_bind, writeAt_of _ (by rw [hsum.1]; exact q0),
      Res.ok_bind, Finset.sum_Ico_succ_top hk1]
    rfl
  · intro x y hx hx' hy hy'
    by_cases he : i + m.nx * j = x + m.nx * y
    · obtain ⟨rfl, rfl⟩ := cell2_inj (by omega) (by omega) he
      refine ⟨fun _ => by rw [List.getElem?_set_self (by rw [hsum.1]; exact q0)], fun h => ?_⟩
      exact absurd ((hpp _ _ (by omega) (by omega)).2 (.inr ⟨rfl, rfl⟩)) h
    · rw [List.getElem?_set_ne he]
      have hne : ¬ (x = i ∧ y = j) := fun h => he (by rw [h.1, h.2])
      have h := hpp x y (by omega) (by omega)
      exact ⟨fun h' => (hsum.2 x y hx hx' hy hy').1 ((h.1 h').resolve_right hne),
        fun h' => (hsum.2 x y hx hx' hy hy').2 fun h'' => h' (h.2 (.inl h''))⟩

theorem layer_ok (hc : Call c junk m) (hs : Sensible m) (hg : φ.g ≠ 0) (hx : 3 ≤ m.nx) (hy : 3 ≤ m.ny)
    (h64 : m.nx * m.ny * m.nz < two64) {k : ℕ} (hk1 : 1 ≤ k) (hk : k < m.nz)
    {fac : List (Factors K)} {pr : List (Pressures K)} {z : List K} {w sum : List K}
    (hf : Holds fac (m.nx * m.ny) (factors m)) (hp : Holds3 pr (m.nx * m.ny) m.nz (pressuresAt φ m))
    (hz : Holds3 z (m.nx * m.ny) m.nz (m.geopotential φ)) (hw : w.length = m.nx * m.ny * m.nz)
    (hsum : SumDone m k sum fun _ _ => False) :
    ∃ s, velocityLayer φ c fac pr z (1 / (2 * m.dx)) (1 / (2 * m.dy)) k (w, sum) = .ok s ∧
      LayerDone φ m k w s.1 (fun _ _ => True) ∧ SumDone m (k + 1) s.2 fun _ _ => False := by
  have hmul : m.nx * m.ny ≤ m.nx * m.ny * m.nz := Nat.le_mul_of_pos_right _ (by omega)
  have hnx : m.nx < two64 :=
    lt_of_le_of_lt (Nat.le_mul_of_pos_right m.nx (show 0 < m.ny by omega)) (lt_of_le_of_lt hmul h64)
  have hny : m.ny < two64 :=
    lt_of_le_of_lt (Nat.le_mul_of_pos_left m.ny (show 0 < m.nx by omega)) (lt_of_le_of_lt hmul h64)
  have e1 : wsub c.nx 1 = m.nx - 1 := by rw [hc.nx]; exact wsub_eq (by omega) hnx
  have e2 : wsub c.ny 1 = m.ny - 1 := by rw [hc.ny]; exact wsub_eq (by omega) hny
  let fl : ℕ → K × K := fun q => (m.gy q / m.dy * m.u k q * m.thick k q, m.gx q / m.dx * m.v k q * m.thick k q)
  have hfl : (List.range (c.nx * c.ny)).mapM (flux c fac pr k) = .ok ((List.range (m.nx * m.ny)).map fl) := by
    rw [hc.nx, hc.ny]
    refine mapM_range_ok _ _ _ fun q hq => ?_
    unfold flux
    dsimp only
    rw [hc.nx, hc.ny, hf.read hq, Res.ok_bind, hc.u.read hk hq, Res.ok_bind, hc.v.read hk hq, Res.ok_bind, hp.read hk hq,
      Res.ok_bind]
    rfl
  let uv := (List.range (m.nx * m.ny)).map fl
  obtain ⟨s, hr, hd, hS⟩ := forN_inv
    (body := fun j s => forN (innerVelocity φ c fac pr z uv (1 / (2 * m.dx)) (1 / (2 * m.dy)) k j) 1 (wsub c.nx 1 - 1) s)
    (fun q s => LayerDone φ m k w s.1 (fun i j => (1 ≤ i ∧ i + 1 < m.nx) ∧ 1 ≤ j ∧ j < q) ∧
      SumDone m k s.2 fun i j => (1 ≤ i ∧ i + 1 < m.nx) ∧ 1 ≤ j ∧ j < q) (wsub c.ny 1 - 1) 1 (w, sum)
    (fun j s hj hj' ⟨hd, hS⟩ => by
      rw [e2] at hj'
      obtain ⟨s', hr, hd', hS'⟩ := forN_inv
        (body := innerVelocity φ c fac pr z uv (1 / (2 * m.dx)) (1 / (2 * m.dy)) k j)
        (fun q s => LayerDone φ m k w s.1 (fun i j' => (1 ≤ i ∧ i + 1 < m.nx) ∧ 1 ≤ j' ∧ (j' < j ∨ j' = j ∧ i < q)) ∧
          SumDone m k s.2 fun i j' => (1 ≤ i ∧ i + 1 < m.nx) ∧ 1 ≤ j' ∧ (j' < j ∨ j' = j ∧ i < q)) (wsub c.nx 1 - 1) 1 s
        (fun i s hi hi' ⟨hd, hS⟩ => by
          rw [e1] at hi'
          exact inner_ok hc hs hg hk1 hk hf hp hz (holds_map _ _) hi (by omega) hj (by omega) hd hS (by omega)
            fun x y _ _ => by omega)
        ⟨⟨hd.1, hd.2.1, fun i j' hi hj' h => hd.2.2 i j' hi hj' ⟨h.1, by omega⟩⟩, hS.1, fun i j' h1 h2 h3 h4 =>
          ⟨fun h => (hS.2 i j' h1 h2 h3 h4).1 ⟨h.1, by omega⟩, fun h => (hS.2 i j' h1 h2 h3 h4).2 fun h' => h (by omega)⟩⟩
      rw [e1] at hd' hS'
      refine ⟨s', hr, ⟨hd'.1, hd'.2.1, fun i j' hi hj' h => hd'.2.2 i j' hi hj' ⟨h.1, by omega⟩⟩, hS'.1,
        fun i j' h1 h2 h3 h4 => ⟨fun h => (hS'.2 i j' h1 h2 h3 h4).1 ⟨h.1, by omega⟩,
          fun h => (hS'.2 i j' h1 h2 h3 h4).2 fun h' => h (by omega)⟩⟩)
    ⟨⟨hw, fun _ _ => rfl, fun i j _ _ h => by omega⟩, hsum.1, fun i j h1 h2 h3 h4 =>
      ⟨fun h => by omega, fun _ => (hsum.2 i j h1 h2 h3 h4).2 id⟩⟩
  rw [e2] at hd hS
  obtain ⟨w1, w2, r1, r2, d2⟩ := edges_ok hc.nx hc.ny hx hy hk h64 (φ := φ) (w := s.1) (w₀ := w)
    ⟨hd.1, hd.2.1, fun i j hi hj h => hd.2.2 i j hi hj ⟨h.1, by omega⟩⟩
  refine ⟨(w2, s.2), ?_, d2, hS.1, fun i j h1 h2 h3 h4 => ⟨False.elim, fun _ => (hS.2 i j h1 h2 h3 h4).1 ⟨⟨h1, h2⟩, h3, by omega⟩⟩⟩
  unfold velocityLayer
  rw [hfl, Res.ok_bind, hr, Res.ok_bind, r1, Res.ok_bind, r2, Res.ok_bind]

end

/-! ## C80 -/

/-- **C80.** On a grid of at least three columns and rows, the call reads and writes only its arrays, and every cell of the result
is determined: the top layer is 0, an inner cell of another layer has the velocity computed from the divergence of the
mass flux above and in the layer and from the slope of the geopotential, and a cell at the border has the velocity of the
nearest inner cell. -/
theorem C80_vertical_velocity (φ : Physics K) (c : Column K) (junk : Junk K) (m : Atmosphere K) (hc : Call c junk m)
    (hs : Sensible m) (hg : φ.g ≠ 0) (hx : 3 ≤ m.nx) (hy : 3 ≤ m.ny) (hz : 1 ≤ m.nz) (h31 : m.nz ≤ 2 ^ 31)
    (h64 : m.nx * m.ny * m.nz < two64) :
    ∃ w, verticalVelocity φ c junk = .ok w ∧ w.length = m.nx * m.ny * m.nz ∧
      ∀ k i j, k < m.nz → i < m.nx → j < m.ny → w[i + m.nx * j + m.nx * m.ny * k]? =
        some (if k = 0 then 0 else m.w φ k (inward m.nx i) (inward m.ny j)) := by
  have hz64 : m.nz < two64 := lt_of_le_of_lt h31 (by norm_num [two64])
  obtain ⟨fac, f1, f2⟩ := mapFactors_ok hc hs
  obtain ⟨ap, hap, hA⟩ := hc.ap
  obtain ⟨b, hb, hB⟩ := hc.b
  obtain ⟨ah, a1, a2⟩ := halfLevels_ok hz hz64 hap hA hc.ah
  obtain ⟨bh, b1, b2⟩ := halfLevels_ok hz hz64 hb hB hc.bh
  obtain ⟨pr, p1, p2⟩ := pressures_ok (φ := φ) hc hs hz a2 b2 hA.1 hB.1
  obtain ⟨z, sum, z1, z2⟩ := hydro_ok hc hz h31 p2
  obtain ⟨w0, w1, w2, w3⟩ := forN_inv (body := fun ij w => writeAt w ij 0)
    (fun q w => w.length = m.nx * m.ny * m.nz ∧ ∀ ij < q, w[ij]? = some (0 : K)) (m.nx * m.ny) 0 junk.w
    (fun q w _ hq ⟨l1, l2⟩ => by
      have : q < w.length := by
        have := Nat.le_mul_of_pos_right (m.nx * m.ny) (show 0 < m.nz by omega)
        omega
      refine ⟨_, writeAt_of _ this, by simpa using l1, fun ij hij => ?_⟩
      by_cases he : ij = q
      · subst he; rw [List.getElem?_set_self this]
      · rw [List.getElem?_set_ne (Ne.symm he)]; exact l2 ij (by omega))
    ⟨hc.w, fun ij h => by omega⟩
  obtain ⟨⟨w, sum'⟩, r1, r2, r3, -⟩ := forN_inv
    (body := velocityLayer φ c fac pr z (1 / (2 * m.dx)) (1 / (2 * m.dy)))
    (fun q s => s.1.length = m.nx * m.ny * m.nz ∧ (∀ k i j, k < q → i < m.nx → j < m.ny →
      s.1[i + m.nx * j + m.nx * m.ny * k]? = some (if k = 0 then 0 else m.w φ k (inward m.nx i) (inward m.ny j))) ∧
      SumDone m q s.2 fun _ _ => False) (m.nz - 1) 1 (w0, List.replicate (m.nx * m.ny) 0)
    (fun k s hk hk' ⟨l1, l2, l3⟩ => by
      obtain ⟨s', h1, h2, h3⟩ := layer_ok hc hs hg hx hy h64 hk (by omega) f2 p2 z2 l1 l3
      refine ⟨s', h1, h2.1, fun k' i j hk'' hi hj => ?_, h3⟩
      by_cases he : k' = k
      · subst he
        rw [h2.2.2 i j hi hj trivial, if_neg (by omega)]
      · rw [h2.2.1 _ (cell_lt (by omega) (cell2_lt hi hj))]
        exact l2 k' i j (by omega) hi hj)
    ⟨w2, fun k i j hk hi hj => by
      obtain rfl : k = 0 := by omega
      rw [Nat.mul_zero, Nat.add_zero, if_pos rfl]
      exact w3 _ (by have := cell2_lt hi hj; omega), by simp, fun i j h1 h2 h3 h4 => ⟨False.elim, fun _ => by
        rw [List.getElem?_replicate, if_pos (cell2_lt (by omega) (by omega))]
        simp⟩⟩
  refine ⟨w, ?_, r2, fun k i j hk hi hj => r3 k i j (by omega) hi hj⟩
  have h2 : (2 : K) ≠ 0 := two_ne_zero
  unfold verticalVelocity
  rw [hc.dx, hc.dy, quot_ok (mul_ne_zero h2 hs.dx), Res.ok_bind, quot_ok (mul_ne_zero h2 hs.dy), Res.ok_bind, f1,
    Res.ok_bind, hc.nz, a1, Res.ok_bind, b1, Res.ok_bind, p1, Res.ok_bind, z1, Res.ok_bind, hc.nx, hc.ny, w1, Res.ok_bind, r1,
    Res.ok_bind]

/-- **C80.** The layers together hold the whole column: their pressure differences sum up to the surface pressure. -/
theorem C80_layers_fill_the_column (φ : Physics K) (c : Column K) (junk : Junk K) (m : Atmosphere K) (hc : Call c junk m)
    (hs : Sensible m) (hz : 1 ≤ m.nz) (h64 : m.nz < two64) :
    ∃ ah bh pr, halfLevels c.nz c.ap 0 junk.ah = .ok ah ∧ halfLevels c.nz c.b 1 junk.bh = .ok bh ∧
      pressures φ c ah bh = .ok pr ∧ ∀ ij < m.nx * m.ny, ∃ dp : ℕ → K, (∑ k ∈ Finset.range m.nz, dp k) = m.ps ij ∧
        ∀ k < m.nz, (pr[ij + m.nx * m.ny * k]?.map Pressures.dp) = some (dp k) := by
  obtain ⟨ap, hap, hA⟩ := hc.ap
  obtain ⟨b, hb, hB⟩ := hc.b
  obtain ⟨ah, a1, a2⟩ := halfLevels_ok hz h64 hap hA hc.ah
  obtain ⟨bh, b1, b2⟩ := halfLevels_ok hz h64 hb hB hc.bh
  obtain ⟨pr, p1, p2⟩ := pressures_ok (φ := φ) hc hs hz a2 b2 hA.1 hB.1
  refine ⟨ah, bh, pr, by rw [hc.nz]; exact a1, by rw [hc.nz]; exact b1, p1, fun ij hij => ⟨fun k => m.thick k ij, ?_, fun k hk => ?_⟩⟩
  · unfold Atmosphere.thick
    rw [Finset.sum_range_sub fun k => m.P k ij]
    simp [Atmosphere.P, hA.1, hB.1, hA.2.1, hB.2.1]
  · rw [p2.2 k hk ij hij]; rfl

/-- **C80.** Air at rest in layers that are level has no vertical velocity.  (What is missing: air at rest in layers that
follow the terrain has no vertical velocity either, but gets one: `C80_still_air_rises`.) -/
theorem C80_still_air_partial (φ : Physics K) (c : Column K) (junk : Junk K) (m : Atmosphere K) (hc : Call c junk m)
    (hs : Sensible m) (hg : φ.g ≠ 0) (hx : 3 ≤ m.nx) (hy : 3 ≤ m.ny) (hz : 1 ≤ m.nz) (h31 : m.nz ≤ 2 ^ 31)
    (h64 : m.nx * m.ny * m.nz < two64) (hu : ∀ k ij, m.u k ij = 0) (hv : ∀ k ij, m.v k ij = 0)
    (level : ∀ ij ij', m.zs ij = m.zs ij' ∧ m.ps ij = m.ps ij' ∧ ∀ k, m.t k ij = m.t k ij') :
    ∃ w, verticalVelocity φ c junk = .ok w ∧ w = List.replicate (m.nx * m.ny * m.nz) 0 := by
  obtain ⟨w, h1, h2, h3⟩ := C80_vertical_velocity φ c junk m hc hs hg hx hy hz h31 h64
  refine ⟨w, h1, List.ext_getElem? fun q => ?_⟩
  have hd : ∀ l i j, m.div l i j = 0 := by intro l i j; simp [Atmosphere.div, hu, hv]
  have hP : ∀ k ij ij', m.P k ij = m.P k ij' := fun k ij ij' => by unfold Atmosphere.P; rw [(level ij ij').2.1]
  have hG : ∀ k ij ij', m.geopotential φ k ij = m.geopotential φ k ij' := by
    intro k ij ij'
    have hl : ∀ k, m.logThick φ k ij = m.logThick φ k ij' := fun k => by
      unfold Atmosphere.logThick; rw [hP k ij ij', hP (k + 1) ij ij']
    have ha : m.alpha φ k ij = m.alpha φ k ij' := by
      unfold Atmosphere.alpha Atmosphere.thick; rw [hP k ij ij', hP (k + 1) ij ij', hl]
    have ht : ∀ k, m.t k ij = m.t k ij' := (level ij ij').2.2
    unfold Atmosphere.geopotential
    simp only [(level ij ij').1, hl, ha, ht]
  have hw : ∀ k i j, m.w φ k i j = 0 := by
    intro k i j
    unfold Atmosphere.w Atmosphere.omega Atmosphere.rise
    dsimp only
    rw [hG k (i + m.nx * j + 1) (i + m.nx * j - 1), hG k (i + m.nx * j + m.nx) (i + m.nx * j - m.nx)]
    simp [hd]
  rcases Nat.lt_or_ge q (m.nx * m.ny * m.nz) with hq | hq
  · have hN : 0 < m.nx * m.ny := Nat.mul_pos (by omega) (by omega)
    have e1 : q % (m.nx * m.ny) + m.nx * m.ny * (q / (m.nx * m.ny)) = q := Nat.mod_add_div _ _
    have e2 : q % (m.nx * m.ny) % m.nx + m.nx * (q % (m.nx * m.ny) / m.nx) = q % (m.nx * m.ny) := Nat.mod_add_div _ _
    have := h3 (q / (m.nx * m.ny)) (q % (m.nx * m.ny) % m.nx) (q % (m.nx * m.ny) / m.nx)
      (Nat.div_lt_of_lt_mul hq) (Nat.mod_lt _ (by omega)) (Nat.div_lt_of_lt_mul (Nat.mod_lt _ hN))
    rw [e2, e1] at this
    rw [this, List.getElem?_replicate, if_pos hq, hw]
    simp
  · rw [List.getElem?_eq_none (by omega), List.getElem?_eq_none (by simpa using hq)]

/-! ### Examples -/

/-- A grid of 3 by 3 cells and two levels, with a wind that grows to the east and another one that grows to the north. -/
def windy : Column ℚ where
  nx := 3
  ny := 3
  nz := 2
  dx := 1
  dy := 1
  gridDistX := List.replicate 9 1
  gridDistY := List.replicate 9 1
  ap := [0, 0]
  b := [1 / 4, 3 / 4]
  zs := List.replicate 9 0
  ps := List.replicate 9 1000
  u := List.replicate 9 0 ++ [0, 1, 2, 0, 1, 2, 0, 1, 2]
  v := List.replicate 9 0 ++ [0, 0, 0, 1, 1, 1, 4, 4, 4]
  t := List.replicate 18 1

/-- The same in still air above ground that rises to the east. -/
def hill : Column ℚ := { windy with zs := [0, 1, 2, 0, 1, 2, 0, 1, 2], u := List.replicate 18 0, v := List.replicate 18 0 }

/-- Simple numbers for the constants; the logarithm only has to be some function. -/
def simplePhysics : Physics ℚ := ⟨1, 1, fun x => x⟩

/-- New memory. -/
def freshMemory : Junk ℚ := ⟨[7, 7, 7], [7, 7, 7], List.replicate 18 7, List.replicate 18 7⟩

theorem holds_of {α : Type} (l : List α) (d : α) : Holds l l.length fun i => l.getD i d :=
  ⟨rfl, fun i hi => by simp [List.getD, hi]⟩

/-- The hypotheses of the theorems can be met. -/
def windyAtmosphere : Atmosphere ℚ where
  nx := 3
  ny := 3
  nz := 2
  dx := 1
  dy := 1
  gx := fun _ => 1
  gy := fun _ => 1
  zs := fun _ => 0
  ps := fun _ => 1000
  u := fun k ij => windy.u.getD (ij + 9 * k) 0
  v := fun k ij => windy.v.getD (ij + 9 * k) 0
  t := fun _ _ => 1
  A := fun _ => 0
  B := fun k => if k = 0 then 0 else if k = 1 then 1 / 2 else 1

theorem windy_call : Call windy freshMemory windyAtmosphere where
  nx := rfl
  ny := rfl
  nz := rfl
  dx := rfl
  dy := rfl
  gx := ⟨by decide, by decide +kernel⟩
  gy := ⟨by decide, by decide +kernel⟩
  zs := ⟨by decide, by decide +kernel⟩
  ps := ⟨by decide, by decide +kernel⟩
  u := ⟨by decide, by decide +kernel⟩
  v := ⟨by decide, by decide +kernel⟩
  t := ⟨by decide, by decide +kernel⟩
  ap := ⟨fun _ => 0, ⟨by decide, by decide +kernel⟩, rfl, rfl, fun k _ _ => by simp [windyAtmosphere]⟩
  b := ⟨fun k => if k = 0 then 1 / 4 else 3 / 4, ⟨by decide, by decide +kernel⟩, rfl, rfl, fun k h h' => by
    obtain rfl : k = 1 := by have : k < 2 := h'; omega
    norm_num [windyAtmosphere]⟩
  ah := by decide
  bh := by decide
  z := by decide
  w := by decide

theorem windy_sensible : Sensible windyAtmosphere where
  dx := by decide
  dy := by decide
  gx := fun _ _ => one_ne_zero
  gy := fun _ _ => one_ne_zero
  p := fun k h h' _ _ => by
    have : k ≤ 2 := h'
    interval_cases k <;> norm_num [windyAtmosphere, Atmosphere.P]
  grows := fun k h h' _ _ => by
    obtain rfl : k = 1 := by have : k < 2 := h'; omega
    norm_num [windyAtmosphere, Atmosphere.P]

example : ∃ w, verticalVelocity simplePhysics windy freshMemory = .ok w ∧ w.length = 18 := by
  obtain ⟨w, h1, h2, -⟩ := C80_vertical_velocity simplePhysics windy freshMemory windyAtmosphere windy_call windy_sensible
    (by decide) (by decide) (by decide) (by decide) (by decide) (by decide)
  exact ⟨w, h1, h2⟩

/-- Where the wind of the lower level diverges the air sinks (with the constants of the example). -/
example : verticalVelocity simplePhysics windy freshMemory = .ok (List.replicate 9 0 ++ List.replicate 9 (-3)) := by
  decide +kernel

/-- **C80, negative.** Still air above sloping ground gets a vertical velocity: the slope of the geopotential is not
multiplied with the wind. -/
theorem C80_still_air_rises : (∀ x ∈ hill.u, x = 0) ∧ (∀ x ∈ hill.v, x = 0) ∧
    verticalVelocity simplePhysics hill freshMemory = .ok (List.replicate 9 0 ++ List.replicate 9 1) := by
  decide +kernel

/-- The same field with the rows of each layer in the opposite order. -/
def mirrorRows (nx ny nz : ℕ) (l : List ℚ) : List ℚ :=
  (List.range nz).flatMap fun k => (List.range ny).flatMap fun j => (List.range nx).map fun i =>
    l.getD (i + nx * (ny - 1 - j) + nx * ny * k) 0

/-- The same atmosphere described from north to south. -/
def mirrored (c : Column ℚ) : Column ℚ :=
  { c with gridDistX := mirrorRows c.nx c.ny 1 c.gridDistX, gridDistY := mirrorRows c.nx c.ny 1 c.gridDistY,
           zs := mirrorRows c.nx c.ny 1 c.zs, ps := mirrorRows c.nx c.ny 1 c.ps, u := mirrorRows c.nx c.ny c.nz c.u,
           v := mirrorRows c.nx c.ny c.nz c.v, t := mirrorRows c.nx c.ny c.nz c.t }

/-- **C80, negative.** The direction of an axis is lost: the same atmosphere described from south to north and from north
to south has the same `dy`, but gets different vertical velocities. -/
theorem C80_descending_axis_differs : axisSpacing [0, 1, 2] = .ok windy.dy ∧ axisSpacing [2, 1, 0] = .ok (mirrored windy).dy ∧
    verticalVelocity simplePhysics windy freshMemory = .ok (List.replicate 9 0 ++ List.replicate 9 (-3)) ∧
    verticalVelocity simplePhysics (mirrored windy) freshMemory = .ok (List.replicate 9 0 ++ List.replicate 9 1) := by
  decide +kernel

/-- A grid of two columns. -/
def narrow : Column ℚ := { hill with nx := 2, gridDistX := List.replicate 6 1, gridDistY := List.replicate 6 1,
                                     zs := List.replicate 6 0, ps := List.replicate 6 1000, u := List.replicate 12 0,
                                     v := List.replicate 12 0, t := List.replicate 12 1 }

/-- **C80, negative.** A grid of two columns has no inner cells; the result then holds what happened to be in memory. -/
theorem C80_narrow_grid_unset :
    verticalVelocity simplePhysics narrow ⟨[7, 7, 7], [7, 7, 7], List.replicate 12 7, List.replicate 12 7⟩ =
      .ok (List.replicate 6 0 ++ List.replicate 6 7) ∧
    verticalVelocity simplePhysics narrow ⟨[7, 7, 7], [7, 7, 7], List.replicate 12 7, List.replicate 12 8⟩ =
      .ok (List.replicate 6 0 ++ List.replicate 6 8) := by
  decide +kernel

omit [IsStrictOrderedRing K] in
/-- **C80, negative.** Without levels the call reads outside its arrays. -/
theorem C80_no_levels_undefined (φ : Physics K) (c : Column K) (junk : Junk K) (hz : c.nz = 0) (ha : c.ap.length < two64 - 1)
    (w : List K) : verticalVelocity φ c junk ≠ .ok w := by
  intro h
  unfold verticalVelocity at h
  obtain ⟨_, -, h⟩ := Res.bind_eq_ok.1 h
  obtain ⟨_, -, h⟩ := Res.bind_eq_ok.1 h
  obtain ⟨_, -, h⟩ := Res.bind_eq_ok.1 h
  obtain ⟨_, h, -⟩ := Res.bind_eq_ok.1 h
  unfold halfLevels at h
  obtain ⟨_, -, h⟩ := Res.bind_eq_ok.1 h
  obtain ⟨l, -, h⟩ := Res.bind_eq_ok.1 h
  have e : wsub c.nz 1 = (two64 - 2) + 1 := by rw [hz]; rfl
  rw [e, forN] at h
  obtain ⟨_, h, -⟩ := Res.bind_eq_ok.1 h
  unfold halfStep at h
  obtain ⟨_, h, -⟩ := Res.bind_eq_ok.1 h
  have e' : wsub (wsub c.nz 1) 0 = two64 - 1 := by rw [hz]; rfl
  rw [e', Interp.readAt_ge (by omega)] at h
  cases h

example (w : List ℚ) : verticalVelocity simplePhysics { windy with nz := 0, ap := [], b := [] } ⟨[7], [7], [], []⟩ ≠ .ok w :=
  C80_no_levels_undefined _ _ _ rfl (by decide) w

end Fimex.Vertical
