import Verif.Interp.RegridProps

/-!
# Interpolation onto a new grid: values (C116)
-/

set_option linter.unusedSectionVars false

namespace Fimex.Regrid

open Fimex.Interp

variable {P K : Type} [Field K] [LinearOrder K] [FloorRing K] [IsStrictOrderedRing K]

/-! ## Specification -/

/-- The point `p` lies inside the grid, where its coordinates are `q` (for a grid in degrees the longitude in the
convention of the axis). -/
def Inside (g : Grid P K) (p q : K × K) : Prop :=
  (if g.degree then SameLongitude g.xs p.1 q.1 else q.1 = p.1) ∧ Within g.xs q.1 ∧ q.2 = p.2 ∧ Within g.ys q.2

/-- The positions of the point are in the range of `int`, and not in the half cell beyond the last row next to the
first or last column where the bilinear interpolation reads outside the field (see C32). -/
def Safe (g : Grid P K) (p : Point K) : Prop :=
  ∀ u v, Located g.degree g.xs p.1 (some u) → Located false g.ys p.2 (some v) →
    IntRange u ∧ IntRange v ∧ ¬ BeyondLastRow g.xs.length g.ys.length u v

/-- The value of a field at a position. -/
def valueAt (m : Method) (F : List (Option K)) (nx ny z : ℕ) (p : K × K) : Option K :=
  match m with
  | .bilinear => bilinearSpec F nx ny z p.1 p.2
  | .nearest => nearestValue F nx ny z p

/-! ## From positions to values -/

omit [Field K] [LinearOrder K] [FloorRing K] [IsStrictOrderedRing K] in
theorem known_some (l : List K) : known (l.map some) = .ok l := by
  induction l with
  | nil => rfl
  | cons a l ih => simp only [List.map_cons, known, ih, Res.ok_bind]

omit [FloorRing K] in
theorem located_some {α : Type} {degree : Bool} {axis : List K} {c : α → Option K} {l : List α} {r : List (Option K)}
    (h : List.Forall₂ (fun p v => Located degree axis (c p) v) l r) :
    ∃ s : List K, r = s.map some ∧ List.Forall₂ (fun p w => Located degree axis (c p) (some w)) l s := by
  induction h with
  | nil => exact ⟨[], rfl, .nil⟩
  | cons h1 _ ih =>
    obtain ⟨s, rfl, hs⟩ := ih
    obtain ⟨w, rfl, hw⟩ := h1
    exact ⟨w :: s, rfl, .cons ⟨w, rfl, hw⟩ hs⟩

omit [Field K] [LinearOrder K] [FloorRing K] [IsStrictOrderedRing K] in
theorem forall₂_mem_right {α β : Type} {R : α → β → Prop} {l : List α} {r : List β} (h : List.Forall₂ R l r) {b : β}
    (hb : b ∈ r) : ∃ a ∈ l, R a b := by
  induction h with
  | nil => simp at hb
  | cons h1 _ ih =>
    rcases List.mem_cons.mp hb with rfl | hb
    · exact ⟨_, by simp, h1⟩
    · obtain ⟨a, ha, hR⟩ := ih hb
      exact ⟨a, by simp [ha], hR⟩

omit [Field K] [LinearOrder K] [FloorRing K] [IsStrictOrderedRing K] in
theorem forall₂_zip {α β γ : Type} {R : α → β → Prop} {S : α → γ → Prop} {l : List α} {r : List β} {s : List γ}
    (h1 : List.Forall₂ R l r) (h2 : List.Forall₂ S l s) :
    List.Forall₂ (fun a (p : β × γ) => R a p.1 ∧ S a p.2) l (r.zip s) := by
  induction h1 generalizing s with
  | nil => cases h2; exact .nil
  | cons a _ ih =>
    cases h2 with
    | cons b h2 => exact .cons ⟨a, b⟩ (ih h2)

theorem interpolate_values (m : Method) (F : List (Option K)) (nx ny nz : ℕ) (px py : List K) (hne : px ≠ []) (hpy : py ≠ [])
    (hl : F.length = nx * ny * nz) (hsize : nx * ny + nx < 2 ^ 31) (hX : 0 < nx) (hY : 0 < ny)
    (hlen : px.length = py.length)
    (hs : ∀ p ∈ px.zip py, IntRange p.1 ∧ IntRange p.2 ∧ ¬ BeyondLastRow nx ny p.1 p.2) :
    interpolate m (px.map some, py.map some) nx ny nz F =
      .ok ((List.range nz).flatMap fun z => (px.zip py).map (valueAt m F nx ny z)) := by
  have hwh := Nat.mul_pos hX hY
  unfold interpolate
  simp only [known_some, Res.ok_bind]
  cases m with
  | bilinear =>
    simp only
    have hxr : ∀ x ∈ px, IntRange x := by
      intro x hx
      obtain ⟨i, hi, rfl⟩ := List.mem_iff_getElem.mp hx
      have : (px[i], py[i]'(by omega)) ∈ px.zip py := by
        rw [List.mem_iff_getElem]; exact ⟨i, by simp; omega, by simp⟩
      exact (hs _ this).1
    have hyr : ∀ x ∈ py, IntRange x := by
      intro x hx
      obtain ⟨i, hi, rfl⟩ := List.mem_iff_getElem.mp hx
      have : (px[i]'(by omega), py[i]) ∈ px.zip py := by
        rw [List.mem_iff_getElem]; exact ⟨i, by simp; omega, by simp⟩
      exact (hs _ this).2.1
    obtain ⟨c, h1, h2⟩ := C36_bilinear F nx ny nz px py hl hsize hX hY hne hpy hxr hyr
    rw [h1, Res.ok_bind, h2]
    unfold interpolateValues
    simp only
    rw [if_neg (by omega), hl, Nat.mul_div_cancel_left _ hwh,
      mapM_ok_map _ _ fun p : K × K => (List.range nz).map fun z => bilinearSpec F nx ny z p.1 p.2]
    · simp only [Res.ok_bind]
      congr 1
      apply List.flatMap_congr
      intro z hz
      rw [List.map_map]
      apply List.map_congr_left
      intro p _
      have := List.mem_range.mp hz
      simp [valueAt, this]
    · intro p hp
      obtain ⟨a, b, c⟩ := hs p hp
      exact C32_bilinear_partial F nx ny nz p.1 p.2 hl (by omega) a b hX hY c
  | nearest =>
    simp only
    obtain ⟨c, h1, h2⟩ := C36_nearest_neighbour F nx ny nz (px.zip py) hl hX hY (by unfold invalid; omega)
      fun p hp => ⟨(hs p hp).1, (hs p hp).2.1⟩
    rw [h1, Res.ok_bind, h2]
    rfl

omit [Field K] [LinearOrder K] [FloorRing K] [IsStrictOrderedRing K] in
theorem cell_flatMap {α : Type} (l : List α) (val : ℕ → α → Option K) (nz ox oy : ℕ) (hl : l.length = ox * oy) :
    ((List.range nz).flatMap fun z => l.map (val z)).length = ox * oy * nz ∧
    ∀ x y z, x < ox → y < oy → z < nz → ∀ a, l[y * ox + x]? = some a →
      cell ((List.range nz).flatMap fun z => l.map (val z)) ox oy z x y = val z a := by
  have hlen : ∀ n, ((List.range n).flatMap fun z => l.map (val z)).length = ox * oy * n := by
    intro n
    induction n with
    | zero => simp
    | succ n ih => rw [List.range_succ, List.flatMap_append, List.length_append, ih]; simp [hl, Nat.mul_add]
  refine ⟨hlen nz, ?_⟩
  intro x y z hx hy hz a ha
  have hlt : y * ox + x < ox * oy := by
    have : (y + 1) * ox ≤ oy * ox := Nat.mul_le_mul_right _ hy
    rw [Nat.add_mul, Nat.mul_comm oy] at this; omega
  unfold cell
  have hidx : (z * oy + y) * ox + x = ox * oy * z + (y * ox + x) := by ring
  rw [hidx, List.getD_eq_getElem?_getD]
  have key : ∀ n, z < n → ((List.range n).flatMap fun z => l.map (val z))[ox * oy * z + (y * ox + x)]? = some (val z a) := by
    intro n hn
    induction n with
    | zero => omega
    | succ n ih =>
      rw [List.range_succ, List.flatMap_append]
      by_cases hzn : z < n
      · rw [List.getElem?_append_left]
        · exact ih hzn
        · rw [hlen]
          have : ox * oy * (z + 1) ≤ ox * oy * n := Nat.mul_le_mul_left _ hzn
          rw [Nat.mul_add] at this; omega
      · have : z = n := by omega
        subst this
        rw [List.getElem?_append_right (by rw [hlen]; omega), hlen,
          show ox * oy * z + (y * ox + x) - ox * oy * z = y * ox + x by omega]
        simp [ha]
  rw [key nz hz]
  rfl

/-- The whole way: every cell of the new grid has the value of the field at the position of its point. -/
theorem regrid_values (tr : Transform P K) (m : Method) (new : P) (g : Grid P K) (ox oy : List K) (f : K × K → Point K)
    (F : List (Option K)) (nz : ℕ)
    (hf : tr new g.proj = .ok f) (hx : StrictlyMonotone g.xs) (hx2 : 2 ≤ g.xs.length) (hy : StrictlyMonotone g.ys)
    (hy2 : 2 ≤ g.ys.length) (hox : ox ≠ []) (hoy : oy ≠ []) (hl : F.length = g.xs.length * g.ys.length * nz)
    (hsize : g.xs.length * g.ys.length + g.xs.length < 2 ^ 31) (hs : ∀ a ∈ ox, ∀ b ∈ oy, Safe g (f (a, b))) :
    ∃ px py : List K, gridPositions tr new g ox oy = .ok (px.map some, py.map some) ∧ px.length = ox.length * oy.length ∧
      py.length = ox.length * oy.length ∧
      regrid tr m new g ox oy nz F = .ok ((List.range nz).flatMap fun z =>
        (px.zip py).map (valueAt m F g.xs.length g.ys.length z)) ∧
      (∀ p ∈ px.zip py, IntRange p.1 ∧ IntRange p.2 ∧ ¬ BeyondLastRow g.xs.length g.ys.length p.1 p.2) ∧
      ∀ (x y : ℕ) (a b : K), ox[x]? = some a → oy[y]? = some b →
        ∃ u v, (px.zip py)[y * ox.length + x]? = some (u, v) ∧
          Located g.degree g.xs (f (a, b)).1 (some u) ∧ Located false g.ys (f (a, b)).2 (some v) := by
  have hg := gridPoints_get ox oy
  obtain ⟨px', py', h1, g2, g3⟩ := positionsOf_spec ((gridPoints ox oy).map (convert f)) g.degree g.xs g.ys hx hx2 hy hy2
  obtain ⟨px, rfl, h2⟩ := located_some g2
  obtain ⟨py, rfl, h3⟩ := located_some g3
  have hgp : gridPositions tr new g ox oy = .ok (px.map some, py.map some) := by
    unfold gridPositions reprojectAxes reprojectValues
    rw [hf, Res.ok_bind, Res.ok_bind]
    exact h1
  have l1 : px.length = ox.length * oy.length := by rw [← h2.length_eq, List.length_map, hg.1, Nat.mul_comm]
  have l2 : py.length = ox.length * oy.length := by rw [← h3.length_eq, List.length_map, hg.1, Nat.mul_comm]
  have hpos : 0 < ox.length * oy.length := Nat.mul_pos (List.length_pos_iff.mpr hox) (List.length_pos_iff.mpr hoy)
  have hz := forall₂_zip h2 h3
  have hsafe : ∀ p ∈ px.zip py, IntRange p.1 ∧ IntRange p.2 ∧ ¬ BeyondLastRow g.xs.length g.ys.length p.1 p.2 := by
    intro p hp
    obtain ⟨q, hq, hR⟩ := forall₂_mem_right hz hp
    obtain ⟨q', hq', rfl⟩ := List.mem_map.mp hq
    unfold gridPoints at hq'
    obtain ⟨b, hb, hq'⟩ := List.mem_flatMap.mp hq'
    obtain ⟨a, ha, rfl⟩ := List.mem_map.mp hq'
    exact hs a ha b hb p.1 p.2 hR.1 hR.2
  refine ⟨px, py, hgp, l1, l2, ?_, hsafe, ?_⟩
  · unfold regrid
    rw [hgp, Res.ok_bind]
    exact interpolate_values m F _ _ nz px py (List.length_pos_iff.mp (by omega)) (List.length_pos_iff.mp (by omega))
      hl hsize (by omega) (by omega) (by omega) hsafe
  · intro x y a b ha hb
    have hx' : x < ox.length := (List.getElem?_eq_some_iff.mp ha).1
    have hy' : y < oy.length := (List.getElem?_eq_some_iff.mp hb).1
    have hlt : y * ox.length + x < ox.length * oy.length := by
      have : (y + 1) * ox.length ≤ oy.length * ox.length := Nat.mul_le_mul_right _ hy'
      rw [Nat.add_mul, Nat.mul_comm oy.length] at this; omega
    have hp : ((gridPoints ox oy).map (convert f))[y * ox.length + x]? = some (f (a, b)) := by
      rw [List.getElem?_map, hg.2 x y hx' hy', ha, hb]
      rfl
    have e1 : (px.zip py)[y * ox.length + x]? = some (px[y * ox.length + x]'(by omega), py[y * ox.length + x]'(by omega)) := by
      rw [List.getElem?_zip_eq_some]
      exact ⟨List.getElem?_eq_getElem (by omega), List.getElem?_eq_getElem (by omega)⟩
    have := hz.get (i := y * ox.length + x) (by rw [List.length_map, hg.1, Nat.mul_comm oy.length]; exact hlt) (by simp; omega)
    refine ⟨_, _, e1, ?_⟩
    have h4 : ((gridPoints ox oy).map (convert f))[y * ox.length + x]'(by rw [List.length_map, hg.1, Nat.mul_comm oy.length]; exact hlt) = f (a, b) := by
      rw [List.getElem?_eq_some_iff] at hp
      exact hp.2
    simpa [h4] using this

/-! ## Exactness -/


/-- Linear interpolation is exact for what is linear along the axis. -/
theorem along_exact {axis : List K} {q x : K} (hp : IsPosition axis q x) (h0 : 0 ≤ x) (h1 : x ≤ (axis.length : K) - 1)
    (u v : K) (g : ℕ → Option K) (hg : ∀ i, i < axis.length → g i = some (u + v * axis.getD i 0)) :
    along axis.length x g = some (u + v * q) := by
  obtain ⟨k, hk, hl, hk0, hk1⟩ := hp
  have hkc : (k : K) + 2 ≤ (axis.length : K) := by exact_mod_cast hk
  have hkx : (k : K) ≤ x := by
    rcases hk0 with h | h
    · exact h
    · rw [h]; simpa using h0
  have hxk : x ≤ (k : K) + 1 := by
    rcases hk1 with h | h
    · exact h
    · have : (axis.length : K) = (k : K) + 2 := by rw [← h]; push_cast; ring
      linarith
  unfold lineAt at hl
  unfold along
  by_cases hlt : x < (axis.length : K) - 1
  · rw [if_pos ⟨h0, hlt⟩]
    rcases lt_or_eq_of_le hxk with h | h
    · have hfl : ⌊x⌋ = (k : ℤ) := by rw [Int.floor_eq_iff]; push_cast; exact ⟨hkx, h⟩
      rw [hfl, Int.toNat_natCast, hg k (by omega), hg (k + 1) hk]
      simp only [mix, Option.some.injEq]
      rw [← hl]; push_cast; ring
    · have hfl : ⌊x⌋ = ((k + 1 : ℕ) : ℤ) := by rw [Int.floor_eq_iff]; push_cast; constructor <;> linarith
      have hk3 : k + 2 < axis.length := by
        have : (k : K) + 2 < axis.length := by linarith
        exact_mod_cast this
      rw [hfl, Int.toNat_natCast, hg (k + 1) (by omega), hg (k + 1 + 1) (by omega)]
      simp only [mix, Option.some.injEq]
      rw [← hl, h]; push_cast; ring
  · rw [if_neg (by tauto)]
    have hxe : x = (axis.length : K) - 1 := le_antisymm h1 (not_lt.mp hlt)
    have hkn : k + 2 = axis.length := by
      have : (axis.length : K) ≤ (k : K) + 2 := by linarith
      have : axis.length ≤ k + 2 := by exact_mod_cast this
      omega
    have hkk : (axis.length : K) = (k : K) + 2 := by rw [← hkn]; push_cast; ring
    have hk0' : (0 : K) ≤ k := by exact_mod_cast Nat.zero_le k
    rw [if_pos (by unfold Near; constructor <;> linarith)]
    have hfl : ⌊x + 1 / 2⌋ = ((k + 1 : ℕ) : ℤ) := by rw [Int.floor_eq_iff]; push_cast; constructor <;> linarith
    rw [hfl, Int.toNat_natCast, hg (k + 1) hk]
    simp only [Option.some.injEq]
    rw [← hl, hxe, hkk]; ring

omit [FloorRing K] in
/-- Positions of a point inside the grid. -/
theorem inside_positions {g : Grid P K} {p q : K × K} {u v : K} (hi : Inside g p q)
    (hu : Located g.degree g.xs (some p.1) (some u)) (hv : Located false g.ys (some p.2) (some v)) :
    IsPosition g.xs q.1 u ∧ IsPosition g.ys q.2 v := by
  obtain ⟨h1, h2, h3, h4⟩ := hi
  obtain ⟨w, hw, hu⟩ := hu
  obtain ⟨w', hw', hv⟩ := hv
  simp only [Option.some.injEq] at hw hw'
  subst hw hw'
  simp only [Bool.false_eq_true, if_false] at hv
  refine ⟨?_, by rw [h3]; exact hv⟩
  cases hd : g.degree with
  | true =>
    simp only [hd, if_true] at hu h1
    exact hu.2 q.1 h1 h2
  | false =>
    simp only [hd, Bool.false_eq_true, if_false] at hu h1
    rw [h1]; exact hu

/-- A point inside the grid has safe positions. -/
theorem C116_inside_safe (g : Grid P K) (p q : K × K) (hi : Inside g p q) (hx : StrictlyMonotone g.xs)
    (hx2 : 2 ≤ g.xs.length) (hy : StrictlyMonotone g.ys) (hy2 : 2 ≤ g.ys.length) (hnx : g.xs.length < 2 ^ 31)
    (hny : g.ys.length < 2 ^ 31) : Safe g (some p.1, some p.2) := by
  intro u v hu hv
  obtain ⟨h1, h2⟩ := inside_positions hi hu hv
  have r1 := position_within hx hx2 hi.2.1 h1
  have r2 := position_within hy hy2 hi.2.2.2 h2
  have c1 : (g.xs.length : K) < 2 ^ 31 := by exact_mod_cast hnx
  have c2 : (g.ys.length : K) < 2 ^ 31 := by exact_mod_cast hny
  have pw : (0 : K) < 2 ^ 31 := by positivity
  refine ⟨⟨by linarith [r1.1], by linarith [r1.2]⟩, ⟨by linarith [r2.1], by linarith [r2.2]⟩, ?_⟩
  rintro ⟨-, -, h, -⟩
  linarith [r2.2]

/-- A point without finite coordinates has safe positions. -/
theorem C116_not_finite_safe (g : Grid P K) (p : Point K) (hp : p.1 = none ∧ p.2 = none) : Safe g p := by
  rintro u v ⟨w, hw, hu⟩ ⟨w', hw', hv⟩
  simp only [Option.some.injEq] at hw hw'
  subst hw hw'
  rw [hp.1] at hu
  rw [hp.2] at hv
  simp only at hu hv
  subst hu hv
  refine ⟨⟨by norm_num, by norm_num⟩, ⟨by norm_num, by norm_num⟩, ?_⟩
  rintro ⟨⟨h, -⟩, -⟩
  norm_num at h

/-- **C116**, bilinear interpolation onto a new grid: for a field that in every layer is bilinear in the
coordinates of its grid, every cell of the new grid whose point lies inside the old grid has the value of that function
at the converted point; a point that is not finite gives an undefined value. -/
theorem C116_bilinear_exact (tr : Transform P K) (new : P) (g : Grid P K) (ox oy : List K) (f : K × K → Point K)
    (F : List (Option K)) (nz : ℕ) (A B C D : ℕ → K)
    (hf : tr new g.proj = .ok f) (hx : StrictlyMonotone g.xs) (hx2 : 2 ≤ g.xs.length) (hy : StrictlyMonotone g.ys)
    (hy2 : 2 ≤ g.ys.length) (hox : ox ≠ []) (hoy : oy ≠ []) (hl : F.length = g.xs.length * g.ys.length * nz)
    (hsize : g.xs.length * g.ys.length + g.xs.length < 2 ^ 31) (hs : ∀ a ∈ ox, ∀ b ∈ oy, Safe g (f (a, b)))
    (hF : ∀ i j z, i < g.xs.length → j < g.ys.length → z < nz → cell F g.xs.length g.ys.length z i j =
      some (A z + B z * g.xs.getD i 0 + C z * g.ys.getD j 0 + D z * g.xs.getD i 0 * g.ys.getD j 0)) :
    ∃ out, regrid tr .bilinear new g ox oy nz F = .ok out ∧ out.length = ox.length * oy.length * nz ∧
      ∀ (x y z : ℕ) (a b : K), ox[x]? = some a → oy[y]? = some b → z < nz →
        (∀ p q : K × K, f (a, b) = (some p.1, some p.2) → Inside g p q →
          cell out ox.length oy.length z x y = some (A z + B z * q.1 + C z * q.2 + D z * q.1 * q.2)) ∧
        ((f (a, b)).1 = none ∨ (f (a, b)).2 = none → cell out ox.length oy.length z x y = none) := by
  obtain ⟨px, py, -, l1, l2, hr, -, hpt⟩ := regrid_values tr .bilinear new g ox oy f F nz hf hx hx2 hy hy2 hox hoy hl hsize hs
  have hc := cell_flatMap (px.zip py) (valueAt .bilinear F g.xs.length g.ys.length) nz ox.length oy.length (by simp [l1, l2])
  refine ⟨_, hr, hc.1, ?_⟩
  intro x y z a b ha hb hz
  have hx' : x < ox.length := (List.getElem?_eq_some_iff.mp ha).1
  have hy' : y < oy.length := (List.getElem?_eq_some_iff.mp hb).1
  obtain ⟨u, v, huv, hu, hv⟩ := hpt x y a b ha hb
  rw [hc.2 x y z hx' hy' hz _ huv]
  simp only [valueAt]
  constructor
  · intro p q hfp hi
    rw [hfp] at hu hv
    obtain ⟨h1, h2⟩ := inside_positions hi hu hv
    have r1 := position_within hx hx2 hi.2.1 h1
    have r2 := position_within hy hy2 hi.2.2.2 h2
    unfold bilinearSpec
    rw [along_exact h2 r2.1 r2.2 (A z + B z * q.1) (C z + D z * q.1)]
    · congr 1; ring
    · intro j hj
      rw [along_exact h1 r1.1 r1.2 (A z + C z * g.ys.getD j 0) (B z + D z * g.ys.getD j 0)]
      · congr 1; ring
      · intro i hi
        rw [hF i j z hi hj hz]; congr 1; ring
  · have hnx : (2 : K) ≤ g.xs.length := by exact_mod_cast hx2
    have hny : (2 : K) ≤ g.ys.length := by exact_mod_cast hy2
    rintro (h | h)
    · rw [h] at hu
      obtain ⟨w, hw, hu⟩ := hu
      simp only [Option.some.injEq] at hw
      subst hw
      simp only at hu
      subst hu
      have hal : ∀ g' : ℕ → Option K, along g.xs.length (-999) g' = none := by
        intro g'
        unfold along
        rw [if_neg (by rintro ⟨h, -⟩; norm_num at h), if_neg (by rintro ⟨h, -⟩; norm_num at h)]
      unfold bilinearSpec
      simp only [hal]
      unfold along
      split_ifs <;> rfl
    · rw [h] at hv
      obtain ⟨w, hw, hv⟩ := hv
      simp only [Option.some.injEq] at hw
      subst hw
      simp only at hv
      subst hv
      unfold bilinearSpec along
      rw [if_neg (by rintro ⟨h, -⟩; norm_num at h), if_neg (by rintro ⟨h, -⟩; norm_num at h)]

/-- **C116**, nearest neighbour onto a new grid: every cell of the new grid whose point lies inside the old grid
has, in every layer, the value of the old cell whose indices are nearest to the position of the converted point. -/
theorem C116_nearest_cell (tr : Transform P K) (new : P) (g : Grid P K) (ox oy : List K) (f : K × K → Point K)
    (F : List (Option K)) (nz : ℕ)
    (hf : tr new g.proj = .ok f) (hx : StrictlyMonotone g.xs) (hx2 : 2 ≤ g.xs.length) (hy : StrictlyMonotone g.ys)
    (hy2 : 2 ≤ g.ys.length) (hox : ox ≠ []) (hoy : oy ≠ []) (hl : F.length = g.xs.length * g.ys.length * nz)
    (hsize : g.xs.length * g.ys.length + g.xs.length < 2 ^ 31) (hs : ∀ a ∈ ox, ∀ b ∈ oy, Safe g (f (a, b))) :
    ∃ out, regrid tr .nearest new g ox oy nz F = .ok out ∧ out.length = ox.length * oy.length * nz ∧
      ∀ (x y : ℕ) (a b : K), ox[x]? = some a → oy[y]? = some b →
        (∀ p q : K × K, f (a, b) = (some p.1, some p.2) → Inside g p q →
          ∃ (u v : K) (i j : ℕ), IsPosition g.xs q.1 u ∧ IsPosition g.ys q.2 v ∧ i < g.xs.length ∧ j < g.ys.length ∧
            (∀ k : ℕ, |u - (i : K)| ≤ |u - (k : K)|) ∧ (∀ k : ℕ, |v - (j : K)| ≤ |v - (k : K)|) ∧
            ∀ z < nz, cell out ox.length oy.length z x y = cell F g.xs.length g.ys.length z i j) ∧
        ((f (a, b)).1 = none ∨ (f (a, b)).2 = none → ∀ z < nz, cell out ox.length oy.length z x y = none) := by
  obtain ⟨px, py, -, l1, l2, hr, -, hpt⟩ := regrid_values tr .nearest new g ox oy f F nz hf hx hx2 hy hy2 hox hoy hl hsize hs
  have hc := cell_flatMap (px.zip py) (valueAt .nearest F g.xs.length g.ys.length) nz ox.length oy.length (by simp [l1, l2])
  refine ⟨_, hr, hc.1, ?_⟩
  intro x y a b ha hb
  have hx' : x < ox.length := (List.getElem?_eq_some_iff.mp ha).1
  have hy' : y < oy.length := (List.getElem?_eq_some_iff.mp hb).1
  obtain ⟨u, v, huv, hu, hv⟩ := hpt x y a b ha hb
  constructor
  · intro p q hfp hi
    rw [hfp] at hu hv
    obtain ⟨h1, h2⟩ := inside_positions hi hu hv
    have r1 := position_within hx hx2 hi.2.1 h1
    have r2 := position_within hy hy2 hi.2.2.2 h2
    have n1 : Near g.xs.length u := ⟨by linarith [r1.1], by linarith [r1.2]⟩
    have n2 : Near g.ys.length v := ⟨by linarith [r2.1], by linarith [r2.2]⟩
    obtain ⟨c1, c2⟩ := C33_cell_is_nearest g.xs.length u n1 (by omega)
    obtain ⟨d1, d2⟩ := C33_cell_is_nearest g.ys.length v n2 (by omega)
    refine ⟨u, v, _, _, h1, h2, c1, d1, c2, d2, ?_⟩
    intro z hz
    rw [hc.2 x y z hx' hy' hz _ huv]
    simp only [valueAt, nearestValue]
    rw [if_pos ⟨n1, n2⟩]
  · intro hn z hz
    rw [hc.2 x y z hx' hy' hz _ huv]
    simp only [valueAt, nearestValue]
    rw [if_neg]
    rintro ⟨⟨h1, -⟩, ⟨h2, -⟩⟩
    rcases hn with h | h
    · rw [h] at hu
      obtain ⟨w, hw, hu⟩ := hu
      simp only [Option.some.injEq] at hw
      subst hw
      simp only at hu h1
      subst hu
      norm_num at h1
    · rw [h] at hv
      obtain ⟨w, hw, hv⟩ := hv
      simp only [Option.some.injEq] at hw
      subst hw
      simp only at hv h2
      subst hv
      norm_num at h2

/-- **C116**: the direct interpolation function gives the same values as the interpolator with its cached positions and
reduced input. -/
theorem C116_direct (tr : Transform P K) (m : Method) (new : P) (g : Grid P K) (ox oy : List K) (f : K × K → Point K)
    (F : List (Option K)) (nz : ℕ)
    (hf : tr new g.proj = .ok f) (hx : StrictlyMonotone g.xs) (hx2 : 2 ≤ g.xs.length) (hy : StrictlyMonotone g.ys)
    (hy2 : 2 ≤ g.ys.length) (hox : ox ≠ []) (hoy : oy ≠ []) (hl : F.length = g.xs.length * g.ys.length * nz)
    (hsize : g.xs.length * g.ys.length + g.xs.length < 2 ^ 31) (hsz : g.xs.length * g.ys.length * nz < 2 ^ 31)
    (hs : ∀ a ∈ ox, ∀ b ∈ oy, Safe g (f (a, b))) :
    reprojectF tr m new g ox oy nz F = regrid tr m new g ox oy nz F := by
  obtain ⟨px, py, hgp, l1, l2, hr, hsafe, -⟩ := regrid_values tr m new g ox oy f F nz hf hx hx2 hy hy2 hox hoy hl hsize hs
  rw [hr]
  unfold reprojectF
  rw [hgp, Res.ok_bind, known_some, Res.ok_bind, known_some, Res.ok_bind,
    mapM_ok_map _ _ fun p : K × K => (List.range nz).map fun z => valueAt m F g.xs.length g.ys.length z p]
  · rw [Res.ok_bind]
    congr 1
    apply List.flatMap_congr
    intro z hz
    rw [List.map_map]
    apply List.map_congr_left
    intro p _
    have := List.mem_range.mp hz
    simp [this]
  · intro p hp
    obtain ⟨a, b, c⟩ := hsafe p hp
    cases m with
    | bilinear => exact C32_bilinear_partial F _ _ nz p.1 p.2 hl (by omega) a b (by omega) (by omega) c
    | nearest => exact C33_nearest_neighbour F _ _ nz p.1 p.2 hl hsz a b (by omega) (by omega)

/-! ## The box of the input in the new projection -/

omit [Field K] [LinearOrder K] [FloorRing K] [IsStrictOrderedRing K] in
theorem known_mapM {α : Type} (l : List α) (c : α → Option K) (h : ∀ a ∈ l, ∃ k, c a = some k) :
    ∃ s : List K, known (l.map c) = .ok s ∧ l.map c = s.map some := by
  induction l with
  | nil => exact ⟨[], rfl, rfl⟩
  | cons a l ih =>
    obtain ⟨s, h1, h2⟩ := ih fun b hb => h b (by simp [hb])
    obtain ⟨k, hk⟩ := h a (by simp)
    exact ⟨k :: s, by simp only [List.map_cons, hk, known, h1, Res.ok_bind], by simp [hk, h2]⟩

/-- **C116**, the box used for axes without start or end: it is the smallest one with all cells of the input, provided that
the longitudes and latitudes are two-dimensional or axes of different lengths and that the new projection is not
a rotated one.  Without these conditions it is not, see `C116_box_square` and `C116_box_rotated`. -/
theorem C116_box_partial (tr : Transform P K) (lonlat new : P) (name : String) (toDegree : K → K) (c : Coords K)
    (f : K × K → Point K) (hf : tr lonlat new = .ok f) (hc : c.Fits) (hname : name ≠ "latlong") (hrot : name ≠ "ob_tran")
    (hsq : c.dims = 1 → c.inX ≠ c.inY) (hX : 0 < c.inX) (hY : 0 < c.inY)
    (hfin : ∀ i j, i < c.inX → j < c.inY → ∃ p : K × K, convert f (c.at i j) = (some p.1, some p.2)) :
    ∃ b : (K × K) × (K × K), boundingBox tr lonlat new name toDegree c.lon c.lat = .ok b ∧
      (∀ i j, i < c.inX → j < c.inY → ∃ p : K × K, convert f (c.at i j) = (some p.1, some p.2) ∧
        b.1.1 ≤ p.1 ∧ p.1 ≤ b.1.2 ∧ b.2.1 ≤ p.2 ∧ p.2 ≤ b.2.2) ∧
      (∃ i j, i < c.inX ∧ j < c.inY ∧ (convert f (c.at i j)).1 = some b.1.1) ∧
      (∃ i j, i < c.inX ∧ j < c.inY ∧ (convert f (c.at i j)).1 = some b.1.2) ∧
      (∃ i j, i < c.inX ∧ j < c.inY ∧ (convert f (c.at i j)).2 = some b.2.1) ∧
      ∃ i j, i < c.inX ∧ j < c.inY ∧ (convert f (c.at i j)).2 = some b.2.2 := by
  obtain ⟨m, hm, hml, hmi⟩ : ∃ m, boxPoints c.lon c.lat = .ok m ∧ m.length = c.inX * c.inY ∧
      ∀ i j, i < c.inX → j < c.inY → m[j * c.inX + i]? = some (c.at i j) := by
    obtain ⟨m, e1, e2, e3⟩ := coords_points c hc
    refine ⟨m, ?_, e2, e3⟩
    unfold boxPoints
    rcases hc with ⟨h1, h2, h3⟩ | ⟨h1, h2, h3⟩
    · have := hsq h1
      rw [if_pos (by omega), h2, h3]
      unfold Coords.points at e1
      rw [if_pos h1] at e1
      cases hM : matrix c.lon c.lat c.inX c.inY with
      | throws => rw [hM] at e1; cases e1
      | ub => rw [hM] at e1; cases e1
      | ok m' => rw [hM, Res.ok_bind, if_neg (by rw [h2, h3]; simp)] at e1; exact e1
    · rw [if_neg (by omega)]
      unfold Coords.points at e1
      rw [if_neg (by omega), if_neg (by omega), if_neg (by omega)] at e1
      exact e1
  have hmem : ∀ p ∈ m, ∃ i j, i < c.inX ∧ j < c.inY ∧ p = c.at i j := by
    intro p hp
    obtain ⟨n, hn, rfl⟩ := List.mem_iff_getElem.mp hp
    have h1 : n % c.inX < c.inX := Nat.mod_lt _ hX
    have h2 : n / c.inX < c.inY := by rw [Nat.div_lt_iff_lt_mul hX, Nat.mul_comm]; omega
    refine ⟨n % c.inX, n / c.inX, h1, h2, ?_⟩
    have := hmi _ _ h1 h2
    rw [Nat.mul_comm (n / c.inX), Nat.div_add_mod, List.getElem?_eq_some_iff] at this
    exact this.2
  have hmem' : ∀ i j, i < c.inX → j < c.inY → c.at i j ∈ m := by
    intro i j hi hj
    exact List.mem_of_getElem? (hmi i j hi hj)
  have hfm : ∀ p ∈ m.map (convert f), ∃ q : K × K, p = (some q.1, some q.2) := by
    intro p hp
    obtain ⟨p', hp', rfl⟩ := List.mem_map.mp hp
    obtain ⟨i, j, hi, hj, rfl⟩ := hmem p' hp'
    obtain ⟨q, hq⟩ := hfin i j hi hj
    exact ⟨q, hq⟩
  obtain ⟨sx, hsx, hsx'⟩ := known_mapM (m.map (convert f)) Prod.fst fun p hp => by obtain ⟨q, rfl⟩ := hfm p hp; exact ⟨q.1, rfl⟩
  obtain ⟨sy, hsy, hsy'⟩ := known_mapM (m.map (convert f)) Prod.snd fun p hp => by obtain ⟨q, rfl⟩ := hfm p hp; exact ⟨q.2, rfl⟩
  have hmne : 0 < m.length := by rw [hml]; exact Nat.mul_pos hX hY
  have hxl : sx.length = m.length := by simpa using (congrArg List.length hsx').symm
  have hyl : sy.length = m.length := by simpa using (congrArg List.length hsy').symm
  obtain ⟨rx, hrx, x1, x2, x3⟩ := range_spec sx (by rintro rfl; simp at hxl; omega)
  obtain ⟨ry, hry, y1, y2, y3⟩ := range_spec sy (by rintro rfl; simp at hyl; omega)
  have back1 : ∀ k ∈ sx, ∃ i j, i < c.inX ∧ j < c.inY ∧ (convert f (c.at i j)).1 = some k := by
    intro k hk
    have : some k ∈ (m.map (convert f)).map Prod.fst := by rw [hsx']; exact List.mem_map_of_mem hk
    rw [List.map_map, List.mem_map] at this
    obtain ⟨p, hp, hpk⟩ := this
    obtain ⟨i, j, hi, hj, rfl⟩ := hmem p hp
    exact ⟨i, j, hi, hj, hpk⟩
  have back2 : ∀ k ∈ sy, ∃ i j, i < c.inX ∧ j < c.inY ∧ (convert f (c.at i j)).2 = some k := by
    intro k hk
    have : some k ∈ (m.map (convert f)).map Prod.snd := by rw [hsy']; exact List.mem_map_of_mem hk
    rw [List.map_map, List.mem_map] at this
    obtain ⟨p, hp, hpk⟩ := this
    obtain ⟨i, j, hi, hj, rfl⟩ := hmem p hp
    exact ⟨i, j, hi, hj, hpk⟩
  refine ⟨(rx, ry), ?_, ?_, back1 _ x1, back1 _ x2, back2 _ y1, back2 _ y2⟩
  · unfold boundingBox
    simp only [hm, Res.ok_bind, reprojectValues, hf, hsx, hsy, hrx, hry]
    rw [if_pos hname, if_neg hrot]
  · intro i j hi hj
    obtain ⟨p, hp⟩ := hfin i j hi hj
    have hin := List.mem_map_of_mem (f := convert f) (hmem' i j hi hj)
    have m1 : p.1 ∈ sx := by
      have : some p.1 ∈ sx.map some := by
        rw [← hsx', List.mem_map]; exact ⟨_, hin, by rw [hp]⟩
      simpa using this
    have m2 : p.2 ∈ sy := by
      have : some p.2 ∈ sy.map some := by
        rw [← hsy', List.mem_map]; exact ⟨_, hin, by rw [hp]⟩
      simpa using this
    exact ⟨p, hp, (x3 _ m1).1, (x3 _ m1).2, (y3 _ m2).1, (y3 _ m2).2⟩

/-! ## Violations and a concrete case -/

/-- Exchange of the two coordinates and a shift, as an example of a conversion; projection 0 is longitude/latitude. -/
def toyTransform : Transform ℕ ℚ := fun a b =>
  if a = 9 ∨ b = 9 then .throws
  else if a = b then .ok fun p => (some p.1, some p.2)
  else .ok fun p => if p.1 > 1000 then (none, none) else (some (p.1 + p.2), some (p.1 - p.2))

/-- The box of one-dimensional axes of equal length is that of their diagonal: the cell at longitude 1 and latitude 0 is
outside it. -/
theorem C116_box_square :
    boundingBox toyTransform 0 1 "stere" id [some 0, some 1] [some 0, some 1] = .ok ((0, 2), (0, 0)) ∧
    (⟨[some 0, some 1], [some 0, some 1], 1, 2, 2⟩ : Coords ℚ).Fits ∧
    (⟨[some 0, some 1], [some 0, some 1], 1, 2, 2⟩ : Coords ℚ).at 1 0 = (some 1, some 0) ∧
    reprojectValues toyTransform 0 1 [(some 1, some 0)] = .ok [(some 1, some 1)] := by
  refine ⟨by decide +kernel, Or.inl ⟨rfl, rfl, rfl⟩, rfl, by decide +kernel⟩

/-- The box of a rotated projection is converted to degrees twice (here with 57 degrees per radian): the
converted corners are 0 and 2 degrees. -/
theorem C116_box_rotated :
    boundingBox toyTransform 0 1 "ob_tran" (57 * ·) [some 0, some 1, some 1] [some 0, some 0, some 1] =
      .ok ((0, 114), (0, 57)) ∧
    reprojectValues toyTransform 0 1 [(some 0, some 0), (some 1, some 0), (some 1, some 1)] =
      .ok [(some 0, some 0), (some 1, some 1), (some 2, some 0)] := by
  refine ⟨by decide +kernel, by decide +kernel⟩

/-- New axes in degrees cannot be without start or end; neither can the projection be unknown to the library. -/
theorem C116_box_refused (tr : Transform P K) (lonlat new : P) (toDegree : K → K) (lon lat : List (Option K))
    (h : lon.length = lat.length) : boundingBox tr lonlat new "latlong" toDegree lon lat = .throws ∧
      boundingBox toyTransform 0 9 "stere" id [some 0] [some 0] = .throws := by
  refine ⟨?_, by decide +kernel⟩
  unfold boundingBox boxPoints
  rw [if_neg (by omega), Res.ok_bind, if_neg (by simp)]

/-- The grid of the examples: three columns, two rows. -/
def toyGrid : Grid ℕ ℚ := ⟨0, false, [0, 10, 30], [5, 0]⟩

/-- A template whose longitudes and latitudes are the axes of a grid with two columns and two rows: two positions are
computed and four are used. -/
theorem C116_template_axes :
    pointPositions toyTransform 0 toyGrid [some 1, some 2] [some 1, some 2] 2 2 = .ub := by decide +kernel

/-- A conversion refused by the library ends the change. -/
theorem C116_refused (tr : Transform P K) (m : Method) (new : P) (g : Grid P K) (ox oy : List K) (nz : ℕ) (F : List (Option K))
    (h : tr new g.proj = .throws) : regrid tr m new g ox oy nz F = .throws ∧ reprojectF tr m new g ox oy nz F = .throws := by
  constructor
  · unfold regrid gridPositions reprojectAxes reprojectValues
    rw [h]; rfl
  · unfold reprojectF gridPositions reprojectAxes reprojectValues
    rw [h]; rfl

/-- A concrete case: a field `1 + x + 2 y + x y` on the toy grid and a new grid with two points inside, one not finite
and one (after conversion) inside again. -/
theorem C116_toy : (let F : List (Option ℚ) := [some 11, some 71, some 191, some 1, some 11, some 31]
    regrid toyTransform .bilinear 1 toyGrid [3, 2000] [1, 2] 1 F = .ok [some 17, none, some 13, none] ∧
    reprojectF toyTransform .bilinear 1 toyGrid [3, 2000] [1, 2] 1 F = .ok [some 17, none, some 13, none] ∧
    regrid toyTransform .nearest 1 toyGrid [3, 2000] [1, 2] 1 F = .ok [some 1, none, some 11, none]) ∧
    Inside toyGrid (4, 2) (4, 2) ∧ StrictlyMonotone toyGrid.xs ∧ StrictlyMonotone toyGrid.ys ∧
    Safe toyGrid (some 4, some 2) ∧ Safe toyGrid (none, none) := by
  have hi : Inside toyGrid (4, 2) (4, 2) := by
    refine ⟨rfl, Or.inl ?_, rfl, Or.inr ?_⟩ <;> · simp [toyGrid]; try norm_num
  have hx : StrictlyMonotone toyGrid.xs := Or.inl (by simp [toyGrid]; try norm_num)
  have hy : StrictlyMonotone toyGrid.ys := Or.inr (by simp [toyGrid])
  refine ⟨?_, hi, hx, hy, ?_, ?_⟩
  · decide +kernel
  · exact C116_inside_safe toyGrid (4, 2) (4, 2) hi hx (by decide) hy (by decide) (by decide) (by decide)
  · exact C116_not_finite_safe toyGrid (none, none) ⟨rfl, rfl⟩

end Fimex.Regrid
