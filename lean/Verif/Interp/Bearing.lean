import Verif.Interp.Vector
import Verif.Slice.Lemmas
import Mathlib.Analysis.SpecialFunctions.Complex.Arg

/-!
# Angles on the plane and the sphere

Model of the computation of the rotation of a cell, `src/reproject.cc:229-330, 334-358`, and of
`mifi_great_circle_angle`, `src/interpolation.c:246-249`, over the real numbers, and theorems (C77, C78).

The projection is a parameter.  `atan2 y x` of the C library is the argument of the complex number `x + iy`
(simplification: no signed zeros).  Rounding is not modelled.
-/

namespace Fimex.Interp

open Real

noncomputable section

/-! ## Model -/

/-- `atan2` of the C library. -/
def atan2 (y x : ℝ) : ℝ := Complex.arg ⟨x, y⟩

/-- src/interpolation.c:246-249, src/reproject.cc:235-238 `mifi_great_circle_angle`. -/
def greatCircleAngle (lat0 lon0 lat1 lon1 : ℝ) : ℝ :=
  arccos (sin lat0 * sin lat1 + cos lat0 * cos lat1 * cos (lon1 - lon0))

/-- src/reproject.cc:241-258 `mifi_bearing_rad`. -/
def bearing (lat0 lon0 lat1 lon1 : ℝ) : ℝ :=
  let dlon := lon0 - lon1
  atan2 (sin dlon * cos lat1) (cos lat0 * sin lat1 - sin lat0 * cos lat1 * cos dlon)

/-- src/reproject.cc:288-293 `store_rotation`. -/
def storeRotation (phi0 : ℝ) : Rotation ℝ := ⟨cos phi0, sin phi0, 180 / π * phi0⟩

/-- src/reproject.cc:326, 340: `delta > 0 ? 0 : MIFI_PI`. -/
def halfTurn (delta : ℝ) : ℝ := if delta > 0 then 0 else π

/-- src/reproject.cc:318-330, 334-358: the rotation of one cell.  `fwd` is the transformation to the output projection,
`inp` and `out` the position of the cell in the input and in the output projection. -/
def cellRotation (dstIsLatLon : Bool) (fwd : ℝ × ℝ → ℝ × ℝ) (inp out : ℝ × ℝ) (deltaX deltaY : ℝ) : Rotation ℝ :=
  let px := fwd (inp.1 + deltaX, inp.2)
  let py := fwd (inp.1, inp.2 + deltaY)
  if dstIsLatLon then
    let rad : ℝ := π / 180
    storeRotation (bearing (out.2 * rad) (out.1 * rad) (py.2 * rad) (py.1 * rad) + halfTurn deltaY)
  else
    let phiX := atan2 (px.2 - out.2) (px.1 - out.1) + halfTurn deltaX
    let phiY := -atan2 (py.1 - out.1) (py.2 - out.2) + halfTurn deltaY
    storeRotation ((phiY + phiX) / 2)

/-- src/reproject.cc:461-470: all positions of the output grid, at `y * ox + x`. -/
def axesField (xs ys : List ℝ) : List (ℝ × ℝ) := ys.flatMap fun y => xs.map fun x => (x, y)

/-- src/reproject.cc:451-480 `get_vector_reproject_matrix` with 359-397; `inv` is the transformation to the input
projection. -/
def vectorMatrix (dstIsLatLon : Bool) (fwd inv : ℝ × ℝ → ℝ × ℝ) (xs ys : List ℝ) : Res (List (Rotation ℝ)) := do
  let out := axesField xs ys
  let inp := out.map inv
  let d ← step (1 / 1000) (1 / 1000000000) (inp.map (·.1)) xs.length ys.length
  .ok (List.zipWith (fun p q => cellRotation dstIsLatLon fwd p q d d) inp out)

/-! ## Specification -/

/-- Point of the unit sphere. -/
def onSphere (lat lon : ℝ) : ℝ × ℝ × ℝ := (cos lat * cos lon, cos lat * sin lon, sin lat)

/-- Unit vector to the east. -/
def east (lon : ℝ) : ℝ × ℝ × ℝ := (-sin lon, cos lon, 0)

/-- Unit vector to the north. -/
def north (lat lon : ℝ) : ℝ × ℝ × ℝ := (-(sin lat * cos lon), -(sin lat * sin lon), cos lat)

/-- Inner product. -/
def dot3 (a b : ℝ × ℝ × ℝ) : ℝ := a.1 * b.1 + a.2.1 * b.2.1 + a.2.2 * b.2.2

/-- Near the cell the transformation turns by `θ` and scales by `ρ`, seen with steps of length `δ` in both directions. -/
def TurnsBy (fwd : ℝ × ℝ → ℝ × ℝ) (p : ℝ × ℝ) (δ ρ θ : ℝ) : Prop :=
  fwd (p.1 + δ, p.2) = ((fwd p).1 + δ * ρ * cos θ, (fwd p).2 + δ * ρ * sin θ) ∧
  fwd (p.1, p.2 + δ) = ((fwd p).1 - δ * ρ * sin θ, (fwd p).2 + δ * ρ * cos θ)

/-! ## Theorems -/

/-- **C77.** The great-circle angle is the angle between the two points seen from the centre of the sphere: it is between
0 and half a turn, its cosine is the inner product; it is symmetric and zero from a point to itself. -/
theorem C77_great_circle (lat0 lon0 lat1 lon1 : ℝ) :
    cos (greatCircleAngle lat0 lon0 lat1 lon1) = dot3 (onSphere lat0 lon0) (onSphere lat1 lon1) ∧
    0 ≤ greatCircleAngle lat0 lon0 lat1 lon1 ∧ greatCircleAngle lat0 lon0 lat1 lon1 ≤ π ∧
    greatCircleAngle lat0 lon0 lat1 lon1 = greatCircleAngle lat1 lon1 lat0 lon0 ∧
    greatCircleAngle lat0 lon0 lat0 lon0 = 0 := by
  have e : sin lat0 * sin lat1 + cos lat0 * cos lat1 * cos (lon1 - lon0) = dot3 (onSphere lat0 lon0) (onSphere lat1 lon1) := by
    rw [cos_sub]; simp only [dot3, onSphere]; ring
  have s0 := sin_sq_add_cos_sq lat0
  have s1 := sin_sq_add_cos_sq lat1
  have hc := abs_le.1 (abs_cos_le_one (lon1 - lon0))
  have hb : -1 ≤ sin lat0 * sin lat1 + cos lat0 * cos lat1 * cos (lon1 - lon0) ∧
      sin lat0 * sin lat1 + cos lat0 * cos lat1 * cos (lon1 - lon0) ≤ 1 := by
    have h1 : (cos (lon1 - lon0)) ^ 2 ≤ 1 := by nlinarith
    constructor
    · nlinarith [sq_nonneg (sin lat0 + sin lat1), sq_nonneg (cos lat0 + cos lat1 * cos (lon1 - lon0)),
        mul_nonneg (sq_nonneg (cos lat1)) (sub_nonneg.2 h1)]
    · nlinarith [sq_nonneg (sin lat0 - sin lat1), sq_nonneg (cos lat0 - cos lat1 * cos (lon1 - lon0)),
        mul_nonneg (sq_nonneg (cos lat1)) (sub_nonneg.2 h1)]
  refine ⟨?_, arccos_nonneg _, arccos_le_pi _, ?_, ?_⟩
  · unfold greatCircleAngle
    rw [cos_arccos hb.1 hb.2, e]
  · unfold greatCircleAngle
    congr 1
    rw [show lon1 - lon0 = -(lon0 - lon1) by ring, cos_neg]; ring
  · unfold greatCircleAngle
    rw [sub_self, cos_zero, show sin lat0 * sin lat0 + cos lat0 * cos lat0 * 1 = 1 by nlinarith, arccos_one]

theorem atan2_spec (y x : ℝ) : x = sqrt (x ^ 2 + y ^ 2) * cos (atan2 y x) ∧ y = sqrt (x ^ 2 + y ^ 2) * sin (atan2 y x) := by
  have hn : ‖(⟨x, y⟩ : ℂ)‖ = sqrt (x ^ 2 + y ^ 2) := by
    rw [Complex.norm_def, Complex.normSq_mk]; congr 1; ring
  unfold atan2
  by_cases h : (⟨x, y⟩ : ℂ) = 0
  · have hx : x = 0 := congrArg Complex.re h
    have hy : y = 0 := congrArg Complex.im h
    subst hx; subst hy; simp
  · have hnz : ‖(⟨x, y⟩ : ℂ)‖ ≠ 0 := norm_ne_zero_iff.2 h
    rw [← hn, Complex.cos_arg h, Complex.sin_arg]
    constructor <;> field_simp

/-- **C78.** The bearing is the angle from north, counted towards west, in which the second point is seen from the first:
it gives the components to the east and to the north of the position of the second point. -/
theorem C78_bearing (lat0 lon0 lat1 lon1 : ℝ) :
    ∃ ρ : ℝ, 0 ≤ ρ ∧
      dot3 (onSphere lat1 lon1) (east lon0) = -(ρ * sin (bearing lat0 lon0 lat1 lon1)) ∧
      dot3 (onSphere lat1 lon1) (north lat0 lon0) = ρ * cos (bearing lat0 lon0 lat1 lon1) := by
  have h := atan2_spec (sin (lon0 - lon1) * cos lat1) (cos lat0 * sin lat1 - sin lat0 * cos lat1 * cos (lon0 - lon1))
  refine ⟨sqrt ((cos lat0 * sin lat1 - sin lat0 * cos lat1 * cos (lon0 - lon1)) ^ 2 + (sin (lon0 - lon1) * cos lat1) ^ 2),
    sqrt_nonneg _, ?_, ?_⟩
  · unfold bearing
    dsimp only
    rw [← h.2, sin_sub]; simp only [dot3, onSphere, east]; ring
  · unfold bearing
    dsimp only
    rw [← h.1, cos_sub]; simp only [dot3, onSphere, north]; ring

theorem atan2_polar {r θ : ℝ} (hr : 0 < r) (h1 : -π < θ) (h2 : θ ≤ π) : atan2 (r * sin θ) (r * cos θ) = θ := by
  unfold atan2
  have := Complex.arg_mul_cos_add_sin_mul_I hr (θ := θ) ⟨h1, h2⟩
  rw [show (⟨r * cos θ, r * sin θ⟩ : ℂ) = (r : ℂ) * (Complex.cos θ + Complex.sin θ * Complex.I) from ?_, this]
  apply Complex.ext
  · simp [Complex.cos_ofReal_re]
  · simp [Complex.sin_ofReal_re]

theorem angle_from_steps {r θ δ : ℝ} (hr : 0 < r) (h1 : -π < θ) (h2 : θ ≤ π) (hδ : δ ≠ 0) :
    ((-atan2 (-(δ * r * sin θ)) (δ * r * cos θ) + halfTurn δ) + (atan2 (δ * r * sin θ) (δ * r * cos θ) + halfTurn δ)) / 2 =
      if 0 < δ then (if θ = π then 0 else θ) else (if θ = 0 then π else if 0 < θ then θ else θ + 2 * π) := by
  have hp := pi_pos
  unfold halfTurn
  by_cases h : 0 < δ
  · have hk : 0 < δ * r := mul_pos h hr
    simp only [gt_iff_lt, if_pos h]
    rw [atan2_polar hk h1 h2]
    by_cases hθ : θ = π
    · subst hθ
      rw [if_pos rfl, show -(δ * r * sin π) = δ * r * sin π by simp, atan2_polar hk h1 h2]; ring
    · rw [if_neg hθ, show -(δ * r * sin θ) = δ * r * sin (-θ) by rw [sin_neg]; ring, ← cos_neg θ,
        atan2_polar hk (by rcases lt_or_eq_of_le h2 with h | h <;> [linarith; exact absurd h hθ]) (by linarith)]
      ring
  · have hn : δ < 0 := lt_of_le_of_ne (not_lt.1 h) hδ
    have hk : 0 < -δ * r := mul_pos (by linarith) hr
    simp only [gt_iff_lt, if_neg h]
    by_cases h0 : θ = 0
    · subst h0
      rw [if_pos rfl]
      have : atan2 0 (δ * r) = π := by
        have := atan2_polar (r := -δ * r) (θ := π) hk (by linarith) le_rfl
        rw [sin_pi, cos_pi] at this
        rw [← this]; congr 1 <;> ring
      simp only [sin_zero, cos_zero, mul_zero, neg_zero, mul_one]
      rw [this]; ring
    · rw [if_neg h0]
      by_cases hpos : 0 < θ
      · rw [if_pos hpos]
        have e1 : atan2 (δ * r * sin θ) (δ * r * cos θ) = θ - π := by
          rw [← atan2_polar (r := -δ * r) (θ := θ - π) hk (by linarith) (by linarith), sin_sub_pi, cos_sub_pi]
          congr 1 <;> ring
        have e2 : atan2 (-(δ * r * sin θ)) (δ * r * cos θ) = π - θ := by
          rw [← atan2_polar (r := -δ * r) (θ := π - θ) hk (by linarith) (by linarith), sin_pi_sub, cos_pi_sub]
          congr 1 <;> ring
        rw [e1, e2]; ring
      · rw [if_neg hpos]
        have hlt : θ < 0 := lt_of_le_of_ne (not_lt.1 hpos) h0
        have e1 : atan2 (δ * r * sin θ) (δ * r * cos θ) = θ + π := by
          rw [← atan2_polar (r := -δ * r) (θ := θ + π) hk (by linarith) (by linarith), sin_add_pi, cos_add_pi]
          congr 1 <;> ring
        have e2 : atan2 (-(δ * r * sin θ)) (δ * r * cos θ) = -π - θ := by
          rw [← atan2_polar (r := -δ * r) (θ := -π - θ) hk (by linarith) (by linarith),
            show -π - θ = -(θ + π) by ring, sin_neg, cos_neg, sin_add_pi, cos_add_pi]
          congr 1 <;> ring
        rw [e1, e2]; ring

/-- **C78.** If the projections are turned against each other by `θ`, the rotation of a cell is the one by `θ`, except
that a half turn is taken for none if the step is positive, and none for a half turn if the step is negative; in these
cases vectors get the opposite direction. -/
theorem C78_rotation_partial (fwd : ℝ × ℝ → ℝ × ℝ) (p : ℝ × ℝ) (δ ρ θ : ℝ) (hδ : δ ≠ 0) (hρ : 0 < ρ) (h1 : -π < θ)
    (h2 : θ ≤ π) (ht : TurnsBy fwd p δ ρ θ) :
    (¬ (0 < δ ∧ θ = π) → ¬ (δ < 0 ∧ θ = 0) →
      (cellRotation false fwd p (fwd p) δ δ).c = cos θ ∧ (cellRotation false fwd p (fwd p) δ δ).s = sin θ) ∧
    ((0 < δ ∧ θ = π) ∨ (δ < 0 ∧ θ = 0) →
      (cellRotation false fwd p (fwd p) δ δ).c = -cos θ ∧ (cellRotation false fwd p (fwd p) δ δ).s = -sin θ) := by
  obtain ⟨t1, t2⟩ := ht
  have key : cellRotation false fwd p (fwd p) δ δ = storeRotation
      (if 0 < δ then (if θ = π then 0 else θ) else (if θ = 0 then π else if 0 < θ then θ else θ + 2 * π)) := by
    rw [← angle_from_steps hρ h1 h2 hδ]
    unfold cellRotation
    simp only [Bool.false_eq_true, if_false]
    rw [t1, t2]
    simp only [add_sub_cancel_left, sub_sub_cancel_left]
  rw [key]
  unfold storeRotation
  constructor
  · intro n1 n2
    by_cases h : 0 < δ
    · rw [if_pos h, if_neg (fun e => n1 ⟨h, e⟩)]; exact ⟨rfl, rfl⟩
    · rw [if_neg h, if_neg (fun e => n2 ⟨lt_of_le_of_ne (not_lt.1 h) hδ, e⟩)]
      by_cases hp : 0 < θ
      · rw [if_pos hp]; exact ⟨rfl, rfl⟩
      · rw [if_neg hp]; exact ⟨cos_add_two_pi θ, sin_add_two_pi θ⟩
  · rintro (⟨h, rfl⟩ | ⟨h, rfl⟩)
    · rw [if_pos h, if_pos rfl]; simp
    · rw [if_neg (not_lt.2 h.le), if_pos rfl]; simp

/-- Without any change of projection, vectors on a field whose first coordinate descends are turned around. -/
theorem C78_identity_turned_around (p : ℝ × ℝ) :
    (cellRotation false id p p (-1) (-1)).c = -1 ∧ (cellRotation false id p p (-1) (-1)).s = 0 := by
  have := (C78_rotation_partial id p (-1) 1 0 (by norm_num) one_pos (by linarith [pi_pos]) pi_pos.le
    (by constructor <;> simp [sub_eq_add_neg])).2 (.inr ⟨by norm_num, rfl⟩)
  simpa using this

/-- A quarter turn. -/
example : (cellRotation false (fun q => (-q.2, q.1)) (3, 4) (-4, 3) 1 1).c = 0 ∧
    (cellRotation false (fun q => (-q.2, q.1)) (3, 4) (-4, 3) 1 1).s = 1 := by
  have := (C78_rotation_partial (fun q => (-q.2, q.1)) (3, 4) 1 1 (π / 2) one_ne_zero one_pos (by linarith [pi_pos])
    (by linarith [pi_pos]) (by constructor <;> simp; ring)).1 (fun h => by linarith [pi_pos, h.2]) (fun h => by linarith [h.1])
  simpa using this

/-- **C78.** The matrix has at each place of the output grid the rotation by which the projections are turned against each
other at this place, wherever this is neither zero nor a half turn. -/
theorem C78_matrix_partial (fwd inv : ℝ × ℝ → ℝ × ℝ) (xs ys : List ℝ) (m : List (Rotation ℝ)) (ρ θ : ℝ → ℝ → ℝ)
    (hm : vectorMatrix false fwd inv xs ys = .ok m) (hinv : ∀ x ∈ xs, ∀ y ∈ ys, fwd (inv (x, y)) = (x, y))
    (hturn : ∀ x ∈ xs, ∀ y ∈ ys, ∀ δ, TurnsBy fwd (inv (x, y)) δ (ρ x y) (θ x y)) (hρ : ∀ x y, 0 < ρ x y)
    (hθ : ∀ x y, -π < θ x y ∧ θ x y < π ∧ θ x y ≠ 0) :
    m.length = xs.length * ys.length ∧ ∀ i j x y, xs[i]? = some x → ys[j]? = some y →
      ∃ r, m[j * xs.length + i]? = some r ∧ r.c = cos (θ x y) ∧ r.s = sin (θ x y) := by
  unfold vectorMatrix at hm
  dsimp only at hm
  rw [Res.bind_eq_ok] at hm
  obtain ⟨d, hd, hm⟩ := hm
  obtain rfl := Res.ok.inj hm
  have hd0 : d ≠ 0 := by
    have := C78_step_not_tiny _ _ _ _ _ _ (by rw [abs_of_pos] <;> norm_num) hd
    intro h
    rw [h, abs_zero] at this
    norm_num at this
  have hlen : (axesField xs ys).length = xs.length * ys.length := by
    unfold axesField
    rw [length_flatMap_const _ _ xs.length (by simp), Nat.mul_comm]
  refine ⟨by simp [hlen], fun i j x y hx hy => ?_⟩
  have hi : i < xs.length := (List.getElem?_eq_some_iff.1 hx).1
  have hget : (axesField xs ys)[j * xs.length + i]? = some (x, y) := by
    unfold axesField
    rw [Nat.mul_comm, getElem?_flatMap_const _ _ xs.length (by simp) _ _ hi, hy]
    simp [hx]
  have hxm := List.mem_of_getElem? hx
  have hym := List.mem_of_getElem? hy
  refine ⟨cellRotation false fwd (inv (x, y)) (x, y) d d, by simp [List.getElem?_zipWith, hget], ?_⟩
  have := (C78_rotation_partial fwd (inv (x, y)) d (ρ x y) (θ x y) hd0 (hρ x y) (hθ x y).1 (hθ x y).2.1.le
    (hturn x hxm y hym d)).1 (fun h => absurd h.2 (hθ x y).2.1.ne) (fun h => (hθ x y).2.2 h.2)
  rwa [hinv x hxm y hym] at this

/-- **C78.** Turning a direction by the angle of the rotation agrees with rotating the vector: a vector in the direction
`α`, counted clockwise from the second axis, becomes one in the direction `turn α deg`. -/
theorem C78_direction_agrees (phi r α : ℝ) :
    let R := storeRotation phi
    let β := turn α R.deg * (π / 180)
    let a := α * (π / 180)
    R.c * (r * sin a) - R.s * (r * cos a) = r * sin β ∧ R.s * (r * sin a) + R.c * (r * cos a) = r * cos β := by
  intro R β a
  obtain ⟨k, hk⟩ := (C78_direction_turned α R.deg).1
  have hβ : β = a - phi + k * (2 * π) := by
    show turn α R.deg * (π / 180) = α * (π / 180) - phi + k * (2 * π)
    rw [hk]
    show (α - 180 / π * phi + 360 * k) * (π / 180) = _
    have := pi_ne_zero
    field_simp
    ring
  rw [hβ, sin_add_int_mul_two_pi, cos_add_int_mul_two_pi, sin_sub, cos_sub]
  show cos phi * _ - sin phi * _ = _ ∧ sin phi * _ + cos phi * _ = _
  constructor <;> ring

/-- **C78.** The angle kept with a rotation is one for which turned directions stay between 0 and 360. -/
theorem C78_angle_range (dstIsLatLon : Bool) (fwd : ℝ × ℝ → ℝ × ℝ) (p q : ℝ × ℝ) (δ : ℝ) :
    -360 ≤ (cellRotation dstIsLatLon fwd p q δ δ).deg ∧ (cellRotation dstIsLatLon fwd p q δ δ).deg ≤ 360 := by
  have hp := pi_pos
  have ha : ∀ y x, -π < atan2 y x ∧ atan2 y x ≤ π := fun y x => ⟨Complex.neg_pi_lt_arg _, Complex.arg_le_pi _⟩
  have hh : 0 ≤ halfTurn δ ∧ halfTurn δ ≤ π := by unfold halfTurn; split <;> constructor <;> linarith
  have main : ∀ t : ℝ, -(2 * π) ≤ t → t ≤ 2 * π → -360 ≤ (storeRotation t).deg ∧ (storeRotation t).deg ≤ 360 := by
    intro t t1 t2
    have e : (storeRotation t).deg = 180 * t / π := by show 180 / π * t = _; ring
    rw [e, le_div_iff₀ hp, div_le_iff₀ hp]
    constructor <;> linarith
  unfold cellRotation
  dsimp only
  split
  · have hb : ∀ a b c d, -π < bearing a b c d ∧ bearing a b c d ≤ π := fun a b c d => ha _ _
    have := hb (q.2 * (π / 180)) (q.1 * (π / 180)) ((fwd (p.1, p.2 + δ)).2 * (π / 180)) ((fwd (p.1, p.2 + δ)).1 * (π / 180))
    apply main <;> linarith [this.1, this.2]
  · apply main
    · linarith [(ha ((fwd (p.1 + δ, p.2)).2 - q.2) ((fwd (p.1 + δ, p.2)).1 - q.1)).1,
        (ha ((fwd (p.1, p.2 + δ)).1 - q.1) ((fwd (p.1, p.2 + δ)).2 - q.2)).2]
    · linarith [(ha ((fwd (p.1 + δ, p.2)).2 - q.2) ((fwd (p.1 + δ, p.2)).1 - q.1)).2,
        (ha ((fwd (p.1, p.2 + δ)).1 - q.1) ((fwd (p.1, p.2 + δ)).2 - q.2)).1]

end

end Fimex.Interp
