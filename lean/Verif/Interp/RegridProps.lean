import Verif.Interp.Regrid
import Verif.Interp.ForwardProps

/-!
# Interpolation onto a new grid: theorems (C116)
-/

set_option linter.unusedSectionVars false

namespace Fimex.Regrid

open Fimex.Interp

variable {P K : Type} [Field K] [LinearOrder K] [FloorRing K] [IsStrictOrderedRing K]

/-! ## Specification -/

/-- `q` is the longitude `p` in the convention of the axis: -180 to 180 degrees if one of its ends is negative, 0 to 360
degrees otherwise. -/
def SameLongitude (axis : List K) (p q : K) : Prop :=
  (q = p ∨ q = p + 360 ∨ q = p - 360) ∧ -180 < p ∧ p < 360 ∧
    if axis.getD 0 0 < 0 ∨ axis.getD (axis.length - 1) 0 < 0 then -180 < q ∧ q ≤ 180 else 0 ≤ q ∧ q < 360

/-- Between the ends of the axis. -/
def Within (axis : List K) (q : K) : Prop :=
  axis.getD 0 0 ≤ q ∧ q ≤ axis.getD (axis.length - 1) 0 ∨ axis.getD (axis.length - 1) 0 ≤ q ∧ q ≤ axis.getD 0 0

/-- `v` is the position of the coordinate `p` on the axis; what is not finite gets the position -999.  Longitudes may
be moved by a full turn, and positions by the length of an axis that is a full circle; a longitude between the
ends of the axis is neither. -/
def Located (degree : Bool) (axis : List K) (p v : Option K) : Prop :=
  ∃ w, v = some w ∧
    match p with
    | none => w = -999
    | some p =>
      if degree then
        (∃ q x, (q = p ∨ q = p + 360 ∨ q = p - 360) ∧ IsPosition axis q x ∧
          (w = x ∨ FullCircle axis ∧ (w = x + axis.length ∨ w = x - axis.length))) ∧
        ∀ q, SameLongitude axis p q → Within axis q → IsPosition axis q w
      else IsPosition axis p w

/-! ## Positions inside the axis -/

omit [FloorRing K] in
theorem getD_lt_of_asc {axis : List K} (h : axis.Pairwise (· < ·)) {i j : ℕ} (hij : i < j) (hj : j < axis.length) :
    axis.getD i 0 < axis.getD j 0 := by
  rw [List.pairwise_iff_getElem] at h
  have := h i j (by omega) hj hij
  simpa [List.getD_eq_getElem?_getD, show i < axis.length by omega, hj] using this

omit [FloorRing K] in
theorem getD_lt_of_desc {axis : List K} (h : axis.Pairwise (· > ·)) {i j : ℕ} (hij : i < j) (hj : j < axis.length) :
    axis.getD j 0 < axis.getD i 0 := by
  rw [List.pairwise_iff_getElem] at h
  have := h i j (by omega) hj hij
  simpa [List.getD_eq_getElem?_getD, show i < axis.length by omega, hj] using this

omit [FloorRing K] in
/-- Coordinates between the ends of the axis have positions from `0` to the last index. -/
theorem position_within {axis : List K} (hm : StrictlyMonotone axis) (h2 : 2 ≤ axis.length) {q x : K}
    (hw : Within axis q) (hp : IsPosition axis q x) : 0 ≤ x ∧ x ≤ (axis.length : K) - 1 := by
  obtain ⟨k, hk, hl, h0, h1⟩ := hp
  have hkc : (k : K) + 2 ≤ (axis.length : K) := by exact_mod_cast hk
  have hk0 : (0 : K) ≤ k := by exact_mod_cast Nat.zero_le k
  have e1 : k + 2 = axis.length → (axis.length : K) = (k : K) + 2 := by
    intro h; rw [← h]; push_cast; ring
  unfold lineAt at hl
  rcases hm with hm | hm
  · have hw' : axis.getD 0 0 ≤ q ∧ q ≤ axis.getD (axis.length - 1) 0 := by
      have := getD_lt_of_asc hm (i := 0) (j := axis.length - 1) (by omega) (by omega)
      rcases hw with h | h
      · exact h
      · exact absurd (le_trans h.1 h.2) (not_le.mpr this)
    have hs := getD_lt_of_asc hm (i := k) (j := k + 1) (by omega) hk
    constructor
    · rcases h0 with h | h
      · linarith
      · subst h
        by_contra hx
        push Not at hx
        have := mul_pos_of_neg_of_neg (a := x) (b := -(axis.getD (0 + 1) 0 - axis.getD 0 0)) hx (by linarith)
        simp only [Nat.cast_zero, sub_zero] at hl
        nlinarith
    · rcases h1 with h | h
      · linarith
      · rw [e1 h]
        by_contra hx
        push Not at hx
        have h3 : axis.getD (axis.length - 1) 0 = axis.getD (k + 1) 0 := by congr 1; omega
        have : 0 < (x - k - 1) * (axis.getD (k + 1) 0 - axis.getD k 0) := mul_pos (by linarith) (by linarith)
        rw [h3] at hw'
        nlinarith
  · have hw' : axis.getD (axis.length - 1) 0 ≤ q ∧ q ≤ axis.getD 0 0 := by
      have := getD_lt_of_desc hm (i := 0) (j := axis.length - 1) (by omega) (by omega)
      rcases hw with h | h
      · exact absurd (le_trans h.1 h.2) (not_le.mpr this)
      · exact h
    have hs := getD_lt_of_desc hm (i := k) (j := k + 1) (by omega) hk
    constructor
    · rcases h0 with h | h
      · linarith
      · subst h
        by_contra hx
        push Not at hx
        have := mul_pos_of_neg_of_neg (a := x) (b := (axis.getD (0 + 1) 0 - axis.getD 0 0)) hx (by linarith)
        simp only [Nat.cast_zero, sub_zero] at hl
        nlinarith
    · rcases h1 with h | h
      · linarith
      · rw [e1 h]
        by_contra hx
        push Not at hx
        have h3 : axis.getD (axis.length - 1) 0 = axis.getD (k + 1) 0 := by congr 1; omega
        have : 0 < (x - k - 1) * (axis.getD k 0 - axis.getD (k + 1) 0) := mul_pos (by linarith) (by linarith)
        rw [h3] at hw'
        nlinarith

/-! ## Positions of lists of coordinates -/

omit [FloorRing K] in
/-- Every coordinate is handled for itself. -/
theorem points2position_list (axis : List K) (t : AxisType) (hm : StrictlyMonotone axis) (h2 : 2 ≤ axis.length)
    (Q : Option K → Option K → Prop) (ps : List (Option K))
    (h : ∀ p ∈ ps, ∃ y, points2position [p] axis t = .ok [y] ∧ Q p y) :
    ∃ ys, points2position ps axis t = .ok ys ∧ List.Forall₂ Q ps ys := by
  obtain ⟨cmp, hcmp, -⟩ := comparator_spec axis hm h2
  have e0 : readI axis 0 = .ok (axis.getD 0 0) := by
    have := readI_nat axis 0 (by omega)
    simpa [show 0 < axis.length by omega] using this
  have e1 : readI axis 1 = .ok (axis.getD 1 0) := by
    have := readI_nat axis 1 (by omega)
    simpa [show 1 < axis.length by omega] using this
  have el : readI axis ((axis.length : ℤ) - 1) = .ok (axis.getD (axis.length - 1) 0) := by
    have := readI_nat axis (axis.length - 1) (by omega)
    rw [show ((axis.length : ℤ) - 1) = ((axis.length - 1 : ℕ) : ℤ) by omega, this]
    congr 1
    simp [show axis.length - 1 < axis.length by omega]
  have key : ∃ f : Option K → Res (Option K), ∀ l, points2position l axis t = l.mapM f := by
    cases t with
    | longitude =>
      refine ⟨fun p => pointPos cmp (circular (axis.getD 0 0) (axis.getD 1 0) (axis.getD (axis.length - 1) 0)) axis.length axis
        (p.map (shiftLongitude (axis.getD 0 0) (axis.getD (axis.length - 1) 0))), fun l => ?_⟩
      unfold points2position
      simp only [hcmp, Res.ok_bind, if_true, e0, e1, el]
      rw [mapM_map']
    | other =>
      refine ⟨pointPos cmp false axis.length axis, fun l => ?_⟩
      unfold points2position
      simp only [hcmp, Res.ok_bind]
      rw [if_neg (by simp)]
  obtain ⟨f, hf⟩ := key
  rw [hf]
  apply mapM_forall₂
  intro p hp
  obtain ⟨y, hy, hQ⟩ := h p hp
  rw [hf] at hy
  refine ⟨y, ?_, hQ⟩
  cases hfp : f p with
  | ok v => simp [List.mapM_cons, hfp] at hy; rw [hy]
  | throws => simp [List.mapM_cons, hfp] at hy
  | ub => simp [List.mapM_cons, hfp] at hy

omit [FloorRing K] in
/-- The positions found for any list of coordinates, on an axis in degrees or not. -/
theorem points_located (degree : Bool) (axis : List K) (hm : StrictlyMonotone axis) (h2 : 2 ≤ axis.length) (ps : List (Option K)) :
    ∃ ys, points2position ps axis (axisType degree) = .ok ys ∧ List.Forall₂ (Located degree axis) ps ys := by
  apply points2position_list axis _ hm h2
  intro p _
  cases degree with
  | false =>
    obtain ⟨xs, hxs, hF⟩ := C31_all_points axis hm h2 [p]
    cases hF with
    | cons h1 h2 =>
      cases h2
      obtain ⟨w, rfl, hw⟩ := h1
      refine ⟨_, hxs, w, rfl, ?_⟩
      cases p with
      | none => exact hw
      | some p => simpa using hw
  | true =>
    cases p with
    | none =>
      obtain ⟨q, x, y, -, -, hx, hy, -⟩ := C31_longitude_positions axis hm h2 0
      refine ⟨some (-999), ?_, -999, rfl, rfl⟩
      unfold points2position at hy ⊢
      simp only [axisType, if_true] at hy ⊢
      cases hc : comparator axis axis.length with
      | throws => simp only [hc, Res.throws_bind] at hy; cases hy
      | ub => simp only [hc, Res.ub_bind] at hy; cases hy
      | ok cmp =>
        simp only [hc, Res.ok_bind] at hy ⊢
        cases h0 : readI axis 0 with
        | throws => simp only [h0, Res.throws_bind] at hy; cases hy
        | ub => simp only [h0, Res.ub_bind] at hy; cases hy
        | ok a0 =>
          simp only [h0, Res.ok_bind] at hy ⊢
          cases hl : readI axis ((axis.length : ℤ) - 1) with
          | throws => simp only [hl, Res.throws_bind] at hy; cases hy
          | ub => simp only [hl, Res.ub_bind] at hy; cases hy
          | ok al =>
            simp only [hl, Res.ok_bind] at hy ⊢
            cases h1 : readI axis 1 with
            | throws => simp only [h1, Res.throws_bind] at hy; cases hy
            | ub => simp only [h1, Res.ub_bind] at hy; cases hy
            | ok a1 => rfl
    | some p =>
      obtain ⟨q, x, y, hq, hconv, hx, hy, hxy, hcirc⟩ := C31_longitude_positions axis hm h2 p
      obtain ⟨x', hx', hpos, -⟩ := C31_position_search axis hm h2 q
      rw [hx] at hx'
      have hxx : x = x' := by simpa using hx'
      subst hxx
      refine ⟨some y, hy, y, rfl, ?_⟩
      simp only [if_true]
      refine ⟨⟨q, x, hq, hpos, hxy⟩, ?_⟩
      intro q' hq' hw
      have hqq : q' = q := by
        obtain ⟨c1, c2, c3, c4⟩ := hq'
        have := hconv c2 c3
        split_ifs at c4 this
        · rcases c1 with rfl | rfl | rfl <;> rcases hq with rfl | rfl | rfl <;> linarith [c4.1, c4.2, this.1, this.2]
        · rcases c1 with rfl | rfl | rfl <;> rcases hq with rfl | rfl | rfl <;> linarith [c4.1, c4.2, this.1, this.2]
      subst hqq
      have hr := position_within hm h2 hw hpos
      have hn : (2 : K) ≤ axis.length := by exact_mod_cast h2
      rcases hxy with rfl | ⟨hf, rfl | rfl⟩
      · exact hpos
      · have := hcirc hf (by linarith [hr.1, hr.2]) (by linarith [hr.1, hr.2])
        linarith [hr.1, hr.2, this.1, this.2]
      · have := hcirc hf (by linarith [hr.1, hr.2]) (by linarith [hr.1, hr.2])
        linarith [hr.1, hr.2, this.1, this.2]

omit [FloorRing K] in
theorem positionsOf_spec (pts : List (Point K)) (degree : Bool) (xs ys : List K) (hx : StrictlyMonotone xs)
    (hx2 : 2 ≤ xs.length) (hy : StrictlyMonotone ys) (hy2 : 2 ≤ ys.length) :
    ∃ px py, positionsOf pts degree xs ys = .ok (px, py) ∧
      List.Forall₂ (fun (p : Point K) v => Located degree xs p.1 v) pts px ∧
      List.Forall₂ (fun (p : Point K) v => Located false ys p.2 v) pts py := by
  obtain ⟨px, h1, h2⟩ := points_located degree xs hx hx2 (pts.map Prod.fst)
  obtain ⟨py, h3, h4⟩ := points_located false ys hy hy2 (pts.map Prod.snd)
  refine ⟨px, py, ?_, ?_, ?_⟩
  · unfold positionsOf
    simp only [axisType, Bool.false_eq_true, if_false] at h3
    rw [h1, Res.ok_bind, h3, Res.ok_bind]
  · rwa [List.forall₂_map_left_iff] at h2
  · rwa [List.forall₂_map_left_iff] at h4

/-! ## The points of a grid -/

omit [LinearOrder K] [FloorRing K] [IsStrictOrderedRing K] [Field K] in
theorem gridPoints_get (xs ys : List K) : (gridPoints xs ys).length = ys.length * xs.length ∧
    ∀ x y, x < xs.length → y < ys.length → (gridPoints xs ys)[y * xs.length + x]? = some (xs[x]?, ys[y]?) := by
  induction ys with
  | nil => simp [gridPoints]
  | cons b ys ih =>
    have hc : gridPoints xs (b :: ys) = xs.map (fun x => (some x, some b)) ++ gridPoints xs ys := rfl
    rw [hc]
    refine ⟨by simp [ih.1]; ring, ?_⟩
    intro x y hx hy
    cases y with
    | zero =>
      rw [List.getElem?_append_left (by simpa using hx)]
      simp [hx]
    | succ y =>
      rw [List.getElem?_append_right (by rw [List.length_map, Nat.add_mul]; omega), List.length_map,
        show (y + 1) * xs.length + x - xs.length = y * xs.length + x by rw [Nat.add_mul]; omega,
        ih.2 x y hx (by simpa using hy)]
      simp

omit [LinearOrder K] [FloorRing K] [IsStrictOrderedRing K] [Field K] in
theorem forall₂_getD {α : Type} {R : α → Option K → Prop} {l : List α} {r : List (Option K)} (h : List.Forall₂ R l r) {i : ℕ} {a : α}
    (ha : l[i]? = some a) : R a (r.getD i none) := by
  induction h generalizing i with
  | nil => simp at ha
  | cons h1 h2 ih =>
    cases i with
    | zero => simp at ha; subst ha; simpa using h1
    | succ i => simpa using ih (by simpa using ha)

omit [FloorRing K] in
/-- **C116**, positions of a new grid: column `x` of row `y` of the new grid is at index `y * columns + x`, and its two
positions are those of the point of the new axes converted to the projection of the input. -/
theorem C116_grid_positions (tr : Transform P K) (new : P) (g : Grid P K) (ox oy : List K) (f : K × K → Point K)
    (hf : tr new g.proj = .ok f) (hx : StrictlyMonotone g.xs) (hx2 : 2 ≤ g.xs.length) (hy : StrictlyMonotone g.ys)
    (hy2 : 2 ≤ g.ys.length) :
    ∃ px py, gridPositions tr new g ox oy = .ok (px, py) ∧ px.length = ox.length * oy.length ∧
      py.length = ox.length * oy.length ∧
      ∀ (x y : ℕ) (a b : K), ox[x]? = some a → oy[y]? = some b →
        Located g.degree g.xs (f (a, b)).1 (px.getD (y * ox.length + x) none) ∧
        Located false g.ys (f (a, b)).2 (py.getD (y * ox.length + x) none) := by
  obtain ⟨px, py, h1, h2, h3⟩ := positionsOf_spec ((gridPoints ox oy).map (convert f)) g.degree g.xs g.ys hx hx2 hy hy2
  have hg := gridPoints_get ox oy
  refine ⟨px, py, ?_, ?_, ?_, ?_⟩
  · unfold gridPositions reprojectAxes reprojectValues
    rw [hf, Res.ok_bind, Res.ok_bind]
    exact h1
  · rw [← h2.length_eq, List.length_map, hg.1, Nat.mul_comm]
  · rw [← h3.length_eq, List.length_map, hg.1, Nat.mul_comm]
  · intro x y a b ha hb
    have hx' : x < ox.length := (List.getElem?_eq_some_iff.mp ha).1
    have hy' : y < oy.length := (List.getElem?_eq_some_iff.mp hb).1
    have hp : ((gridPoints ox oy).map (convert f))[y * ox.length + x]? = some (f (a, b)) := by
      rw [List.getElem?_map, hg.2 x y hx' hy', ha, hb]
      rfl
    exact ⟨forall₂_getD h2 hp, forall₂_getD h3 hp⟩

omit [FloorRing K] in
/-- **C116**, positions of given points (a list of points is a grid with one row, a template one with as many cells as
it has points): index `i` belongs to the `i`-th longitude and latitude.  A template with other numbers of points
and of cells is not covered; see `C116_template_axes`. -/
theorem C116_point_positions (tr : Transform P K) (lonlat : P) (g : Grid P K) (lon lat : List (Option K)) (outX outY : ℕ)
    (f : K × K → Point K) (hf : tr lonlat g.proj = .ok f) (hn : lon.length = lat.length) (ho : outX * outY = lat.length)
    (hx : StrictlyMonotone g.xs) (hx2 : 2 ≤ g.xs.length) (hy : StrictlyMonotone g.ys) (hy2 : 2 ≤ g.ys.length) :
    ∃ px py, pointPositions tr lonlat g lon lat outX outY = .ok (px, py) ∧ px.length = lat.length ∧ py.length = lat.length ∧
      ∀ (i : ℕ) (a b : K), lon[i]? = some (some a) → lat[i]? = some (some b) →
        Located g.degree g.xs (f (a, b)).1 (px.getD i none) ∧ Located false g.ys (f (a, b)).2 (py.getD i none) := by
  obtain ⟨px, py, h1, h2, h3⟩ := positionsOf_spec ((lon.zip lat).map (convert f)) g.degree g.xs g.ys hx hx2 hy hy2
  have l1 : px.length = lat.length := by rw [← h2.length_eq]; simp [hn]
  have l2 : py.length = lat.length := by rw [← h3.length_eq]; simp [hn]
  refine ⟨px, py, ?_, l1, l2, ?_⟩
  · unfold pointPositions reprojectValues
    rw [if_neg (by omega), hf, Res.ok_bind, Res.ok_bind, h1, Res.ok_bind]
    unfold firstN
    simp only
    rw [if_neg (by omega), if_neg (by omega), ho, List.take_of_length_le (by omega), List.take_of_length_le (by omega)]
    rfl
  · intro i a b ha hb
    have hp : ((lon.zip lat).map (convert f))[i]? = some (f (a, b)) := by
      have hz : (lon.zip lat)[i]? = some (some a, some b) := List.getElem?_zip_eq_some.mpr ⟨ha, hb⟩
      rw [List.getElem?_map, hz]
      rfl
    exact ⟨forall₂_getD h2 hp, forall₂_getD h3 hp⟩

omit [LinearOrder K] [FloorRing K] [IsStrictOrderedRing K] [Field K] in
theorem matrix_spec (lon lat : List (Option K)) (nx ny : ℕ) (hx : nx ≤ lon.length) (hy : ny ≤ lat.length) :
    ∃ m, matrix lon lat nx ny = .ok m ∧ m.length = nx * ny ∧
      ∀ x y, x < nx → y < ny → m[y * nx + x]? = some (lon.getD x none, lat.getD y none) := by
  have hrow : ∀ iy : ℕ, iy < ny → (List.range nx).mapM (fun ix : ℕ => readAt lon ix >>= fun x => readAt lat iy >>= fun y =>
      (.ok (x, y) : Res (Point K))) = .ok ((List.range nx).map fun ix => (lon.getD ix none, lat.getD iy none)) := by
    intro iy hiy
    apply mapM_ok_map
    intro ix hix
    have h1 : ix < lon.length := by have := List.mem_range.mp hix; omega
    have h2 : iy < lat.length := by omega
    simp [readAt, h1, h2]
  refine ⟨((List.range ny).map fun iy => (List.range nx).map fun ix => (lon.getD ix none, lat.getD iy none)).flatten, ?_, ?_, ?_⟩
  · unfold matrix
    rw [mapM_ok_map _ _ (fun iy => (List.range nx).map fun ix => (lon.getD ix none, lat.getD iy none))]
    · rfl
    · intro iy hiy
      exact hrow iy (List.mem_range.mp hiy)
  · clear hrow hy
    induction ny with
    | zero => simp
    | succ n ih =>
      rw [List.range_succ, List.map_append, List.flatten_append, List.length_append, ih]
      simp [Nat.mul_add]
  · clear hrow hy
    intro x y hx' hy'
    induction ny with
    | zero => omega
    | succ n ih =>
      have hlen : ((List.range n).map fun iy => (List.range nx).map fun ix => (lon.getD ix none, lat.getD iy none)).flatten.length = n * nx := by
        clear ih hy'
        induction n with
        | zero => simp
        | succ n ih =>
          rw [List.range_succ, List.map_append, List.flatten_append, List.length_append, ih]
          simp [Nat.add_mul]
      rw [List.range_succ, List.map_append, List.flatten_append]
      by_cases hyn : y < n
      · have : y * nx + x < n * nx := by
          have : (y + 1) * nx ≤ n * nx := Nat.mul_le_mul_right _ hyn
          rw [Nat.add_mul] at this; omega
        rw [List.getElem?_append_left (by rw [hlen]; exact this)]
        exact ih hyn
      · have hyn' : y = n := by omega
        subst hyn'
        rw [List.getElem?_append_right (by rw [hlen]; omega), hlen, show y * nx + x - y * nx = x by omega]
        simp [hx']

/-- The longitude and latitude of column `i` of row `j` of the input: of the axes, or of the two-dimensional arrays. -/
def Coords.at (c : Coords K) (i j : ℕ) : Point K :=
  if c.dims = 1 then (c.lon.getD i none, c.lat.getD j none)
  else (c.lon.getD (j * c.inX + i) none, c.lat.getD (j * c.inX + i) none)

/-- Longitudes and latitudes that fit the two dimensions. -/
def Coords.Fits (c : Coords K) : Prop :=
  c.dims = 1 ∧ c.lon.length = c.inX ∧ c.lat.length = c.inY ∨
    c.dims = 2 ∧ c.lon.length = c.inX * c.inY ∧ c.lat.length = c.inX * c.inY

omit [LinearOrder K] [FloorRing K] [IsStrictOrderedRing K] [Field K] in
theorem coords_points (c : Coords K) (hc : c.Fits) :
    ∃ m, c.points = .ok m ∧ m.length = c.inX * c.inY ∧
      ∀ i j, i < c.inX → j < c.inY → m[j * c.inX + i]? = some (c.at i j) := by
  rcases hc with ⟨h1, h2, h3⟩ | ⟨h1, h2, h3⟩
  · obtain ⟨m, e1, e2, e3⟩ := matrix_spec c.lon c.lat c.inX c.inY (by omega) (by omega)
    refine ⟨m, ?_, e2, ?_⟩
    · unfold Coords.points
      rw [if_pos h1, e1, Res.ok_bind, if_neg (by rw [h2, h3]; simp)]
    · intro i j hi hj
      rw [e3 i j hi hj, Coords.at, if_pos h1]
  · refine ⟨c.lon.zip c.lat, ?_, by simp [h2, h3], ?_⟩
    · unfold Coords.points
      rw [if_neg (by omega), if_neg (by omega), if_neg (by omega)]
    · intro i j hi hj
      have hlt : j * c.inX + i < c.inX * c.inY := by
        have : (j + 1) * c.inX ≤ c.inY * c.inX := Nat.mul_le_mul_right _ hj
        rw [Nat.add_mul, Nat.mul_comm c.inY] at this; omega
      rw [Coords.at, if_neg (by omega), List.getElem?_zip_eq_some]
      constructor
      · simp [show j * c.inX + i < c.lon.length by omega]
      · simp [show j * c.inX + i < c.lat.length by omega]

omit [FloorRing K] in
/-- **C116**, forward interpolation: cell (column `i`, row `j`) of the input is at index `j * columns + i`, and its two
positions are those of its longitude and latitude converted to the new projection, on the new axes. -/
theorem C116_forward_positions (tr : Transform P K) (lonlat new : P) (c : Coords K) (degree : Bool) (ox oy : List K)
    (f : K × K → Point K) (hf : tr lonlat new = .ok f) (hc : c.Fits) (hx : StrictlyMonotone ox) (hx2 : 2 ≤ ox.length)
    (hy : StrictlyMonotone oy) (hy2 : 2 ≤ oy.length) :
    ∃ px py, forwardPositions tr lonlat new c degree ox oy = .ok (px, py) ∧ px.length = c.inX * c.inY ∧
      py.length = c.inX * c.inY ∧
      ∀ i j, i < c.inX → j < c.inY →
        Located degree ox (convert f (c.at i j)).1 (px.getD (j * c.inX + i) none) ∧
        Located false oy (convert f (c.at i j)).2 (py.getD (j * c.inX + i) none) := by
  obtain ⟨m, e1, e2, e3⟩ := coords_points c hc
  obtain ⟨px, py, h1, h2, h3⟩ := positionsOf_spec (m.map (convert f)) degree ox oy hx hx2 hy hy2
  refine ⟨px, py, ?_, ?_, ?_, ?_⟩
  · unfold forwardPositions reprojectValues
    rw [e1, Res.ok_bind, hf, Res.ok_bind, Res.ok_bind]
    exact h1
  · rw [← h2.length_eq, List.length_map, e2]
  · rw [← h3.length_eq, List.length_map, e2]
  · intro i j hi hj
    have hp : (m.map (convert f))[j * c.inX + i]? = some (convert f (c.at i j)) := by
      rw [List.getElem?_map, e3 i j hi hj]
      rfl
    exact ⟨forall₂_getD h2 hp, forall₂_getD h3 hp⟩

end Fimex.Regrid
