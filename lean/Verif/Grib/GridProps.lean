import Verif.Grib.GridLemmas

/-!
# C110: grids survive writing to GRIB and reading
-/

namespace Fimex.GribGrid

variable {K : Type} [Field K] [LinearOrder K] [IsStrictOrderedRing K] [FloorRing K]

/-- The increment chosen for a grid whose last point was moved by `360 k`. -/
theorem choose_lin (a d : K) (n : ℕ) (hn : 2 ≤ n) (k : ℤ) (hn' : k = 0 ∨ n ≤ 360000) :
    chooseIncr (quotient a (a + ((n - 1 : ℕ) : K) * d + 360 * k) ((n : ℤ) - 1)) d = some d := by
  have h0 : ((n : ℤ) - 1) ≠ 0 := by omega
  have hpos : (0 : K) < ((n : ℤ) - 1 : ℤ) := by
    have : (0 : ℤ) < (n : ℤ) - 1 := by omega
    exact_mod_cast this
  have hc : ((n - 1 : ℕ) : K) = (((n : ℤ) - 1 : ℤ) : K) := by
    rw [← Int.cast_natCast, Nat.cast_sub (by omega)]
    simp
  unfold quotient chooseIncr
  rw [if_neg h0]
  simp only
  have e : (a + ((n - 1 : ℕ) : K) * d + 360 * k - a) / (((n : ℤ) - 1 : ℤ) : K) = d + 360 * k / (((n : ℤ) - 1 : ℤ) : K) := by
    rw [hc]
    field_simp
    ring
  rw [e]
  by_cases hk : k = 0
  · subst hk
    simp
  · rw [if_pos]
    have h1 : |d - (d + 360 * (k : K) / (((n : ℤ) - 1 : ℤ) : K))| = 360 * |(k : K)| / (((n : ℤ) - 1 : ℤ) : K) := by
      rw [show d - (d + 360 * (k : K) / (((n : ℤ) - 1 : ℤ) : K)) = -(360 * (k : K) / (((n : ℤ) - 1 : ℤ) : K)) by ring, abs_neg,
        abs_div, abs_mul, abs_of_pos hpos, abs_of_pos (by norm_num : (0 : K) < 360)]
    rw [h1, lt_div_iff₀ hpos]
    have h2 : (1 : K) ≤ |(k : K)| := by
      rw [← Int.cast_abs]
      exact_mod_cast Int.one_le_abs hk
    have h3 : ((((n : ℤ) - 1 : ℤ)) : K) < 360000 := by
      have : (n : ℤ) - 1 < 360000 := by
        rcases hn' with h | h
        · exact absurd h hk
        · omega
      exact_mod_cast this
    nlinarith

/-- What the writer of an edition takes as longitudes and latitudes of a regular grid. -/
def RegularAxes (edition : ℕ) (s : Source K) (lons lats : List K) : Prop :=
  if edition = 1 then s.xdeg = .ok lons ∧ s.ydeg = .ok lats
  else ∃ ll, s.lonlat = some ll ∧ ll.lon = .ok lons ∧ ll.lat = .ok lats

theorem regular_read (h : Handle K) (hr : Ready h) (n m : ℕ) (hn : 2 ≤ n) (hn' : n ≤ 360000) (hm : 2 ≤ m)
    (a d b e : K) (k : ℤ)
    (g1 : getLong h "Ni" = .ok n) (g2 : getLong h "Nj" = .ok m)
    (g3 : getDouble h "longitudeOfFirstGridPointInDegrees" = .ok a)
    (g4 : getDouble h "latitudeOfFirstGridPointInDegrees" = .ok b)
    (g5 : getDouble h "longitudeOfLastGridPointInDegrees" = .ok (a + ((n - 1 : ℕ) : K) * d + 360 * k))
    (g6 : getDouble h "latitudeOfLastGridPointInDegrees" = .ok (b + ((m - 1 : ℕ) : K) * e))
    (g7 : getDouble h "iDirectionIncrementInDegrees" = .ok |d|) (g8 : getDouble h "jDirectionIncrementInDegrees" = .ok |e|)
    (g9 : getLong h "iScansNegatively" = .ok (if d < 0 then 1 else 0))
    (g10 : getLong h "jScansPositively" = .ok (if e < 0 then 0 else 1)) :
    readRegular h = .ok ⟨.longlat, true, n, m, some d, some e, a, b⟩ := by
  obtain ⟨⟨g, g0, hg⟩, ⟨v, hv⟩, v', hv'⟩ := hr
  have c1 := choose_lin a d n hn k (.inr hn')
  have c2 := choose_lin b e m hm 0 (.inl rfl)
  simp only [Int.cast_zero, mul_zero, add_zero] at c2
  unfold readRegular orientation
  simp only [g1, g2, g3, g4, g5, g6, g7, g8, g9, g10, hg, hv, hv', Res.ok_bind, g0, ne_eq, not_false_eq_true, if_true]
  have s1 : (if decide (¬(if d < 0 then (1 : ℤ) else 0) = 0) = true then |d| * -1 else |d|) = d := by
    by_cases h : d < 0
    · simp [h, abs_of_neg h]
    · simp [h, abs_of_nonneg (not_lt.1 h)]
  have s2 : (if decide (¬(if e < 0 then (0 : ℤ) else 1) = 0) = true then |e| else |e| * -1) = e := by
    by_cases h : e < 0
    · simp [h, abs_of_neg h]
    · simp [h, abs_of_nonneg (not_lt.1 h)]
  rw [s1, s2, c1, c2]

theorem axis_shift (a d : K) (n : ℕ) (p : ProjDef K) (m : ℤ) (b : K) (e : Option K) :
    ∃ j : ℤ, xAxis (⟨p, true, n, m, some d, e, a, b⟩ : Grid K) = some (lin (a + 360 * j) d n) ∧ -180 ≤ a + 360 * j ∧ a + 360 * j ≤ 180 := by
  obtain ⟨h1, h2, -, j, hj⟩ := norm180_spec a
  exact ⟨j, by simp [xAxis, lin, hj], hj ▸ h1, hj ▸ h2⟩

/-- The two pairs of names for the numbers of points. -/
def Names (kI kJ : String) : Prop :=
  (kI = "Ni" ∧ kJ = "Nj") ∨ (kI = "numberOfPointsAlongAParallel" ∧ kJ = "numberOfPointsAlongAMeridian")

/-- The keys of a grid in degrees. -/
def degreeKeys (grid kI kJ : String) (n m : ℕ) (d e a b aX bX : K) (pole : List (String × Val K)) : List (String × Val K) :=
  [("typeOfGrid", .text grid), (kI, .long n), (kJ, .long m),
    ("iDirectionIncrementInDegrees", .dbl (some |d|)), ("jDirectionIncrementInDegrees", .dbl (some |e|))] ++ pole ++
  [("latitudeOfFirstGridPointInDegrees", .dbl (some b)), ("longitudeOfFirstGridPointInDegrees", .dbl (some a)),
    ("latitudeOfLastGridPointInDegrees", .dbl (some bX)), ("longitudeOfLastGridPointInDegrees", .dbl (some aX)),
    ("jScansPositively", .long (if e < 0 then 0 else 1)), ("iScansNegatively", .long (if d < 0 then 1 else 0))]

theorem regular_keys (asinDeg : K → K) (edition : ℕ) (s : Source K) (p : Projection K) (hp : s.proj = some p)
    (hname : p.name = "latitude_longitude") (a d b e : K) (n m : ℕ) (hn : 2 ≤ n) (hm : 2 ≤ m)
    (hs : RegularAxes edition s (lin a d n) (lin b e m)) :
    ∃ (kI kJ : String) (c : K → K), Names kI kJ ∧ (∀ x, ∃ k : ℤ, c x = x + 360 * k) ∧
      setProjection asinDeg edition s = ⟨degreeKeys "regular_ll" kI kJ n m d e (c a) b (c (a + ((n - 1 : ℕ) : K) * d))
        (b + ((m - 1 : ℕ) : K) * e) [], .ok ()⟩ := by
  have i1 := lin_get? b e m (m - 1) (by omega)
  have i2 := lin_get? a d n (n - 1) (by omega)
  have i3 := lin_get? b e m 0 (by omega)
  have i4 := lin_get? a d n 0 (by omega)
  by_cases he : edition = 1
  · rw [RegularAxes, if_pos he] at hs
    refine ⟨"Ni", "Nj", upward, .inl ⟨rfl, rfl⟩, fun x => ?_, ?_⟩
    · obtain ⟨-, -, -, k, e⟩ := upward_spec x
      exact ⟨k, by simpa using e⟩
    · simp only [setProjection, hp, hname, he, regular1, hs.1, hs.2, need, steps_lin _ _ _ _ _ _ hn hm, readAt, i1, i2, i3, i4]
      simp [put, scans, done, degreeKeys]
  · rw [RegularAxes, if_neg he] at hs
    obtain ⟨ll, h1, h2, h3⟩ := hs
    refine ⟨"numberOfPointsAlongAParallel", "numberOfPointsAlongAMeridian", clampLon, .inr ⟨rfl, rfl⟩,
      fun x => (clampLon_spec x).2.2.2, ?_⟩
    simp only [setProjection, hp, hname, he, regular2, h1, h2, h3, need, steps_lin _ _ _ _ _ _ hn hm, readAt, i1, i2, i3, i4]
    simp [put, scans, done, degreeKeys]

omit [IsStrictOrderedRing K] [FloorRing K] in
/-- The key is one of those a message of a grid in degrees gets. -/
theorem degree_get (h : Handle K) (grid kI kJ : String) (n m : ℕ) (d e a b aX bX : K) (pole : List (String × Val K))
    (hk : Names kI kJ) (out : Res Unit)
    (hpole : pole = [] ∨ ∃ v w, pole = [("latitudeOfSouthernPoleInDegrees", v), ("longitudeOfSouthernPoleInDegrees", w)]) :
    let h' := apply h ⟨degreeKeys grid kI kJ n m d e a b aX bX pole, out⟩
    getText h' "typeOfGrid" = .ok grid ∧ getLong h' "Ni" = .ok n ∧ getLong h' "Nj" = .ok m ∧
    getDouble h' "longitudeOfFirstGridPointInDegrees" = .ok a ∧ getDouble h' "latitudeOfFirstGridPointInDegrees" = .ok b ∧
    getDouble h' "longitudeOfLastGridPointInDegrees" = .ok aX ∧ getDouble h' "latitudeOfLastGridPointInDegrees" = .ok bX ∧
    getDouble h' "iDirectionIncrementInDegrees" = .ok |d| ∧ getDouble h' "jDirectionIncrementInDegrees" = .ok |e| ∧
    getLong h' "iScansNegatively" = .ok (if d < 0 then 1 else 0) ∧
    getLong h' "jScansPositively" = .ok (if e < 0 then 0 else 1) ∧
    (Ready h → Ready h') ∧
    ∀ v w, pole = [("latitudeOfSouthernPoleInDegrees", .long v), ("longitudeOfSouthernPoleInDegrees", .long w)] →
      getDouble h' "latitudeOfSouthernPoleInDegrees" = .ok (v : K) ∧ getDouble h' "longitudeOfSouthernPoleInDegrees" = .ok (w : K) := by
  intro h'
  rcases hk with ⟨rfl, rfl⟩ | ⟨rfl, rfl⟩ <;> rcases hpole with rfl | ⟨v, w, rfl⟩
  all_goals
    refine ⟨?_, ?_, ?_, ?_, ?_, ?_, ?_, ?_, ?_, ?_, ?_, ?_, ?_⟩
    all_goals simp [h', apply, degreeKeys, getText, getLong, getDouble, get_set, canon, Ready]
  all_goals
    rintro v w rfl rfl
    exact ⟨rfl, rfl⟩

/-- **C110.** A regular grid whose longitudes and latitudes have equal steps, with at least two and at most 360000 longitudes, is
written without an exception into any message, and read back: as many latitudes with the same values, as many longitudes with
the same steps, starting between -180 and 180 at the old start moved by a multiple of 360. -/
theorem C110_regular (E : Env K) (asinDeg : K → K) (edition : ℕ) (s : Source K) (p : Projection K) (hp : s.proj = some p)
    (hname : p.name = "latitude_longitude") (a d b e : K) (n m : ℕ) (hn : 2 ≤ n) (hn' : n ≤ 360000) (hm : 2 ≤ m)
    (hs : RegularAxes edition s (lin a d n) (lin b e m)) (h : Handle K) (hr : Ready h) :
    (setProjection asinDeg edition s).out = .ok () ∧ ∃ g, readGrid E edition (apply h (setProjection asinDeg edition s)) = .ok g ∧
      g.proj = .longlat ∧ (∃ k : ℤ, xAxis g = some (lin (a + 360 * k) d n) ∧ -180 ≤ a + 360 * k ∧ a + 360 * k ≤ 180) ∧
      yAxis g = some (lin b e m) := by
  obtain ⟨kI, kJ, c, hk, hc, hw⟩ := regular_keys asinDeg edition s p hp hname a d b e n m hn hm hs
  obtain ⟨k1, e1⟩ := hc a
  obtain ⟨k2, e2⟩ := hc (a + ((n - 1 : ℕ) : K) * d)
  rw [hw]
  refine ⟨rfl, ?_⟩
  obtain ⟨q0, q1, q2, q3, q4, q5, q6, q7, q8, q9, q10, q11, -⟩ := degree_get h "regular_ll" kI kJ n m d e (c a) b
    (c (a + ((n - 1 : ℕ) : K) * d)) (b + ((m - 1 : ℕ) : K) * e) [] hk (.ok ()) (.inl rfl)
  have q5' : c (a + ((n - 1 : ℕ) : K) * d) = c a + ((n - 1 : ℕ) : K) * d + 360 * ((k2 - k1 : ℤ) : K) := by
    rw [e1, e2]
    push_cast
    ring
  have := regular_read _ (q11 hr) n m hn hn' hm (c a) d b e (k2 - k1) q1 q2 q3 q4 (q5.trans (by rw [q5'])) q6 q7 q8 q9 q10
  have hread : readGrid E edition (apply h ⟨degreeKeys "regular_ll" kI kJ n m d e (c a) b (c (a + ((n - 1 : ℕ) : K) * d))
      (b + ((m - 1 : ℕ) : K) * e) [], .ok ()⟩) = .ok ⟨.longlat, true, n, m, some d, some e, c a, b⟩ := by
    rw [readGrid, q0, Res.ok_bind, if_pos rfl]
    exact this
  refine ⟨_, hread, rfl, ?_, ?_⟩
  · obtain ⟨j, h1, h2, h3⟩ := axis_shift (c a) d n .longlat m b (some e)
    have e3 : a + 360 * ((k1 + j : ℤ) : K) = c a + 360 * j := by rw [e1]; push_cast; ring
    exact ⟨k1 + j, by rw [e3]; exact h1, by rw [e3]; exact h2, by rw [e3]; exact h3⟩
  · simp [yAxis, lin]

omit [LinearOrder K] [IsStrictOrderedRing K] [FloorRing K] in
theorem axisInt (c : K → K) (hc : ∀ x, ∃ k : ℤ, c x = x + 360 * k) (z : ℤ) : ∃ w : ℤ, ∃ k : ℤ, c ((z : K) - 180) = (w : K) ∧ w = z - 180 + 360 * k := by
  obtain ⟨k, e⟩ := hc ((z : K) - 180)
  exact ⟨z - 180 + 360 * k, k, by rw [e]; push_cast; ring, rfl⟩

/-- **C110.** A rotated grid with axes of equal steps and a pole at whole degrees is written without an exception and read back
with the same latitudes, with the same longitudes up to a multiple of 360, and with the same pole. -/
theorem C110_rotated (E : Env K) (hE : ∀ z : ℤ, |z| ≤ 180 → E.print (z : K) = z) (asinDeg : K → K) (edition : ℕ) (s : Source K)
    (p : Projection K) (hp : s.proj = some p) (hname : p.name = "rotated_latitude_longitude") (a d b e : K) (n m : ℕ) (hn : 2 ≤ n)
    (hm : 2 ≤ m) (hx : s.xdeg = .ok (lin a d n)) (hy : s.ydeg = .ok (lin b e m)) (z1 z2 : ℤ) (hz1 : |z1| ≤ 360) (hz2 : |z2| ≤ 90)
    (h1 : p.must "grid_north_pole_longitude" = .ok (z1 : K)) (h2 : p.must "grid_north_pole_latitude" = .ok (z2 : K))
    (h : Handle K) (hr : Ready h) :
    (setProjection asinDeg edition s).out = .ok () ∧ ∃ g, readGrid E edition (apply h (setProjection asinDeg edition s)) = .ok g ∧
      (∃ k : ℤ, g.proj = .rotated (((z1 - 180 + 360 * k : ℤ)) : K) (z2 : K) ∧ |z1 - 180 + 360 * k| ≤ 180) ∧
      (∃ k : ℤ, xAxis g = some (lin (a + 360 * k) d n) ∧ -180 ≤ a + 360 * k ∧ a + 360 * k ≤ 180) ∧
      yAxis g = some (lin b e m) := by
  have i1 := lin_get? b e m (m - 1) (by omega)
  have i2 := lin_get? a d n (n - 1) (by omega)
  have i3 := lin_get? b e m 0 (by omega)
  have i4 := lin_get? a d n 0 (by omega)
  rw [abs_le] at hz1 hz2
  obtain ⟨c, hcdef⟩ : ∃ c : K → K, c = (if edition = 1 then upward else clampLon) := ⟨_, rfl⟩
  have hc : ∀ x, ∃ k : ℤ, c x = x + 360 * k := by
    intro x
    rw [hcdef]
    by_cases he : edition = 1
    · rw [if_pos he]
      obtain ⟨-, -, -, k, e⟩ := upward_spec x
      exact ⟨k, by simpa using e⟩
    · rw [if_neg he]
      exact (clampLon_spec x).2.2.2
  have hcb : 0 ≤ c ((z1 : K) - 180) ∧ c ((z1 : K) - 180) ≤ 360 := by
    rw [hcdef]
    by_cases he : edition = 1
    · rw [if_pos he]
      obtain ⟨u1, u2, u3, -⟩ := upward_spec ((z1 : K) - 180)
      refine ⟨u1, ?_⟩
      by_cases hneg : (z1 : K) - 180 < 0
      · exact (u3 hneg).le
      · rw [u2 (not_lt.1 hneg)]
        have : (z1 : K) ≤ 360 := by exact_mod_cast hz1.2
        linarith
    · rw [if_neg he]
      obtain ⟨u1, u2, -⟩ := clampLon_spec ((z1 : K) - 180)
      exact ⟨u1, u2⟩
  obtain ⟨w, k0, hw, hwk⟩ := axisInt c hc z1
  rw [hw] at hcb
  have hw0 : 0 ≤ w := by exact_mod_cast hcb.1
  have hw1 : w ≤ 360 := by exact_mod_cast hcb.2
  have t1 : toLong (c ((z1 : K) - 180)) = .ok w := by rw [hw]; exact toLong_int w (by constructor <;> norm_num <;> omega)
  have t2 : toLong (southLat (z2 : K)) = .ok (-z2) := by
    rw [southLat_spec _ (by exact_mod_cast hz2.2)]
    have := toLong_int (K := K) (-z2) (by constructor <;> norm_num <;> omega)
    rwa [Int.cast_neg] at this
  have hwr : setProjection asinDeg edition s = ⟨degreeKeys "rotated_ll" "numberOfPointsAlongAParallel" "numberOfPointsAlongAMeridian" n m d e
      (c a) b (c (a + ((n - 1 : ℕ) : K) * d)) (b + ((m - 1 : ℕ) : K) * e)
      [("latitudeOfSouthernPoleInDegrees", .long (-z2)), ("longitudeOfSouthernPoleInDegrees", .long w)], .ok ()⟩ := by
    simp only [setProjection, hp, hname, rotated, ← hcdef, hx, hy, h1, h2, need, steps_lin _ _ _ _ _ _ hn hm, readAt, i1, i2, i3, i4,
      t1, t2]
    simp [put, scans, done, degreeKeys]
  rw [hwr]
  refine ⟨rfl, ?_⟩
  obtain ⟨q0, q1, q2, q3, q4, q5, q6, q7, q8, q9, q10, q11, q12⟩ := degree_get h "rotated_ll" "numberOfPointsAlongAParallel"
    "numberOfPointsAlongAMeridian" n m d e (c a) b (c (a + ((n - 1 : ℕ) : K) * d)) (b + ((m - 1 : ℕ) : K) * e)
    [("latitudeOfSouthernPoleInDegrees", .long (-z2)), ("longitudeOfSouthernPoleInDegrees", .long w)] (.inr ⟨rfl, rfl⟩) (.ok ())
    (.inr ⟨_, _, rfl⟩)
  obtain ⟨q13, q14⟩ := q12 _ _ rfl
  obtain ⟨⟨g, g0, hg⟩, ⟨v, hv⟩, v', hv'⟩ := q11 hr
  obtain ⟨o1, o2, -, ko, eo⟩ := norm180_spec (w : K)
  have eo' : norm180 (w : K) = ((w + 360 * ko : ℤ) : K) := by rw [eo]; push_cast; ring
  rw [eo'] at o1 o2
  have o1' : -180 ≤ w + 360 * ko := by exact_mod_cast o1
  have o2' : w + 360 * ko ≤ 180 := by exact_mod_cast o2
  have s1 : (if decide (¬(if d < 0 then (1 : ℤ) else 0) = 0) = true then |d| * -1 else |d|) = d := by
    by_cases h : d < 0
    · simp [h, abs_of_neg h]
    · simp [h, abs_of_nonneg (not_lt.1 h)]
  have s2 : (if decide (¬(if e < 0 then (0 : ℤ) else 1) = 0) = true then |e| else |e| * -1) = e := by
    by_cases h : e < 0
    · simp [h, abs_of_neg h]
    · simp [h, abs_of_nonneg (not_lt.1 h)]
  have hread : readGrid E edition (apply h ⟨degreeKeys "rotated_ll" "numberOfPointsAlongAParallel" "numberOfPointsAlongAMeridian" n m d e
      (c a) b (c (a + ((n - 1 : ℕ) : K) * d)) (b + ((m - 1 : ℕ) : K) * e)
      [("latitudeOfSouthernPoleInDegrees", .long (-z2)), ("longitudeOfSouthernPoleInDegrees", .long w)], .ok ()⟩) =
      .ok ⟨.rotated ((w + 360 * ko : ℤ) : K) (z2 : K), true, n, m, some d, some e, c a, b⟩ := by
    rw [readGrid, q0, Res.ok_bind, if_neg (by decide), if_neg (by decide), if_neg (by decide), if_neg (by decide), if_pos rfl]
    unfold readRotated orientation
    simp only [q1, q2, q3, q4, q7, q8, q9, q10, q13, q14, hg, hv, hv', Res.ok_bind, g0, if_false, ne_eq]
    rw [s1, s2, eo', hE _ (abs_le.2 ⟨by omega, by omega⟩), show (-1 * ((-z2 : ℤ) : K)) = (z2 : K) by push_cast; ring,
      hE _ (abs_le.2 ⟨by omega, by omega⟩)]
  refine ⟨_, hread, ⟨k0 + ko, ?_, ?_⟩, ?_, ?_⟩
  · change ProjDef.rotated ((w + 360 * ko : ℤ) : K) (z2 : K) = _
    rw [hwk, show z1 - 180 + 360 * k0 + 360 * ko = z1 - 180 + 360 * (k0 + ko) by ring]
  · rw [abs_le]
    constructor <;> omega
  · obtain ⟨k1, e1⟩ := hc a
    obtain ⟨j, h1, h2, h3⟩ := axis_shift (c a) d n (.rotated ((w + 360 * ko : ℤ) : K) (z2 : K)) m b (some e)
    have e3 : a + 360 * ((k1 + j : ℤ) : K) = c a + 360 * j := by rw [e1]; push_cast; ring
    exact ⟨k1 + j, by rw [e3]; exact h1, by rw [e3]; exact h2, by rw [e3]; exact h3⟩
  · simp [yAxis, lin]

/-- Longitude and latitude of the first point in degrees. -/
def FirstPoint (s : Source K) (lon lat : K) : Prop :=
  ∃ ll lons lats, s.lonlat = some ll ∧ ll.lon = .ok (lon :: lons) ∧ ll.lat = .ok (lat :: lats)

/-- The projection library does not tell longitudes apart that differ by a multiple of 360. -/
def Periodic (E : Env K) : Prop := ∀ P lon lat (k : ℤ), E.project P (lon + 360 * k) lat = E.project P lon lat

/-- **C110.** A Lambert grid whose axes grow in equal steps is written without an exception and read back with the same numbers of
points and the same steps; the two parallels are kept (to the digits of a text), the central meridian up to a multiple of 360;
the axes start at the place the projection gives to the longitude and latitude of the first point. -/
theorem C110_lambert (E : Env K) (hE : Periodic E) (asinDeg : K → K) (edition : ℕ) (s : Source K) (p : Projection K)
    (hp : s.proj = some p) (hname : p.name = "lambert_conformal_conic") (a d b e : K) (n m : ℕ) (hn : 2 ≤ n) (hm : 2 ≤ m)
    (hd : 0 ≤ d) (he : 0 ≤ e) (hx : s.xm = .ok (lin a d n)) (hy : s.ym = .ok (lin b e m)) (l1 l2 lonV lat0 lon lat : K)
    (h1 : parallels p = .ok (l1, l2)) (h2 : p.first "longitude_of_central_meridian" 0 = .ok lonV)
    (h3 : p.first "latitude_of_projection_origin" 0 = .ok lat0) (hf : FirstPoint s lon lat) (h : Handle K) (hr : Ready h)
    (X Y : K) (hX : ∀ v : K, (∃ k : ℤ, v = lonV + 360 * k) →
      E.project (.lcc (E.print l1) (E.print v) (E.print l1) (E.print l2)) lon lat = .ok (X, Y)) :
    (setProjection asinDeg edition s).out = .ok () ∧ ∃ g, readGrid E edition (apply h (setProjection asinDeg edition s)) = .ok g ∧
      (∃ v : K, g.proj = .lcc (E.print l1) (E.print v) (E.print l1) (E.print l2) ∧ (∃ k : ℤ, v = lonV + 360 * k) ∧ -180 ≤ v ∧ v ≤ 180) ∧
      xAxis g = some (lin X d n) ∧ yAxis g = some (lin Y e m) := by
  obtain ⟨ll, lons, lats, f1, f2, f3⟩ := hf
  obtain ⟨⟨g, g0, hg⟩, ⟨v, hv⟩, v', hv'⟩ := hr
  obtain ⟨c, hcdef⟩ : ∃ c : K → K, c = (if edition = 1 then id else clampLon) := ⟨_, rfl⟩
  have hc : ∀ x, ∃ k : ℤ, c x = x + 360 * k := by
    intro x
    rw [hcdef]
    by_cases he : edition = 1
    · rw [if_pos he]
      exact ⟨0, by simp⟩
    · rw [if_neg he]
      exact (clampLon_spec x).2.2.2
  obtain ⟨V, hV⟩ : ∃ V : K, V = (if (p.find "longitude_of_central_meridian").isSome then c lonV else 0) := ⟨_, rfl⟩
  have hV' : ∃ k : ℤ, V = lonV + 360 * k := by
    by_cases hs : (p.find "longitude_of_central_meridian").isSome
    · rw [if_pos hs] at hV
      rw [hV]
      exact hc lonV
    · rw [if_neg hs] at hV
      rw [Option.not_isSome_iff_eq_none] at hs
      simp only [Projection.first, hs] at h2
      cases h2
      exact ⟨0, by simp [hV]⟩
  have hw : setProjection asinDeg edition s = ⟨[("typeOfGrid", .text "lambert"), ("Nx", .long n), ("Ny", .long m),
      ("DxInMetres", .dbl (some |d|)), ("DyInMetres", .dbl (some |e|)), ("Latin1InDegrees", .dbl (some l1)),
      ("Latin2InDegrees", .dbl (some l2)), ("LoVInDegrees", .dbl (some V)),
      ("latitudeOfFirstGridPointInDegrees", .dbl (some lat)), ("longitudeOfFirstGridPointInDegrees", .dbl (some (c lon))),
      ("jScansPositively", .long (if e < 0 then 0 else 1)), ("iScansNegatively", .long (if d < 0 then 1 else 0))], .ok ()⟩ := by
    simp only [setProjection, hp, hname, lambert, ← hcdef, hx, hy, h1, h2, h3, need, steps_lin _ _ _ _ _ _ hn hm, f1, f2, f3]
    simp [put, scans, done, readAt, ← hV]
  obtain ⟨kl, el⟩ := hc lon
  obtain ⟨o1, o2, -, ko, eo⟩ := norm180_spec V
  obtain ⟨kV, eV⟩ := hV'
  have hXv := hX (norm180 V) ⟨kV + ko, by rw [eo, eV]; push_cast; ring⟩
  have hpr : E.project (.lcc (E.print l1) (E.print (norm180 V)) (E.print l1) (E.print l2)) (c lon) lat = .ok (X, Y) := by
    rw [el, hE]
    exact hXv
  rw [hw]
  refine ⟨rfl, ⟨.lcc (E.print l1) (E.print (norm180 V)) (E.print l1) (E.print l2), false, n, m, some d, some e, X, Y⟩, ?_, ?_, ?_, ?_⟩
  · simp only [getLong] at hv hv'
    simp [readGrid, readLambert, readMetric, metricGrid, orElse, orientation, apply, getText, getLong, getDouble, get_set, canon, hpr, abs_of_nonneg hd,
      abs_of_nonneg he]
    rw [hv, hv']
    simp
  · exact ⟨norm180 V, rfl, ⟨kV + ko, by rw [eo, eV]; push_cast; ring⟩, o1, o2⟩
  · simp [xAxis, lin]
  · simp [yAxis, lin]

/-- **C110, stereographic grids (partial).** In edition 2 a grid with its origin at a pole and axes of equal steps is written
without an exception and read back with the same numbers of points and steps, with the longitude of the origin up to a multiple
of 360, and with the latitude of true scale that belongs to the scale factor (90 without one).  Missing from "the projection is
kept": the pole is the one of the message before (`projectionCentreFlag` is never set), a standard parallel and the longitude of
a polar stereographic projection are ignored (`C110_stereographic_lost`). -/
theorem C110_stereographic_partial (E : Env K) (hE : Periodic E) (asinDeg : K → K) (edition : ℕ) (hed : edition ≠ 1) (s : Source K)
    (p : Projection K) (hp : s.proj = some p) (hname : p.name = "stereographic" ∨ p.name = "polar_stereographic") (a d b e : K) (n m : ℕ)
    (hn : 2 ≤ n) (hm : 2 ≤ m) (hx : s.xm = .ok (lin a d n)) (hy : s.ym = .ok (lin b e m)) (la ts o lon lat : K)
    (h1 : p.first "latitude_of_projection_origin" 90 = .ok la) (hla : 899995 / 10000 ≤ |la|)
    (h2 : latOfScale asinDeg 90 p = .ok (some ts)) (h3 : p.first "longitude_of_projection_origin" 0 = .ok o)
    (hf : FirstPoint s lon lat) (h : Handle K) (hr : Ready h) (i j f : ℤ) (hi : getLong h "iScansNegatively" = .ok i)
    (hj : getLong h "jScansPositively" = .ok j) (hflag : getLong h "projectionCentreFlag" = .ok f)
    (X Y : K) (hX : ∀ v : K, (∃ k : ℤ, v = o + 360 * k) →
      E.project (.stere (E.print (if f = 0 then 90 else -90)) (E.print v) (E.print ts)) lon lat = .ok (X, Y)) :
    (setProjection asinDeg edition s).out = .ok () ∧ ∃ g, readGrid E edition (apply h (setProjection asinDeg edition s)) = .ok g ∧
      (∃ v : K, g.proj = .stere (E.print (if f = 0 then 90 else -90)) (E.print v) (E.print ts) ∧ (∃ k : ℤ, v = o + 360 * k) ∧
        -180 ≤ v ∧ v ≤ 180) ∧
      xAxis g = some (lin X d n) ∧ yAxis g = some (lin Y e m) := by
  obtain ⟨ll, lons, lats, f1, f2, f3⟩ := hf
  obtain ⟨-, ⟨v, hv⟩, v', hv'⟩ := hr
  have hnot : ¬ p.name = "polar_stereograhpic" := by rcases hname with hh | hh <;> rw [hh] <;> decide
  have hang : stereoAngles asinDeg "polar_stereograhpic" 90 p = .ok (some ts, o) := by
    rw [stereoAngles, if_neg hnot, h1, Res.ok_bind, if_neg (not_lt.2 hla), h2, Res.ok_bind, h3, Res.ok_bind]
  have hw : setProjection asinDeg edition s = ⟨[("typeOfGrid", .text "polar_stereographic"), ("numberOfPointsAlongXAxis", .long n),
      ("numberOfPointsAlongYAxis", .long m), ("DxInMetres", .dbl (some d)), ("DyInMetres", .dbl (some e)),
      ("latitudeOfFirstGridPointInDegrees", .dbl (some lat)), ("longitudeOfFirstGridPointInDegrees", .dbl (some (clampLon lon))),
      ("orientationOfTheGridInDegrees", .dbl (some (clampLon o))),
      ("latitudeWhereDxAndDyAreSpecifiedInDegrees", .dbl (some ts))], .ok ()⟩ := by
    simp only [setProjection, hp, hname, if_true, if_neg hed, stereo2, hang, hx, hy, need, steps_lin _ _ _ _ _ _ hn hm, f1, f2, f3]
    simp [put, done, readAt]
  obtain ⟨kl, el⟩ := (clampLon_spec lon).2.2.2
  obtain ⟨k2, e2⟩ := (clampLon_spec o).2.2.2
  obtain ⟨o1, o2, -, ko, eo⟩ := norm180_spec (clampLon o)
  have hv1 : ∃ k : ℤ, norm180 (clampLon o) = o + 360 * k := ⟨k2 + ko, by rw [eo, e2]; push_cast; ring⟩
  have hpr : E.project (.stere (E.print (if f = 0 then 90 else -90)) (E.print (norm180 (clampLon o))) (E.print ts)) (clampLon lon) lat =
      .ok (X, Y) := by
    rw [el, hE]
    exact hX _ hv1
  rw [hw]
  refine ⟨rfl, ⟨.stere (E.print (if f = 0 then 90 else -90)) (E.print (norm180 (clampLon o))) (E.print ts), false, n, m, some d, some e, X, Y⟩,
    ?_, ?_, ?_, ?_⟩
  · simp only [getLong] at hv hv' hi hj hflag
    simp [readGrid, readStereo, stereoKeys, hed, readMetric, metricGrid, orElse, orientation, apply, getText, getLong, getDouble, get_set, canon]
    rw [hflag, hi, hj, hv, hv']
    simp [hpr]
  · exact ⟨norm180 (clampLon o), rfl, hv1, o1, o2⟩
  · simp [xAxis, lin]
  · simp [yAxis, lin]

/-- **C110.** The loops over longitudes and latitudes end within the rounds of the model: their results meet the condition that ends
the loop, and differ by whole turns from the value. -/
theorem C110_loops (x : K) :
    (0 ≤ upward x ∧ ∃ k : ℕ, upward x = x + 360 * k) ∧ (0 ≤ clampLon x ∧ clampLon x ≤ 360 ∧ ∃ k : ℤ, clampLon x = x + 360 * k) ∧
    (-180 ≤ norm180 x ∧ norm180 x ≤ 180 ∧ ∃ k : ℤ, norm180 x = x + 360 * k) ∧ -90 ≤ southLat x := by
  obtain ⟨a1, -, -, a2⟩ := upward_spec x
  obtain ⟨b1, b2, -, b3⟩ := clampLon_spec x
  obtain ⟨c1, c2, -, c3⟩ := norm180_spec x
  refine ⟨⟨a1, a2⟩, ⟨b1, b2, b3⟩, ⟨c1, c2, c3⟩, ?_⟩
  obtain ⟨k, -, h2, -⟩ := up_spec (-90) 180 (rounds (-90) (-1 * x)) (-1 * x)
  exact h2 (le_trans (le_abs_self _) (rounds_mul (-90) (-1 * x) 180 (by norm_num)))

/-- **C110.** No projection, another projection than the five, or an axis of fewer than two points: an exception. -/
theorem C110_refused (asinDeg : K → K) (edition : ℕ) (s : Source K) :
    (s.proj = none → (setProjection asinDeg edition s).out = .throws) ∧
    (∀ p, s.proj = some p → p.name ∉ ["stereographic", "polar_stereographic", "latitude_longitude", "rotated_latitude_longitude",
      "lambert_conformal_conic"] → setProjection asinDeg edition s = ⟨[], .throws⟩) ∧
    (∀ p lons lats, s.proj = some p → p.name = "latitude_longitude" → RegularAxes edition s lons lats →
      lons.length < 2 ∨ lats.length < 2 → setProjection asinDeg edition s = ⟨[], .throws⟩) := by
  refine ⟨fun h => by simp [setProjection, h, raise], fun p h hn => ?_, fun p lons lats h hn hs hl => ?_⟩
  · simp only [List.mem_cons, List.not_mem_nil, or_false, not_or] at hn
    simp [setProjection, h, hn.1, hn.2.1, hn.2.2.1, hn.2.2.2.1, hn.2.2.2.2, raise]
  · have hst : steps lons lats = .throws := by rw [steps, if_pos hl]
    by_cases he : edition = 1
    · rw [RegularAxes, if_pos he] at hs
      simp [setProjection, h, hn, he, regular1, hs.1, hs.2, need, hst, raise]
    · rw [RegularAxes, if_neg he] at hs
      obtain ⟨ll, h1, h2, h3⟩ := hs
      simp [setProjection, h, hn, he, regular2, h1, h2, h3, need, hst, raise]

/-! ## Cases -/

/-- A message of the library's samples. -/
def sample : Handle ℚ :=
  [("ijDirectionIncrementGiven", .long 1), ("jPointsAreConsecutive", .long 0), ("alternativeRowScanning", .long 0),
    ("iScansNegatively", .long 0), ("jScansPositively", .long 1), ("projectionCentreFlag", .long 0), ("projectionCenterFlag", .long 0)]

theorem sample_ready : Ready sample :=
  ⟨⟨1, by decide, by decide +kernel⟩, ⟨0, by decide +kernel⟩, 0, by decide +kernel⟩

/-- Numbers are written with all digits; a toy projection. -/
def toyEnv : Env ℚ := ⟨id, fun _ lon lat => .ok (36000 * Int.fract (lon / 360), 100 * lat)⟩

/-- A dataset with a projection and axes. -/
def toySource (name : String) (params : List (String × List ℚ)) (x y : List ℚ) : Source ℚ :=
  ⟨some ⟨name, params⟩, .ok x, .ok y, .ok x, .ok y, some ⟨.ok x, .ok y, .ok x, .ok y⟩⟩

/-- Written and read. -/
def again (edition : ℕ) (s : Source ℚ) : Res (Grid ℚ) :=
  readGrid toyEnv edition (apply sample (setProjection (fun x => 90 * x) edition s))

/-- A grid over the meridian of Greenwich from north to south. -/
theorem C110_toy :
    (again 2 (toySource "latitude_longitude" [] [-2, -1, 0, 1] [60, 59, 58])).bind (fun g => .ok (xAxis g, yAxis g)) =
      .ok (some [-2, -1, 0, 1], some [60, 59, 58]) ∧
    (again 1 (toySource "latitude_longitude" [] [358, 359, 360, 361] [60, 59, 58])).bind (fun g => .ok (xAxis g, yAxis g)) =
      .ok (some [-2, -1, 0, 1], some [60, 59, 58]) ∧
    again 2 (toySource "rotated_latitude_longitude" [("grid_north_pole_longitude", [-40]), ("grid_north_pole_latitude", [22])] [5, 6] [1, 2]) =
      .ok ⟨.rotated 140 22, true, 2, 2, some 1, some 1, 5, 1⟩ := by decide +kernel

example : ∃ s p, s.proj = some p ∧ p.name = "latitude_longitude" ∧ RegularAxes 2 s (lin (-2 : ℚ) 1 4) (lin 60 (-1) 3) ∧ Ready sample :=
  ⟨toySource "latitude_longitude" [] (lin (-2) 1 4) (lin 60 (-1) 3), ⟨"latitude_longitude", []⟩, rfl, rfl,
    ⟨_, rfl, rfl, rfl⟩, sample_ready⟩

example : ∃ (s : Source ℚ) (p : Projection ℚ), s.proj = some p ∧ p.name = "lambert_conformal_conic" ∧ parallels p = .ok (63, 63) ∧
    p.first "longitude_of_central_meridian" 0 = .ok 15 ∧ s.xm = .ok (lin 0 1000 2) ∧ FirstPoint s 0 0 :=
  ⟨toySource "lambert_conformal_conic" [("standard_parallel", [63]), ("longitude_of_central_meridian", [15])] [0, 1000] [0, 1000], _, rfl, rfl,
    by decide +kernel, by decide +kernel, by decide +kernel, ⟨_, _, _, rfl, rfl, rfl⟩⟩

example : ∃ (s : Source ℚ) (p : Projection ℚ), s.proj = some p ∧ p.name = "stereographic" ∧ latOfScale (fun x => 90 * x) 90 p = .ok (some 45) ∧
    p.first "latitude_of_projection_origin" 90 = .ok 90 ∧ p.first "longitude_of_projection_origin" 0 = .ok 58 ∧ FirstPoint s 0 0 ∧
    getLong sample "projectionCentreFlag" = .ok 0 ∧ getLong sample "iScansNegatively" = .ok 0 ∧ getLong sample "jScansPositively" = .ok 1 :=
  ⟨toySource "stereographic" [("scale_factor_at_projection_origin", [3 / 4]), ("longitude_of_projection_origin", [58])] [0, 1000] [0, 1000], _,
    rfl, rfl, by decide +kernel, by decide +kernel, by decide +kernel, ⟨_, _, _, rfl, rfl, rfl⟩, by decide +kernel, by decide +kernel,
    by decide +kernel⟩

example : Periodic toyEnv := by
  intro P lon lat k
  have : (lon + 360 * (k : ℚ)) / 360 = lon / 360 + (k : ℚ) := by ring
  simp only [toyEnv, this, Int.fract_add_intCast]

/-- **C110, fails.** A pole that is not at whole degrees is cut off, in both editions. -/
theorem C110_pole_cut :
    again 2 (toySource "rotated_latitude_longitude" [("grid_north_pole_longitude", [-40]), ("grid_north_pole_latitude", [45 / 2])] [5, 6] [1, 2]) =
      .ok ⟨.rotated 140 22, true, 2, 2, some 1, some 1, 5, 1⟩ ∧
    again 1 (toySource "rotated_latitude_longitude" [("grid_north_pole_longitude", [-79 / 2]), ("grid_north_pole_latitude", [22])] [5, 6] [1, 2]) =
      .ok ⟨.rotated 140 22, true, 2, 2, some 1, some 1, 5, 1⟩ := by decide +kernel

/-- **C110, fails.** Stereographic grids: a standard parallel is lost in edition 2 (read as 90), the longitude of a polar
stereographic projection is lost in edition 2 (read as 0) though not in edition 1, a grid around the south pole is read around the
north pole, a scale factor of 2 is accepted, and edition 1 cuts the steps to metres. -/
theorem C110_stereographic_lost :
    again 2 (toySource "stereographic" [("latitude_of_projection_origin", [90]), ("longitude_of_projection_origin", [58]),
        ("standard_parallel", [60])] [0, 1000] [0, 1000]) = .ok ⟨.stere 90 58 90, false, 2, 2, some 1000, some 1000, 0, 0⟩ ∧
    again 2 (toySource "polar_stereographic" [("straight_vertical_longitude_from_pole", [58])] [0, 1000] [0, 1000]) =
      .ok ⟨.stere 90 0 90, false, 2, 2, some 1000, some 1000, 0, 0⟩ ∧
    again 1 (toySource "polar_stereographic" [("straight_vertical_longitude_from_pole", [58])] [0, 1000] [0, 1000]) =
      .ok ⟨.stere 90 58 60, false, 2, 2, some 1000, some 1000, 0, 0⟩ ∧
    again 2 (toySource "stereographic" [("latitude_of_projection_origin", [-90])] [0, 1000] [0, 1000]) =
      .ok ⟨.stere 90 0 90, false, 2, 2, some 1000, some 1000, 0, 0⟩ ∧
    (∀ ed ∈ [1, 2], (setProjection (fun x : ℚ => 90 * x) ed
      (toySource "stereographic" [("scale_factor_at_projection_origin", [2])] [0, 1000] [0, 1000])).out = .ok ()) ∧
    again 1 (toySource "polar_stereographic" [] [0, 5001 / 2] [0, 1000]) =
      .ok ⟨.stere 90 0 60, false, 2, 2, some 2500, some 1000, 0, 0⟩ := by decide +kernel

/-- **C110, fails.** A Lambert grid from north to south is read from south to north. -/
theorem C110_lambert_turned :
    (again 2 (toySource "lambert_conformal_conic" [("standard_parallel", [63])] [0, 1000] [1000, 0])).bind (fun g => .ok (yAxis g)) =
      .ok (some [100000, 101000]) := by decide +kernel

/-- **C110, fails.** Steps that are not equal are not noticed. -/
theorem C110_unequal_steps :
    (setProjection (fun x : ℚ => x) 2 (toySource "latitude_longitude" [] [0, 1, 4] [0, 1, 2])).out = .ok () ∧
    (again 2 (toySource "latitude_longitude" [] [0, 1, 4] [0, 1, 2])).bind (fun g => .ok (xAxis g)) = .ok (some [0, 1, 2]) := by
  decide +kernel

/-- **C110, fails.** Reading a rotated grid without increments: three points from 0 to 2 get steps of two thirds. -/
theorem C110_rotated_by_ends :
    (readRotated toyEnv ([("ijDirectionIncrementGiven", .long 0), ("Ni", .long 3), ("Nj", .long 3),
      ("longitudeOfFirstGridPointInDegrees", .dbl (some 0)), ("latitudeOfFirstGridPointInDegrees", .dbl (some 0)),
      ("longitudeOfLastGridPointInDegrees", .dbl (some 2)), ("latitudeOfLastGridPointInDegrees", .dbl (some 2)),
      ("longitudeOfSouthernPoleInDegrees", .long 0), ("latitudeOfSouthernPoleInDegrees", .long (-30))] ++ sample)).bind
      (fun g => .ok (xAxis g)) = .ok (some [0, 2 / 3, 4 / 3]) := by decide +kernel

/-- **C110, fails.** With more than 360000 longitudes the increment of the message is not believed: a circle in steps of 0.001
degrees is read as the same longitude 360001 times. -/
theorem C110_fine_circle : chooseIncr (quotient (clampLon (0 : ℚ)) (0 : ℚ) (360001 - 1)) (1 / 1000) = some 0 := by decide +kernel

end Fimex.GribGrid
