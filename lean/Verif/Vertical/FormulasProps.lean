import Verif.Vertical.Formulas

/-!
# Vertical coordinate formulas: C56
-/

namespace Fimex.Vertical

set_option linter.unusedSimpArgs false

/-! ## Loops -/

theorem mapM_range_all (n : ℕ) (f : ℕ → Res ℝ) (g : ℕ → ℝ) (h : ∀ i < n, f i = .ok (g i)) :
    (List.range n).mapM f = .ok ((List.range n).map g) := by
  have : ∀ l : List ℕ, (∀ i ∈ l, f i = .ok (g i)) → l.mapM f = .ok (l.map g) := by
    intro l
    induction l with
    | nil => intro _; rfl
    | cons a l ih =>
      intro hl
      rw [List.mapM_cons, hl a (by simp), Res.ok_bind, ih (fun i hi => hl i (by simp [hi])), Res.ok_bind]
      rfl
  exact this _ fun i hi => h i (List.mem_range.1 hi)

theorem readAt_ok (a : List ℝ) (i : ℕ) (h : i < a.length) : readAt a i = .ok (a.getD i 0) := by
  simp [readAt, List.getElem?_eq_getElem h, List.getD]

theorem loop1_ok (n : ℕ) (f : ℝ → ℝ) (a : List ℝ) (ha : n ≤ a.length) :
    loop1 n f a = .ok ((List.range n).map fun i => f (a.getD i 0)) := by
  apply mapM_range_all
  intro i hi
  rw [readAt_ok a i (by omega)]; rfl

theorem loop2_ok (n : ℕ) (f : ℝ → ℝ → ℝ) (a b : List ℝ) (ha : n ≤ a.length) (hb : n ≤ b.length) :
    loop2 n f a b = .ok ((List.range n).map fun i => f (a.getD i 0) (b.getD i 0)) := by
  apply mapM_range_all
  intro i hi
  rw [readAt_ok a i (by omega), readAt_ok b i (by omega)]; rfl

theorem loop3_ok (n : ℕ) (f : ℝ → ℝ → ℝ → ℝ) (a b c : List ℝ) (ha : n ≤ a.length) (hb : n ≤ b.length) (hc : n ≤ c.length) :
    loop3 n f a b c = .ok ((List.range n).map fun i => f (a.getD i 0) (b.getD i 0) (c.getD i 0)) := by
  apply mapM_range_all
  intro i hi
  rw [readAt_ok a i (by omega), readAt_ok b i (by omega), readAt_ok c i (by omega)]; rfl

theorem getD_map_range (n i : ℕ) (g : ℕ → ℝ) (h : i < n) : ((List.range n).map g).getD i 0 = g i := by
  simp [List.getD, h]

theorem range_getD (n : ℕ) (a : List ℝ) (h : n ≤ a.length) : ((List.range n).map fun i => a.getD i 0) = a.take n := by
  apply List.ext_getElem
  · simp; omega
  · intro i h1 h2
    simp at h1 h2
    simp [List.getD, List.getElem?_eq_getElem (show i < a.length by omega)]

/-- A loop after a loop that undoes it. -/
theorem loop1_loop1 (n : ℕ) (f g : ℝ → ℝ) (a : List ℝ) (ha : n ≤ a.length) (h : ∀ x ∈ a.take n, g (f x) = x) :
    (loop1 n f a >>= loop1 n g) = .ok (a.take n) := by
  rw [loop1_ok n f a ha, Res.ok_bind, loop1_ok n g _ (by simp), ← range_getD n a ha]
  congr 1
  apply List.map_congr_left
  intro i hi
  have hi' := List.mem_range.1 hi
  rw [getD_map_range n i _ hi']
  apply h
  rw [List.mem_iff_getElem]
  refine ⟨i, by simp; omega, ?_⟩
  simp [List.getD, List.getElem?_eq_getElem (show i < a.length by omega)]

theorem BF_pos : 0 < BF := by unfold BF; norm_num

/-! ## Theorems -/

/-- **C56.** Sigma to pressure and back, for every array, when surface and top pressure differ.  Sigma 0 is the top, sigma 1 the
surface. -/
theorem C56_sigma_round_trip (n : ℕ) (ptop ps : ℝ) (a : List ℝ) (ha : n ≤ a.length) (h : ps ≠ ptop) :
    (sigmaPressure n ptop ps a >>= pressureSigma n ptop ps) = .ok (a.take n) ∧
    (pressureSigma n ptop ps a >>= sigmaPressure n ptop ps) = .ok (a.take n) ∧
    sigmaPressure 2 ptop ps [0, 1] = .ok [ptop, ps] := by
  have hd : ps - ptop ≠ 0 := sub_ne_zero.2 h
  refine ⟨?_, ?_, ?_⟩
  · apply loop1_loop1 n _ _ a ha
    intro x _
    field_simp
    ring
  · apply loop1_loop1 n _ _ a ha
    intro x _
    field_simp
    ring
  · unfold sigmaPressure
    rw [loop1_ok _ _ _ (by simp)]
    simp [List.range_succ]

/-- Without a difference between top and surface the code divides by zero: every sigma comes back as the same value (in the code
NaN or infinity). -/
theorem C56_sigma_needs_difference : (sigmaPressure 2 5 5 [0, 1] >>= pressureSigma 2 5 5) = .ok [0, 0] := by
  unfold sigmaPressure pressureSigma
  dsimp only
  rw [loop1_ok _ _ _ (by simp), Res.ok_bind, loop1_ok _ _ _ (by simp)]
  simp [List.range_succ]

/-- A formula of two coefficients per level, with the same value for all levels: `p(k) = x(k) + b(k) * s`. -/
def Linear (n : ℕ) (x b : ℕ → ℝ) (s : ℝ) (out : Res (List ℝ)) : Prop :=
  ∃ r, out = .ok r ∧ r.length = n ∧ ∀ k (hk : k < r.length), r[k] = x k + b k * s

/-- **C56.** The hybrid formulas of CF: `p = a p0 + b ps`, `p = ap + b ps`, `z = a + b orog`.  The first two agree when
`ap = a p0`, and sigma coordinates are the case `ap = (1 - sigma) ptop`, `b = sigma`. -/
theorem C56_hybrid (n : ℕ) (p0 ps orog : ℝ) (a b : List ℝ) (ha : n ≤ a.length) (hb : n ≤ b.length) :
    Linear n (fun k => a.getD k 0 * p0) (fun k => b.getD k 0) ps (hybridSigmaPressure n p0 ps a b) ∧
    Linear n (fun k => a.getD k 0) (fun k => b.getD k 0) ps (hybridSigmaApPressure n ps a b) ∧
    Linear n (fun k => a.getD k 0) (fun k => b.getD k 0) orog (hybridHeight n orog a b) ∧
    hybridSigmaApPressure n ps (a.map (· * p0)) b = hybridSigmaPressure n p0 ps a b ∧
    ∀ ptop, hybridSigmaApPressure n ps (b.map fun s => (1 - s) * ptop) b = sigmaPressure n ptop ps b := by
  have hm : ∀ (f : ℝ → ℝ) (l : List ℝ) (i : ℕ), i < l.length → (l.map f).getD i 0 = f (l.getD i 0) := by
    intro f l i hi
    simp [List.getD, List.getElem?_eq_getElem hi]
  refine ⟨⟨_, loop2_ok n _ a b ha hb, by simp, fun k hk => ?_⟩, ⟨_, loop2_ok n _ a b ha hb, by simp, fun k hk => ?_⟩,
    ⟨_, loop2_ok n _ a b ha hb, by simp, fun k hk => ?_⟩, ?_, fun ptop => ?_⟩
  · simp
  · simp
  · simp
  · unfold hybridSigmaApPressure hybridSigmaPressure
    rw [loop2_ok n _ _ b (by simpa using ha) hb, loop2_ok n _ a b ha hb]
    congr 1
    apply List.map_congr_left
    intro i hi
    rw [hm _ a i (by have := List.mem_range.1 hi; omega)]
  · unfold hybridSigmaApPressure sigmaPressure
    dsimp only
    rw [loop2_ok n _ _ b (by simpa using hb) hb, loop1_ok n _ b hb]
    congr 1
    apply List.map_congr_left
    intro i hi
    rw [hm _ b i (by have := List.mem_range.1 hi; omega)]
    ring

example : Linear 2 (fun k => [10, 20].getD k 0) (fun k => [(0 : ℝ), 1].getD k 0) 1000 (hybridSigmaApPressure 2 1000 [10, 20] [0, 1]) :=
  (C56_hybrid 2 1 1000 0 [10, 20] [0, 1] (by simp) (by simp)).2.1

/-- **C56.** Omega to vertical wind and back, and the other way, where pressure and temperature are positive; rising air
(`w > 0`) has negative omega. -/
theorem C56_omega_round_trip (n : ℕ) (a p t : List ℝ) (ha : n ≤ a.length) (hp : n ≤ p.length) (ht : n ≤ t.length)
    (hpp : ∀ x ∈ p, 0 < x) (htt : ∀ x ∈ t, 0 < x) :
    (omegaToWind n a p t >>= fun w => windToOmega n w p t) = .ok (a.take n) ∧
    (windToOmega n a p t >>= fun o => omegaToWind n o p t) = .ok (a.take n) ∧
    ∃ o, windToOmega n a p t = .ok o ∧ o.length = n ∧ ∀ i < n, (0 < a.getD i 0 ↔ o.getD i 0 < 0) := by
  have hP : ∀ i < n, 0 < p.getD i 0 := by
    intro i hi
    simp only [List.getD, List.getElem?_eq_getElem (show i < p.length by omega), Option.getD_some]
    exact hpp _ (List.getElem_mem _)
  have hT : ∀ i < n, 0 < t.getD i 0 := by
    intro i hi
    simp only [List.getD, List.getElem?_eq_getElem (show i < t.length by omega), Option.getD_some]
    exact htt _ (List.getElem_mem _)
  have hB := BF_pos
  refine ⟨?_, ?_, ?_⟩
  · unfold omegaToWind windToOmega
    dsimp only
    rw [loop3_ok n _ a p t ha hp ht, Res.ok_bind, loop3_ok n _ _ p t (by simp) hp ht, ← range_getD n a ha]
    congr 1
    apply List.map_congr_left
    intro i hi
    have hi := List.mem_range.1 hi
    have h1 := (hP i hi).ne'
    have h2 := (hT i hi).ne'
    have h3 := hB.ne'
    rw [getD_map_range n i _ hi]
    field_simp
  · unfold omegaToWind windToOmega
    dsimp only
    rw [loop3_ok n _ a p t ha hp ht, Res.ok_bind, loop3_ok n _ _ p t (by simp) hp ht, ← range_getD n a ha]
    congr 1
    apply List.map_congr_left
    intro i hi
    have hi := List.mem_range.1 hi
    have h1 := (hP i hi).ne'
    have h2 := (hT i hi).ne'
    have h3 := hB.ne'
    rw [getD_map_range n i _ hi]
    field_simp
  · refine ⟨_, loop3_ok n _ a p t ha hp ht, by simp, fun i hi => ?_⟩
    rw [getD_map_range n i _ hi]
    have h1 := hP i hi
    have h2 : -BF * t.getD i 0 < 0 := by have := mul_pos hB (hT i hi); linarith
    rw [div_neg_iff]
    constructor
    · intro h; exact Or.inl ⟨mul_pos h h1, h2⟩
    · rintro (⟨h, _⟩ | ⟨_, h⟩)
      · exact (pos_iff_pos_of_mul_pos h).2 h1
      · exact absurd h (not_lt.2 h2.le)

example : ∀ x ∈ [(1000 : ℝ), 500], 0 < x := by simp

/-- **C56.** Height and pressure of the barometric formulas are inverse to each other, for positive base pressure, positive
pressures and a temperature that is not 0. -/
theorem C56_barometric_round_trip (n : ℕ) (Pb Tb : ℝ) (a : List ℝ) (ha : n ≤ a.length) (hP : 0 < Pb) (hT : Tb ≠ 0) :
    (barometricPressure n Pb a Tb >>= fun p => barometricHeight n Pb p Tb) = .ok (a.take n) ∧
    ((∀ x ∈ a, 0 < x) → (barometricHeight n Pb a Tb >>= fun h => barometricPressure n Pb h Tb) = .ok (a.take n)) := by
  have hB := BF_pos.ne'
  refine ⟨?_, fun hpos => ?_⟩
  · apply loop1_loop1 n _ _ a ha
    intro x _
    rw [mul_div_cancel_left₀ _ hP.ne', Real.log_exp]
    field_simp
  · apply loop1_loop1 n _ _ a ha
    intro x hx
    have hx := hpos x (List.mem_of_mem_take hx)
    have : -1 / (BF * Tb) * (-BF * Tb * Real.log (x / Pb)) = Real.log (x / Pb) := by field_simp
    rw [this, Real.exp_log (div_pos hx hP)]
    field_simp

/-- **C56.** In particular for the standard atmosphere, at any altitude; the base is at altitude 0. -/
theorem C56_standard_atmosphere (n : ℕ) (a : List ℝ) (ha : n ≤ a.length) :
    (barometricStandardPressure n a >>= barometricStandardAltitude n) = .ok (a.take n) ∧
    ((∀ x ∈ a, 0 < x) → (barometricStandardAltitude n a >>= barometricStandardPressure n) = .ok (a.take n)) ∧
    barometricStandardPressure 1 [0] = .ok [1013.25] := by
  have h := C56_barometric_round_trip n 1013.25 288.15 a ha (by norm_num) (by norm_num)
  refine ⟨h.1, h.2, ?_⟩
  unfold barometricStandardPressure barometricPressure
  dsimp only
  rw [loop1_ok _ _ _ (by simp)]
  simp [List.range_succ]

/-- **C56.** Pressure falls with height, strictly, and `ln`-pressure coordinates too. -/
theorem C56_pressure_falls (Pb Tb h h' : ℝ) (hP : 0 < Pb) (hT : 0 < Tb) (hh : h < h') :
    (∃ p p', barometricPressure 2 Pb [h, h'] Tb = .ok [p, p'] ∧ 0 < p' ∧ p' < p) ∧
    (∃ p p', lnPressure 2 Pb [h, h'] = .ok [p, p'] ∧ 0 < p' ∧ p' < p ∧ h = -Real.log (p / Pb)) := by
  have hB := BF_pos
  constructor
  · refine ⟨Pb * Real.exp (-1 / (BF * Tb) * h), Pb * Real.exp (-1 / (BF * Tb) * h'), ?_, by positivity, ?_⟩
    · unfold barometricPressure
      dsimp only
      rw [loop1_ok _ _ _ (by simp)]
      simp [List.range_succ]
    · apply mul_lt_mul_of_pos_left _ hP
      rw [Real.exp_lt_exp]
      have : -1 / (BF * Tb) < 0 := div_neg_of_neg_of_pos (by norm_num) (mul_pos hB hT)
      exact mul_lt_mul_of_neg_left hh this
  · refine ⟨Pb * Real.exp (-h), Pb * Real.exp (-h'), ?_, by positivity, ?_, ?_⟩
    · unfold lnPressure
      rw [loop1_ok _ _ _ (by simp)]
      simp [List.range_succ]
    · apply mul_lt_mul_of_pos_left _ hP
      rw [Real.exp_lt_exp]; linarith
    · rw [mul_div_cancel_left₀ _ hP.ne', Real.log_exp]; ring

/-- **C56.** Layer thicknesses add up, and a thickness is the difference of the barometric heights of its two pressures. -/
theorem C56_layers_add (p1 p2 p3 T Pb : ℝ) (h1 : 0 < p1) (h2 : 0 < p2) (h3 : 0 < p3) (hP : 0 < Pb) :
    layerThickness p1 p2 T + layerThickness p2 p3 T = layerThickness p1 p3 T ∧
    (0 < T → p2 < p1 → 0 < layerThickness p1 p2 T) ∧
    ∃ z1 z2, barometricHeight 2 Pb [p1, p2] T = .ok [z1, z2] ∧ z2 - z1 = layerThickness p1 p2 T := by
  refine ⟨?_, ?_, -BF * T * Real.log (p1 / Pb), -BF * T * Real.log (p2 / Pb), ?_, ?_⟩
  · unfold layerThickness
    rw [Real.log_div h1.ne' h2.ne', Real.log_div h2.ne' h3.ne', Real.log_div h1.ne' h3.ne']; ring
  · intro hT hlt
    unfold layerThickness
    have : 0 < Real.log (p1 / p2) := Real.log_pos ((one_lt_div h2).2 hlt)
    exact mul_pos (mul_pos this hT) BF_pos
  · unfold barometricHeight
    dsimp only
    rw [loop1_ok _ _ _ (by simp)]
    simp [List.range_succ]
  · unfold layerThickness
    rw [Real.log_div h1.ne' hP.ne', Real.log_div h2.ne' hP.ne', Real.log_div h1.ne' h2.ne']; ring

theorem humidityEs_pos (t : ℝ) : 0 < humidityEs t := by unfold humidityEs; positivity

/-- **C56.** The saturation pressure is the Magnus formula in degrees Celsius; above the pole of the formula warmer air
holds more water. -/
theorem C56_saturation :
    (∀ c : ℝ, humidityEs (c + 273.16) = 610.78 * Real.exp (17.269 * c / (c + 237.3))) ∧
    ∀ s t : ℝ, 35.86 < s → s < t → humidityEs s < humidityEs t := by
  constructor
  · intro c
    unfold humidityEs
    congr 2
    rw [show c + 273.16 - 273.16 = c by ring, show c + 273.16 - 35.86 = c + 237.3 by ring]
  · intro s t hs hst
    unfold humidityEs
    refine mul_lt_mul_of_pos_left (Real.exp_lt_exp.2 ?_) (by norm_num)
    rw [div_lt_div_iff₀ (by linarith) (by linarith)]
    nlinarith

/-- **C56.** Relative humidity between 0 and 100 percent comes back from specific humidity; specific humidity comes back when it
does not exceed saturation.  Relative humidity is always in `[0, 100]` and specific humidity never negative, whatever the input. -/
theorem C56_humidity (rh sh t p dew : ℝ) :
    (0 < p → 0 ≤ rh → rh ≤ 100 → specificToRelative (relativeToSpecific rh t p) t p = rh) ∧
    (0 < p → 0 ≤ sh → sh * p ≤ humidityEs t * 0.622 → relativeToSpecific (specificToRelative sh t p) t p = sh) ∧
    (0 ≤ specificToRelative sh t p ∧ specificToRelative sh t p ≤ 100) ∧ 0 ≤ relativeToSpecific rh t p ∧
    (0 < dewpointToRelative dew t ∧ dewpointToRelative dew t ≤ 100) ∧ dewpointToRelative t t = 100 := by
  have hes := humidityEs_pos t
  refine ⟨?_, ?_, ?_, ?_, ?_, ?_⟩
  · intro hp h0 h1
    unfold relativeToSpecific specificToRelative
    dsimp only
    have hpos : ¬ rh * 0.01 * humidityEs t * 0.622 / p < 0 := by
      rw [not_lt]; positivity
    rw [if_neg hpos]
    have he : 100 * (rh * 0.01 * humidityEs t * 0.622 / p) * p / (humidityEs t * 0.622) = rh := by
      field_simp
      ring
    rw [he, if_neg (not_lt.2 h0), if_neg (not_lt.2 h1)]
  · intro hp h0 h1
    unfold relativeToSpecific specificToRelative
    dsimp only
    have hlo : ¬ 100 * sh * p / (humidityEs t * 0.622) < 0 := by
      rw [not_lt]; positivity
    have hhi : ¬ 100 * sh * p / (humidityEs t * 0.622) > 100 := by
      rw [not_lt, div_le_iff₀ (by positivity)]
      linarith
    rw [if_neg hlo, if_neg hhi]
    have he : 100 * sh * p / (humidityEs t * 0.622) * 0.01 * humidityEs t * 0.622 / p = sh := by
      field_simp
      ring
    rw [he, if_neg (not_lt.2 h0)]
  · unfold specificToRelative
    dsimp only
    split
    · constructor <;> norm_num
    · rename_i h
      split
      · constructor <;> norm_num
      · rename_i h'
        exact ⟨not_lt.1 h, not_lt.1 h'⟩
  · unfold relativeToSpecific
    dsimp only
    split
    · exact le_rfl
    · rename_i h; exact not_lt.1 h
  · unfold dewpointToRelative
    dsimp only
    split
    · constructor <;> norm_num
    · rename_i h
      exact ⟨by positivity, not_lt.1 h⟩
  · unfold dewpointToRelative
    dsimp only
    rw [sub_self, Real.exp_zero]
    norm_num

/-- The saturation vapour pressure by the Magnus formula, up to a factor. -/
noncomputable def magnus (t : ℝ) : ℝ := Real.exp (17.625 * (t - 273.15) / (t - 30.11))

/-- **C56.** The relative humidity from the dew point is the saturation pressure at the dew point in percent of that at the temperature, and less than 100
exactly when the dew point lies below the temperature; a lower dew point is drier. -/
theorem C56_dewpoint (dew t : ℝ) (hd : 30.11 < dew) :
    (dew < t → dewpointToRelative dew t = 100 * magnus dew / magnus t ∧ dewpointToRelative dew t < 100) ∧
    (30.11 < t → t ≤ dew → dewpointToRelative dew t = 100) ∧
    (∀ dew', 30.11 < dew' → dew' < dew → dew < t → dewpointToRelative dew' t < dewpointToRelative dew t) := by
  have hmono : ∀ a b : ℝ, 30.11 < a → a < b → 17.625 * (a - 273.15) / (a - 30.11) < 17.625 * (b - 273.15) / (b - 30.11) := by
    intro a b ha hab
    rw [div_lt_div_iff₀ (by linarith) (by linarith)]
    nlinarith
  have hform : ∀ d : ℝ, (let rh := 100 * Real.exp (17.625 * (d - 273.15) / (243.04 + (d - 273.15)) - 17.625 * (t - 273.15) / (243.04 + (t - 273.15)))
      rh = 100 * magnus d / magnus t) := by
    intro d
    have e1 : (243.04 : ℝ) + (d - 273.15) = d - 30.11 := by ring
    have e2 : (243.04 : ℝ) + (t - 273.15) = t - 30.11 := by ring
    dsimp only
    rw [e1, e2, Real.exp_sub]
    unfold magnus
    ring
  have hmt : 0 < magnus t := Real.exp_pos _
  have hlt : ∀ d : ℝ, 30.11 < d → d < t → 100 * magnus d / magnus t < 100 := by
    intro d h1 h2
    rw [div_lt_iff₀ hmt]
    have : magnus d < magnus t := Real.exp_lt_exp.2 (hmono d t h1 h2)
    linarith
  have hval : ∀ d : ℝ, 30.11 < d → d < t → dewpointToRelative d t = 100 * magnus d / magnus t := by
    intro d h1 h2
    unfold dewpointToRelative
    dsimp only
    have := hform d
    dsimp only at this
    rw [this, if_neg (not_lt.2 (hlt d h1 h2).le)]
  refine ⟨fun h => ⟨hval dew hd h, by rw [hval dew hd h]; exact hlt dew hd h⟩, fun ht h => ?_, fun dew' h1 h2 h3 => ?_⟩
  · unfold dewpointToRelative
    dsimp only
    have := hform dew
    dsimp only at this
    rw [this]
    rcases h.eq_or_lt with rfl | h
    · rw [mul_div_assoc, div_self hmt.ne', mul_one, if_neg (lt_irrefl _)]
    · have : magnus t < magnus dew := Real.exp_lt_exp.2 (hmono t dew ht h)
      rw [if_pos]
      rw [gt_iff_lt, lt_div_iff₀ hmt]
      linarith
  · rw [hval dew' h1 (h2.trans h3), hval dew hd h3]
    have : magnus dew' < magnus dew := Real.exp_lt_exp.2 (hmono dew' dew h1 h2)
    gcongr

/-- **C56.** Dry air has its own temperature as virtual temperature; moisture raises it by the share `q (1 / 0.622 - 1)` up to
`10^-16` in the constant. -/
theorem C56_virtual_temperature (q T : ℝ) (hq : 0 ≤ q) (hT : 0 ≤ T) :
    virtualTemperature 0 T = T ∧ T ≤ virtualTemperature q T ∧
    |virtualTemperature q T - (1 + q * (1 / 0.622 - 1)) * T| ≤ q * T * (1 / 10 ^ 16) := by
  have hqT := mul_nonneg hq hT
  refine ⟨by simp [virtualTemperature], ?_, ?_⟩
  · unfold virtualTemperature; nlinarith
  · unfold virtualTemperature
    have : (1 + 0.60771704180064308681 * q) * T - (1 + q * (1 / 0.622 - 1)) * T = q * T * (0.60771704180064308681 - (1 / 0.622 - 1)) := by
      ring
    rw [this, abs_mul, abs_of_nonneg hqT]
    apply mul_le_mul_of_nonneg_left _ hqT
    norm_num [abs_le]

/-- **C56.** The ocean s-coordinates reach from the bottom (`sigma = C = -1`, `z = -h`) to the surface (`sigma = C = 0`,
`z = zeta`), and `z` increases with `sigma` and `C` between them, for water depth `h > 0`, critical depth `0 ≤ h_c ≤ h` and a
surface above the bottom. -/
theorem C56_ocean_range (h hc zeta : ℝ) (hh : 0 < h) (hc0 : 0 ≤ hc) (hch : hc ≤ h) (hz : 0 < zeta + h) :
    oceanG1 2 h hc zeta [-1, 0] [-1, 0] = .ok [-h, zeta] ∧ oceanG2 2 h hc zeta [-1, 0] [-1, 0] = .ok [-h, zeta] ∧
    ∀ s s' c c', s < s' → c < c' →
      (∃ z z', oceanG1 2 h hc zeta [s, s'] [c, c'] = .ok [z, z'] ∧ z < z') ∧
      (∃ z z', oceanG2 2 h hc zeta [s, s'] [c, c'] = .ok [z, z'] ∧ z < z') := by
  have hne : h + hc ≠ 0 := by linarith
  refine ⟨?_, ?_, fun s s' c c' hs hC => ⟨?_, ?_⟩⟩
  · unfold oceanG1
    dsimp only
    rw [loop2_ok _ _ _ _ (by simp) (by simp)]
    simp [List.range_succ]
    field_simp
    ring
  · unfold oceanG2
    dsimp only
    rw [loop2_ok _ _ _ _ (by simp) (by simp)]
    simp [List.range_succ]
    field_simp
    ring
  · unfold oceanG1
    dsimp only
    rw [loop2_ok _ _ _ _ (by simp) (by simp)]
    refine ⟨_, _, by simp [List.range_succ]; exact ⟨rfl, rfl⟩, ?_⟩
    have h1 : 0 < hc * (s' - s) + (h - hc) * (c' - c) := by
      rcases hc0.lt_or_eq with hlt | heq
      · have := mul_pos hlt (sub_pos.2 hs)
        have := mul_nonneg (sub_nonneg.2 hch) (sub_pos.2 hC).le
        linarith
      · rw [← heq]; have := mul_pos hh (sub_pos.2 hC); linarith
    have h2 : 0 < 1 + zeta * h⁻¹ := by
      have : 1 + zeta * h⁻¹ = (zeta + h) / h := by field_simp; ring
      rw [this]; positivity
    have h3 := mul_pos h1 h2
    linear_combination h3
  · unfold oceanG2
    dsimp only
    rw [loop2_ok _ _ _ _ (by simp) (by simp)]
    refine ⟨_, _, by simp [List.range_succ]; exact ⟨rfl, rfl⟩, ?_⟩
    have h1 : 0 < hc * (s' - s) + h * (c' - c) := by
      have := mul_nonneg hc0 (sub_pos.2 hs).le
      have := mul_pos hh (sub_pos.2 hC)
      linarith
    have h2 : 0 < (h + hc)⁻¹ := inv_pos.2 (by linarith)
    have h3 := mul_pos hz (mul_pos h2 h1)
    linear_combination h3

/-- **C56.** All loops need inputs of `n` values; a shorter one is read past its end. -/
theorem C56_short_input_undefined (ptop ps : ℝ) : sigmaPressure 2 ptop ps [1] = .ub := by
  unfold sigmaPressure loop1
  simp [List.range_succ, readAt, List.mapM_cons]

end Fimex.Vertical
