import Verif.Pressure.Data
import Verif.Pressure.Props
import Verif.Vertical.ConvertersProps

/-!
# Pressure conversions: the converted values

Properties of the model of the `getDataSlice` of the converters in `src/CDMPressureConversions.cc`.
-/

namespace Fimex.Pressure

open Fimex.SB Fimex.ArrayLoop Fimex.Shapes Fimex.Levels Fimex.Vertical Fimex.Converters

/-! ## Places -/

theorem place_cons (len : String → ℕ) (n : String) (ns : List String) (σ : String → ℕ) :
    place len (n :: ns) σ = σ n + len n * place len ns σ := by
  simp [place, pos]

/-- Each place of an array has its indices. -/
theorem place_surj (len : String → ℕ) {names : List String} (hn : names.Nodup) {i : ℕ} (hi : i < (names.map len).prod) :
    ∃ σ : String → ℕ, (∀ d ∈ names, σ d < len d) ∧ place len names σ = i := by
  induction names generalizing i with
  | nil =>
    simp only [List.map_nil, List.prod_nil, Nat.lt_one_iff] at hi
    exact ⟨fun _ => 0, by simp, by simp [place, pos, hi]⟩
  | cons n ns ih =>
    rw [List.map_cons, List.prod_cons] at hi
    rw [List.nodup_cons] at hn
    have hpos : 0 < len n := by
      rcases Nat.eq_zero_or_pos (len n) with h | h
      · rw [h, Nat.zero_mul] at hi; omega
      · exact h
    obtain ⟨σ, h1, h2⟩ := ih hn.2 (i := i / len n) (Nat.div_lt_of_lt_mul hi)
    have h3 : ∀ d ∈ ns, Function.update σ n (i % len n) d = σ d := fun d hd =>
      Function.update_of_ne (by rintro rfl; exact hn.1 hd) _ _
    refine ⟨Function.update σ n (i % len n), ?_, ?_⟩
    · intro d hd
      rcases List.mem_cons.1 hd with rfl | hd
      · rw [Function.update_self]; exact Nat.mod_lt _ hpos
      · rw [h3 d hd]; exact h1 d hd
    · rw [place_cons, place_congr h3, h2, Function.update_self]
      exact Nat.mod_add_div _ _

theorem mapM_all {α : Type} (f : ℕ → Res α) (l : List ℕ) (h : ∀ i ∈ l, ∃ a, f i = .ok a) :
    ∃ out : List α, l.mapM f = .ok out ∧ out.length = l.length ∧ ∀ i (hi : i < l.length) (ho : i < out.length),
      f l[i] = .ok out[i] := by
  induction l with
  | nil => exact ⟨[], rfl, rfl, fun i hi => absurd hi (by simp)⟩
  | cons k l ih =>
    obtain ⟨a, ha⟩ := h k (by simp)
    obtain ⟨out, h1, h2, h3⟩ := ih fun i hi => h i (by simp [hi])
    refine ⟨a :: out, ?_, by simp [h2], ?_⟩
    · rw [List.mapM_cons, ha, Res.ok_bind, h1]; rfl
    · intro i hi ho
      cases i with
      | zero => exact ha
      | succ i => exact h3 i (by simpa using hi) (by simpa using ho)

/-- A loop over three arrays of one shape. -/
theorem loop_values {α : Type} {len : String → ℕ} {names : List String} (hn : names.Nodup) {f g h : (String → ℕ) → Cell}
    {a b c : List Cell} (ha : Values len names f a) (hb : Values len names g b) (hc : Values len names h c)
    (F : Cell → Cell → Cell → Res α) (R : (String → ℕ) → α)
    (hF : ∀ σ, (∀ d ∈ names, σ d < len d) → F (f σ) (g σ) (h σ) = .ok (R σ)) {n : ℕ} (hl : n = (names.map len).prod) :
    ∃ out, (loop n fun k => do
      let x ← readAt a k
      let y ← readAt b k
      let z ← readAt c k
      F x y z) = .ok out ∧ Values len names R out := by
  have key : ∀ σ, (∀ d ∈ names, σ d < len d) → (do
      let x ← readAt a (place len names σ)
      let y ← readAt b (place len names σ)
      let z ← readAt c (place len names σ)
      F x y z) = .ok (R σ) := by
    intro σ hσ
    simp only [readAt, ha.get σ hσ, hb.get σ hσ, hc.get σ hσ, Res.ok_bind]
    exact hF σ hσ
  obtain ⟨out, h1, h2, h3⟩ := mapM_all (fun k => do
      let x ← readAt a k
      let y ← readAt b k
      let z ← readAt c k
      F x y z) (List.range n) (by
    intro i hi
    rw [List.mem_range, hl] at hi
    obtain ⟨σ, hσ, rfl⟩ := place_surj len hn hi
    exact ⟨_, key σ hσ⟩)
  refine ⟨out, h1, ⟨by rw [h2, List.length_range, hl], fun σ hσ => ?_⟩⟩
  have hp : place len names σ < n := by rw [hl]; exact place_lt hσ
  have := h3 (place len names σ) (by simpa using hp) (by rw [h2]; simpa using hp)
  rw [List.getElem_range, key σ hσ] at this
  rw [List.getElem?_eq_getElem (by rw [h2]; simpa using hp)]
  simp only [Res.ok.injEq] at this
  rw [this]

/-! ## Slices of the pressure -/

/-- The length of a slice at a position of the unlimited dimension. -/
def sliceLen (i : Input) (d : String) : ℕ := if i.unlimited = some d then 1 else (i.dims.dimLength d).getD 1

/-- The indices in the whole array for the indices in the slice at position `p`. -/
def whole (i : Input) (p : ℕ) (σ : String → ℕ) (d : String) : ℕ := if i.unlimited = some d then p + σ d else σ d

/-- The array is the slice, at position `p` of the unlimited dimension, of the values of `f`. -/
def SliceOf {V : Type} (i : Input) (p : ℕ) (names : List String) (f : (String → ℕ) → V) (l : List V) : Prop :=
  Values (sliceLen i) names (fun σ => f (whole i p σ)) l

/-- The pressure of the system has these dimensions and the values of `f`. -/
structure HasPressure (i : Input) (s : Sys) (names : List String) (f : (String → ℕ) → Cell) : Prop where
  transformation : s.hasTransformation = true
  converter : s.converter = .ok (some names)
  known : ∀ d ∈ names, 0 < (i.dims.dimLength d).getD 1
  data : Delivers i.dims names f (i.pressure s)

theorem slice4D_ok {i : Input} {s : Sys} {names : List String} {f : (String → ℕ) → Cell} (h : HasPressure i s names f)
    {p : ℕ} (hp : ∀ u ∈ names, i.unlimited = some u → p < (i.dims.dimLength u).getD 1) (hw : p + 1 < two64) :
    ∃ l, slice4D i s names p = .ok (some l) ∧ SliceOf i p names f l := by
  have hn := h.data.nodup
  obtain ⟨b, hb, hasks⟩ : ∃ b, sliceAtPosition i.dims i.unlimited names p = .ok b ∧
      Asks names (fun d => if i.unlimited = some d then (p, 1) else (0, (i.dims.dimLength d).getD 1)) b := by
    obtain ⟨b, e, h1, h2⟩ := createSliceBuilder_ok i.dims hn
    unfold sliceAtPosition
    rw [e]
    simp only [Res.ok_bind]
    cases hu : i.unlimited with
    | none => exact ⟨b, rfl, by simpa using h1⟩
    | some u =>
      simp only [setUnLimDimPos, h1.names hn, Res.ok_bind]
      by_cases hm : u ∈ names
      · rw [if_pos hm]
        have hwa : wadd p 1 = p + 1 := Nat.mod_eq_of_lt hw
        have hlt := hp u hm hu
        rcases set_ok h1 h2 hn hm p 1 with ⟨l1, e1⟩ | ⟨l1, b', e1, k1, k2⟩
        · rw [hwa] at l1; omega
        · rw [e1]
          refine ⟨b', rfl, ⟨k1.dimPos, ?_, ?_⟩⟩
          · rw [k1.start]
            apply List.map_congr_left
            intro d _
            by_cases hd : d = u
            · subst hd; simp
            · rw [Function.update_of_ne hd, if_neg (by simpa using fun h => hd h.symm)]
          · rw [k1.size]
            apply List.map_congr_left
            intro d _
            by_cases hd : d = u
            · subst hd; simp
            · rw [Function.update_of_ne hd, if_neg (by simpa using fun h => hd h.symm)]
      · rw [if_neg hm]
        refine ⟨b, rfl, ⟨h1.dimPos, ?_, ?_⟩⟩
        · rw [h1.start]
          apply List.map_congr_left
          intro d hd
          rw [if_neg]
          intro h; cases h; exact hm hd
        · rw [h1.size]
          apply List.map_congr_left
          intro d hd
          rw [if_neg]
          intro h; cases h; exact hm hd
  obtain ⟨l, h1, h2⟩ := h.data.slice _ b hasks (by
    intro d hd
    have hk := h.known d hd
    by_cases hu : i.unlimited = some d
    · have := hp d hd hu
      simp only [hu, if_true, lengthIn]
      omega
    · simp only [hu, if_false, lengthIn]
      omega)
  refine ⟨l, by unfold slice4D; rw [hb, Res.ok_bind, h1], ?_⟩
  have e1 : (fun d => ((if i.unlimited = some d then (p, 1) else (0, (i.dims.dimLength d).getD 1)) : ℕ × ℕ).2) =
      sliceLen i := by
    funext d; unfold sliceLen; split <;> rfl
  have e2 : (fun σ : String → ℕ => f fun d => ((if i.unlimited = some d then (p, 1) else
      (0, (i.dims.dimLength d).getD 1)) : ℕ × ℕ).1 + σ d) = fun σ => f (whole i p σ) := by
    funext σ; congr 1; funext d; unfold whole; split <;> simp
  unfold SliceOf
  rw [e1, e2] at h2
  exact h2

theorem pressureData_ok {i : Input} {s : Sys} {names : List String} {f : (String → ℕ) → Cell} (h : HasPressure i s names f)
    {p : ℕ} (hp : ∀ u ∈ names, i.unlimited = some u → p < (i.dims.dimLength u).getD 1) (hw : p + 1 < two64) :
    ∃ l, pressureData i s p = .ok (some l) ∧ SliceOf i p names f l := by
  unfold pressureData
  simp only [h.transformation, Bool.not_true, Bool.false_eq_true, if_false, h.converter]
  exact slice4D_ok h hp hw

/-- The reader delivers the slice of the values of `g` for the variable in this unit. -/
def Reads (i : Input) (p : ℕ) (v unit : String) (names : List String) (g : (String → ℕ) → Cell) : Prop :=
  ∃ l, i.scaled v unit p = .ok (some l) ∧ SliceOf i p names g l

theorem checkData_ok {i : Input} {p : ℕ} {names : List String} {f g : (String → ℕ) → Cell} {l pv : List Cell}
    (h : SliceOf i p names g l) (h' : SliceOf i p names f pv) : checkData (some l) pv.length = .ok l := by
  have := h.length.trans h'.length.symm
  simp [checkData, this]

/-! ## Vertical wind -/

/-- **C88** The upward velocity: where the pressure is not zero, `w = -ω R T / (g M p)`, with the values of the three
quantities at the same indices; NaN where one of them is NaN. The temperature and `ω` have the dimensions of the pressure
in the same order. -/
theorem C88_omega (i : Input) (c : Conv) (p : ℕ) (om t : String) (hc : c.source = .omega om t) (names : List String)
    (P O T : (String → ℕ) → Cell) (hpr : HasPressure i c.sys names P)
    (hp : ∀ u ∈ names, i.unlimited = some u → p < (i.dims.dimLength u).getD 1) (hw : p + 1 < two64)
    (hO : Reads i p om "hPa/s" names O) (hT : Reads i p t "K" names T) :
    ∃ out W, convert i c p = .ok (some (.floats out)) ∧ SliceOf i p names W out ∧ ∀ σ,
      (P σ = none ∨ O σ = none ∨ T σ = none → W σ = none) ∧
      ∀ q o k, P σ = some q → O σ = some o → T σ = some k → q ≠ 0 →
        ∃ w, W σ = some w ∧ 9.80665 * 0.0289644 * (w * q) = -(8.31432 * k * o) := by
  obtain ⟨pv, e1, h1⟩ := pressureData_ok hpr hp hw
  obtain ⟨ol, e2, h2⟩ := hO
  obtain ⟨tl, e3, h3⟩ := hT
  obtain ⟨out, e4, h4⟩ := loop_values hpr.data.nodup h2 h1 h3 (fun x y z => .ok (omegaCell x y z))
    (fun σ => omegaCell (O (whole i p σ)) (P (whole i p σ)) (T (whole i p σ))) (fun _ _ => rfl) (n := pv.length) h1.length
  refine ⟨out, fun σ => omegaCell (O σ) (P σ) (T σ), ?_, h4, ?_⟩
  · unfold convert
    rw [hc]
    simp only [omegaSlice]
    rw [e1, Res.ok_bind]
    simp only [deref, Res.ok_bind]
    rw [e3, Res.ok_bind, checkData_ok h3 h1, Res.ok_bind, e2, Res.ok_bind, checkData_ok h2 h1, Res.ok_bind, e4, Res.ok_bind]
  · intro σ
    refine ⟨?_, ?_⟩
    · rintro (h | h | h)
      · simp only [h]; cases O σ <;> rfl
      · simp only [h]; rfl
      · simp only [h]; cases O σ <;> cases P σ <;> rfl
    · intro q o k h5 h6 h7 hq
      refine ⟨-BF * o * k / q, by simp only [h5, h6, h7]; rfl, ?_⟩
      rw [div_mul_cancel₀ _ hq]
      unfold BF
      ring_nf

/-! ## Relative humidity -/

/-- The relative humidity as a fraction: specific humidity, temperature in K, pressure in hPa; the saturation pressure in
Pa is that of `mifi_humidity_es`. -/
noncomputable def fraction (sh t p : ℝ) : ℝ := sh * (100 * p) / (0.622 * (610.78 * Real.exp (17.269 * (t - 273.16) / (t - 35.86))))

theorem relative_eq (sh t p : ℝ) : 100 * sh * p / (humidityEs t * 0.622) = fraction sh t p := by
  unfold fraction humidityEs
  congr 1 <;> ring

theorem toShort_ok {x : ℝ} (h0 : 0 ≤ x) (h1 : x < 32768) : toShort (some x) = .ok ⌊x⌋ := by
  have h2 : (0 : ℤ) ≤ ⌊x⌋ := Int.floor_nonneg.2 h0
  have h3 : ⌊x⌋ < 32768 := Int.floor_lt.2 (by exact_mod_cast h1)
  simp only [toShort, h0, if_true]
  rw [if_pos ⟨by omega, by omega⟩]

theorem toShort_ub {x : ℝ} (h1 : 32768 ≤ x) : toShort (some x) = .ub := by
  have h3 : 32768 ≤ ⌊x⌋ := Int.le_floor.2 (by exact_mod_cast h1)
  have h0 : 0 ≤ x := by linarith
  simp only [toShort, h0, if_true]
  rw [if_neg (by omega)]

/-- **C88** One value of the relative humidity: the stored number is 0 for a negative fraction and otherwise within half
a step of the fraction, which is not limited to 1; from 1.3107 on it does not fit and the behaviour is undefined, as for
NaN. -/
theorem C88_humidity_cell (sh t p : ℝ) :
    (fraction sh t p < 0 → humidityCell (some sh) (some t) (some p) = .ok 0) ∧
    (0 ≤ fraction sh t p → fraction sh t p < 32767.5 / 25000 →
      ∃ k : ℤ, humidityCell (some sh) (some t) (some p) = .ok k ∧ 0 ≤ k ∧ |(k : ℝ) / 25000 - fraction sh t p| ≤ 1 / 50000) ∧
    (32767.5 / 25000 ≤ fraction sh t p → humidityCell (some sh) (some t) (some p) = .ub) ∧
    ∀ a b c : Cell, a = none ∨ b = none ∨ c = none → humidityCell a b c = .ub := by
  have hrel : specificToRelative sh t (p * 1) = if fraction sh t p < 0 then 0 else
      if fraction sh t p > 100 then 100 else fraction sh t p := by
    unfold specificToRelative
    simp only [mul_one]
    rw [relative_eq]
  refine ⟨fun h => ?_, fun h h' => ?_, fun h => ?_, ?_⟩
  · simp only [humidityCell]
    rw [hrel, if_pos h, toShort_ok (by norm_num) (by norm_num)]
    congr 1
    rw [Int.floor_eq_zero_iff]
    norm_num
  · simp only [humidityCell]
    rw [hrel, if_neg (by linarith), if_neg (by norm_num at h'; linarith), div_one]
    generalize fraction sh t p = f at h h'
    norm_num at h'
    rw [toShort_ok (by linarith) (by linarith)]
    refine ⟨_, rfl, Int.floor_nonneg.2 (by linarith), ?_⟩
    have h1 := Int.floor_le (25000 * f + 0.5)
    have h2 := Int.lt_floor_add_one (25000 * f + 0.5)
    generalize ⌊25000 * f + 0.5⌋ = k at h1 h2 ⊢
    rw [abs_le]
    constructor
    · rw [le_sub_iff_add_le, le_div_iff₀ (by norm_num)]; norm_num at h2 ⊢; linarith
    · rw [sub_le_iff_le_add, div_le_iff₀ (by norm_num)]; norm_num at h1 ⊢; linarith
  · simp only [humidityCell]
    norm_num at h
    rw [hrel, if_neg (by linarith), div_one]
    apply toShort_ub
    split
    · norm_num
    · linarith
  · rintro a b c (rfl | rfl | rfl)
    · rfl
    · cases a <;> rfl
    · cases a <;> cases b <;> rfl

/-- **C88** The relative humidity: a fraction below 1.3107 at each place is stored, in steps of 1/25000, from the values
of the three quantities at the same indices. The dimensions of humidity and temperature are those of the pressure in the
same order. -/
theorem C88_humidity (i : Input) (c : Conv) (p : ℕ) (sh t : String) (hc : c.source = .humidity sh t) (names : List String)
    (P S T : (String → ℕ) → ℝ) (hpr : HasPressure i c.sys names fun σ => some (P σ))
    (hp : ∀ u ∈ names, i.unlimited = some u → p < (i.dims.dimLength u).getD 1) (hw : p + 1 < two64)
    (hS : Reads i p sh "1" names fun σ => some (S σ)) (hT : Reads i p t "K" names fun σ => some (T σ))
    (hr : ∀ σ, fraction (S σ) (T σ) (P σ) < 32767.5 / 25000) :
    ∃ out K, convert i c p = .ok (some (.shorts out)) ∧ SliceOf i p names K out ∧ ∀ σ,
      (fraction (S σ) (T σ) (P σ) < 0 → K σ = 0) ∧
      (0 ≤ fraction (S σ) (T σ) (P σ) → 0 ≤ K σ ∧ |(K σ : ℝ) / 25000 - fraction (S σ) (T σ) (P σ)| ≤ 1 / 50000) := by
  obtain ⟨pv, e1, h1⟩ := pressureData_ok hpr hp hw
  obtain ⟨sl, e2, h2⟩ := hS
  obtain ⟨tl, e3, h3⟩ := hT
  have hcell : ∀ σ, ∃ k : ℤ, humidityCell (some (S σ)) (some (T σ)) (some (P σ)) = .ok k ∧
      (fraction (S σ) (T σ) (P σ) < 0 → k = 0) ∧
      (0 ≤ fraction (S σ) (T σ) (P σ) → 0 ≤ k ∧ |(k : ℝ) / 25000 - fraction (S σ) (T σ) (P σ)| ≤ 1 / 50000) := by
    intro σ
    obtain ⟨k1, k2, -, -⟩ := C88_humidity_cell (S σ) (T σ) (P σ)
    rcases lt_or_ge (fraction (S σ) (T σ) (P σ)) 0 with h | h
    · exact ⟨0, k1 h, fun _ => rfl, fun h' => absurd h (not_lt.2 h')⟩
    · obtain ⟨k, e, h5, h6⟩ := k2 h (hr σ)
      exact ⟨k, e, fun h' => absurd h (not_le.2 h'), fun _ => ⟨h5, h6⟩⟩
  choose K hK hneg hpos using hcell
  obtain ⟨out, e4, h4⟩ := loop_values hpr.data.nodup h2 h3 h1 humidityCell (fun σ => K (whole i p σ))
    (fun σ _ => hK (whole i p σ)) (n := pv.length) h1.length
  refine ⟨out, K, ?_, h4, fun σ => ⟨hneg σ, hpos σ⟩⟩
  unfold convert
  rw [hc]
  simp only [humiditySlice]
  rw [e1, Res.ok_bind]
  simp only [deref, Res.ok_bind]
  rw [e2, Res.ok_bind, checkData_ok h2 h1, Res.ok_bind, e3, Res.ok_bind, checkData_ok h3 h1, Res.ok_bind, e4, Res.ok_bind]

/-- **C88** The humidity is not limited to 1: in supersaturated air the stored number is larger than the `valid_max`
25000, and with more humidity it does not fit. -/
theorem C88_humidity_not_limited : (∃ k : ℤ, humidityCell (some 0.0038) (some 273.16) (some 1100) = .ok k ∧ 25000 < k) ∧
    humidityCell (some 0.01) (some 273.16) (some 1000) = .ub := by
  have e : Real.exp (17.269 * ((273.16 : ℝ) - 273.16) / (273.16 - 35.86)) = 1 := by norm_num
  obtain ⟨-, h2, -, -⟩ := C88_humidity_cell 0.0038 273.16 1100
  obtain ⟨-, -, h3, -⟩ := C88_humidity_cell 0.01 273.16 1000
  constructor
  · obtain ⟨k, e1, -, h⟩ := h2 (by unfold fraction; rw [e]; norm_num) (by unfold fraction; rw [e]; norm_num)
    refine ⟨k, e1, ?_⟩
    unfold fraction at h
    rw [e, abs_le] at h
    have := h.1
    rw [le_sub_iff_add_le, le_div_iff₀ (by norm_num)] at this
    norm_num at this
    have h4 : (25000 : ℝ) < k := by linarith
    exact_mod_cast h4
  · exact h3 (by unfold fraction; rw [e]; norm_num)

/-! ## Temperature from potential temperature -/

/-- Exponent and factor of the potential temperature, `(p / 1000 hPa) ^ (R / cp)`, with `R = 8.31432 / 0.0289644` and
`cp = 1004` J/(kg K). -/
noncomputable def exner (p : ℝ) : ℝ := (p / 1000) ^ ((8.31432 / 0.0289644 : ℝ) / 1004)

/-- **C88** (partial: for a reference to the name that is still valid, see `C88_theta_dangling`). The stored numbers of
the temperature, unpacked as the attributes say, are the potential temperature times `(p / 1000 hPa) ^ (R / cp)` at the same
indices, exactly if the scale factor is 1, the offset is 0 or the pressure is 1000 hPa. -/
theorem C88_theta_partial (i : Input) (s : Sys) (p : ℕ) (th : String) (names : List String) (P R : (String → ℕ) → ℝ)
    (hpr : HasPressure i s names fun σ => some (P σ))
    (hp : ∀ u ∈ names, i.unlimited = some u → p < (i.dims.dimLength u).getD 1) (hw : p + 1 < two64)
    (hR : ∃ l, i.raw th p = .ok (some l) ∧ SliceOf i p names (fun σ => some (R σ)) l) (hpos : ∀ σ, 0 < P σ) :
    ∃ (out : List Cell) (T : (String → ℕ) → ℝ), thetaSlice i s (.ok th) p = .ok (some (.floats out)) ∧ SliceOf i p names (fun σ => some (T σ)) out ∧
      ∀ σ (scale : ℝ), scale ≠ 0 → (T σ * scale + i.addOffset th = (R σ * scale + i.addOffset th) * exner (P σ) ↔
        scale = 1 ∨ i.addOffset th = 0 ∨ P σ = 1000) := by
  obtain ⟨pv, e1, h1⟩ := pressureData_ok hpr hp hw
  obtain ⟨rl, e2, h2⟩ := hR
  obtain ⟨out, e4, h4⟩ := loop_values hpr.data.nodup h2 h1 h1 (fun x y _ => .ok (thetaCell (i.addOffset th) x y))
    (fun σ => some ((R (whole i p σ) + i.addOffset th) * (P (whole i p σ) * (1 / 1000)) ^ rcp - i.addOffset th))
    (fun _ _ => rfl) (n := pv.length) h1.length
  refine ⟨out, fun σ => (R σ + i.addOffset th) * (P σ * (1 / 1000)) ^ rcp - i.addOffset th, ?_, h4, ?_⟩
  · unfold thetaSlice
    rw [e1, Res.ok_bind]
    simp only [deref, Res.ok_bind]
    rw [e2, Res.ok_bind, checkData_ok h2 h1, Res.ok_bind]
    have : (loop pv.length fun k => do
        let x ← readAt rl k
        let q ← readAt pv k
        Res.ok (thetaCell (i.addOffset th) x q)) = .ok out := by
      rw [← e4]
      unfold loop
      congr 1
      funext k
      cases h : readAt rl k with
      | ok x => cases h' : readAt pv k <;> rfl
      | throws => rfl
      | ub => rfl
    rw [this, Res.ok_bind]
  · intro σ scale hs
    have hex : (P σ * (1 / 1000)) ^ rcp = exner (P σ) := by
      unfold exner rcp; rw [mul_one_div]
    simp only [hex]
    have hone : exner (P σ) = 1 ↔ P σ = 1000 := by
      unfold exner
      have h0 : 0 ≤ P σ / 1000 := by have := hpos σ; positivity
      have h := Real.rpow_left_inj h0 zero_le_one (z := (8.31432 / 0.0289644 : ℝ) / 1004) (by norm_num)
      rw [Real.one_rpow] at h
      rw [h, div_eq_one_iff_eq (by norm_num)]
    generalize exner (P σ) = k at hone
    rw [← hone]
    generalize i.addOffset th = o
    generalize R σ = r
    constructor
    · intro h
      have h' : (scale - 1) * (o * (k - 1)) = 0 := by linarith
      rcases mul_eq_zero.1 h' with h | h
      · exact .inl (by linarith)
      rcases mul_eq_zero.1 h with h | h
      · exact .inr (.inl h)
      · exact .inr (.inr (by linarith))
    · rintro (rfl | rfl | rfl) <;> ring

/-- **C88** The converter keeps a reference to a name that is gone when the conversion has been set up: whenever it gets
so far, reading the temperature is undefined. -/
theorem C88_theta_dangling (i : Input) (c : Conv) (p : ℕ) (th : String) (hc : c.source = .theta th) :
    (∀ d, convert i c p ≠ .ok d) ∧ ∀ l, pressureData i c.sys p = .ok (some l) → convert i c p = .ub := by
  unfold convert
  rw [hc]
  simp only [thetaSlice]
  constructor
  · intro d h
    obtain ⟨x, h1, h⟩ := Res.bind_eq_ok.1 h
    obtain ⟨y, h2, h⟩ := Res.bind_eq_ok.1 h
    cases h
  · intro l h
    rw [h]; rfl

/-! ## Pressure -/

/-- **C88** The pressure variable has the values of the converter, unchanged: if the converter has the dimensions of the
variable in this order, each value belongs to its indices. -/
theorem C88_pressure (i : Input) (c : Conv) (p : ℕ) (names : List String) (hc : c.source = .pressure4D names)
    (P : (String → ℕ) → Cell) (hpr : HasPressure i c.sys names P)
    (hp : ∀ u ∈ names, i.unlimited = some u → p < (i.dims.dimLength u).getD 1) (hw : p + 1 < two64) :
    ∃ out, convert i c p = .ok (some (.floats out)) ∧ SliceOf i p names P out := by
  obtain ⟨l, e1, h1⟩ := slice4D_ok hpr hp hw
  refine ⟨l, ?_, h1⟩
  unfold convert
  rw [hc]
  simp only [pressureSlice, hpr.converter]
  rw [e1]
  rfl

/-- **C88** If the converter does not have the four dimensions, as for pressure levels, the data have another size than
the variable: any slice of a converter with the vertical dimension only, for a grid with two or more points. -/
theorem C88_pressure_size (i : Input) (c : Conv) (p : ℕ) (x y z t : String) (hc : c.source = .pressure4D [x, y, z, t])
    (P : (String → ℕ) → Cell) (hpr : HasPressure i c.sys [z] P) (hz : i.unlimited ≠ some z) (hw : p + 1 < two64)
    (hxy : 1 < sliceLen i x * sliceLen i y * sliceLen i t) :
    ∃ out, convert i c p = .ok (some (.floats out)) ∧ ∀ f : (String → ℕ) → Cell, ¬SliceOf i p [x, y, z, t] f out := by
  obtain ⟨l, e1, h1⟩ := slice4D_ok hpr (p := p) (by rintro u hu h; simp only [List.mem_singleton] at hu; subst hu; exact absurd h hz) hw
  refine ⟨l, ?_, ?_⟩
  · unfold convert
    rw [hc]
    simp only [pressureSlice, hpr.converter]
    rw [e1]
    rfl
  · intro f hf
    have h2 := hf.length
    have h3 := h1.length
    rw [h3] at h2
    simp only [List.map_cons, List.map_nil, List.prod_cons, List.prod_nil, mul_one] at h2
    have hpos : 0 < sliceLen i z := by
      unfold sliceLen; rw [if_neg hz]; exact hpr.known z (by simp)
    have h4 : sliceLen i z * 1 = sliceLen i z * (sliceLen i x * sliceLen i y * sliceLen i t) := by
      rw [mul_one]
      calc sliceLen i z = _ := h2
        _ = _ := by ring
    have := Nat.eq_of_mul_eq_mul_left hpos h4
    omega

/-! ## Order of dimensions -/

/-- The indices of two dimensions exchanged. -/
def exchange (x y : String) (σ : String → ℕ) (d : String) : ℕ := if d = x then σ y else if d = y then σ x else σ d

/-- **C88** Only the sizes of the arrays are compared: on a square grid, if temperature and `ω` are stored in the other
order of dimensions than the pressure of the converter, the velocity is made with the pressure of another point. -/
theorem C88_transposed (i : Input) (hu : i.unlimited = none) (c : Conv) (p : ℕ) (hw : p + 1 < two64) (om t x y : String)
    (hc : c.source = .omega om t) (hxy : x ≠ y) (hsq : sliceLen i x = sliceLen i y) (P O T : (String → ℕ) → Cell)
    (hpr : HasPressure i c.sys [x, y] P) (hO : Reads i p om "hPa/s" [y, x] O) (hT : Reads i p t "K" [y, x] T) :
    ∃ out, convert i c p = .ok (some (.floats out)) ∧
      SliceOf i p [y, x] (fun σ => omegaCell (O σ) (P (exchange x y σ)) (T σ)) out := by
  obtain ⟨pv, e1, h1⟩ := pressureData_ok hpr (p := p) (by rw [hu]; simp) hw
  obtain ⟨ol, e2, h2⟩ := hO
  obtain ⟨tl, e3, h3⟩ := hT
  have hwh : ∀ σ, whole i p σ = σ := by intro σ; funext d; simp [whole, hu]
  have h1' : SliceOf i p [y, x] (fun σ => P (exchange x y σ)) pv := by
    refine ⟨?_, ?_⟩
    · rw [h1.length]; simp [Nat.mul_comm]
    · intro σ hσ
      have h := h1.get (exchange x y σ) (by
        intro d hd
        simp only [List.mem_cons, List.not_mem_nil, or_false] at hd
        rcases hd with rfl | rfl
        · simp only [exchange, if_true, hsq]; exact hσ y (by simp)
        · simp only [exchange, if_neg (Ne.symm hxy), if_true, ← hsq]; exact hσ x (by simp))
      simp only [hwh] at h ⊢
      rw [← h]
      congr 1
      simp [place, pos, exchange, Ne.symm hxy, hsq]
  obtain ⟨out, e4, h4⟩ := loop_values (by simpa using Ne.symm hxy) h2 h1' h3 (fun x y z => .ok (omegaCell x y z))
    (fun σ => omegaCell (O (whole i p σ)) (P (exchange x y (whole i p σ))) (T (whole i p σ))) (fun _ _ => rfl)
    (n := pv.length) h1'.length
  refine ⟨out, ?_, h4⟩
  unfold convert
  rw [hc]
  simp only [omegaSlice]
  rw [e1, Res.ok_bind]
  simp only [deref, Res.ok_bind]
  rw [e3, Res.ok_bind, checkData_ok h3 h1', Res.ok_bind, e2, Res.ok_bind, checkData_ok h2 h1', Res.ok_bind, e4, Res.ok_bind]

/-! ## Cases -/

/-- Non-vacuity: an input with a pressure, a velocity and a temperature on a grid with three dimensions, one of them
unlimited. -/
example : ∃ (i : Input) (s : Sys) (P O T : (String → ℕ) → Cell), i.unlimited = some "time" ∧
    HasPressure i s ["x", "lev", "time"] P ∧ Reads i 2 "omega" "hPa/s" ["x", "lev", "time"] O ∧
    Reads i 2 "ta" "K" ["x", "lev", "time"] T ∧ P (fun _ => 1) ≠ P (fun _ => 0) := by
  let P : (String → ℕ) → Cell := fun σ => some (1000 - 100 * σ "lev")
  let O : (String → ℕ) → Cell := fun σ => if σ "x" = 0 then none else some (σ "time")
  let T : (String → ℕ) → Cell := fun σ => some (280 + σ "x")
  let dims : Shapes.Cdm := ⟨fun _ => none, fun d => if d = "x" then some 4 else if d = "lev" then some 3 else
    if d = "time" then some 5 else none⟩
  let i0 : Input := ⟨dims, some "time", fun _ _ _ => .throws, fun _ _ => .throws, fun _ => 0, fun _ _ => .throws⟩
  obtain ⟨ol, ho⟩ := values_exist (sliceLen i0) ["x", "lev", "time"] (fun σ => O (whole i0 2 σ)) none (by
    intro σ τ h
    simp only [O, whole, h "x" (by simp), h "time" (by simp)]
    rfl)
  obtain ⟨tl, ht⟩ := values_exist (sliceLen i0) ["x", "lev", "time"] (fun σ => T (whole i0 2 σ)) none (by
    intro σ τ h
    simp only [T, whole, h "x" (by simp)])
  let s : Sys := ⟨fun _ => true, none, none, none, none, true, .ok (some ["x", "lev", "time"])⟩
  let i : Input := ⟨dims, some "time", fun v _ _ => .ok (some (if v = "omega" then ol else tl)), fun _ _ => .throws,
    fun _ => 0, fun _ => ideal ["x", "lev", "time"] P⟩
  refine ⟨i, s, P, O, T, rfl, ⟨rfl, rfl, ?_, ideal_delivers dims (by decide) ?_⟩, ⟨ol, rfl, ho⟩, ⟨tl, rfl, ht⟩, ?_⟩
  · intro d hd
    simp only [List.mem_cons, List.not_mem_nil, or_false] at hd
    rcases hd with rfl | rfl | rfl <;> simp [i, dims]
  · intro σ τ h
    simp only [P, h "lev" (by simp)]
  · simp [P]

/-- Non-vacuity: half saturated air at 0 °C and 1000 hPa, about 1.9 g/kg. -/
example : 0 ≤ fraction 0.0019 273.16 1000 ∧ fraction 0.0019 273.16 1000 < 32767.5 / 25000 := by
  have e : Real.exp (17.269 * ((273.16 : ℝ) - 273.16) / (273.16 - 35.86)) = 1 := by norm_num
  unfold fraction
  rw [e]
  constructor <;> norm_num

end Fimex.Pressure
