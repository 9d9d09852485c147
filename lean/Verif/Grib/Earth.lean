import Verif.Grib.GridLemmas
import Mathlib.Algebra.Order.Field.Power
import Mathlib.Tactic.Linarith
import Mathlib.Tactic.NormNum
import Mathlib.Tactic.Positivity

/-!
# Figures of the earth in GRIB messages (C110)

The text of the figure for the proj-library is modelled by its numbers.
-/

namespace Fimex.GribGrid

set_option linter.unusedSectionVars false

variable {K : Type} [Field K] [LinearOrder K] [IsStrictOrderedRing K]

/-- A figure: the sphere `+a=… +e=0`, `+a=…` alone, both axes `+a=… +b=…`, or the text given in the configuration. -/
inductive Figure (K : Type) where
  | sphere (a : K)
  | major (a : K)
  | axes (a b : K)
  | config (s : String)
  deriving DecidableEq, Repr

/-- src/io/grib/GribFileIndex.cc:158-165 and 171-178: the two loops over the scale factor, the first over positive, the second over
negative ones. -/
def scaleLoops (factor : ℤ) (value : K) : K :=
  if 0 < factor then (fun x => x * 10)^[factor.toNat] value
  else (fun x => x / 10)^[(-factor).toNat] value

/-- src/io/grib/GribFileIndex.cc:152-183 `getEarthsOblateFigure`. The factor, which is 0 after the loops, is multiplied by
`factorToM`; the value is not. -/
def oblateFigure (h : Handle K) (_factorToM : ℤ) : Res (Figure K) := do
  let majorFactor ← getLong h "scaleFactorOfMajorAxisOfOblateSpheroidEarth"
  let majorValue ← getDouble h "scaledValueOfMajorAxisOfOblateSpheroidEarth"
  let minorFactor ← getLong h "scaleFactorOfMinorAxisOfOblateSpheroidEarth"
  let minorValue ← getDouble h "scaledValueOfMinorAxisOfOblateSpheroidEarth"
  .ok (.axes (scaleLoops majorFactor majorValue) (scaleLoops minorFactor minorValue))

/-- src/io/grib/GribFileIndex.cc:192-243 `getEarthsFigure`; `replace` is `earthFigure_`, the text of the configuration. -/
def earthFigure (replace : String) (edition : ℕ) (h : Handle K) : Res (Figure K) :=
  if replace ≠ "" then .ok (.config replace)
  else if edition = 1 then
    (getLong h "earthIsOblate").bind fun o => .ok (if o = 0 then .sphere 6367470 else .axes 6378160 6356775)
  else
    (getLong h "shapeOfTheEarth").bind fun s =>
      if s = 0 then .ok (.sphere 6367470)
      else if s = 1 then (getDouble h "radiusInMetres").bind fun r => .ok (.sphere r)
      else if s = 2 then .ok (.axes 6378160 6356775)
      else if s = 3 then oblateFigure h 1000
      else if s = 4 then .ok (.axes 6378137 (6356752314 / 1000))
      else if s = 5 then .ok (.axes 6378137 (6356752314245 / 1000000))
      else if s = 6 then .ok (.major 6371229)
      else if s = 7 then oblateFigure h 1
      else if s = 8 then .ok (.sphere 6371200)
      else .throws

/-! ## Specification -/

/-- The length a message means by a scale factor and a scaled value (note of regulation 92.1.12): value · 10^(−factor), in units of
`unit` metres. -/
def meant (unit : K) (factor : ℤ) (value : K) : K := value * (10 : K) ^ (-factor) * unit

theorem iterate_mul (c v : K) : ∀ n : ℕ, (fun x => x * c)^[n] v = v * c ^ n := by
  intro n
  induction n with
  | zero => simp
  | succ n ih => rw [Function.iterate_succ_apply', ih, pow_succ, mul_assoc]

theorem scaleLoops_eq (f : ℤ) (v : K) : scaleLoops f v = v * (10 : K) ^ f := by
  unfold scaleLoops
  split_ifs with h
  · rw [iterate_mul, ← zpow_natCast, Int.toNat_of_nonneg h.le]
  · have hd : (fun x : K => x / 10) = fun x => x * (10 : K)⁻¹ := by funext x; rw [div_eq_mul_inv]
    rw [hd, iterate_mul, inv_pow, ← zpow_natCast, Int.toNat_of_nonneg (by omega), zpow_neg, inv_inv]

theorem ten_zpow_ne (a b : ℤ) (h : (10 : K) ^ a = (10 : K) ^ b) : a = b :=
  zpow_right_injective₀ (by norm_num : (0 : K) < 10) (by norm_num) h

/-- **C110.** The axes of an oblate earth in a message with axes in metres (shape 7) are understood exactly if both scale factors
are 0; those of a message with axes in kilometres (shape 3) never, whatever the factors: the sign of the factor is turned
and kilometres are not made metres. -/
theorem C110_oblate (h : Handle K) (f g : ℤ) (v w : K) (hv : v ≠ 0) (hw : w ≠ 0)
    (h1 : getLong h "scaleFactorOfMajorAxisOfOblateSpheroidEarth" = .ok f)
    (h2 : getDouble h "scaledValueOfMajorAxisOfOblateSpheroidEarth" = .ok v)
    (h3 : getLong h "scaleFactorOfMinorAxisOfOblateSpheroidEarth" = .ok g)
    (h4 : getDouble h "scaledValueOfMinorAxisOfOblateSpheroidEarth" = .ok w) (edition : ℕ) (he : edition ≠ 1) :
    (getLong h "shapeOfTheEarth" = .ok 7 →
      (earthFigure "" edition h = .ok (.axes (meant 1 f v) (meant 1 g w)) ↔ f = 0 ∧ g = 0)) ∧
    (getLong h "shapeOfTheEarth" = .ok 3 → ∃ a b, earthFigure "" edition h = .ok (.axes a b) ∧ a ≠ meant 1000 f v ∧ b ≠ meant 1000 g w) := by
  have hob : ∀ z, oblateFigure h z = .ok (.axes (v * (10 : K) ^ f) (w * (10 : K) ^ g)) := by
    intro z
    simp [oblateFigure, h1, h2, h3, h4, scaleLoops_eq]
  have one : ∀ (x : K) (k : ℤ), x ≠ 0 → (x * (10 : K) ^ k = meant 1 k x ↔ k = 0) := by
    intro x k hx
    constructor
    · intro hh
      rw [meant, mul_one] at hh
      have := ten_zpow_ne _ _ (mul_left_cancel₀ hx hh)
      omega
    · rintro rfl
      simp [meant]
  have thousand : ∀ (x : K) (k : ℤ), x ≠ 0 → x * (10 : K) ^ k ≠ meant 1000 k x := by
    intro x k hx hh
    have e : (1000 : K) = (10 : K) ^ (3 : ℤ) := by norm_num
    rw [meant, mul_assoc, e, ← zpow_add₀ (by norm_num : (10 : K) ≠ 0)] at hh
    have := ten_zpow_ne _ _ (mul_left_cancel₀ hx hh)
    omega
  refine ⟨fun hs => ?_, fun hs => ⟨_, _, ?_, thousand v f hv, thousand w g hw⟩⟩
  · simp [Res.bind, earthFigure, he, hs, hob, one v f hv, one w g hw]
  · simp [Res.bind, earthFigure, he, hs, hob]

/-- **C110.** The figure of the configuration goes before the message; without one, edition 1 knows two figures, edition 2 nine, and
another shape is refused. -/
theorem C110_earth (h : Handle K) :
    (∀ r edition, r ≠ "" → earthFigure r edition h = .ok (.config r)) ∧
    (∀ o, getLong h "earthIsOblate" = .ok o →
      earthFigure "" 1 h = .ok (if o = 0 then .sphere 6367470 else .axes 6378160 6356775)) ∧
    (∀ edition s, edition ≠ 1 → getLong h "shapeOfTheEarth" = .ok s → s < 0 ∨ 8 < s → earthFigure "" edition h = .throws) ∧
    (∀ edition r, edition ≠ 1 → getLong h "shapeOfTheEarth" = .ok 1 → getDouble h "radiusInMetres" = .ok r →
      earthFigure "" edition h = .ok (.sphere r)) := by
  refine ⟨fun r e hr => by simp [earthFigure, hr], fun o ho => by simp [Res.bind, earthFigure, ho], fun e s he hs hr => ?_, fun e r he hs hr => ?_⟩
  · have : s ≠ 0 ∧ s ≠ 1 ∧ s ≠ 2 ∧ s ≠ 3 ∧ s ≠ 4 ∧ s ≠ 5 ∧ s ≠ 6 ∧ s ≠ 7 ∧ s ≠ 8 := by omega
    simp [Res.bind, earthFigure, he, hs, this]
  · simp [Res.bind, earthFigure, he, hs, hr]

/-- The earth of GRS80 in kilometres with three decimals, as a message means it, is read a thousand times too large. -/
theorem C110_oblate_example :
    earthFigure "" 2 ([("shapeOfTheEarth", .long 3), ("scaleFactorOfMajorAxisOfOblateSpheroidEarth", .long 3),
      ("scaledValueOfMajorAxisOfOblateSpheroidEarth", .long 6378137), ("scaleFactorOfMinorAxisOfOblateSpheroidEarth", .long 3),
      ("scaledValueOfMinorAxisOfOblateSpheroidEarth", .long 6356752)] : Handle ℚ) = .ok (.axes 6378137000 6356752000) ∧
    meant (1000 : ℚ) 3 6378137 = 6378137 := by decide +kernel

end Fimex.GribGrid
