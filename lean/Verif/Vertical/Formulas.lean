import Verif.Basic
import Mathlib.Analysis.SpecialFunctions.Log.Basic
import Mathlib.Tactic.FieldSimp
import Mathlib.Tactic.Ring
import Mathlib.Tactic.Linarith
import Mathlib.Tactic.NormNum

/-!
# Vertical coordinate formulas: model

Model of `src/vertical_coordinate_transformations.c:29-232`.  Numbers are reals: rounding, overflow and NaN are not modelled, and
`exp`, `log` are the mathematical functions (`log` only used for positive arguments in the theorems).

A `while (n--)` loop reads element `i` of each input and then writes element `i` of the result; the input may be the same array as
the result.  Reading past the end of an input is undefined.
-/

namespace Fimex.Vertical

/-- A loop with one input array. -/
noncomputable def loop1 (n : ℕ) (f : ℝ → ℝ) (a : List ℝ) : Res (List ℝ) := (List.range n).mapM fun i => do
  let x ← readAt a i
  .ok (f x)

/-- A loop with two input arrays. -/
noncomputable def loop2 (n : ℕ) (f : ℝ → ℝ → ℝ) (a b : List ℝ) : Res (List ℝ) := (List.range n).mapM fun i => do
  let x ← readAt a i
  let y ← readAt b i
  .ok (f x y)

/-- A loop with three input arrays. -/
noncomputable def loop3 (n : ℕ) (f : ℝ → ℝ → ℝ → ℝ) (a b c : List ℝ) : Res (List ℝ) := (List.range n).mapM fun i => do
  let x ← readAt a i
  let y ← readAt b i
  let z ← readAt c i
  .ok (f x y z)

/-- src/vertical_coordinate_transformations.c:29-35 `mifi_atmosphere_ln_pressure`. -/
noncomputable def lnPressure (n : ℕ) (p0 : ℝ) (lev : List ℝ) : Res (List ℝ) := loop1 n (fun l => p0 * Real.exp (-l)) lev

/-- src/vertical_coordinate_transformations.c:37-44 `mifi_atmosphere_sigma_pressure`. -/
noncomputable def sigmaPressure (n : ℕ) (ptop ps : ℝ) (sigma : List ℝ) : Res (List ℝ) :=
  let pDiff := ps - ptop
  loop1 n (fun s => ptop + s * pDiff) sigma

/-- src/vertical_coordinate_transformations.c:46-54 `mifi_atmosphere_pressure_sigma`. -/
noncomputable def pressureSigma (n : ℕ) (ptop ps : ℝ) (pressure : List ℝ) : Res (List ℝ) :=
  let pDiffInv := 1 / (ps - ptop)
  loop1 n (fun p => (p - ptop) * pDiffInv) pressure

/-- src/vertical_coordinate_transformations.c:56-62 `mifi_atmosphere_hybrid_sigma_pressure`. -/
noncomputable def hybridSigmaPressure (n : ℕ) (p0 ps : ℝ) (a b : List ℝ) : Res (List ℝ) := loop2 n (fun a b => a * p0 + b * ps) a b

/-- src/vertical_coordinate_transformations.c:64-70 `mifi_atmosphere_hybrid_sigma_ap_pressure`. -/
noncomputable def hybridSigmaApPressure (n : ℕ) (ps : ℝ) (ap b : List ℝ) : Res (List ℝ) := loop2 n (fun ap b => ap + b * ps) ap b

/-- src/vertical_coordinate_transformations.c:72-78 `mifi_atmosphere_hybrid_height`. -/
noncomputable def hybridHeight (n : ℕ) (orog : ℝ) (a b : List ℝ) : Res (List ℝ) := loop2 n (fun a b => a + b * orog) a b

/-- src/vertical_coordinate_transformations.c:80-81 and include/fimex/mifi_constants.h:235-241 `BAROMETRIC_FACTOR`. -/
noncomputable def BF : ℝ := 8.31432 / (9.80665 * 0.0289644)

/-- src/vertical_coordinate_transformations.c:86-93 `mifi_barometric_pressure`. -/
noncomputable def barometricPressure (n : ℕ) (Pb : ℝ) (h : List ℝ) (Tb : ℝ) : Res (List ℝ) :=
  let C := -1 / (BF * Tb)
  loop1 n (fun h => Pb * Real.exp (C * h)) h

/-- src/vertical_coordinate_transformations.c:95-98 `mifi_barometric_standard_pressure`. -/
noncomputable def barometricStandardPressure (n : ℕ) (h : List ℝ) : Res (List ℝ) := barometricPressure n 1013.25 h 288.15

/-- src/vertical_coordinate_transformations.c:101-108 `mifi_barometric_height`. -/
noncomputable def barometricHeight (n : ℕ) (Pb : ℝ) (p : List ℝ) (Tb : ℝ) : Res (List ℝ) :=
  let K := -BF * Tb
  loop1 n (fun p => K * Real.log (p / Pb)) p

/-- src/vertical_coordinate_transformations.c:110-113 `mifi_barometric_standard_altitude`. -/
noncomputable def barometricStandardAltitude (n : ℕ) (p : List ℝ) : Res (List ℝ) := barometricHeight n 1013.25 p 288.15

/-- src/vertical_coordinate_transformations.c:115-118 `mifi_virtual_temperature`. -/
noncomputable def virtualTemperature (q T : ℝ) : ℝ := (1 + 0.60771704180064308681 * q) * T

/-- src/vertical_coordinate_transformations.c:121-128 `mifi_humidity_es`. -/
noncomputable def humidityEs (t : ℝ) : ℝ := 610.78 * Real.exp (17.269 * (t - 273.16) / (t - 35.86))

/-- src/vertical_coordinate_transformations.c:130-137 `mifi_relative_to_specific_humidity`. -/
noncomputable def relativeToSpecific (rh t p : ℝ) : ℝ :=
  let sh := rh * 0.01 * humidityEs t * 0.622 / p
  if sh < 0 then 0 else sh

/-- src/vertical_coordinate_transformations.c:139-148 `mifi_specific_to_relative_humidity`. -/
noncomputable def specificToRelative (sh t p : ℝ) : ℝ :=
  let rh := 100 * sh * p / (humidityEs t * 0.622)
  if rh < 0 then 0 else if rh > 100 then 100 else rh

/-- src/vertical_coordinate_transformations.c:150-159 `mifi_dewpoint_to_relative_humidity`. -/
noncomputable def dewpointToRelative (dew t : ℝ) : ℝ :=
  let tc := t - 273.15
  let dc := dew - 273.15
  let rh := 100 * Real.exp (17.625 * dc / (243.04 + dc) - 17.625 * tc / (243.04 + tc))
  if rh > 100 then 100 else rh

/-- src/vertical_coordinate_transformations.c:161-165 `mifi_barometric_layer_thickness`. -/
noncomputable def layerThickness (pLow pHigh T : ℝ) : ℝ := Real.log (pLow / pHigh) * T * BF

/-- src/vertical_coordinate_transformations.c:166-173 `mifi_ocean_s_g1_z`. -/
noncomputable def oceanG1 (n : ℕ) (h hc zeta : ℝ) (sigma C : List ℝ) : Res (List ℝ) :=
  let hInv := 1 / h
  loop2 n (fun s c => let S := hc * s + (h - hc) * c; S + zeta * (1 + S * hInv)) sigma C

/-- src/vertical_coordinate_transformations.c:175-184 `mifi_ocean_s_g2_z`. -/
noncomputable def oceanG2 (n : ℕ) (h hc zeta : ℝ) (sigma C : List ℝ) : Res (List ℝ) :=
  let inv := 1 / (h + hc)
  loop2 n (fun s c => let S := inv * (hc * s + h * c); zeta + (zeta + h) * S) sigma C

/-- src/vertical_coordinate_transformations.c:187-216 `mifi_omega_to_vertical_wind` and the `float` variant. -/
noncomputable def omegaToWind (n : ℕ) (omega p t : List ℝ) : Res (List ℝ) :=
  let mRg := -BF
  loop3 n (fun o p t => mRg * o * t / p) omega p t

/-- src/vertical_coordinate_transformations.c:218-232 `mifi_vertical_wind_to_omega`. -/
noncomputable def windToOmega (n : ℕ) (w p t : List ℝ) : Res (List ℝ) :=
  let mRg := -BF
  loop3 n (fun w p t => (w * p) / (mRg * t)) w p t

end Fimex.Vertical
