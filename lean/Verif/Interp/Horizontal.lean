import Verif.Interp.Position
import Verif.Scale.Lemmas

/-!
# Horizontal interpolation at a position

Model of `mifi_get_values_f` and `mifi_get_values_bilinear_f`, `src/interpolation.c:229-343`.  The field
values are `Option K`, undefined (NaN) is `none`; arithmetic is exact.  `int` arithmetic that leaves the
32-bit range is undefined behaviour, as is the conversion of a floating point number that does not fit.
-/

namespace Fimex.Interp

variable {K : Type} [Field K] [LinearOrder K] [FloorRing K]

open Scale (lround)

/-- Signed 32-bit arithmetic: overflow is undefined behaviour. -/
def int32 (z : ℤ) : Res ℤ := if -2 ^ 31 ≤ z ∧ z < 2 ^ 31 then .ok z else .ub

/-- `int r = lround(x)`: `lround` gives a `long` (64 bit, no result defined outside); the conversion to
`int` keeps the low 32 bits. -/
def lroundInt (x : K) : Res ℤ :=
  let r := lround x
  if -2 ^ 63 ≤ r ∧ r < 2 ^ 63 then .ok ((r + 2 ^ 31) % 2 ^ 32 - 2 ^ 31) else .ub

/-- src/interpolation.c:229-233 `mifi_3d_array_pos`. -/
def arrayPos (x y z ix iy : ℤ) : Res ℤ := do
  let a ← int32 (z * iy)
  let b ← int32 (a + y)
  let c ← int32 (b * ix)
  int32 (c + x)

/-- src/interpolation.c:251-265 `mifi_get_values_f`. -/
def getValues (infield : List (Option K)) (x y : K) (ix iy iz : ℤ) : Res (List (Option K)) := do
  let rx ← lroundInt x
  let ry ← lroundInt y
  if rx ≥ 0 ∧ rx < ix ∧ ry ≥ 0 ∧ ry < iy then
    (List.range iz.toNat).mapM fun z : ℕ => do
      let p ← arrayPos rx ry z ix iy
      readI infield p
  else .ok (List.replicate iz.toNat none)

/-- Addition with undefined operands. -/
def oadd (a b : Option K) : Option K := do
  let a ← a
  let b ← b
  some (a + b)

/-- Multiplication by a number. -/
def omul (f : K) (a : Option K) : Option K := a.map (f * ·)

/-- src/interpolation.c:267-343 `mifi_get_values_bilinear_f`; `pos` is the `size_t` of the code, advanced
by `iy*ix` per layer. -/
def bilinear (infield : List (Option K)) (x y : K) (ix iy iz : ℤ) : Res (List (Option K)) := do
  let x0 ← int32 ⌊x⌋
  let x1 ← int32 (x0 + 1)
  let xfrac := x - x0
  let y0 ← int32 ⌊y⌋
  let y1 ← int32 (y0 + 1)
  let yfrac := y - y0
  if 0 ≤ x0 ∧ x1 < ix then
    if 0 ≤ y0 ∧ y1 < iy then
      let pos ← arrayPos x0 y0 0 ix iy
      (List.range iz.toNat).mapM fun z : ℕ => do
        let pos := pos + z * (iy * ix)
        let s00 ← readI infield pos
        let s01 ← readI infield (pos + 1)
        let s10 ← readI infield (pos + ix)
        let s11 ← readI infield (pos + ix + 1)
        .ok (oadd (omul (1 - yfrac) (oadd (omul (1 - xfrac) s00) (omul xfrac s01)))
          (omul yfrac (oadd (omul (1 - xfrac) s10) (omul xfrac s11))))
    else
      let y0 ← lroundInt y
      if 0 ≤ y0 ∧ y0 < iy then
        let pos ← arrayPos x0 y0 0 ix iy
        (List.range iz.toNat).mapM fun z : ℕ => do
          let pos := pos + z * (iy * ix)
          let s00 ← readI infield pos
          let s01 ← readI infield (pos + 1)
          .ok (oadd (omul (1 - xfrac) s00) (omul xfrac s01))
      else .ok (List.replicate iz.toNat none)
  else
    let x0 ← lroundInt x
    if 0 ≤ x0 ∧ x0 < ix then
      if 0 ≤ y0 ∧ y1 < iy then
        let pos ← arrayPos x0 y0 0 ix iy
        (List.range iz.toNat).mapM fun z : ℕ => do
          let pos := pos + z * (iy * ix)
          let s00 ← readI infield pos
          let s10 ← readI infield (pos + ix)
          .ok (oadd (omul (1 - yfrac) s00) (omul yfrac s10))
      else
        let y0 ← lroundInt y
        if 0 ≤ y0 ∧ y0 ≤ iy then
          let pos ← arrayPos x0 y0 0 ix iy
          (List.range iz.toNat).mapM fun z : ℕ => do
            let pos := pos + z * (iy * ix)
            readI infield pos
        else .ok (List.replicate iz.toNat none)
    else .ok (List.replicate iz.toNat none)

end Fimex.Interp
