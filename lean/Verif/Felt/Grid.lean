import Verif.Basic
import Mathlib.Algebra.Order.Field.Basic

/-!
# Grids of Felt files (C132): model

`src/io/felt/FeltGridDefinition.cpp` and the axes of `src/io/felt/Felt_File2.cc`.  Numbers are of an ordered field (no rounding to `float`); the sine of an angle in degrees and the
projection of a point are parameters.
-/

namespace Fimex.FeltGrid

variable {K : Type} [Field K] [LinearOrder K] [IsStrictOrderedRing K]

/-- `vector::at` -/
def at' {A : Type} (l : List A) (i : Nat) : Res A := match l[i]? with | some v => .ok v | none => .throws

/-- A loop that sets the first `n` of the parameters. -/
def setFirst (val : Nat → Res K) : Nat → List K → Res (List K)
  | 0, g => .ok g
  | n + 1, g => (setFirst val n g).bind fun g' => (val n).bind fun v => .ok (g'.set n v)

/-- src/io/felt/FeltGridDefinition.cpp:99-110 `scaleGridInfoFirst_`. -/
def scaleFirst (g : List K) (used : Nat) (scale : K) (extra : List Int) : Res (List K) :=
  setFirst (fun i => (at' extra (2 * i)).bind fun a => (at' extra (2 * i + 1)).bind fun b => .ok ((a * 10000 + b) / scale)) used g

/-- src/io/felt/FeltGridDefinition.cpp:112-130 `scaleGridInfoSecond_`. -/
def scaleSecond (g : List K) (used : Nat) (extra : List Int) : Res (List K) :=
  (readAt extra 0).bind fun a =>
  if a ≠ used then .throws
  else
    (readAt extra 1).bind fun b =>
    if b ≠ 3 then .throws
    else
      setFirst (fun i => (at' extra (i * 3 + 2)).bind fun e => (at' extra (i * 3 + 2 + 1)).bind fun a => (at' extra (i * 3 + 2 + 2)).bind fun b =>
        .ok ((a * 10000 + b) * (10 : K) ^ e)) used g

/-- src/io/felt/FeltGridDefinition.cpp:140-155 `scaleExtraData_`. -/
def scaleExtra (g : List K) (used : Nat) (scale : K) (extra : List Int) : Res (List K) :=
  if extra.length = 0 then .ok g
  else if extra.length = 2 * used then scaleFirst g used scale extra
  else if extra.length = 2 + 3 * used then scaleSecond g used extra
  else .throws

/-- The six parameters by number. -/
def par (g : List K) (i : Nat) : K := g.getD i 0

/-- src/io/felt/FeltGridDefinition.cpp:157-193 `gridParametersPolarStereo_`. -/
def polar (x y dist phi : Int) (extra : List Int) : Res (List K) :=
  let g : List K := if 0 < dist then [x * (1 / 100), y * (1 / 100), dist * (1 / 10), phi, 60, 0] else [x, y, dist * (-1 / 10), phi, 60, 0]
  (scaleExtra g 5 100 extra).bind fun g =>
  if par g 2 = 0 then .throws
  else if par g 4 = 0 ∨ par g 4 < -90 ∨ 90 < par g 4 then .throws
  else .ok (g.set 2 (79 * 150 / par g 2))

/-- src/io/felt/FeltGridDefinition.cpp:195-226 `gridParametersGeographic_`. -/
def geographic (lat lon latDist lonDist : Int) (extra : List Int) : Res (List K) :=
  (scaleExtra ([lon * (1 / 100), lat * (1 / 100), lonDist * (1 / 100), latDist * (1 / 100), 0, 0] : List K) 6 10000 extra).bind fun g =>
  if par g 2 = 0 ∨ par g 3 = 0 then .throws else .ok g

/-- src/io/felt/FeltGridDefinition.cpp:228-249 `gridParametersMercator_`. -/
def mercator (west south x y : Int) (extra : List Int) : Res (List K) :=
  (scaleExtra ([west * (1 / 100), south * (1 / 100), x * (1 / 10), y * (1 / 10), 0, 0] : List K) 5 10000 extra).bind fun g =>
  if par g 2 = 0 ∨ par g 3 = 0 then .throws else .ok g

/-- src/io/felt/FeltGridDefinition.cpp:251-276 `gridParametersLambertConic_`. -/
def lambert (west south x y : Int) (extra : List Int) : Res (List K) :=
  (scaleExtra ([west * (1 / 100), south * (1 / 100), x * (1 / 10), y * (1 / 10), 0, 0] : List K) 6 10000 extra).bind fun g =>
  if par g 2 = 0 ∨ par g 3 = 0 then .throws
  else if par g 5 = 90 ∨ par g 5 = -90 then .throws
  else if par g 5 = 0 then .throws
  else .ok g

/-- src/io/felt/FeltGridDefinition.cpp:278-297 `gridParameters`. -/
def gridParameters (type : Int) (a b c d : Int) (extra : List Int) : Res (List K) :=
  if type = 1 ∨ type = 4 then polar a b c d extra
  else if type = 2 ∨ type = 3 then geographic a b c d extra
  else if type = 5 then mercator a b c d extra
  else if type = 6 then lambert a b c d extra
  else .throws

/-- A grid: start and distance of both axes; `upper` is `LeftUpperHorizontal`. -/
structure Grid (K : Type) where
  upper : Bool
  startX : K
  startY : K
  incX : K
  incY : K
deriving DecidableEq

/-- src/io/felt/FeltGridDefinition.cpp:331-341, 398-418 `getScanMode_`, `geographicProj_`; a grid of `ny` rows. -/
def geographicGrid (ny : Nat) (g : List K) : Grid K :=
  if par g 3 < 0 then ⟨true, par g 0, par g 1 - ny * (par g 3 * -1) + par g 3 * -1, par g 2, par g 3 * -1⟩ else ⟨false, par g 0, par g 1, par g 2, par g 3⟩

/-- src/io/felt/FeltConstants.h:46 -/
def radius : K := 6371000

/-- src/io/felt/FeltGridDefinition.cpp:373-396 `polarStereographicProj_`. -/
def polarGrid (sin : K → K) (g : List K) : Grid K :=
  let incr := radius * (1 + sin (par g 4)) / par g 2
  ⟨false, (1 - par g 0) * incr, (1 - par g 1) * incr, incr, incr⟩

/-- src/io/felt/FeltGridDefinition.cpp:343-369, 420-470: the constructor; `proj` is `projConvert` with the projection of the parameters. -/
def grid (sin : K → K) (proj : List K → K → K → Res (K × K)) (type : Int) (ny : Nat) (a b c d : Int) (extra : List Int) : Res (Grid K) :=
  (gridParameters type a b c d extra).bind fun g =>
  if type = 1 ∨ type = 4 then .ok (polarGrid sin g)
  else if type = 2 ∨ type = 3 then .ok (geographicGrid ny g)
  else (proj g (par g 0) (par g 1)).bind fun s => .ok ⟨false, s.1, s.2, par g 2 * 1000, par g 3 * 1000⟩

/-- src/io/felt/Felt_File2.cc:336-345 `getXData`. -/
def xData (g : Grid K) (nx : Nat) : List K := (List.range nx).map fun i : Nat => g.startX + (i : K) * g.incX

/-- src/io/felt/Felt_File2.cc:347-363 `getYData`. -/
def yData (g : Grid K) (ny : Nat) : List K :=
  let incr := if g.upper then g.incY * -1 else g.incY
  let start := if g.upper then g.startY - ((ny : K) - 1) * incr else g.startY
  (List.range ny).map fun i : Nat => start + (i : K) * incr

end Fimex.FeltGrid
