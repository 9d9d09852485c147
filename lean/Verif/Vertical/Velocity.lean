import Verif.Fill.Props
import Mathlib.Algebra.Order.Group.Unbundled.Abs

/-!
# Vertical velocity

Model of `mifi_compute_vertical_velocity`, `src/interpolation.c:886-1062`, as called by `CDMProcessor::getDataSlice`,
`src/CDMProcessor.cc:560-596`.  Numbers are exact; the natural logarithm is a parameter `ln`.  A division by zero and
the logarithm of a number that is not positive give an infinity or NaN: the model has no such value and counts both as
`ub`.  The loop at 994 counts with an `int`: more than 2^31 levels count as `ub`.

Simplified: two nested loops over `j` and `i` that only use `ij = i + nx*j` are one loop over `ij`; an array that is
only written element by element in the order of its elements is the list of the values written; memory from `malloc`
is assumed to be available.  The arrays filled in another order start with an arbitrary content.
-/

namespace Fimex.Vertical

open Fill (forN writeAt)

/-- src/interpolation.c:886-887: the arguments that are only read. -/
structure Column (K : Type) where
  nx : ℕ
  ny : ℕ
  nz : ℕ
  dx : K
  dy : K
  gridDistX : List K
  gridDistY : List K
  ap : List K
  b : List K
  zs : List K
  ps : List K
  u : List K
  v : List K
  t : List K

/-- src/interpolation.c:889-890 (constants) and the logarithm. -/
structure Physics (K : Type) where
  R : K
  g : K
  ln : K → K

/-- src/interpolation.c:892-896: the map factors of one cell. -/
structure Factors (K : Type) where
  mapRatioX : K
  mapRatioY : K
  rhx : K
  rhy : K
  rhxy : K

/-- src/interpolation.c:900-902: the pressure variables of one cell in one layer. -/
structure Pressures (K : Type) where
  dp : K
  dlnp : K
  alfa : K

variable {K : Type} [Field K] [LinearOrder K]

/-- Division; a zero divisor is outside the model. -/
def quot (a b : K) : Res K := if b = 0 then .ub else .ok (a / b)

/-- Logarithm; an argument that is not positive is outside the model. -/
def logOf (ln : K → K) (x : K) : Res K := if 0 < x then .ok (ln x) else .ub

/-- src/interpolation.c:931-936. -/
def mapFactor (c : Column K) (ij : ℕ) : Res (Factors K) := do
  let gx ← readAt c.gridDistX ij
  let hx ← quot gx c.dx
  let gy ← readAt c.gridDistY ij
  let hy ← quot gy c.dy
  let rx ← quot 1 hx
  let ry ← quot 1 hy
  .ok ⟨hx, hy, rx, ry, rx * ry⟩

/-- src/interpolation.c:929-938. -/
def mapFactors (c : Column K) : Res (List (Factors K)) := (List.range (c.nx * c.ny)).mapM (mapFactor c)

/-- src/interpolation.c:950-951, pass `m` of the loop: the level is `k = nz-1-m`. -/
def halfStep (nz : ℕ) (full : List K) (m : ℕ) (h : List K) : Res (List K) := do
  let k := wsub (wsub nz 1) m
  let f ← readAt full k
  let below ← readAt h (wadd k 1)
  writeAt h k (2 * f - below)

/-- src/interpolation.c:942-952: the values at the half levels from those at the full levels; `surface` is the value
below the lowest level, `junk` the content of the new array. -/
def halfLevels (nz : ℕ) (full : List K) (surface : K) (junk : List K) : Res (List K) := do
  let h ← writeAt junk 0 0
  let h ← writeAt h nz surface
  forN (halfStep nz full) 0 (wsub nz 1) h

/-- src/interpolation.c:958-966: a cell of the top layer. -/
def topCell (φ : Physics K) (c : Column K) (ah bh : List K) (ij : ℕ) : Res (Pressures K) := do
  let a1 ← readAt ah 1
  let a0 ← readAt ah 0
  let b1 ← readAt bh 1
  let b0 ← readAt bh 0
  let p ← readAt c.ps ij
  .ok ⟨(a1 - a0) + (b1 - b0) * p, 0, φ.ln 2⟩

/-- src/interpolation.c:974-979: a cell of another layer. -/
def layerCell (φ : Physics K) (c : Column K) (ah bh : List K) (k ij : ℕ) : Res (Pressures K) := do
  let p ← readAt c.ps ij
  let a ← readAt ah k
  let b ← readAt bh k
  let a' ← readAt ah (k + 1)
  let b' ← readAt bh (k + 1)
  let pm := a + b * p
  let pp := a' + b' * p
  let q ← quot pp pm
  let l ← logOf φ.ln q
  let r ← quot (pm * l) (pp - pm)
  .ok ⟨pp - pm, l, 1 - r⟩

/-- src/interpolation.c:957-982. -/
def pressures (φ : Physics K) (c : Column K) (ah bh : List K) : Res (List (Pressures K)) := do
  let top ← (List.range (c.nx * c.ny)).mapM (topCell φ c ah bh)
  let rest ← (List.range (c.nz - 1)).mapM fun m => (List.range (c.nx * c.ny)).mapM (layerCell φ c ah bh (m + 1))
  .ok (top ++ rest.flatten)

/-- src/interpolation.c:997-1000: one step of the integration; the state is `z` and `sum`. -/
def hydroCell (φ : Physics K) (c : Column K) (pr : List (Pressures K)) (k ij : ℕ) (s : List K × List K) :
    Res (List K × List K) := do
  let ijk := ij + c.nx * c.ny * k
  let t ← readAt c.t ijk
  let q ← readAt pr ijk
  let sum ← readAt s.2 ij
  let z ← writeAt s.1 ijk (sum + φ.R * t * q.alfa)
  let sum ← writeAt s.2 ij (sum + φ.R * t * q.dlnp)
  .ok (z, sum)

/-- src/interpolation.c:988-993. -/
def hydroStart (φ : Physics K) (c : Column K) : Res (List K) := (List.range (c.nx * c.ny)).mapM fun ij => do
  let z ← readAt c.zs ij
  .ok (z * φ.g)

/-- src/interpolation.c:988-1003: integration of the hydrostatic equation upwards from the surface. -/
def hydro (φ : Physics K) (c : Column K) (pr : List (Pressures K)) (junk : List K) : Res (List K × List K) :=
  if 2 ^ 31 < c.nz then .ub else do
  let sum ← hydroStart φ c
  forN (fun m s => forN (hydroCell φ c pr (c.nz - 1 - m)) 0 (c.nx * c.ny) s) 0 c.nz (junk, sum)

/-- src/interpolation.c:1017-1019: the fluxes `uu`, `vv` of one cell. -/
def flux (c : Column K) (fac : List (Factors K)) (pr : List (Pressures K)) (k ij : ℕ) : Res (K × K) := do
  let ijk := ij + c.nx * c.ny * k
  let f ← readAt fac ij
  let u ← readAt c.u ijk
  let v ← readAt c.v ijk
  let q ← readAt pr ijk
  .ok (f.mapRatioY * u * q.dp, f.mapRatioX * v * q.dp)

/-- src/interpolation.c:1025-1026: the divergence. -/
def divergence (c : Column K) (f : Factors K) (uv : List (K × K)) (rdx rdy : K) (ij : ℕ) : Res K := do
  let e ← readAt uv (ij + 1)
  let w ← readAt uv (ij - 1)
  let n ← readAt uv (ij + c.nx)
  let s ← readAt uv (ij - c.nx)
  .ok (f.rhxy * (rdx * (e.1 - w.1) + rdy * (n.2 - s.2)))

/-- src/interpolation.c:1030-1031: the slope of the layer. -/
def slope (c : Column K) (f : Factors K) (z : List K) (rdx rdy : K) (ijk : ℕ) : Res K := do
  let e ← readAt z (ijk + 1)
  let w ← readAt z (ijk - 1)
  let n ← readAt z (ijk + c.nx)
  let s ← readAt z (ijk - c.nx)
  .ok (f.rhx * rdx * (e - w) + f.rhy * rdy * (n - s))

/-- src/interpolation.c:1024-1033: one inner cell; the state is `w` and `sum`. -/
def innerVelocity (φ : Physics K) (c : Column K) (fac : List (Factors K)) (pr : List (Pressures K)) (z : List K)
    (uv : List (K × K)) (rdx rdy : K) (k j i : ℕ) (s : List K × List K) : Res (List K × List K) := do
  let ij := i + c.nx * j
  let ijk := ij + c.nx * c.ny * k
  let f ← readAt fac ij
  let div ← divergence c f uv rdx rdy ij
  let t ← readAt c.t ijk
  let q ← readAt pr ijk
  let sum ← readAt s.2 ij
  let w1 ← quot (φ.R * t * (q.dlnp * sum + q.alfa * div)) q.dp
  let w2 ← slope c f z rdx rdy ijk
  let v ← quot (w1 + w2) φ.g
  let w ← writeAt s.1 ijk v
  let sum ← writeAt s.2 ij (sum + div)
  .ok (w, sum)

/-- `w[p] = w[q]`. -/
def copyW (p q : ℕ) (w : List K) : Res (List K) := do
  let v ← readAt w q
  writeAt w p v

/-- src/interpolation.c:1037-1040: the first and last row. -/
def edgeRows (c : Column K) (k i : ℕ) (w : List K) : Res (List K) := do
  let i0 := i + c.nx * (0 + c.ny * k)
  let im1 := i + c.nx * (wadd (wsub c.ny 1) (c.ny * k))
  let w ← copyW i0 (i0 + c.nx) w
  copyW im1 (wsub im1 c.nx) w

/-- src/interpolation.c:1043-1046: the first and last column. -/
def edgeColumns (c : Column K) (k j : ℕ) (w : List K) : Res (List K) := do
  let j0 := c.nx * (j + c.ny * k)
  let jm1 := wadd (wsub c.nx 1) (c.nx * (j + c.ny * k))
  let w ← copyW j0 (j0 + 1) w
  copyW jm1 (wsub jm1 1) w

/-- src/interpolation.c:1015-1047: one layer. -/
def velocityLayer (φ : Physics K) (c : Column K) (fac : List (Factors K)) (pr : List (Pressures K)) (z : List K)
    (rdx rdy : K) (k : ℕ) (s : List K × List K) : Res (List K × List K) := do
  let uv ← (List.range (c.nx * c.ny)).mapM (flux c fac pr k)
  let s ← forN (fun j s => forN (innerVelocity φ c fac pr z uv rdx rdy k j) 1 (wsub c.nx 1 - 1) s) 1 (wsub c.ny 1 - 1) s
  let w ← forN (edgeRows c k) 1 (wsub c.nx 1 - 1) s.1
  let w ← forN (edgeColumns c k) 0 c.ny w
  .ok (w, s.2)

/-- The content of the arrays that are not filled in order. -/
structure Junk (K : Type) where
  ah : List K
  bh : List K
  z : List K
  w : List K

/-- src/interpolation.c:886-1062 `mifi_compute_vertical_velocity`. -/
def verticalVelocity (φ : Physics K) (c : Column K) (junk : Junk K) : Res (List K) := do
  let rdx ← quot 1 (2 * c.dx)
  let rdy ← quot 1 (2 * c.dy)
  let fac ← mapFactors c
  let ah ← halfLevels c.nz c.ap 0 junk.ah
  let bh ← halfLevels c.nz c.b 1 junk.bh
  let pr ← pressures φ c ah bh
  let zs ← hydro φ c pr junk.z
  let w ← forN (fun ij w => writeAt w ij 0) 0 (c.nx * c.ny) junk.w
  let s ← forN (velocityLayer φ c fac pr zs.1 rdx rdy) 1 (c.nz - 1) (w, List.replicate (c.nx * c.ny) 0)
  .ok s.1

/-- src/CDMProcessor.cc:249-252 (`addVerticalVelocity`): the cell size `dx` or `dy` from the values of an axis. -/
def axisSpacing [IsStrictOrderedRing K] (axis : List K) : Res K := do
  let x1 ← readAt axis 1
  let x0 ← readAt axis 0
  .ok |x1 - x0|

end Fimex.Vertical
