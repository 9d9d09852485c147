import Verif.Interp.Bicubic
import Verif.Interp.SlicesProps

/-!
# Interpolations and rotations work layer by layer

The interpolations of `src/CachedInterpolation.cc:168-205, 317-337` and the rotation of vectors meet the assumption
`LayerWise` of C79.  `interpolateValues` of `Verif.Interp.Reduced` is the case of the bilinear function; here also the
bicubic function, for which reducing the domain is shown not to matter (C36).
-/

namespace Fimex.Interp

variable {K : Type}

/-! ## Model -/

/-- src/CachedInterpolation.cc:168-205 `interpolateValues` for any function computing the values at a position. -/
def interpolateFunc (func : List (Option K) → K → K → ℤ → ℤ → ℤ → Res (List (Option K))) (c : Cached K)
    (inData : List (Option K)) : Res (List (Option K)) :=
  if c.inX * c.inY = 0 then .ub
  else do
    let inZ := inData.length / (c.inX * c.inY)
    let cols ← (c.px.zip c.py).mapM fun p : K × K => func inData p.1 p.2 c.inX c.inY inZ
    .ok ((List.range inZ).flatMap fun z => cols.map fun col => col.getD z none)

/-! ## Layers -/

theorem flatten_get {α : Type} (ls : List (List α)) (L : ℕ) (h : ∀ l ∈ ls, l.length = L) (z i : ℕ) (hi : i < L) :
    ls.flatten[z * L + i]? = (ls.getD z [])[i]? := by
  have := getElem?_flatMap_const ls id L h z i hi
  rw [List.flatMap_def, List.map_id, Nat.mul_comm] at this
  rw [this]
  rcases Nat.lt_or_ge z ls.length with hz | hz
  · simp [hz]
  · simp [hz]

theorem flatten_length {α : Type} (ls : List (List α)) (L : ℕ) (h : ∀ l ∈ ls, l.length = L) :
    ls.flatten.length = L * ls.length := by
  have := length_flatMap_const ls id L h
  rw [List.flatMap_def, List.map_id] at this
  rw [this, Nat.mul_comm]

theorem cell_flatten {ls : List (List (Option K))} {ix iy : ℕ} (h : ∀ l ∈ ls, l.length = ix * iy) {z i j : ℕ} (hi : i < ix)
    (hj : j < iy) : cell ls.flatten ix iy z i j = cell (ls.getD z []) ix iy 0 i j := by
  unfold cell
  have hlt : j * ix + i < ix * iy := by
    have : (j + 1) * ix ≤ iy * ix := Nat.mul_le_mul_right _ hj
    rw [Nat.add_mul, Nat.mul_comm iy ix] at this; omega
  have e : (z * iy + j) * ix + i = z * (ix * iy) + (j * ix + i) := by ring
  rw [List.getD_eq_getElem?_getD, List.getD_eq_getElem?_getD, e, flatten_get ls _ h z _ hlt]
  simp

theorem range_layers {α γ : Type} (ls : List (List α)) (f : List α → List γ) :
    (List.range ls.length).flatMap (fun z => f (ls.getD z [])) = (ls.map f).flatten := by
  rw [List.flatMap_def]
  congr 1
  refine List.ext_getElem? fun i => ?_
  rcases Nat.lt_or_ge i ls.length with hi | hi
  · simp [hi]
  · rw [List.getElem?_eq_none (by simpa using hi), List.getElem?_eq_none (by simpa using hi)]

theorem interpolateFunc_layers (func : List (Option K) → K → K → ℤ → ℤ → ℤ → Res (List (Option K)))
    (spec : List (Option K) → ℕ → K × K → Option K) (c : Cached K) (N : ℕ) (h0 : 0 < c.inX * c.inY)
    (hf : ∀ F iz, iz ≤ N → F.length = c.inX * c.inY * iz → ∀ p ∈ c.px.zip c.py,
      func F p.1 p.2 c.inX c.inY iz = .ok ((List.range iz).map fun z => spec F z p))
    (hs : ∀ ls : List (List (Option K)), (∀ l ∈ ls, l.length = c.inX * c.inY) → ∀ z < ls.length, ∀ p ∈ c.px.zip c.py,
      spec ls.flatten z p = spec (ls.getD z []) 0 p) :
    LayerWise N (c.inX * c.inY) (c.px.zip c.py).length (interpolateFunc func c)
      (fun l => (c.px.zip c.py).map (spec l 0)) := by
  refine ⟨fun l _ => List.length_map _, fun ls hN hls => ?_⟩
  have hlen := flatten_length ls _ hls
  unfold interpolateFunc
  dsimp only
  rw [if_neg h0.ne', hlen, Nat.mul_div_cancel_left _ h0, mapM_ok_map _ _ _ (hf ls.flatten ls.length hN hlen), Res.ok_bind]
  congr 1
  rw [← range_layers]
  refine List.flatMap_congr fun z hz => ?_
  have hz := List.mem_range.1 hz
  rw [List.map_map]
  refine List.map_congr_left fun p hp => ?_
  simp only [Function.comp_apply, List.getD_eq_getElem?_getD, List.getElem?_map, List.getElem?_range hz, Option.map_some,
    Option.getD_some]
  rw [hs ls hls z hz p hp, List.getD_eq_getElem?_getD]

section Ordered

variable [Field K] [LinearOrder K] [FloorRing K] [IsStrictOrderedRing K]

theorem along_congr {n : ℕ} {x : K} (g g' : ℕ → Option K) (hn : 0 < n) (h : ∀ i < n, g' i = g i) :
    along n x g' = along n x g := by
  have := fits_along (inX := n) (m := 0) (w := n) (x := x) ⟨hn, by omega, Or.inl rfl, Or.inl (by omega)⟩ g g'
    (fun i hi => by rw [h i hi, Nat.zero_add])
  simpa using this

omit [IsStrictOrderedRing K] in
theorem interpolateValues_eq (c : Cached K) (d : List (Option K)) : interpolateValues c d = interpolateFunc bilinear c d := rfl

/-- **C79.** Bilinear interpolation works layer by layer. -/
theorem C79_bilinear_layers (c : Cached K) (N : ℕ) (hX : 0 < c.inX) (hY : 0 < c.inY) (hsize : c.inX * c.inY < 2 ^ 31)
    (hp : ∀ p ∈ c.px.zip c.py, IntRange p.1 ∧ IntRange p.2 ∧ ¬ BeyondLastRow c.inX c.inY p.1 p.2) :
    LayerWise N (c.inX * c.inY) (c.px.zip c.py).length (interpolateValues c)
      (fun l => (c.px.zip c.py).map fun p => bilinearSpec l c.inX c.inY 0 p.1 p.2) := by
  refine interpolateFunc_layers bilinear (fun F z p => bilinearSpec F c.inX c.inY z p.1 p.2) c N (Nat.mul_pos hX hY)
    (fun F iz _ hF p hpm => C32_bilinear_partial F c.inX c.inY iz p.1 p.2 hF hsize (hp p hpm).1 (hp p hpm).2.1 hX hY
      (hp p hpm).2.2) (fun ls hls z _ p _ => ?_)
  unfold bilinearSpec
  refine along_congr _ _ hY fun j hj => along_congr _ _ hX fun i hi => ?_
  exact cell_flatten hls hi hj

theorem conv_congr {n : ℕ} {x : K} (hd : Deep n x) (g g' : ℕ → Option K) (h : ∀ i < n, g' i = g i) : conv x g' = conv x g := by
  have := (floor_deep n x).2 hd
  unfold conv
  dsimp only
  rw [h _ (by omega), h _ (by omega), h _ (by omega), h _ (by omega)]

/-- **C79.** Bicubic interpolation works layer by layer, for arrays of fewer than `2^31` values. -/
theorem C79_bicubic_layers (c : Cached K) (N : ℕ) (hX : 0 < c.inX) (hY : 0 < c.inY) (hX31 : c.inX < 2 ^ 31)
    (hY31 : c.inY < 2 ^ 31) (hsize : c.inX * c.inY * N < 2 ^ 31)
    (hp : ∀ p ∈ c.px.zip c.py, (-2 ^ 31 ≤ ⌊p.1⌋ ∧ ⌊p.1⌋ < 2 ^ 31 - 2) ∧ (-2 ^ 31 ≤ ⌊p.2⌋ ∧ ⌊p.2⌋ < 2 ^ 31 - 2)) :
    LayerWise N (c.inX * c.inY) (c.px.zip c.py).length (interpolateFunc bicubic c)
      (fun l => (c.px.zip c.py).map fun p => bicubicSpec l c.inX c.inY 0 p.1 p.2) := by
  refine interpolateFunc_layers bicubic (fun F z p => bicubicSpec F c.inX c.inY z p.1 p.2) c N (Nat.mul_pos hX hY)
    (fun F iz hN hF p hpm => C76_bicubic F c.inX c.inY iz p.1 p.2 hF
      (lt_of_le_of_lt (Nat.mul_le_mul_left _ hN) hsize) hX31 hY31 (hp p hpm).1 (hp p hpm).2) (fun ls hls z _ p _ => ?_)
  unfold bicubicSpec
  by_cases hd : Deep c.inX p.1 ∧ Deep c.inY p.2
  · rw [if_pos hd, if_pos hd]
    refine conv_congr hd.2 _ _ fun j hj => conv_congr hd.1 _ _ fun i hi => ?_
    exact cell_flatten hls hi hj
  · rw [if_neg hd, if_neg hd]

/-! ## Reduced domains -/

theorem fits_deep {inX m w : ℕ} {x : K} (h : Fits inX x m w) : Deep inX x ↔ Deep w (x - m) := by
  obtain ⟨h1, h2, h3, h4⟩ := h
  have c2 : (m : K) + w ≤ inX := by exact_mod_cast h2
  have c0 : (0 : K) ≤ m := Nat.cast_nonneg m
  unfold Deep
  constructor
  · rintro ⟨a, b⟩
    constructor
    · rcases h3 with rfl | h3
      · simpa using a
      · linarith
    · rcases h4 with h4 | h4
      · have : (inX : K) = m + w := by exact_mod_cast h4.symm
        linarith
      · linarith
  · rintro ⟨a, b⟩
    constructor <;> linarith

theorem fits_conv {inX m w : ℕ} {x : K} (h : Fits inX x m w) (hd : Deep inX x) (g g' : ℕ → Option K)
    (hg : ∀ i < w, g' i = g (m + i)) : conv (x - m) g' = conv x g := by
  have hd' := (floor_deep w _).2 ((fits_deep h).1 hd)
  rw [Int.floor_sub_natCast] at hd'
  obtain ⟨k, hk⟩ : ∃ k : ℕ, ⌊x⌋ - m = (k : ℤ) := ⟨(⌊x⌋ - m).toNat, by omega⟩
  have hx : ⌊x⌋ = ((m + k : ℕ) : ℤ) := by push_cast; omega
  unfold conv
  dsimp only
  rw [Int.floor_sub_natCast, hk, hx, Int.toNat_natCast, Int.toNat_natCast, hg _ (by omega), hg _ (by omega), hg _ (by omega),
    hg _ (by omega)]
  have e1 : m + (k - 1) = m + k - 1 := by omega
  have e2 : m + (k + 1) = m + k + 1 := by omega
  have e3 : m + (k + 2) = m + k + 2 := by omega
  have f1 : x - (m : K) - ((k : K) - 1) = x - (((m + k : ℕ) : K) - 1) := by push_cast; ring
  have f2 : x - (m : K) - (k : K) = x - ((m + k : ℕ) : K) := by push_cast; ring
  have f3 : x - (m : K) - ((k : K) + 1) = x - (((m + k : ℕ) : K) + 1) := by push_cast; ring
  have f4 : x - (m : K) - ((k : K) + 2) = x - (((m + k : ℕ) : K) + 2) := by push_cast; ring
  rw [e1, e2, e3, f1, f2, f3, f4]

theorem bicubic_reduced (F : List (Option K)) (inX inY inZ m n w h : ℕ) (x y : K) (hl : F.length = inX * inY * inZ)
    (h31 : inX * inY * inZ < 2 ^ 31) (hX31 : inX < 2 ^ 31) (hY31 : inY < 2 ^ 31)
    (hx : -2 ^ 31 ≤ ⌊x⌋ ∧ ⌊x⌋ < 2 ^ 31 - 2) (hy : -2 ^ 31 ≤ ⌊y⌋ ∧ ⌊y⌋ < 2 ^ 31 - 2)
    (fx : Fits inX x m w) (fy : Fits inY y n h) :
    bicubic (subField F inX inY inZ m n w h) (x - m) (y - n) w h inZ = bicubic F x y inX inY inZ := by
  obtain ⟨s1, s2⟩ := subField_spec F inX inY inZ m n w h
  have hwX : w ≤ inX := by have := fx.2.1; omega
  have hhY : h ≤ inY := by have := fy.2.1; omega
  have hle : w * h * inZ ≤ inX * inY * inZ := Nat.mul_le_mul_right _ (Nat.mul_le_mul hwX hhY)
  have fl : ∀ {k N v : ℕ} {q : K}, Fits N q k v → -2 ^ 31 ≤ ⌊q⌋ ∧ ⌊q⌋ < 2 ^ 31 - 2 →
      -2 ^ 31 ≤ ⌊q - (k : K)⌋ ∧ ⌊q - (k : K)⌋ < 2 ^ 31 - 2 := by
    intro k N v q hf hq
    rw [Int.floor_sub_natCast]
    refine ⟨?_, by omega⟩
    rcases hf.2.2.1 with rfl | h3
    · omega
    · have : (k : ℤ) ≤ ⌊q⌋ := Int.le_floor.2 (by push_cast; linarith)
      omega
  rw [C76_bicubic F inX inY inZ x y hl h31 hX31 hY31 hx hy,
    C76_bicubic _ w h inZ (x - m) (y - n) s1 (by omega) (by omega) (by omega) (fl fx hx) (fl fy hy)]
  congr 1
  refine List.map_congr_left fun z hz => ?_
  have hz := List.mem_range.1 hz
  unfold bicubicSpec
  by_cases hd : Deep inX x ∧ Deep inY y
  · rw [if_pos hd, if_pos ⟨(fits_deep fx).1 hd.1, (fits_deep fy).1 hd.2⟩]
    exact fits_conv fy hd.2 _ _ fun j hj => fits_conv fx hd.1 _ _ fun i hi => s2 i j z hi hj hz
  · rw [if_neg hd, if_neg fun hc => hd ⟨(fits_deep fx).2 hc.1, (fits_deep fy).2 hc.2⟩]

/-- C36 for bicubic interpolation: interpolating from the reduced domain gives the same as interpolating the same positions
from the whole field. -/
theorem C36_bicubic (F : List (Option K)) (inX inY inZ : ℕ) (px py : List K) (hl : F.length = inX * inY * inZ)
    (h31 : inX * inY * inZ < 2 ^ 31) (hX : 0 < inX) (hY : 0 < inY) (hX31 : inX < 2 ^ 31) (hY31 : inY < 2 ^ 31)
    (hpx : px ≠ []) (hpy : py ≠ [])
    (hxr : ∀ x ∈ px, IntRange x ∧ x < 2 ^ 31 - 2) (hyr : ∀ y ∈ py, IntRange y ∧ y < 2 ^ 31 - 2) :
    ∃ c, createReducedDomain px py inX inY = .ok c ∧
      interpolateFunc bicubic c (inputData F inX inY inZ c.origin c.inX c.inY) =
        interpolateFunc bicubic ⟨px, py, inX, inY, none⟩ F := by
  obtain ⟨rx, hrx, hx1, hx2, hx3⟩ := range_spec px hpx
  obtain ⟨ry, hry, hy1, hy2, hy3⟩ := range_spec py hpy
  unfold createReducedDomain
  rw [hrx, Res.ok_bind, hry, Res.ok_bind]
  rw [show -extendCells = (-2 : ℤ) from rfl, show extendCells = (2 : ℤ) from rfl]
  rw [clampEx_lo (hxr _ hx1).1, Res.ok_bind, clampEx_lo (hyr _ hy1).1, Res.ok_bind,
    clampEx_hi (hxr _ hx2).1, Res.ok_bind, clampEx_hi (hyr _ hy2).1, Res.ok_bind]
  generalize hminX : clamp 0 (⌊rx.1⌋ + -2) ((inX : ℤ) - 1) = minX
  generalize hminY : clamp 0 (⌊ry.1⌋ + -2) ((inY : ℤ) - 1) = minY
  generalize hmaxX : clamp 0 (⌈rx.2⌉ + 2) ((inX : ℤ) - 1) = maxX
  generalize hmaxY : clamp 0 (⌈ry.2⌉ + 2) ((inY : ℤ) - 1) = maxY
  by_cases hr : maxX - minX < 1 ∨ maxY - minY < 1
  · rw [if_pos hr]
    exact ⟨_, rfl, rfl⟩
  · rw [if_neg hr]
    refine ⟨_, rfl, ?_⟩
    push Not at hr
    have fx : ∀ x ∈ px, 0 ≤ minX ∧ Fits inX x minX.toNat (maxX - minX + 1).toNat := fun x hx =>
      clamp_fits inX rx.1 rx.2 x (hx3 x hx).1 (hx3 x hx).2 minX maxX hminX.symm hmaxX.symm (by omega) hX
    have fy : ∀ y ∈ py, 0 ≤ minY ∧ Fits inY y minY.toNat (maxY - minY + 1).toNat := fun y hy =>
      clamp_fits inY ry.1 ry.2 y (hy3 y hy).1 (hy3 y hy).2 minY maxY hminY.symm hmaxY.symm (by omega) hY
    have hm0 : 0 ≤ minX := (fx _ hx1).1
    have hn0 : 0 ≤ minY := (fy _ hy1).1
    generalize hw : (maxX - minX + 1).toNat = w at *
    generalize hh : (maxY - minY + 1).toNat = h at *
    have hw0 : 0 < w := (fx _ hx1).2.1
    have hh0 : 0 < h := (fy _ hy1).2.1
    unfold interpolateFunc inputData
    simp only
    have hsub := subField_spec F inX inY inZ minX.toNat minY.toNat w h
    rw [if_neg (by have := Nat.mul_pos hw0 hh0; omega), if_neg (by have := Nat.mul_pos hX hY; omega),
      hsub.1, hl, Nat.mul_div_cancel_left _ (Nat.mul_pos hw0 hh0), Nat.mul_div_cancel_left _ (Nat.mul_pos hX hY),
      List.zip_map, mapM_map']
    congr 1
    apply mapM_congr
    rintro ⟨x, y⟩ hp
    have hx := (List.of_mem_zip hp).1
    have hy := (List.of_mem_zip hp).2
    simp only [Prod.map]
    have ex : (minX : K) = (minX.toNat : K) := by
      rw [← Int.cast_natCast, Int.toNat_of_nonneg hm0]
    have ey : (minY : K) = (minY.toNat : K) := by
      rw [← Int.cast_natCast, Int.toNat_of_nonneg hn0]
    rw [ex, ey]
    have fl : ∀ q : K, IntRange q ∧ q < 2 ^ 31 - 2 → -2 ^ 31 ≤ ⌊q⌋ ∧ ⌊q⌋ < 2 ^ 31 - 2 := by
      intro q hq
      refine ⟨Int.le_floor.2 (by push_cast; have := hq.1.1; linarith), Int.floor_lt.2 (by push_cast; have := hq.2; linarith)⟩
    exact bicubic_reduced F inX inY inZ minX.toNat minY.toNat w h x y hl h31 hX31 hY31 (fl x (hxr x hx)) (fl y (hyr y hy))
      (fx x hx).2 (fy y hy).2

end Ordered

/-- **C79.** Nearest-neighbour interpolation works layer by layer. -/
theorem C79_nearest_layers (c : CachedNN) (N : ℕ) (h0 : 0 < c.inX * c.inY)
    (hp : ∀ i ∈ c.pointsInIn, i = invalid ∨ i < c.inX * c.inY) :
    LayerWise N (c.inX * c.inY) c.pointsInIn.length (interpolateNN (K := K) c)
      (fun l => c.pointsInIn.map fun i => if i ≠ invalid then l.getD i none else none) := by
  refine ⟨fun l _ => List.length_map _, fun ls _ hls => ?_⟩
  have hlen := flatten_length ls _ hls
  unfold interpolateNN
  rw [if_neg h0.ne']
  dsimp only
  rw [hlen, Nat.mul_div_cancel_left _ h0, mapM_range_ok _ _ fun z => c.pointsInIn.map fun i =>
    if i ≠ invalid then (ls.getD z []).getD i none else none]
  · rw [Res.ok_bind, ← List.flatMap_def]
    congr 1
    exact range_layers ls fun l => c.pointsInIn.map fun i => if i ≠ invalid then l.getD i none else none
  · intro z hz
    refine mapM_ok_map _ _ _ fun i hi => ?_
    rcases hp i hi with rfl | hlt
    · simp
    · by_cases hinv : i = invalid
      · simp [hinv]
      · rw [if_pos hinv, if_pos hinv]
        have hmem : (ls.getD z []).length = c.inX * c.inY := by
          have : ls.getD z [] = ls[z] := by simp [hz]
          rw [this]; exact hls _ (List.getElem_mem _)
        have := flatten_get ls _ hls z i hlt
        have hi' : i < (ls.getD z []).length := by omega
        unfold readAt
        rw [this, List.getElem?_eq_getElem hi', List.getD_eq_getElem?_getD (l := ls.getD z []), List.getElem?_eq_getElem hi']
        rfl

section Rotation

variable [Field K]

/-- The first component of a rotated layer. -/
def rotatedU (m : List (Rotation K)) (u v : List (Option K)) : List (Option K) :=
  List.zipWith (fun r p => do let a ← p.1; let b ← p.2; some (r.c * a - r.s * b)) m (u.zip v)

/-- The second component of a rotated layer. -/
def rotatedV (m : List (Rotation K)) (u v : List (Option K)) : List (Option K) :=
  List.zipWith (fun r p => do let a ← p.1; let b ← p.2; some (r.s * a + r.c * b)) m (u.zip v)

/-- **C79.** The rotation of vectors works layer by layer. -/
theorem C79_rotation_layers (m : List (Rotation K)) (sizeX sizeY N : ℕ) (h0 : 0 < sizeX * sizeY)
    (hm : m.length = sizeX * sizeY) :
    LayerWise2 N (sizeX * sizeY) (fun u v => reprojectValues m sizeX sizeY u v u.length)
      (fun u v => (rotatedU m u v, rotatedV m u v)) := by
  refine ⟨fun u v hu hv => by simp [rotatedU, rotatedV, hm, hu, hv], fun ls _ hls => ?_⟩
  have h1 : ∀ l ∈ ls.map (·.1), l.length = sizeX * sizeY := by
    intro l hl
    obtain ⟨p, hp, rfl⟩ := List.mem_map.1 hl
    exact (hls p hp).1
  have h2 : ∀ l ∈ ls.map (·.2), l.length = sizeX * sizeY := by
    intro l hl
    obtain ⟨p, hp, rfl⟩ := List.mem_map.1 hl
    exact (hls p hp).2
  have l1 := flatten_length _ _ h1
  have l2 := flatten_length _ _ h2
  rw [List.length_map] at l1 l2
  obtain ⟨u', v', e, e1, e2, g⟩ := C78_vectors_rotated m sizeX sizeY ls.length _ _ h0 hm l1 l2
  change reprojectValues m sizeX sizeY _ _ _ = _
  rw [e]
  have r1 : ∀ l ∈ ls.map (fun l => rotatedU m l.1 l.2), l.length = sizeX * sizeY := by
    intro l hl
    obtain ⟨p, hp, rfl⟩ := List.mem_map.1 hl
    simp [rotatedU, hm, hls p hp]
  have r2 : ∀ l ∈ ls.map (fun l => rotatedV m l.1 l.2), l.length = sizeX * sizeY := by
    intro l hl
    obtain ⟨p, hp, rfl⟩ := List.mem_map.1 hl
    simp [rotatedV, hm, hls p hp]
  have l3 := flatten_length _ _ r1
  have l4 := flatten_length _ _ r2
  rw [List.length_map] at l3 l4
  have key : ∀ k < sizeX * sizeY * ls.length, u'[k]? = (ls.map fun l => rotatedU m l.1 l.2).flatten[k]? ∧
      v'[k]? = (ls.map fun l => rotatedV m l.1 l.2).flatten[k]? := by
    intro k hk
    have hi := Nat.mod_lt k h0
    have hz : k / (sizeX * sizeY) < ls.length := Nat.div_lt_of_lt_mul hk
    have hk2 : k = k / (sizeX * sizeY) * (sizeX * sizeY) + k % (sizeX * sizeY) := by
      rw [Nat.mul_comm]; exact (Nat.div_add_mod k _).symm
    generalize k / (sizeX * sizeY) = z at *
    generalize k % (sizeX * sizeY) = i at *
    have hp := hls _ (List.getElem_mem hz)
    have i1 : i < ls[z].1.length := by omega
    have i2 : i < ls[z].2.length := by omega
    have i3 : i < m.length := by omega
    have gu := flatten_get _ _ h1 z i hi
    have gv := flatten_get _ _ h2 z i hi
    have ru := flatten_get _ _ r1 z i hi
    have rv := flatten_get _ _ r2 z i hi
    simp only [List.getD_eq_getElem?_getD, List.getElem?_map, List.getElem?_eq_getElem hz, Option.map_some, Option.getD_some,
      List.getElem?_eq_getElem i1, List.getElem?_eq_getElem i2] at gu gv ru rv
    obtain ⟨a, b⟩ := g z i m[i] ls[z].1[i] ls[z].2[i] hz hi (List.getElem?_eq_getElem i3) gu gv
    subst hk2
    rw [a, b, ru, rv]
    simp [rotatedU, rotatedV, i1, i2, i3]
  have hU : u' = (ls.map fun l => rotatedU m l.1 l.2).flatten := by
    refine List.ext_getElem? fun k => ?_
    rcases Nat.lt_or_ge k (sizeX * sizeY * ls.length) with hk | hk
    · exact (key k hk).1
    · rw [List.getElem?_eq_none (by omega), List.getElem?_eq_none (by omega)]
  have hV : v' = (ls.map fun l => rotatedV m l.1 l.2).flatten := by
    refine List.ext_getElem? fun k => ?_
    rcases Nat.lt_or_ge k (sizeX * sizeY * ls.length) with hk | hk
    · exact (key k hk).2
    · rw [List.getElem?_eq_none (by omega), List.getElem?_eq_none (by omega)]
  rw [hU, hV]

end Rotation

/-! ## Cases -/

/-- Non-vacuity of C36 for bicubic interpolation: the domain is reduced on an axis of twelve cells. -/
example : createReducedDomain [(5 : ℚ) + 1 / 2] [(5 : ℚ)] 12 12 = .ok ⟨[5 / 2], [2], 6, 5, some (3, 3)⟩ := by decide +kernel

/-- A variable with two times on a grid of three by two cells. -/
def exampleField : List (Option ℚ) := [some 1, some 2, some 3, some 4, some 5, some 6, some 11, some 12, some 13, some 14, some 15, some 16]

/-- Nearest neighbours for an output of two cells: the fifth and the first cell of the input. -/
def exampleSetting : Setting (Option ℚ) (Option ℚ) where
  cache := ⟨"x", "y", 3, 2, 2, 1, none⟩
  input := ⟨["x", "y", "t"], [3, 2, 2], [false, false, true], fun st sz => Slice.slice exampleField [3, 2, 2] st sz⟩
  dec := id
  enc := id
  pre := []
  post := []
  interp := interpolateNN ⟨[4, 0], 3, 2, none⟩
  counterpart := none

/-- Non-vacuity of `Sound`: a request for the second cell at the second time. -/
example : ∃ sb0, Sound exampleSetting ["t"] 3 2 [2] exampleField id
      (fun l => [4, 0].map fun i => if i ≠ invalid then l.getD i none else none) id [false, false, true] sb0
      [.set "x" 1 1, .set "t" 1 1] ∧
    getDataSlice exampleSetting ["x", "y", "t"] (SB.run sb0 [.set "x" 1 1, .set "t" 1 1]).1 = .ok [some 11] := by
  refine ⟨⟨[("x", 0), ("y", 1), ("t", 2)], [], [2, 1, 2], [false, false, true], [0, 0, 0], [2, 1, 2]⟩, ?_, by decide +kernel⟩
  exact {
    holds := ⟨rfl, rfl, rfl, rfl, fun _ _ _ => rfl⟩
    domain := ⟨rfl, rfl⟩
    names := by decide
    input64 := by decide
    output64 := by decide
    inPos := by decide
    outPos := by decide
    pre := fun l hl => ⟨rfl, hl⟩
    post := fun l hl => ⟨rfl, hl⟩
    interp := C79_nearest_layers ⟨[4, 0], 3, 2, none⟩ _ (by decide) (by decide)
    init := by decide
    region := by decide }

end Fimex.Interp
