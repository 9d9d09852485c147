import Verif.DataIndex.Props
import Verif.Fill.Model
import Mathlib.Algebra.Order.Field.Basic
import Mathlib.Algebra.Field.Rat
import Mathlib.Algebra.Order.Ring.Rat
import Mathlib.Tactic.Linarith
import Mathlib.Tactic.ByContra

/-!
# Border smoothing

Model of `CDMBorderSmoothing_Linear::operator()`, `src/CDMBorderSmoothing_Linear.cc:33-97`, and of the cell loop of
`CDMBorderSmoothing::getDataSlice`, `src/CDMBorderSmoothing.cc:123-174`, with C40.

Widths, sizes and positions are `size_t` with wrap-around; values are exact numbers, `none` is NaN.  The Euclidean
distance is a parameter `dist`: the theorems hold for every function, because the weight is clamped to [0, 1].  Reading
and unit conversion of the two slices, and the packing of the result, belong to the readers.
-/

namespace Fimex.Smoothing

variable {K : Type} [Field K] [LinearOrder K]

/-! ## Model -/

/-- A `CDMBorderSmoothing_Linear` object. -/
structure Linear where
  transitionWidth : ℕ
  borderWidth : ℕ
  sizeX : ℕ
  sizeY : ℕ

/-- src/CDMBorderSmoothing_Linear.cc:91-97: the factory refuses a transition of width 0. -/
def factory (transitionWidth borderWidth : ℕ) : Res (ℕ × ℕ) :=
  if transitionWidth ≤ 0 then .throws else .ok (transitionWidth, borderWidth)

/-- src/CDMBorderSmoothing_Linear.cc:61-81: the weight before division, by the zone of the cell. -/
def alphaRaw (dist : K → K → K) (xmax1 xmin2 ymax1 ymin2 x y : ℕ) : K :=
  if x < xmax1 then
    if y < ymax1 then dist (wsub xmax1 x : ℕ) (wsub ymax1 y : ℕ)
    else if y ≥ ymin2 then dist (wsub xmax1 x : ℕ) (wsub y ymin2 : ℕ)
    else (wsub xmax1 x : ℕ)
  else if x ≥ xmin2 then
    if y < ymax1 then dist (wsub x xmin2 : ℕ) (wsub ymax1 y : ℕ)
    else if y ≥ ymin2 then dist (wsub x xmin2 : ℕ) (wsub y ymin2 : ℕ)
    else (wsub x xmin2 : ℕ)
  else if y < ymax1 then (wsub ymax1 y : ℕ)
  else if y ≥ ymin2 then (wsub y ymin2 : ℕ)
  else 0

/-- src/CDMBorderSmoothing_Linear.cc:83-86. -/
def clamp01 (alpha : K) : K := if alpha > 1 then 1 else if alpha < 0 then 0 else alpha

/-- src/CDMBorderSmoothing_Linear.cc:42-88 `operator()`. -/
def Linear.value (dist : K → K → K) (l : Linear) (x y : ℕ) (valueI valueO : K) : K :=
  if l.sizeX = 0 ∨ l.sizeY = 0 then valueO
  else
    let xmin1 := l.borderWidth
    let xmax1 := wadd xmin1 l.transitionWidth
    let ymin1 := l.borderWidth
    let ymax1 := wadd ymin1 l.transitionWidth
    let xmax2 := wsub l.sizeX l.borderWidth
    let xmin2 := wsub xmax2 l.transitionWidth
    let ymax2 := wsub l.sizeY l.borderWidth
    let ymin2 := wsub ymax2 l.transitionWidth
    if x < xmin1 ∨ x ≥ xmax2 ∨ y < ymin1 ∨ y ≥ ymax2 then valueO
    else if x ≥ xmax1 ∧ x < xmin2 ∧ y ≥ ymax1 ∧ y < ymin2 then valueI
    else
      let diff := valueO - valueI
      if diff = 0 then valueO
      else valueI + clamp01 (alphaRaw dist xmax1 xmin2 ymax1 ymin2 x y / (l.transitionWidth : K)) * diff

/-- src/CDMBorderSmoothing.cc:147-155: one cell of the loop. -/
def mergeCell (useOuter : Bool) (smooth : K → K → K) (valueI valueO : Option K) : Option K :=
  match valueI, valueO with
  | none, o => if useOuter then o else none
  | some i, none => some i
  | some i, some o => some (smooth i o)

/-- src/CDMBorderSmoothing.cc:158-169: the next position; none after the last one. -/
def increment : List ℕ → List ℕ → Option (List ℕ)
  | n :: ns, c :: cs => if c + 1 ≥ n then (increment ns cs).map (0 :: ·) else some ((c + 1) :: cs)
  | _, _ => none

/-- src/CDMBorderSmoothing.cc:144-156: the work at one position. -/
def cellStep (cell : List ℕ → Option K → Option K → Option K) (dims : List ℕ) (sliceI : List (Option K))
    (current : List ℕ) (out : List (Option K)) : Res (List (Option K)) := do
  let p ← DataIndex.getPos (DataIndex.mk dims) current
  let vI ← readAt sliceI p
  let vO ← readAt out p
  Fill.writeAt out p (cell current vI vO)

/-- src/CDMBorderSmoothing.cc:141-170: the loop over the cells, with `fuel` iterations at most (outer `none`: not
finished). -/
def cellLoop (cell : List ℕ → Option K → Option K → Option K) (dims : List ℕ) (sliceI : List (Option K)) :
    ℕ → List ℕ → List (Option K) → Option (Res (List (Option K)))
  | 0, _, _ => none
  | fuel + 1, current, out =>
    match current.head?, dims.head? with
    | some c, some d =>
      if c < d then
        match cellStep cell dims sliceI current out with
        | .ok out' =>
          match increment dims current with
          | some next => cellLoop cell dims sliceI fuel next out'
          | none => some (.ok out')
        | .throws => some .throws
        | .ub => some .ub
      else some (.ok out)
    | _, _ => some .throws

/-- A dimension of the variable: name, length, unlimited. -/
structure Dim where
  name : String
  length : ℕ
  unlimited : Bool

/-- src/CDMBorderSmoothing.cc:123-133: the last position of a name in the shape (as `int`, -1 when missing). -/
def shapeIdx (name : String) : List Dim → ℕ → Option ℕ → Option ℕ
  | [], _, found => found
  | d :: ds, i, found => shapeIdx name ds (i + 1) (if d.name = name then some i else found)

/-- src/CDMBorderSmoothing.cc:131-132: lengths of the dimensions that are not unlimited. -/
def dimSizes (shape : List Dim) : List ℕ := (shape.filter fun d => !d.unlimited).map (·.length)

/-- `dimSizes[shapeIdx]`: outside (also for -1) undefined behaviour. -/
def sizeAt (sizes : List ℕ) : Option ℕ → Res ℕ
  | none => .ub
  | some i => readAt sizes i

/-- src/CDMBorderSmoothing.cc:123-170 with the linear smoothing (lines 124-129: `nameY` is only compared when `nameX`
does not match, which is no difference for different names). -/
def smoothSlice (dist : K → K → K) (transition border : ℕ) (useOuter : Bool) (nameX nameY : String) (shape : List Dim)
    (sliceI sliceO : List (Option K)) (fuel : ℕ) : Option (Res (List (Option K))) :=
  let sizes := dimSizes shape
  if sizes = [] then some (.ok sliceI)
  else
    let ix := shapeIdx nameX shape 0 none
    let iy := shapeIdx nameY shape 0 none
    match sizeAt sizes ix, sizeAt sizes iy with
    | .ok sx, .ok sy =>
      cellLoop (fun p => mergeCell useOuter ((⟨transition, border, sx, sy⟩ : Linear).value dist
        (p.getD (ix.getD 0) 0) (p.getD (iy.getD 0) 0))) sizes sliceI fuel (List.replicate sizes.length 0) sliceO
    | _, _ => some .ub

/-! ## Specification -/

/-- The position is in the border: closer than `b` to one of the ends of `[0, size)`. -/
def InBorder (b size x : ℕ) : Prop := x < b ∨ size ≤ x + b

/-- The position is in the interior: not closer than `b + t` to one of the ends. -/
def InInterior (b t size x : ℕ) : Prop := b + t ≤ x ∧ x + b + t < size

/-- `v` lies between `a` and `c`. -/
def Between (a c v : K) : Prop := (a ≤ v ∧ v ≤ c) ∨ (c ≤ v ∧ v ≤ a)

/-! ## Theorems -/

variable [IsStrictOrderedRing K]

theorem clamp01_range (a : K) : 0 ≤ clamp01 a ∧ clamp01 a ≤ 1 := by
  unfold clamp01
  by_cases h : a > 1
  · rw [if_pos h]; exact ⟨zero_le_one, le_refl _⟩
  · rw [if_neg h]
    by_cases h2 : a < 0
    · rw [if_pos h2]; exact ⟨le_refl _, zero_le_one⟩
    · rw [if_neg h2]; exact ⟨not_lt.mp h2, not_lt.mp h⟩

omit [LinearOrder K] [IsStrictOrderedRing K] [Field K] in
theorem border_iff {b size x : ℕ} (hb : b < two64) (hs : size < two64) (hx : x < size) :
    (x < b ∨ x ≥ wsub size b) ↔ InBorder b size x := by
  unfold InBorder
  rcases Nat.lt_or_ge size b with h | h
  · constructor <;> intro _ <;> left <;> omega
  · rw [wsub_eq h hs]
    omega

omit [LinearOrder K] [IsStrictOrderedRing K] [Field K] in
theorem interior_of {b t size x : ℕ} (hbt : b + t < two64) (hs : size < two64) (h : InInterior b t size x) :
    x ≥ wadd b t ∧ x < wsub (wsub size b) t ∧ ¬ InBorder b size x := by
  obtain ⟨h1, h2⟩ := h
  have e1 : wsub size b = size - b := wsub_eq (by omega) hs
  have e2 : wsub (size - b) t = size - b - t := wsub_eq (by omega) (by omega)
  rw [e1, e2, wadd_eq hbt]
  refine ⟨h1, by omega, ?_⟩
  unfold InBorder
  omega

/-- **C40.** For every cell of a grid of any size: in the border the outer value, in the interior the inner value, and
everywhere a value between the two. -/
theorem C40_smoothing (dist : K → K → K) (l : Linear) (x y : ℕ) (valueI valueO : K)
    (hbt : l.borderWidth + l.transitionWidth < two64) (hsx : l.sizeX < two64) (hsy : l.sizeY < two64)
    (hx : x < l.sizeX) (hy : y < l.sizeY) :
    (InBorder l.borderWidth l.sizeX x ∨ InBorder l.borderWidth l.sizeY y → l.value dist x y valueI valueO = valueO) ∧
    (InInterior l.borderWidth l.transitionWidth l.sizeX x ∧ InInterior l.borderWidth l.transitionWidth l.sizeY y →
      l.value dist x y valueI valueO = valueI) ∧
    Between valueI valueO (l.value dist x y valueI valueO) := by
  have h0 : ¬ (l.sizeX = 0 ∨ l.sizeY = 0) := by omega
  have bx := border_iff (b := l.borderWidth) (by omega) hsx hx
  have byy := border_iff (b := l.borderWidth) (by omega) hsy hy
  have cond : (x < l.borderWidth ∨ x ≥ wsub l.sizeX l.borderWidth ∨ y < l.borderWidth ∨
      y ≥ wsub l.sizeY l.borderWidth) ↔ InBorder l.borderWidth l.sizeX x ∨ InBorder l.borderWidth l.sizeY y := by
    rw [← bx, ← byy]; tauto
  have hO : InBorder l.borderWidth l.sizeX x ∨ InBorder l.borderWidth l.sizeY y →
      l.value dist x y valueI valueO = valueO := by
    intro h
    unfold Linear.value
    rw [if_neg h0]
    dsimp only
    rw [if_pos (cond.2 h)]
  refine ⟨hO, ?_, ?_⟩
  · rintro ⟨h1, h2⟩
    obtain ⟨a1, a2, a3⟩ := interior_of hbt hsx h1
    obtain ⟨b1, b2, b3⟩ := interior_of hbt hsy h2
    unfold Linear.value
    rw [if_neg h0]
    dsimp only
    rw [if_neg (fun h => by rcases cond.1 h with h | h; exacts [a3 h, b3 h]), if_pos ⟨a1, a2, b1, b2⟩]
  · by_cases hb : InBorder l.borderWidth l.sizeX x ∨ InBorder l.borderWidth l.sizeY y
    · rw [hO hb]
      rcases le_total valueI valueO with h | h
      · left; exact ⟨h, le_refl _⟩
      · right; exact ⟨le_refl _, h⟩
    · unfold Linear.value
      rw [if_neg h0]
      dsimp only
      rw [if_neg (fun h => hb (cond.1 h))]
      split
      · rcases le_total valueI valueO with h | h
        · left; exact ⟨le_refl _, h⟩
        · right; exact ⟨h, le_refl _⟩
      · split
        · rcases le_total valueI valueO with h | h
          · left; exact ⟨h, le_refl _⟩
          · right; exact ⟨le_refl _, h⟩
        · generalize alphaRaw dist _ _ _ _ x y / (l.transitionWidth : K) = a
          obtain ⟨c0, c1⟩ := clamp01_range a
          rcases le_total valueI valueO with h | h
          · left
            have h1 : 0 ≤ valueO - valueI := sub_nonneg.2 h
            have h2 := mul_nonneg c0 h1
            have h3 := mul_le_of_le_one_left h1 c1
            exact ⟨by linarith, by linarith⟩
          · right
            have h1 : 0 ≤ valueI - valueO := sub_nonneg.2 h
            have h2 := mul_nonneg c0 h1
            have h3 := mul_le_of_le_one_left h1 c1
            have e : clamp01 a * (valueO - valueI) = -(clamp01 a * (valueI - valueO)) := by ring
            rw [e]
            exact ⟨by linarith, by linarith⟩

example : (⟨2, 1, 10, 10⟩ : Linear).value (fun _ _ => 1) 0 5 (3 : ℚ) 7 = 7 ∧
    (⟨2, 1, 10, 10⟩ : Linear).value (fun _ _ => 1) 5 5 (3 : ℚ) 7 = 3 ∧
    (⟨2, 1, 10, 10⟩ : Linear).value (fun _ _ => 1) 2 5 (3 : ℚ) 7 = 5 := by decide +kernel

theorem div_cast_range {d t : ℕ} (ht : 0 < t) (hd : d ≤ t) : (0 : K) ≤ (d : K) / t ∧ (d : K) / t ≤ 1 := by
  have ht' : (0 : K) < t := Nat.cast_pos.2 ht
  constructor
  · exact div_nonneg (Nat.cast_nonneg _) ht'.le
  · rw [div_le_one ht']; exact Nat.cast_le.2 hd

omit [IsStrictOrderedRing K] in
theorem clamp01_id {a : K} (h : 0 ≤ a ∧ a ≤ 1) : clamp01 a = a := by
  unfold clamp01
  rw [if_neg (not_lt.2 h.2), if_neg (not_lt.2 h.1)]

/-- **C40.** Along the left and right edges (rows in the interior), the value in the transition zone is the linear blend
with weight `(b + t - x) / t` on the left and `(x - (size - b - t)) / t` on the right. -/
theorem C40_edge_weights (dist : K → K → K) (l : Linear) (x y : ℕ) (valueI valueO : K) (ht : 0 < l.transitionWidth)
    (hbt : 2 * (l.borderWidth + l.transitionWidth) ≤ l.sizeX) (hsx : l.sizeX < two64) (hsy : l.sizeY < two64)
    (hy : InInterior l.borderWidth l.transitionWidth l.sizeY y) :
    (l.borderWidth ≤ x → x < l.borderWidth + l.transitionWidth →
      l.value dist x y valueI valueO = valueI +
        ((l.borderWidth + l.transitionWidth - x : ℕ) : K) / l.transitionWidth * (valueO - valueI)) ∧
    (l.sizeX ≤ x + l.borderWidth + l.transitionWidth → x + l.borderWidth < l.sizeX →
      l.value dist x y valueI valueO = valueI +
        ((x + l.borderWidth + l.transitionWidth - l.sizeX : ℕ) : K) / l.transitionWidth * (valueO - valueI)) := by
  obtain ⟨y1, y2, y3⟩ := interior_of (by omega) hsy hy
  have hy0 : l.sizeY ≠ 0 := by obtain ⟨_, h⟩ := hy; omega
  have e1 : wsub l.sizeX l.borderWidth = l.sizeX - l.borderWidth := wsub_eq (by omega) hsx
  have e2 : wsub (l.sizeX - l.borderWidth) l.transitionWidth = l.sizeX - l.borderWidth - l.transitionWidth :=
    wsub_eq (by omega) (by omega)
  have e3 : wadd l.borderWidth l.transitionWidth = l.borderWidth + l.transitionWidth := wadd_eq (by omega)
  have ylt : y < l.sizeY := by obtain ⟨_, h⟩ := hy; omega
  have ynb : ¬ (y < l.borderWidth ∨ y ≥ wsub l.sizeY l.borderWidth) := fun h => y3 ((border_iff (by omega) hsy ylt).1 h)
  rw [e3] at y1
  have ymid1 : ¬ y < l.borderWidth + l.transitionWidth := by omega
  have ymid2 : ¬ y ≥ wsub (wsub l.sizeY l.borderWidth) l.transitionWidth := by omega
  have diffcase : ∀ a : K, (if valueO - valueI = 0 then valueO else valueI + a * (valueO - valueI)) =
      valueI + a * (valueO - valueI) := by
    intro a
    by_cases hd : valueO - valueI = 0
    · rw [if_pos hd, hd, mul_zero, add_zero]
      exact sub_eq_zero.1 hd
    · rw [if_neg hd]
  constructor
  · intro hx1 hx2
    unfold Linear.value
    rw [if_neg (by omega)]
    dsimp only
    rw [e1, e2, e3, if_neg (by omega), if_neg (by omega), diffcase]
    congr 2
    have e4 : wsub (l.borderWidth + l.transitionWidth) x = l.borderWidth + l.transitionWidth - x :=
      wsub_eq (by omega) (by omega)
    have : alphaRaw dist (l.borderWidth + l.transitionWidth) (l.sizeX - l.borderWidth - l.transitionWidth)
        (l.borderWidth + l.transitionWidth) (wsub (wsub l.sizeY l.borderWidth) l.transitionWidth) x y =
        ((l.borderWidth + l.transitionWidth - x : ℕ) : K) := by
      unfold alphaRaw
      rw [if_pos hx2, if_neg ymid1, if_neg ymid2, e4]
    rw [this, clamp01_id (div_cast_range ht (by omega))]
  · intro hx1 hx2
    unfold Linear.value
    rw [if_neg (by omega)]
    dsimp only
    rw [e1, e2, e3, if_neg (by omega), if_neg (by omega), diffcase]
    congr 2
    have e4 : wsub x (l.sizeX - l.borderWidth - l.transitionWidth) = x + l.borderWidth + l.transitionWidth - l.sizeX := by
      rw [wsub_eq (by omega) (by omega)]; omega
    have : alphaRaw dist (l.borderWidth + l.transitionWidth) (l.sizeX - l.borderWidth - l.transitionWidth)
        (l.borderWidth + l.transitionWidth) (wsub (wsub l.sizeY l.borderWidth) l.transitionWidth) x y =
        ((x + l.borderWidth + l.transitionWidth - l.sizeX : ℕ) : K) := by
      unfold alphaRaw
      rw [if_neg (by omega), if_pos (by omega), if_neg ymid1, if_neg ymid2, e4]
    rw [this, clamp01_id (div_cast_range ht (by omega))]

/-- How far a position is inside the transition zone along one axis, counted from the interior; 0 in the interior. -/
def depth (b t n x : ℕ) : ℕ := if x < b + t then b + t - x else x + b + t - n

/-- **C40.** Everywhere inside the border, with a distance that is non-negative and extends the one on the axes: the
value is the blend whose outer weight is the distance of the cell from the interior rectangle divided by the width of
the transition, at most 1.  This covers the four edges, the four corners and the interior. -/
theorem C40_blend_everywhere (dist : K → K → K) (hdx : ∀ a : ℕ, dist a 0 = a) (hdy : ∀ a : ℕ, dist 0 a = a)
    (hd0 : ∀ a b, 0 ≤ dist a b) (l : Linear) (x y : ℕ) (valueI valueO : K) (ht : 0 < l.transitionWidth)
    (hbx : 2 * (l.borderWidth + l.transitionWidth) ≤ l.sizeX) (hby : 2 * (l.borderWidth + l.transitionWidth) ≤ l.sizeY)
    (hsx : l.sizeX < two64) (hsy : l.sizeY < two64)
    (hx1 : l.borderWidth ≤ x) (hx2 : x + l.borderWidth < l.sizeX)
    (hy1 : l.borderWidth ≤ y) (hy2 : y + l.borderWidth < l.sizeY) :
    l.value dist x y valueI valueO = valueI +
      min 1 (dist (depth l.borderWidth l.transitionWidth l.sizeX x : ℕ)
        (depth l.borderWidth l.transitionWidth l.sizeY y : ℕ) / (l.transitionWidth : K)) * (valueO - valueI) := by
  have e1 : wsub l.sizeX l.borderWidth = l.sizeX - l.borderWidth := wsub_eq (by omega) hsx
  have e2 : wsub (l.sizeX - l.borderWidth) l.transitionWidth = l.sizeX - l.borderWidth - l.transitionWidth :=
    wsub_eq (by omega) (by omega)
  have f1 : wsub l.sizeY l.borderWidth = l.sizeY - l.borderWidth := wsub_eq (by omega) hsy
  have f2 : wsub (l.sizeY - l.borderWidth) l.transitionWidth = l.sizeY - l.borderWidth - l.transitionWidth :=
    wsub_eq (by omega) (by omega)
  have e3 : wadd l.borderWidth l.transitionWidth = l.borderWidth + l.transitionWidth := wadd_eq (by omega)
  have hclamp : ∀ a : K, 0 ≤ a → clamp01 a = min 1 a := by
    intro a ha
    unfold clamp01
    by_cases h : a > 1
    · rw [if_pos h, min_eq_left h.le]
    · rw [if_neg h, if_neg (not_lt.2 ha), min_eq_right (not_lt.1 h)]
  have ht' : (0 : K) ≤ l.transitionWidth := Nat.cast_nonneg _
  have hdepth : ∀ n z, l.borderWidth ≤ z → z + l.borderWidth < n → 2 * (l.borderWidth + l.transitionWidth) ≤ n → n < two64 →
      (z < l.borderWidth + l.transitionWidth →
        depth l.borderWidth l.transitionWidth n z = wsub (l.borderWidth + l.transitionWidth) z) ∧
      (z ≥ n - l.borderWidth - l.transitionWidth →
        depth l.borderWidth l.transitionWidth n z = wsub z (n - l.borderWidth - l.transitionWidth)) ∧
      (¬ z < l.borderWidth + l.transitionWidth → ¬ z ≥ n - l.borderWidth - l.transitionWidth →
        depth l.borderWidth l.transitionWidth n z = 0) := by
    intro n z h1 h2 h3 h4
    unfold depth
    refine ⟨fun h => ?_, fun h => ?_, fun h h' => ?_⟩
    · rw [if_pos h, wsub_eq (by omega) (by omega)]
    · rw [if_neg (by omega), wsub_eq (by omega) (by omega)]; omega
    · rw [if_neg h]; omega
  obtain ⟨x1, x2, x3⟩ := hdepth l.sizeX x hx1 hx2 hbx hsx
  obtain ⟨y1, y2, y3⟩ := hdepth l.sizeY y hy1 hy2 hby hsy
  have hraw : alphaRaw dist (l.borderWidth + l.transitionWidth) (l.sizeX - l.borderWidth - l.transitionWidth)
      (l.borderWidth + l.transitionWidth) (l.sizeY - l.borderWidth - l.transitionWidth) x y =
      dist (depth l.borderWidth l.transitionWidth l.sizeX x : ℕ) (depth l.borderWidth l.transitionWidth l.sizeY y : ℕ) := by
    unfold alphaRaw
    by_cases cx : x < l.borderWidth + l.transitionWidth
    · rw [if_pos cx, x1 cx]
      by_cases cy : y < l.borderWidth + l.transitionWidth
      · rw [if_pos cy, y1 cy]
      · rw [if_neg cy]
        by_cases cz : y ≥ l.sizeY - l.borderWidth - l.transitionWidth
        · rw [if_pos cz, y2 cz]
        · rw [if_neg cz, y3 cy cz, Nat.cast_zero, hdx]
    · rw [if_neg cx]
      by_cases cx' : x ≥ l.sizeX - l.borderWidth - l.transitionWidth
      · rw [if_pos cx', x2 cx']
        by_cases cy : y < l.borderWidth + l.transitionWidth
        · rw [if_pos cy, y1 cy]
        · rw [if_neg cy]
          by_cases cz : y ≥ l.sizeY - l.borderWidth - l.transitionWidth
          · rw [if_pos cz, y2 cz]
          · rw [if_neg cz, y3 cy cz, Nat.cast_zero, hdx]
      · rw [if_neg cx', x3 cx cx', Nat.cast_zero, hdy]
        by_cases cy : y < l.borderWidth + l.transitionWidth
        · rw [if_pos cy, y1 cy]
        · rw [if_neg cy]
          by_cases cz : y ≥ l.sizeY - l.borderWidth - l.transitionWidth
          · rw [if_pos cz, y2 cz]
          · rw [if_neg cz, y3 cy cz, Nat.cast_zero]
  unfold Linear.value
  rw [if_neg (by omega)]
  dsimp only
  rw [e1, e2, f1, f2, e3, if_neg (by omega), hraw, hclamp _ (div_nonneg (hd0 _ _) ht')]
  by_cases hin : x ≥ l.borderWidth + l.transitionWidth ∧ x < l.sizeX - l.borderWidth - l.transitionWidth ∧
      y ≥ l.borderWidth + l.transitionWidth ∧ y < l.sizeY - l.borderWidth - l.transitionWidth
  · rw [if_pos hin, x3 (by omega) (by omega), y3 (by omega) (by omega), Nat.cast_zero]
    have := hdx 0
    rw [Nat.cast_zero] at this
    rw [this, zero_div, min_eq_right zero_le_one, zero_mul, add_zero]
  · rw [if_neg hin]
    by_cases hd : valueO - valueI = 0
    · rw [if_pos hd, hd, mul_zero, add_zero]
      exact sub_eq_zero.1 hd
    · rw [if_neg hd]

/-- The hypotheses hold for the sum of the distances along the axes (and for the Euclidean distance); the corner cell
(2, 7) is 1 + 0 cells from the interior, in a transition of width 2. -/
example : (⟨2, 1, 10, 10⟩ : Linear).value (fun a b => |a| + |b|) 2 7 (3 : ℚ) 7 = 5 ∧
    (∀ a : ℕ, (fun a b : ℚ => |a| + |b|) a 0 = a) ∧ (∀ a : ℕ, (fun a b : ℚ => |a| + |b|) 0 a = a) ∧
    ∀ a b, 0 ≤ (fun a b : ℚ => |a| + |b|) a b := by
  refine ⟨by decide +kernel, fun a => by simp, fun a => by simp, fun a b => ?_⟩
  have := abs_nonneg a
  have := abs_nonneg b
  linarith

/-- **C40.** A smoothing is refused exactly if the transition has no width; otherwise it has the widths asked for. -/
theorem C40_widths (transitionWidth borderWidth : ℕ) :
    (transitionWidth = 0 → factory transitionWidth borderWidth = .throws) ∧
    (0 < transitionWidth → factory transitionWidth borderWidth = .ok (transitionWidth, borderWidth)) := by
  unfold factory
  exact ⟨fun h => if_pos (by omega), fun h => if_neg (by omega)⟩

/-- The two edges are not mirror images: the first cell of the transition zone on the left is wholly outer, its mirror
image on the right is not. -/
theorem C40_edges_not_symmetric :
    (⟨2, 1, 10, 10⟩ : Linear).value (fun _ _ => 1) 1 5 (3 : ℚ) 7 = 7 ∧
    (⟨2, 1, 10, 10⟩ : Linear).value (fun _ _ => 1) (9 - 1) 5 (3 : ℚ) 7 = 5 := by decide +kernel

/-! ### The loop over the cells -/

theorem increment_spec : ∀ {dims p : List ℕ}, InShape dims p →
    match increment dims p with
    | some q => InShape dims q ∧ pos dims q = pos dims p + 1
    | none => pos dims p + 1 = dims.prod
  | [], [], _ => by simp [increment, pos]
  | n :: ns, c :: cs, h => by
    have hc : c < n := h.1
    have ih := increment_spec h.2
    unfold increment
    by_cases hn : c + 1 ≥ n
    · rw [if_pos hn]
      cases hq : increment ns cs with
      | none =>
        rw [hq] at ih
        simp only [Option.map_none, pos, List.prod_cons] at *
        rw [← ih, Nat.mul_add]
        omega
      | some q =>
        rw [hq] at ih
        simp only [Option.map_some] at *
        refine ⟨⟨by omega, ih.1⟩, ?_⟩
        simp only [pos]
        rw [ih.2, Nat.mul_add]
        omega
    · rw [if_neg hn]
      refine ⟨⟨by omega, h.2⟩, ?_⟩
      simp only [pos]
      omega

omit [LinearOrder K] [IsStrictOrderedRing K] [Field K] in
theorem cellLoop_succ (cell : List ℕ → Option K → Option K → Option K) (n c : ℕ) (ns cs : List ℕ)
    (sliceI : List (Option K)) (fuel : ℕ) (out : List (Option K)) :
    cellLoop cell (n :: ns) sliceI (fuel + 1) (c :: cs) out =
      if c < n then
        match cellStep cell (n :: ns) sliceI (c :: cs) out with
        | .ok out' =>
          match increment (n :: ns) (c :: cs) with
          | some next => cellLoop cell (n :: ns) sliceI fuel next out'
          | none => some (.ok out')
        | .throws => some .throws
        | .ub => some .ub
      else some (.ok out) := rfl

/-- The loop from a position on: the cells before keep what they have, the others are merged. -/
theorem cellLoop_spec (cell : List ℕ → Option K → Option K → Option K) (dims : List ℕ) (hd : dims ≠ [])
    (sliceI sliceO : List (Option K)) (hI : sliceI.length = dims.prod) :
    ∀ (fuel : ℕ) (current : List ℕ) (out : List (Option K)), InShape dims current →
    dims.prod ≤ pos dims current + fuel → out.length = dims.prod →
    (∀ q, InShape dims q → pos dims q < pos dims current →
      out.getD (pos dims q) none = cell q (sliceI.getD (pos dims q) none) (sliceO.getD (pos dims q) none)) →
    (∀ k, pos dims current ≤ k → out.getD k none = sliceO.getD k none) →
    ∃ r, cellLoop cell dims sliceI fuel current out = some (.ok r) ∧ r.length = dims.prod ∧
      ∀ q, InShape dims q → r.getD (pos dims q) none =
        cell q (sliceI.getD (pos dims q) none) (sliceO.getD (pos dims q) none) := by
  intro fuel
  induction fuel with
  | zero => intro current out hin hf; have := pos_lt hin; omega
  | succ fuel ih =>
    intro current out hin hf hlen hbefore hafter
    have hp := pos_lt hin
    obtain ⟨n, ns, rfl⟩ : ∃ n ns, dims = n :: ns := List.exists_cons_of_ne_nil hd
    obtain ⟨c, cs, rfl⟩ : ∃ c cs, current = c :: cs := by
      cases current with
      | nil => exact absurd hin (by simp [InShape])
      | cons c cs => exact ⟨c, cs, rfl⟩
    have hc : c < n := hin.1
    generalize hdims : n :: ns = dims at *
    generalize hcur : c :: cs = current at *
    have hpos : DataIndex.getPos (DataIndex.mk dims) current = .ok (pos dims current) :=
      DataIndex.C09_getPos_is_flat_position dims current hin.length_eq
    have r1 : readAt sliceI (pos dims current) = .ok (sliceI.getD (pos dims current) none) := by
      simp [readAt, show pos dims current < sliceI.length by omega]
    have r2 : readAt out (pos dims current) = .ok (sliceO.getD (pos dims current) none) := by
      rw [← hafter _ (le_refl _)]
      simp [readAt, show pos dims current < out.length by omega]
    set v := cell current (sliceI.getD (pos dims current) none) (sliceO.getD (pos dims current) none) with hv
    have r3 : Fill.writeAt out (pos dims current) v = .ok (out.set (pos dims current) v) := by
      unfold Fill.writeAt
      rw [if_pos (by omega)]
    have hstep : cellStep cell dims sliceI current out = .ok (out.set (pos dims current) v) := by
      unfold cellStep
      rw [hpos]
      simp only [Res.ok_bind, r1, r2]
      exact r3
    have hloop : cellLoop cell dims sliceI (fuel + 1) current out =
        match increment dims current with
        | some next => cellLoop cell dims sliceI fuel next (out.set (pos dims current) v)
        | none => some (.ok (out.set (pos dims current) v)) := by
      rw [← hdims, ← hcur] at hstep ⊢
      rw [cellLoop_succ, if_pos hc, hstep]
    have hset : ∀ k, (out.set (pos dims current) v).getD k none =
        if k = pos dims current then v else out.getD k none := by
      intro k
      simp only [List.getD_eq_getElem?_getD, List.getElem?_set]
      by_cases hk : pos dims current = k
      · subst hk
        simp [show pos dims current < out.length by omega]
      · rw [if_neg hk, if_neg (Ne.symm hk)]
    have hdone : ∀ q, InShape dims q → pos dims q < pos dims current + 1 →
        (out.set (pos dims current) v).getD (pos dims q) none =
          cell q (sliceI.getD (pos dims q) none) (sliceO.getD (pos dims q) none) := by
      intro q hq hlt
      rw [hset]
      by_cases hk : pos dims q = pos dims current
      · rw [if_pos hk, hv, pos_inj hq hin hk]
      · rw [if_neg hk]; exact hbefore q hq (by omega)
    have hinc := increment_spec hin
    rw [hloop]
    cases hnext : increment dims current with
    | none =>
      rw [hnext] at hinc
      refine ⟨_, rfl, by simpa using hlen, fun q hq => hdone q hq ?_⟩
      have := pos_lt hq
      omega
    | some next =>
      rw [hnext] at hinc
      simp only at hinc ⊢
      refine ih next _ hinc.1 (by omega) (by simpa using hlen) (fun q hq hlt => hdone q hq (by omega)) ?_
      intro k hk
      rw [hset, if_neg (by omega)]
      exact hafter k (by omega)

theorem inShape_zeros : ∀ dims : List ℕ, 0 < dims.prod → InShape dims (List.replicate dims.length 0) ∧
    pos dims (List.replicate dims.length 0) = 0
  | [], _ => ⟨trivial, rfl⟩
  | n :: ns, h => by
    rw [List.prod_cons] at h
    have hn : 0 < n := Nat.pos_of_mul_pos_right h
    have hns : 0 < ns.prod := Nat.pos_of_mul_pos_left h
    obtain ⟨a, b⟩ := inShape_zeros ns hns
    exact ⟨⟨hn, a⟩, by simp [List.replicate_succ, pos, b]⟩

theorem shapeIdx_skip (name : String) : ∀ (ds : List Dim) (i : ℕ) (found : Option ℕ), (∀ d ∈ ds, d.name ≠ name) →
    shapeIdx name ds i found = found
  | [], _, _, _ => rfl
  | d :: ds, i, found, h => by
    unfold shapeIdx
    rw [if_neg (h d (by simp))]
    exact shapeIdx_skip name ds (i + 1) found fun d' hd' => h d' (by simp [hd'])

theorem shapeIdx_of (name : String) : ∀ (ds : List Dim) (i j : ℕ) (d : Dim) (found : Option ℕ),
    (ds.map (·.name)).Nodup → ds[j]? = some d → d.name = name → shapeIdx name ds i found = some (i + j)
  | [], _, _, _, _, _, h, _ => by simp at h
  | d' :: ds, i, 0, d, found, hn, h, he => by
    simp only [List.getElem?_cons_zero, Option.some.injEq] at h
    subst h
    rw [List.map_cons, List.nodup_cons] at hn
    unfold shapeIdx
    rw [if_pos he]
    exact shapeIdx_skip name ds (i + 1) _ fun e hm h => hn.1 (by rw [he, ← h]; exact List.mem_map_of_mem hm)
  | d' :: ds, i, j + 1, d, found, hn, h, he => by
    rw [List.map_cons, List.nodup_cons] at hn
    unfold shapeIdx
    rw [shapeIdx_of name ds (i + 1) j d _ hn.2 (by simpa using h) he]
    congr 1
    omega

/-- **C40.** The whole slice: for a variable whose dimensions have different names, the unlimited one at the end, and
which has both horizontal dimensions, every cell holds: the smoothed value of that cell's horizontal position when both
inputs are defined, the inner value when only that is defined, and when the inner one is undefined, the outer one or
undefined according to the setting.  No read outside, and the loop ends. -/
theorem C40_smoothed_slice (dist : K → K → K) (transition border : ℕ) (useOuter : Bool) (nameX nameY : String)
    (fixed unlim : List Dim) (hfix : ∀ d ∈ fixed, d.unlimited = false) (hun : ∀ d ∈ unlim, d.unlimited = true)
    (hnames : ((fixed ++ unlim).map (·.name)).Nodup) (ix iy : ℕ) (dx dy : Dim)
    (hx : fixed[ix]? = some dx) (hy : fixed[iy]? = some dy) (hdx : dx.name = nameX) (hdy : dy.name = nameY)
    (hpos : ∀ d ∈ fixed, 0 < d.length)
    (sliceI sliceO : List (Option K)) (hI : sliceI.length = (fixed.map (·.length)).prod)
    (hO : sliceO.length = (fixed.map (·.length)).prod) (fuel : ℕ) (hf : (fixed.map (·.length)).prod ≤ fuel) :
    ∃ r, smoothSlice dist transition border useOuter nameX nameY (fixed ++ unlim) sliceI sliceO fuel = some (.ok r) ∧
      r.length = sliceO.length ∧
      ∀ q, InShape (fixed.map (·.length)) q → ∀ x y vI vO, q[ix]? = some x → q[iy]? = some y →
        sliceI[pos (fixed.map (·.length)) q]? = some vI → sliceO[pos (fixed.map (·.length)) q]? = some vO →
        ∃ v, r[pos (fixed.map (·.length)) q]? = some v ∧
          (∀ i o, vI = some i → vO = some o →
            v = some ((⟨transition, border, dx.length, dy.length⟩ : Linear).value dist x y i o)) ∧
          (∀ i, vI = some i → vO = none → v = some i) ∧
          (vI = none → v = if useOuter then vO else none) := by
  have hsizes : dimSizes (fixed ++ unlim) = fixed.map (·.length) := by
    unfold dimSizes
    rw [List.filter_append, List.filter_eq_self.2 (fun d hd => by simp [hfix d hd]),
      List.filter_eq_nil_iff.2 (fun d hd => by simp [hun d hd]), List.append_nil]
  have hix : ix < fixed.length := by
    by_contra hc
    rw [List.getElem?_eq_none (not_lt.mp hc)] at hx
    cases hx
  have hiy : iy < fixed.length := by
    by_contra hc
    rw [List.getElem?_eq_none (not_lt.mp hc)] at hy
    cases hy
  have sx : shapeIdx nameX (fixed ++ unlim) 0 none = some ix := by
    rw [shapeIdx_of nameX _ 0 ix dx none hnames (by rw [List.getElem?_append_left hix]; exact hx) hdx, Nat.zero_add]
  have sy : shapeIdx nameY (fixed ++ unlim) 0 none = some iy := by
    rw [shapeIdx_of nameY _ 0 iy dy none hnames (by rw [List.getElem?_append_left hiy]; exact hy) hdy, Nat.zero_add]
  set dims := fixed.map (·.length) with hdims
  have hdne : dims ≠ [] := by
    intro h
    rw [hdims, List.map_eq_nil_iff] at h
    rw [h] at hix
    simp at hix
  have hprod : 0 < dims.prod := by
    rw [hdims]
    have : ∀ l : List Dim, (∀ d ∈ l, 0 < d.length) → 0 < (l.map (·.length)).prod := by
      intro l
      induction l with
      | nil => intro _; simp
      | cons a l ih =>
        intro h
        rw [List.map_cons, List.prod_cons]
        exact Nat.mul_pos (h a (by simp)) (ih fun d hd => h d (by simp [hd]))
    exact this fixed hpos
  obtain ⟨z1, z2⟩ := inShape_zeros dims hprod
  have ax : sizeAt dims (some ix) = .ok dx.length := by simp [sizeAt, readAt, hdims, hx]
  have ay : sizeAt dims (some iy) = .ok dy.length := by simp [sizeAt, readAt, hdims, hy]
  obtain ⟨r, hr, hrl, hrc⟩ := cellLoop_spec
    (fun p => mergeCell useOuter ((⟨transition, border, dx.length, dy.length⟩ : Linear).value dist
      (p.getD ix 0) (p.getD iy 0))) dims hdne sliceI sliceO hI fuel (List.replicate dims.length 0) sliceO z1
    (by omega) hO (fun q _ h => by omega) (fun _ _ => rfl)
  refine ⟨r, ?_, by omega, ?_⟩
  · unfold smoothSlice
    dsimp only
    rw [hsizes, if_neg hdne, sx, sy, ax, ay]
    exact hr
  · intro q hq x y vI vO hqx hqy hvI hvO
    have hk := pos_lt hq
    have hv := hrc q hq
    simp only [List.getD_eq_getElem?_getD, hqx, hqy, hvI, hvO, Option.getD_some] at hv
    refine ⟨r.getD (pos dims q) none, by simp [show pos dims q < r.length by omega], ?_⟩
    rw [List.getD_eq_getElem?_getD, hv]
    refine ⟨?_, ?_, ?_⟩
    · rintro i o rfl rfl; rfl
    · rintro i rfl rfl; rfl
    · rintro rfl; cases vO <;> rfl

example : smoothSlice (K := ℚ) (fun _ _ => 1) 1 1 false "x" "y" [⟨"x", 3, false⟩, ⟨"y", 3, false⟩, ⟨"t", 7, true⟩]
    [some 1, some 1, some 1, some 1, some 1, some 1, some 1, none, some 1]
    [some 2, some 2, some 2, some 2, some 2, none, some 2, some 2, some 2] 9 =
    some (.ok [some 2, some 2, some 2, some 2, some 2, some 1, some 2, none, some 2]) := by decide +kernel

/-- A variable of both datasets that lacks a horizontal dimension (for instance a profile) reads `dimSizes[-1]`. -/
theorem C40_missing_horizontal_dimension (dist : K → K → K) (transition border : ℕ) (useOuter : Bool)
    (nameX nameY : String) (shape : List Dim) (hx : ∀ d ∈ shape, d.name ≠ nameX) (hne : dimSizes shape ≠ [])
    (sliceI sliceO : List (Option K)) (fuel : ℕ) :
    smoothSlice dist transition border useOuter nameX nameY shape sliceI sliceO fuel = some .ub := by
  unfold smoothSlice
  dsimp only
  rw [if_neg hne, shapeIdx_skip nameX shape 0 none hx]
  rfl

example : dimSizes [⟨"k", 3, false⟩] ≠ [] := by decide

end Fimex.Smoothing
