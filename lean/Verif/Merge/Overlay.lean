import Verif.Interp.OneDim

/-!
# Overlay of two datasets

Model of `CDMOverlay::getDataSlice`, `src/CDMOverlay.cc:66-151`, with C41.  Floating point values are `Option K`, `none`
is NaN; the conversion between the packed types of the two readers and unit conversion belong to the readers
(parameters here; see `Verif/Scale`).
-/

namespace Fimex.Overlay

variable {K : Type} [DecidableEq K]

/-! ## Model -/

/-- C++ `==` on floating point values. -/
def feq (a b : Option K) : Bool :=
  match a, b with
  | some x, some y => decide (x = y)
  | _, _ => false

/-- src/CDMOverlay.cc:81-84: first the value of the top replaces the one of the base, then what is now in the base's
place is compared to the base's fill value. -/
def overlayCell (fillT fillB valueT valueB : Option K) : Option K :=
  let b := if (valueT.isNone || feq valueT fillT) = false then valueT else valueB
  if (b.isNone || feq b fillB) = true then fillT else b

/-- src/CDMOverlay.cc:73-88 `overlayDataSlices`: as many cells as the base has, no check of the size of the top. -/
def overlayDataSlices (fillT fillB : Option K) (sliceT sliceB : List (Option K)) : Res (List (Option K)) :=
  (List.range sliceB.length).mapM fun i => do
    let vT ← readAt sliceT i
    let vB ← readAt sliceB i
    .ok (overlayCell fillT fillB vT vB)

/-- src/CDMOverlay.cc:139-143: the loop over scaled values. -/
def overlayScaled (sliceT sliceB : List (Option K)) : Res (List (Option K)) :=
  (List.range sliceB.length).mapM fun i => do
    let vT ← readAt sliceT i
    let vB ← readAt sliceB i
    .ok (if vT.isNone = false then vT else vB)

/-- The data types that matter here. -/
inductive DType where
  | float | double | other
deriving DecidableEq

/-- What `getDataSlice` asks about a variable of one reader. -/
structure Var (K : Type) where
  units : String
  dtype : DType
  scale : K
  offset : K
  fill : Option K

/-- A reader of one variable slice: packed, scaled and scaled in the units of the top. -/
structure Reader (K : Type) where
  var : Option (Var K)
  packed : Res (List (Option K))
  scaled : Res (List (Option K))
  scaledInUnit : String → Res (List (Option K))

/-- src/CDMOverlay.cc:91-151 `getDataSlice`; `pack` is the conversion at the end (lines 145-149). -/
def getDataSlice (isDimension : Bool) (top base : Reader K) (pack : List (Option K) → Res (List (Option K))) :
    Res (List (Option K)) :=
  match top.var with
  | none => base.packed
  | some vT =>
    if isDimension = true then top.packed
    else match base.var with
    | none => .throws
    | some vB =>
      if vT.units = vB.units ∧ vT.dtype = vB.dtype ∧ vT.scale = vB.scale ∧ vT.offset = vB.offset ∧
          vT.dtype ≠ .other then do
        let sT ← top.packed
        let sB ← base.packed
        overlayDataSlices vT.fill vB.fill sT sB
      else do
        let sT ← top.scaled
        let sB ← if vT.units = "" ∨ vB.units = "" ∨ vT.units = vB.units then base.scaled else base.scaledInUnit vT.units
        let r ← overlayScaled sT sB
        pack r

/-! ## Specification -/

/-- The value a packed floating point number stands for: none when it is NaN or the fill value. -/
def defined (fill v : Option K) : Option K := if v = fill then none else v

/-- Top where defined, else base. -/
def prefer (t b : Option K) : Option K := if t ≠ none then t else b

/-! ## Theorems -/

theorem isNone_or_feq (v f : Option K) : (v.isNone || feq v f) = true ↔ v = none ∨ v = f := by
  cases v with
  | none => simp
  | some x => cases f with
    | none => simp [feq]
    | some y => simp [feq]

theorem defined_none (fill v : Option K) : defined fill v = none ↔ v = none ∨ v = fill := by
  unfold defined
  by_cases h : v = fill
  · rw [if_pos h]; simp [h]
  · rw [if_neg h]; simp [h]

/-- One cell: what the result stands for (with the fill value of the top, which the overlaid dataset has). -/
theorem overlayCell_spec (fillT fillB t b : Option K) (h1 : defined fillT t = none ∨ t ≠ fillB)
    (h2 : defined fillB b = none ∨ b ≠ fillT) :
    defined fillT (overlayCell fillT fillB t b) = prefer (defined fillT t) (defined fillB b) := by
  unfold overlayCell
  dsimp only
  by_cases ht : t = none ∨ t = fillT
  · have e1 : (t.isNone || feq t fillT) = true := (isNone_or_feq t fillT).2 ht
    have e2 : defined fillT t = none := (defined_none _ _).2 ht
    have e3 : (if (t.isNone || feq t fillT) = false then t else b) = b := if_neg (by rw [e1]; decide)
    have e4 : prefer none (defined fillB b) = defined fillB b := if_neg (by simp)
    rw [e3, e2, e4]
    by_cases hb : b = none ∨ b = fillB
    · rw [if_pos ((isNone_or_feq b fillB).2 hb), (defined_none fillB b).2 hb]
      exact (defined_none _ _).2 (Or.inr rfl)
    · rw [if_neg (fun h => hb ((isNone_or_feq b fillB).1 h))]
      have hb' : b ≠ fillB := fun h => hb (Or.inr h)
      have hd : defined fillB b = b := if_neg hb'
      rw [hd]
      have : b ≠ fillT := by
        rcases h2 with h | h
        · exact absurd ((defined_none _ _).1 h) hb
        · exact h
      exact if_neg this
  · have e1 : (t.isNone || feq t fillT) = false := by
      cases h : (t.isNone || feq t fillT) with
      | false => rfl
      | true => exact absurd ((isNone_or_feq t fillT).1 h) ht
    have ht' : t ≠ fillT := fun h => ht (Or.inr h)
    have hd : defined fillT t = t := if_neg ht'
    have hn : t ≠ none := fun h => ht (Or.inl h)
    rw [e1, if_pos rfl, hd]
    unfold prefer
    rw [if_pos hn]
    have hB : t ≠ fillB := by
      rcases h1 with h | h
      · rw [hd] at h; exact absurd h hn
      · exact h
    rw [if_neg (fun h => by
      rcases (isNone_or_feq t fillB).1 h with h | h
      · exact hn h
      · exact hB h)]
    exact hd

omit [DecidableEq K] in
theorem cellwise (f : Option K → Option K → Option K) (sliceT sliceB : List (Option K))
    (hlen : sliceT.length = sliceB.length) :
    ((List.range sliceB.length).mapM fun i => do
      let vT ← readAt sliceT i
      let vB ← readAt sliceB i
      .ok (f vT vB) : Res (List (Option K))) = .ok (List.zipWith f sliceT sliceB) := by
  rw [Interp.mapM_range_ok (g := fun i => f (sliceT.getD i none) (sliceB.getD i none))]
  · congr 1
    apply List.ext_getElem
    · simp [hlen]
    · intro i h1 h2
      simp at h1
      simp [h1, show i < sliceT.length by omega]
  · intro i hi
    have h1 : readAt sliceT i = .ok (sliceT.getD i none) := by simp [readAt, show i < sliceT.length by omega]
    have h2 : readAt sliceB i = .ok (sliceB.getD i none) := by simp [readAt, hi]
    rw [h1, h2]
    rfl

/-- **C41.** Slices of equal size and with equal fill values: every cell of the result stands for the top's value when
that is defined and for the base's otherwise. -/
theorem C41_overlay (fill : Option K) (sliceT sliceB : List (Option K)) (hlen : sliceT.length = sliceB.length) :
    ∃ r, overlayDataSlices fill fill sliceT sliceB = .ok r ∧ r.length = sliceB.length ∧
      ∀ (i : ℕ) (t b : Option K), sliceT[i]? = some t → sliceB[i]? = some b →
        ∃ v, r[i]? = some v ∧ defined fill v = prefer (defined fill t) (defined fill b) := by
  refine ⟨_, cellwise (overlayCell fill fill) sliceT sliceB hlen, by simp [hlen], ?_⟩
  intro i t b ht hb
  refine ⟨overlayCell fill fill t b, by simp [List.getElem?_zipWith, ht, hb], overlayCell_spec _ _ _ _ ?_ ?_⟩
  · by_cases h : t = fill
    · exact Or.inl ((defined_none _ _).2 (Or.inr h))
    · exact Or.inr h
  · by_cases h : b = fill
    · exact Or.inl ((defined_none _ _).2 (Or.inr h))
    · exact Or.inr h

example : overlayDataSlices (some (-1 : ℤ)) (some (-1)) [some 5, some (-1), none, none] [some 1, some 2, some 3, none] =
    .ok [some 5, some 2, some 3, some (-1)] := by decide

/-- **C41.** The same with different fill values.  Missing for the full statement: the cells where a defined value of
the top equals the fill value of the base (lost, see below) and those where a defined value of the base equals the fill
value of the top (cannot be written). -/
theorem C41_overlay_fill_values_partial (fillT fillB : Option K) (sliceT sliceB : List (Option K))
    (hlen : sliceT.length = sliceB.length) :
    ∃ r, overlayDataSlices fillT fillB sliceT sliceB = .ok r ∧ r.length = sliceB.length ∧
      ∀ (i : ℕ) (t b : Option K), sliceT[i]? = some t → sliceB[i]? = some b →
        (defined fillT t = none ∨ t ≠ fillB) → (defined fillB b = none ∨ b ≠ fillT) →
        ∃ v, r[i]? = some v ∧ defined fillT v = prefer (defined fillT t) (defined fillB b) := by
  refine ⟨_, cellwise (overlayCell fillT fillB) sliceT sliceB hlen, by simp [hlen], ?_⟩
  intro i t b ht hb h1 h2
  exact ⟨overlayCell fillT fillB t b, by simp [List.getElem?_zipWith, ht, hb], overlayCell_spec _ _ _ _ h1 h2⟩

example : overlayDataSlices (some (-1 : ℤ)) (some (-9)) [some 5, some (-1), none, none] [some 1, some (-9), some 3, none] =
    .ok [some 5, some (-1), some 3, some (-1)] := by decide

/-- A defined value of the top which happens to be the fill value of the base is replaced by undefined, although the
base is defined there as well: the comparison comes after the assignment. -/
theorem C41_top_value_lost :
    overlayDataSlices (some (-1 : ℤ)) (some 0) [some 0] [some 7] = .ok [some (-1)] ∧
    defined (some (-1 : ℤ)) (some 0) = some 0 := by decide

/-- **C41.** On the way over scaled values the rule holds without exception; the slices must have the same size. -/
theorem C41_overlay_scaled (sliceT sliceB : List (Option K)) (hlen : sliceT.length = sliceB.length) :
    overlayScaled sliceT sliceB = .ok (List.zipWith prefer sliceT sliceB) := by
  unfold overlayScaled
  rw [cellwise (fun t b => if t.isNone = false then t else b) sliceT sliceB hlen]
  congr 1
  congr 1
  funext t b
  cases t <;> simp [prefer]

example : overlayScaled [some (5 : ℤ), none, none] [some 1, some 2, none] = .ok [some 5, some 2, none] := by decide

/-- A top slice smaller than the base (for instance an empty one) is read outside of its end. -/
theorem C41_short_top_undefined (fillT fillB : Option K) (sliceT sliceB : List (Option K))
    (hlen : sliceT.length < sliceB.length) :
    overlayDataSlices fillT fillB sliceT sliceB = .ub ∧ overlayScaled sliceT sliceB = .ub := by
  have key : ∀ f : Option K → Option K → Option K,
      ((List.range sliceB.length).mapM fun i => do
        let vT ← readAt sliceT i
        let vB ← readAt sliceB i
        .ok (f vT vB) : Res (List (Option K))) = .ub := by
    intro f
    have e : List.range sliceB.length = List.range sliceT.length ++
        (sliceT.length :: (List.range (sliceB.length - sliceT.length - 1)).map (sliceT.length + 1 + ·)) := by
      apply List.ext_getElem
      · simp; omega
      · intro i h1 h2
        simp at h1
        by_cases hi : i < sliceT.length
        · rw [List.getElem_append_left (by simpa using hi)]; simp
        · rw [List.getElem_append_right (by simpa using hi)]
          by_cases he : i = sliceT.length
          · subst he; simp
          · obtain ⟨j, rfl⟩ : ∃ j, i = sliceT.length + 1 + j := ⟨i - sliceT.length - 1, by omega⟩
            simp [show sliceT.length + 1 + j - sliceT.length = j + 1 by omega]
    rw [e, List.mapM_append]
    have hfirst := Interp.mapM_range_ok (n := sliceT.length)
      (f := fun i => (do
        let vT ← readAt sliceT i
        let vB ← readAt sliceB i
        .ok (f vT vB) : Res (Option K)))
      (g := fun i => f (sliceT.getD i none) (sliceB.getD i none))
      (by
        intro i hi
        have h1 : readAt sliceT i = .ok (sliceT.getD i none) := by simp [readAt, hi]
        have h2 : readAt sliceB i = .ok (sliceB.getD i none) := by simp [readAt, show i < sliceB.length by omega]
        rw [h1, h2]
        rfl)
    rw [hfirst, List.mapM_cons]
    have : readAt sliceT sliceT.length = .ub := by simp [readAt]
    rw [this]
    rfl
  exact ⟨key _, key _⟩

/-- **C41.** Which data is used: a coordinate variable of the top comes from the top alone, a variable missing in the
top from the base alone, a variable missing in the base raises.  The packed values are mixed only if units, type, scale
and offset agree, otherwise the scaled ones, those of the base in the units of the top. -/
theorem C41_choice_of_data (isDim : Bool) (top base : Reader K) (pack : List (Option K) → Res (List (Option K))) :
    (top.var = none → getDataSlice isDim top base pack = base.packed) ∧
    (∀ vT, top.var = some vT → isDim = true → getDataSlice isDim top base pack = top.packed) ∧
    (∀ vT, top.var = some vT → isDim = false → base.var = none → getDataSlice isDim top base pack = .throws) ∧
    (∀ vT vB sT sB, top.var = some vT → isDim = false → base.var = some vB → sT.length = sB.length →
      vT.units ≠ vB.units → vT.units ≠ "" → vB.units ≠ "" →
      top.scaled = .ok sT → base.scaledInUnit vT.units = .ok sB →
      getDataSlice isDim top base pack = pack (List.zipWith prefer sT sB)) ∧
    (∀ vT vB sT sB, top.var = some vT → isDim = false → base.var = some vB → sT.length = sB.length →
      vT.units = vB.units → (vT.dtype ≠ vB.dtype ∨ vT.scale ≠ vB.scale ∨ vT.offset ≠ vB.offset ∨ vT.dtype = .other) →
      top.scaled = .ok sT → base.scaled = .ok sB →
      getDataSlice isDim top base pack = pack (List.zipWith prefer sT sB)) ∧
    (∀ vT vB sT sB, top.var = some vT → isDim = false → base.var = some vB →
      vT.units = vB.units → vT.dtype = vB.dtype → vT.scale = vB.scale → vT.offset = vB.offset → vT.dtype ≠ .other →
      top.packed = .ok sT → base.packed = .ok sB →
      getDataSlice isDim top base pack = overlayDataSlices vT.fill vB.fill sT sB) := by
  refine ⟨?_, ?_, ?_, ?_, ?_, ?_⟩
  · intro h; unfold getDataSlice; rw [h]
  · intro vT h hd; unfold getDataSlice; rw [h]; dsimp only; rw [if_pos hd]
  · intro vT h hd hb
    unfold getDataSlice; rw [h]; dsimp only; rw [if_neg (by simp [hd]), hb]
  · intro vT vB sT sB h hd hb hl hu h1 h2 hT hB
    unfold getDataSlice
    rw [h]
    dsimp only
    rw [if_neg (by simp [hd]), hb]
    dsimp only
    rw [if_neg (fun hc => hu hc.1), hT]
    simp only [Res.ok_bind]
    rw [if_neg (by simp [h1, h2, hu]), hB]
    simp only [Res.ok_bind]
    rw [C41_overlay_scaled sT sB hl]
    rfl
  · intro vT vB sT sB h hd hb hl hu hx hT hB
    unfold getDataSlice
    rw [h]
    dsimp only
    rw [if_neg (by simp [hd]), hb]
    dsimp only
    rw [if_neg (fun hc => by
      rcases hx with h | h | h | h
      · exact h hc.2.1
      · exact h hc.2.2.1
      · exact h hc.2.2.2.1
      · exact hc.2.2.2.2 h), hT]
    simp only [Res.ok_bind]
    rw [if_pos (Or.inr (Or.inr hu)), hB]
    simp only [Res.ok_bind]
    rw [C41_overlay_scaled sT sB hl]
    rfl
  · intro vT vB sT sB h hd hb h1 h2 h3 h4 h5 hT hB
    unfold getDataSlice
    rw [h]
    dsimp only
    rw [if_neg (by simp [hd]), hb]
    dsimp only
    rw [if_pos ⟨h1, h2, h3, h4, h5⟩, hT]
    simp only [Res.ok_bind]
    rw [hB]
    rfl

end Fimex.Overlay
