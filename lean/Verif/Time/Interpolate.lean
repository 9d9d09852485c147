import Verif.Search.Model
import Verif.Interp.OneDim

/-!
# Time interpolation

Model of `CDMTimeInterpolator::changeTimeAxis` and `getDataSlice`, `src/CDMTimeInterpolator.cc:91-213`, with C39.

Simplifications: points in time are numbers of a linear ordered field, in one unit, so that `FimexTime` and the value of
the new time axis are the same thing; the time specification is already evaluated to its list of times.
-/

namespace Fimex.TimeInterp

open Fimex.Search Fimex.Interp

variable {K : Type} [Field K] [LinearOrder K]

/-! ## Model -/

/-- src/CDMTimeInterpolator.cc:167-171: `pos` after the search in `[lastPos, end)` and the correction at the end. -/
def searchPos (oldTimes : List K) (lastPos : ℕ) (t : K) : ℕ :=
  let pos := lastPos + lowerBound (oldTimes.drop lastPos) t
  if pos = oldTimes.length then pos - 1 else pos

/-- src/CDMTimeInterpolator.cc:172-182: the two input times of position `pos`. -/
def pairAt (size pos : ℕ) : ℕ × ℕ :=
  if pos ≠ 0 then (pos - 1, pos)
  else if pos + 1 ≠ size then (pos, pos + 1)
  else (pos, pos)

/-- src/CDMTimeInterpolator.cc:166-185: the loop over the new times. -/
def mapLoop (oldTimes : List K) : ℕ → List K → List (ℕ × ℕ)
  | _, [] => []
  | lastPos, t :: ts =>
    let pos := searchPos oldTimes lastPos t
    pairAt oldTimes.length pos :: mapLoop oldTimes pos ts

/-- src/CDMTimeInterpolator.cc:141-186, one time axis: without input times `oldTimes[0]` is undefined behaviour. -/
def changeTimeAxis (oldTimes newTimes : List K) : Res (List (ℕ × ℕ)) :=
  if oldTimes = [] then .ub else .ok (mapLoop oldTimes 0 newTimes)

/-- `std::vector::at`. -/
def vectorAt {α : Type} (l : List α) (i : ℕ) : Res α :=
  match l[i]? with
  | some v => .ok v
  | none => .throws

/-- State of the interpolator for one time axis: `dataReaderTimesInNewUnits_` and `timeChangeMap_` (no entry before
`changeTimeAxis`), and the values of the new axis. -/
structure Axis (K : Type) where
  oldTimes : Option (List K)
  mapping : List (ℕ × ℕ)
  newTimes : List K
  unlimited : Bool

/-- src/CDMTimeInterpolator.cc:119-131: joining the two input slices. -/
def joinSlices (d1 d2 : List (Option K)) (t1 t2 t : K) : Res (List (Option K)) :=
  if d1.length = 0 then .ok d2
  else if d2.length = 0 then .ok d1
  else if d1.length = d2.length then linearWeak d1 d2 d1.length t1 t2 t
  else .throws

/-- src/CDMTimeInterpolator.cc:91-139 `getDataSlice` of a variable with a time axis and without data in memory; line 95
dereferences the result of `find` without comparing it to `end()`. -/
def getDataSlice (reader : ℕ → Res (List (Option K))) (a : Axis K) (unLimDimPos : ℕ) : Res (List (Option K)) :=
  match a.oldTimes with
  | none => .ub
  | some oldTimes =>
    if oldTimes.length = 0 then reader unLimDimPos
    else if a.unlimited = false then .throws
    else if a.newTimes.length = 0 then .ub
    else do
      let currentTime ← vectorAt a.newTimes unLimDimPos
      let orgTimes ← vectorAt a.mapping unLimDimPos
      let d1Time ← vectorAt oldTimes orgTimes.1
      let d2Time ← vectorAt oldTimes orgTimes.2
      let d1 ← reader orgTimes.1
      let d2 ← reader orgTimes.2
      joinSlices d1 d2 d1Time d2Time currentTime

/-! ## Specification -/

/-- The two positions `p` are the right ones for time `t` on the axis `w`: neighbours that bracket `t`, the outermost
two when `t` is outside, the only one when there is only one. -/
structure Brackets (w : List K) (t : K) (p : ℕ × ℕ) : Prop where
  single : w.length = 1 → p = (0, 0)
  neighbours : 2 ≤ w.length → p.2 = p.1 + 1 ∧ p.2 < w.length
  before : 2 ≤ w.length → (∀ x ∈ w, t ≤ x) → p = (0, 1)
  after : 2 ≤ w.length → (∀ x ∈ w, x < t) → p = (w.length - 2, w.length - 1)
  inside : (∃ x ∈ w, x < t) → (∃ x ∈ w, t ≤ x) →
    ∃ a b, w[p.1]? = some a ∧ w[p.2]? = some b ∧ a < t ∧ t ≤ b

/-! ## Theorems -/

/-- The position found from a valid restart position. -/
theorem searchPos_spec (w : List K) (hw : w.Pairwise (· ≤ ·)) (lastPos : ℕ) (t : K) (hl : lastPos < w.length)
    (hlast : ∀ i : ℕ, ∀ h : i < w.length, i < lastPos → w[i] < t) :
    searchPos w lastPos t < w.length ∧
    (∀ i : ℕ, ∀ h : i < w.length, i < searchPos w lastPos t → w[i] < t) ∧
    (searchPos w lastPos t + 1 < w.length → ∀ h : searchPos w lastPos t < w.length, t ≤ w[searchPos w lastPos t]) ∧
    ((∃ x ∈ w, t ≤ x) → ∀ h : searchPos w lastPos t < w.length, t ≤ w[searchPos w lastPos t]) := by
  have hd : (w.drop lastPos).Pairwise (· ≤ ·) := hw.sublist (List.drop_sublist _ _)
  obtain ⟨h1, h2⟩ := lowerBound_spec (w.drop lastPos) hd t
  have hlen : (w.drop lastPos).length = w.length - lastPos := by simp
  have below : ∀ i : ℕ, ∀ h : i < w.length, i < lastPos + lowerBound (w.drop lastPos) t → w[i] < t := by
    intro i h hi
    by_cases hil : i < lastPos
    · exact hlast i h hil
    · have hi' : i - lastPos < (w.drop lastPos).length := by omega
      have h3 := (h2 (i - lastPos) hi').not.mp (by omega)
      rw [List.getElem_drop] at h3
      have e : lastPos + (i - lastPos) = i := by omega
      simp only [e] at h3
      exact not_le.mp h3
  have above : ∀ h : lastPos + lowerBound (w.drop lastPos) t < w.length,
      t ≤ w[lastPos + lowerBound (w.drop lastPos) t] := by
    intro h
    have h3 := (h2 (lowerBound (w.drop lastPos) t) (by omega)).mp (le_refl _)
    rw [List.getElem_drop] at h3
    exact h3
  by_cases he : lastPos + lowerBound (w.drop lastPos) t = w.length
  · have e : searchPos w lastPos t = w.length - 1 := by
      unfold searchPos; dsimp only; rw [if_pos he, he]
    rw [e]
    refine ⟨by omega, fun i h hi => below i h (by omega), fun h => by omega, ?_⟩
    rintro ⟨x, hx, htx⟩
    obtain ⟨i, hi, rfl⟩ := List.getElem_of_mem hx
    exact absurd (below i hi (by omega)) (not_lt.mpr htx)
  · have e : searchPos w lastPos t = lastPos + lowerBound (w.drop lastPos) t := by
      unfold searchPos; dsimp only; rw [if_neg he]
    rw [e]
    exact ⟨by omega, below, fun _ => above, fun _ => above⟩

theorem pairAt_brackets (w : List K) (hw : w.Pairwise (· ≤ ·)) (t : K) (pos : ℕ) (hp : pos < w.length)
    (below : ∀ i : ℕ, ∀ h : i < w.length, i < pos → w[i] < t)
    (above : pos + 1 < w.length → ∀ h : pos < w.length, t ≤ w[pos])
    (above' : (∃ x ∈ w, t ≤ x) → ∀ h : pos < w.length, t ≤ w[pos]) : Brackets w t (pairAt w.length pos) := by
  by_cases h0 : pos = 0
  · subst h0
    by_cases h1 : w.length = 1
    · have e : pairAt w.length 0 = (0, 0) := by simp [pairAt, h1]
      rw [e]
      refine ⟨fun _ => rfl, fun h => by omega, fun h => by omega, fun h => by omega, ?_⟩
      rintro ⟨x, hx, hxt⟩ hex
      obtain ⟨i, hi, rfl⟩ := List.getElem_of_mem hx
      have hi0 : i = 0 := by omega
      subst hi0
      exact absurd (above' hex hp) (not_le.mpr hxt)
    · have e : pairAt w.length 0 = (0, 1) := by
        unfold pairAt
        rw [if_neg (by simp), if_pos (by omega)]
      have ha := above (by omega) hp
      rw [e]
      refine ⟨fun h => absurd h h1, fun h => ⟨rfl, by simp only; omega⟩, fun _ _ => rfl, ?_, ?_⟩
      · intro h hall
        exact absurd (hall _ (List.getElem_mem hp)) (not_lt.mpr ha)
      · rintro ⟨x, hx, hxt⟩ _
        obtain ⟨i, hi, rfl⟩ := List.getElem_of_mem hx
        exact absurd (lt_of_le_of_lt (sorted_le hw hp hi (Nat.zero_le _)) hxt) (not_lt.mpr ha)
  · have e : pairAt w.length pos = (pos - 1, pos) := by
      unfold pairAt; rw [if_pos h0]
    have hb := below (pos - 1) (by omega) (by omega)
    rw [e]
    refine ⟨fun h => by omega, fun h => ⟨by simp only; omega, hp⟩, ?_, ?_, ?_⟩
    · intro _ hall
      exact absurd (hall _ (List.getElem_mem (by omega))) (not_le.mpr hb)
    · intro _ hall
      have : ¬ pos + 1 < w.length := fun h => absurd (hall _ (List.getElem_mem hp)) (not_lt.mpr (above h hp))
      have e1 : pos = w.length - 1 := by omega
      have e2 : pos - 1 = w.length - 2 := by omega
      rw [e2, ← e1]
    · intro _ hex
      exact ⟨w[pos - 1], w[pos], by simp [show pos - 1 < w.length by omega], by simp [hp], hb, above' hex hp⟩

theorem mapLoop_spec (w : List K) (hw : w.Pairwise (· ≤ ·)) : ∀ (new : List K) (lastPos : ℕ), lastPos < w.length →
    new.Pairwise (· ≤ ·) → (∀ t ∈ new, ∀ i : ℕ, ∀ h : i < w.length, i < lastPos → w[i] < t) →
    (mapLoop w lastPos new).length = new.length ∧
    ∀ (k : ℕ) (t : K), new[k]? = some t → ∃ p, (mapLoop w lastPos new)[k]? = some p ∧ Brackets w t p := by
  intro new
  induction new with
  | nil => intro lastPos _ _ _; exact ⟨rfl, fun k t h => by simp at h⟩
  | cons t ts ih =>
    intro lastPos hl hn hlast
    obtain ⟨s1, s2, s3, s4⟩ := searchPos_spec w hw lastPos t hl (hlast t (by simp))
    rw [List.pairwise_cons] at hn
    obtain ⟨i1, i2⟩ := ih (searchPos w lastPos t) s1 hn.2
      (fun t' ht' i h hi => lt_of_lt_of_le (s2 i h hi) (hn.1 t' ht'))
    refine ⟨by simp [mapLoop, i1], ?_⟩
    intro k t' hk
    cases k with
    | zero =>
      simp only [List.getElem?_cons_zero, Option.some.injEq] at hk
      subst hk
      exact ⟨_, rfl, pairAt_brackets w hw t _ s1 s2 s3 s4⟩
    | succ k =>
      simp only [List.getElem?_cons_succ] at hk
      exact i2 k t' hk

/-- **C39.** For an ascending non-empty input axis and ascending output times, every output time gets the two
neighbouring input times that bracket it, or the outermost two when it is outside. -/
theorem C39_bracketing_times (oldTimes newTimes : List K) (hne : oldTimes ≠ []) (hold : oldTimes.Pairwise (· ≤ ·))
    (hnew : newTimes.Pairwise (· ≤ ·)) :
    ∃ m, changeTimeAxis oldTimes newTimes = .ok m ∧ m.length = newTimes.length ∧
      ∀ (k : ℕ) (t : K), newTimes[k]? = some t → ∃ p, m[k]? = some p ∧ Brackets oldTimes t p := by
  have hlen : 0 < oldTimes.length := List.length_pos_iff.mpr hne
  have := mapLoop_spec oldTimes hold newTimes 0 hlen hnew (fun _ _ _ _ h => absurd h (Nat.not_lt_zero _))
  exact ⟨_, by rw [changeTimeAxis, if_neg hne], this⟩

example : changeTimeAxis [(0 : ℚ), 6, 12] [-3, 0, 3, 6, 7, 12, 20] =
    .ok [(0, 1), (0, 1), (0, 1), (0, 1), (1, 2), (1, 2), (1, 2)] := by decide +kernel

variable [IsStrictOrderedRing K]

omit [IsStrictOrderedRing K] in
theorem strict_sorted {w : List K} (hw : w.Pairwise (· < ·)) : w.Pairwise (· ≤ ·) := hw.imp le_of_lt

/-- **C39.** The slice at an output time inside the range of a strictly ascending input axis with at least two times is,
cell by cell, the value on the straight line between the slices of two input times next to each other which bracket
that time. -/
theorem C39_interpolated_slice (reader : ℕ → Res (List (Option K))) (slice : ℕ → List (Option K)) (n : ℕ) (hn : n ≠ 0)
    (oldTimes newTimes : List K) (hold : oldTimes.Pairwise (· < ·)) (hnew : newTimes.Pairwise (· ≤ ·))
    (hread : ∀ i, i < oldTimes.length → reader i = .ok (slice i)) (hsize : ∀ i, (slice i).length = n)
    (k : ℕ) (t : K) (hk : newTimes[k]? = some t)
    (hlo : ∃ x ∈ oldTimes, x < t) (hhi : ∃ x ∈ oldTimes, t ≤ x) :
    ∃ (m : List (ℕ × ℕ)) (i : ℕ) (a b : K), changeTimeAxis oldTimes newTimes = .ok m ∧
      oldTimes[i]? = some a ∧ oldTimes[i + 1]? = some b ∧ a < t ∧ t ≤ b ∧
      getDataSlice reader ⟨some oldTimes, m, newTimes, true⟩ k =
        .ok (pointwise (lineValue a b t) (slice i) (slice (i + 1)) n) := by
  have hne : oldTimes ≠ [] := by
    rintro rfl
    obtain ⟨x, hx, _⟩ := hlo
    simp at hx
  obtain ⟨m, hm, hml, hb⟩ := C39_bracketing_times oldTimes newTimes hne (strict_sorted hold) hnew
  obtain ⟨p, hp, B⟩ := hb k t hk
  obtain ⟨a, b, ha, hbb, hat, htb⟩ := B.inside hlo hhi
  have hlen : 2 ≤ oldTimes.length := by
    rcases Nat.lt_or_ge oldTimes.length 2 with h | h
    · have h1 : oldTimes.length = 1 := by have := List.length_pos_iff.mpr hne; omega
      have e := B.single h1
      rw [e] at ha hbb
      rw [ha] at hbb
      cases hbb
      exact absurd hat (not_lt.mpr htb)
    · exact h
  obtain ⟨e2, hp2⟩ := B.neighbours hlen
  refine ⟨m, p.1, a, b, hm, ha, by rw [← e2]; exact hbb, hat, htb, ?_⟩
  have hnl : newTimes.length ≠ 0 := by
    intro h
    rw [List.length_eq_zero_iff.mp h] at hk
    simp at hk
  have r1 : vectorAt newTimes k = .ok t := by simp [vectorAt, hk]
  have r2 : vectorAt m k = .ok p := by simp [vectorAt, hp]
  have r3 : vectorAt oldTimes p.1 = .ok a := by simp [vectorAt, ha]
  have r4 : vectorAt oldTimes p.2 = .ok b := by simp [vectorAt, hbb]
  have g : getDataSlice reader ⟨some oldTimes, m, newTimes, true⟩ k =
      joinSlices (slice p.1) (slice p.2) a b t := by
    unfold getDataSlice
    dsimp only
    rw [if_neg (by omega), if_neg (by simp), if_neg hnl, r1]
    simp only [Res.ok_bind, r2, r3, r4]
    rw [hread p.1 (by omega), hread p.2 hp2]
    rfl
  have hab : a < b := lt_of_lt_of_le hat htb
  rw [g, ← e2]
  unfold joinSlices
  rw [if_neg (by rw [hsize]; exact hn), if_neg (by rw [hsize]; exact hn), if_pos (by rw [hsize, hsize]), hsize]
  refine (C34_weak_extrapolation (slice p.1) (slice p.2) n a b t (by rw [hsize]) (by rw [hsize]) hab.ne).1 ?_
  left
  constructor <;> linarith

example : getDataSlice (K := ℚ) (fun i => .ok [some (10 * i), some 1])
    ⟨some [0, 6, 12], [(0, 1), (1, 2)], [3, 8], true⟩ 1 = .ok [some (40 / 3), some 1] := by decide +kernel

/-- **C39.** Outside of the range of a strictly ascending input axis with at least two times, the straight line through
the outermost two slices is continued up to the distance of these two times; beyond, everything is undefined. -/
theorem C39_extrapolated_slice (reader : ℕ → Res (List (Option K))) (slice : ℕ → List (Option K)) (n : ℕ) (hn : n ≠ 0)
    (oldTimes newTimes : List K) (hold : oldTimes.Pairwise (· < ·)) (hnew : newTimes.Pairwise (· ≤ ·))
    (hlen : 2 ≤ oldTimes.length)
    (hread : ∀ i, i < oldTimes.length → reader i = .ok (slice i)) (hsize : ∀ i, (slice i).length = n)
    (k : ℕ) (t : K) (hk : newTimes[k]? = some t) (i : ℕ) (a b : K)
    (ha : oldTimes[i]? = some a) (hb : oldTimes[i + 1]? = some b)
    (hout : (i = 0 ∧ ∀ x ∈ oldTimes, t ≤ x) ∨ (i + 2 = oldTimes.length ∧ ∀ x ∈ oldTimes, x < t)) :
    ∃ m, changeTimeAxis oldTimes newTimes = .ok m ∧
      getDataSlice reader ⟨some oldTimes, m, newTimes, true⟩ k =
        .ok (if a - (b - a) ≤ t ∧ t ≤ b + (b - a) then pointwise (lineValue a b t) (slice i) (slice (i + 1)) n
          else List.replicate n none) := by
  have hne : oldTimes ≠ [] := by
    rintro rfl
    simp at hlen
  obtain ⟨m, hm, hml, hbr⟩ := C39_bracketing_times oldTimes newTimes hne (strict_sorted hold) hnew
  obtain ⟨p, hp, B⟩ := hbr k t hk
  refine ⟨m, hm, ?_⟩
  have hpi : p = (i, i + 1) := by
    rcases hout with ⟨rfl, h⟩ | ⟨hi, h⟩
    · exact B.before hlen h
    · rw [B.after hlen h, ← hi]; rfl
  subst hpi
  have hi1 : i + 1 < oldTimes.length := by
    by_contra hc
    rw [List.getElem?_eq_none (not_lt.mp hc)] at hb
    cases hb
  have hnl : newTimes.length ≠ 0 := by
    intro h
    rw [List.length_eq_zero_iff.mp h] at hk
    simp at hk
  have r1 : vectorAt newTimes k = .ok t := by simp [vectorAt, hk]
  have r2 : vectorAt m k = .ok (i, i + 1) := by simp [vectorAt, hp]
  have r3 : vectorAt oldTimes i = .ok a := by simp [vectorAt, ha]
  have r4 : vectorAt oldTimes (i + 1) = .ok b := by simp [vectorAt, hb]
  have g : getDataSlice reader ⟨some oldTimes, m, newTimes, true⟩ k =
      joinSlices (slice i) (slice (i + 1)) a b t := by
    unfold getDataSlice
    dsimp only
    rw [if_neg (by omega), if_neg (by simp), if_neg hnl, r1]
    simp only [Res.ok_bind, r2, r3, r4]
    rw [hread i (by omega), hread (i + 1) hi1]
    rfl
  have hab : a < b := by
    have h := List.pairwise_iff_getElem.1 hold i (i + 1) (by omega) hi1 (by omega)
    rw [List.getElem?_eq_getElem (by omega), Option.some.injEq] at ha
    rw [List.getElem?_eq_getElem hi1, Option.some.injEq] at hb
    rw [ha, hb] at h
    exact h
  rw [g]
  unfold joinSlices
  rw [if_neg (by rw [hsize]; exact hn), if_neg (by rw [hsize]; exact hn), if_pos (by rw [hsize, hsize]), hsize]
  obtain ⟨w1, w2⟩ := C34_weak_extrapolation (slice i) (slice (i + 1)) n a b t (by rw [hsize]) (by rw [hsize]) hab.ne
  by_cases hc : a - (b - a) ≤ t ∧ t ≤ b + (b - a)
  · rw [if_pos hc]; exact w1 (Or.inl hc)
  · rw [if_neg hc]
    refine w2 ?_
    rintro (h | ⟨h1, h2⟩)
    · exact hc h
    · linarith

example : getDataSlice (K := ℚ) (fun i => .ok [some (10 * i), some 1])
    ⟨some [0, 6, 12], [(0, 1), (1, 2), (1, 2)], [-1, 15, 20], true⟩ 1 = .ok [some 25, some 1] := by decide +kernel
example : getDataSlice (K := ℚ) (fun i => .ok [some (10 * i), some 1])
    ⟨some [0, 6, 12], [(0, 1), (1, 2), (1, 2)], [-1, 15, 20], true⟩ 2 = .ok [none, none] := by decide +kernel

/-- **C39.** Decision logic of the slice: an empty input slice is replaced by the other one, slices of different size
raise, and so does a time axis that is not the unlimited dimension. -/
theorem C39_slice_decisions (d1 d2 : List (Option K)) (t1 t2 t : K) :
    (d1 = [] → joinSlices d1 d2 t1 t2 t = .ok d2) ∧
    (d2 = [] → joinSlices d1 d2 t1 t2 t = .ok d1) ∧
    (d1 ≠ [] → d2 ≠ [] → d1.length ≠ d2.length → joinSlices d1 d2 t1 t2 t = .throws) ∧
    (∀ (reader : ℕ → Res (List (Option K))) (o : List K) (m : List (ℕ × ℕ)) (new : List K) (k : ℕ), o ≠ [] →
      getDataSlice reader ⟨some o, m, new, false⟩ k = .throws) ∧
    (∀ (reader : ℕ → Res (List (Option K))) (o : List K) (m : List (ℕ × ℕ)) (new : List K) (k : ℕ),
      o ≠ [] → new ≠ [] → new.length ≤ k → getDataSlice reader ⟨some o, m, new, true⟩ k = .throws) := by
  refine ⟨?_, ?_, ?_, ?_, ?_⟩
  · rintro rfl; simp [joinSlices]
  · rintro rfl
    cases d1 with
    | nil => simp [joinSlices]
    | cons x xs => simp [joinSlices]
  · intro h1 h2 h3
    unfold joinSlices
    rw [if_neg (by simpa using h1), if_neg (by simpa using h2), if_neg h3]
  · intro reader o m new k ho
    unfold getDataSlice
    dsimp only
    rw [if_neg (by simpa using ho), if_pos rfl]
  · intro reader o m new k ho hn hk
    have r1 : vectorAt new k = .throws := by simp [vectorAt, List.getElem?_eq_none hk]
    unfold getDataSlice
    dsimp only
    rw [if_neg (by simpa using ho), if_neg (by simp), if_neg (by simpa using hn), r1]
    rfl

/-- Output times that are not ascending get the wrong input times: 5 lies between the input times 0 and 10, but is
extrapolated from 10 and 20, because the search starts at the position found for 15. -/
theorem C39_unordered_output_times :
    changeTimeAxis [(0 : ℚ), 10, 20] [15, 5] = .ok [(1, 2), (1, 2)] ∧ ¬ Brackets [(0 : ℚ), 10, 20] 5 (1, 2) := by
  refine ⟨by decide +kernel, fun h => ?_⟩
  obtain ⟨a, b, ha, _, hlt, _⟩ := h.inside ⟨0, by simp, by norm_num⟩ ⟨10, by simp, by norm_num⟩
  simp at ha
  subst ha
  norm_num at hlt

/-- Reading a variable with a time axis before `changeTimeAxis` was called for that axis, and changing a time axis
without values, are undefined behaviour. -/
theorem C39_undefined_behaviour (reader : ℕ → Res (List (Option K))) (m : List (ℕ × ℕ)) (new : List K) (u : Bool)
    (k : ℕ) :
    getDataSlice reader ⟨none, m, new, u⟩ k = .ub ∧ changeTimeAxis ([] : List K) new = .ub :=
  ⟨rfl, rfl⟩

end Fimex.TimeInterp
