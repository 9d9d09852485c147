import Verif.Vertical.LevelsLemmas
import Verif.Interp.ReducedProps

/-!
# Property C81: vertical interpolation

Every output value is the one-dimensional interpolation in the column of input values that has the same indices in all
other dimensions, whatever the order of the dimensions is in each of the arrays.
-/

namespace Fimex.Levels

open Fimex.ArrayLoop Fimex.Neighbours Fimex.Interp

variable {K : Type} [Field K] [LinearOrder K]

/-! ## Specification vocabulary -/

/-- Index assignment with the unlimited dimension at `q`. -/
def atTime (u : Option String) (τ : String → ℕ) (q : ℕ) : String → ℕ :=
  match u with
  | some u => Function.update τ u q
  | none => τ

/-- Lengths of the dimensions in a slice of the input and of the output. -/
def inLen (s : Setup K) : String → ℕ := lenOf s.unlimited s.sizeIn
def outLen (s : Setup K) : String → ℕ := lenOf s.unlimited s.sizeOut

/-- An index assignment for a slice of the output. -/
def OutIndex (s : Setup K) (τ : String → ℕ) : Prop := ∀ d ∈ s.shapeOut, τ d < outLen s d

/-- Height of an output value. -/
def heightAt (s : Setup K) (p : ℕ) (τ : String → ℕ) : K :=
  match s.convOut with
  | some names => (s.vertOut p).getD (place (inLen s) names τ) 0
  | none => s.level1.getD (τ s.geoZo) 0

/-- Heights of the input values of the column of an output value. -/
def heights (s : Setup K) (p : ℕ) (τ : String → ℕ) : List K :=
  (List.range (s.sizeIn s.geoZi)).map fun j =>
    (s.vertIn p).getD (place (inLen s) s.convIn (Function.update τ s.geoZi j)) 0

/-- The input values of the column of an output value. -/
def values (s : Setup K) (p : ℕ) (τ : String → ℕ) : List (Option K) :=
  (List.range (s.sizeIn s.geoZi)).map fun j =>
    (s.data p).getD (place (inLen s) s.shapeIn (Function.update τ s.geoZi j)) none

/-- Limit for an output value, from the limits at position `q` of the unlimited dimension. -/
def limitAt (s : Setup K) (q : ℕ) (l : Limits K) (τ : String → ℕ) : K :=
  l.values.getD (place s.sizeOut l.shape (atTime s.unlimited τ q)) 0

/-- The height is within the limits at position `q` of the unlimited dimension. -/
def Within (s : Setup K) (q : ℕ) (τ : String → ℕ) (x : K) : Prop :=
  (∀ l ∈ (limits s).2, limitAt s q l τ ≤ x) ∧ ∀ l ∈ (limits s).1, x ≤ limitAt s q l τ

instance (s : Setup K) (q : ℕ) (τ : String → ℕ) (x : K) : Decidable (Within s q τ x) := by
  unfold Within; infer_instance

/-- The dimensions of an array: distinct, the unlimited one last, none empty. -/
structure Shape (u : Option String) (size : String → ℕ) (names : List String) : Prop where
  nodup : names.Nodup
  last : ∀ d ∈ names.dropLast, u ≠ some d
  positive : ∀ d ∈ names, 0 < size d

/-- A call in which the arrays fit together. -/
structure Sensible (s : Setup K) (p : ℕ) : Prop where
  sIn : Shape s.unlimited s.sizeIn s.shapeIn
  sOut : Shape s.unlimited s.sizeOut s.shapeOut
  sConv : Shape s.unlimited s.sizeIn s.convIn
  /-- The vertical axes are dimensions, called like the axes. -/
  zi : s.geoZi ∈ s.shapeIn
  ziConv : s.geoZi ∈ s.convIn
  zo : s.geoZo ∈ s.shapeOut
  ziU : s.unlimited ≠ some s.geoZi
  zoU : s.unlimited ≠ some s.geoZo
  /-- The other dimensions are the same before and after the change. -/
  same : ∀ d, d ≠ s.geoZi → d ≠ s.geoZo → (d ∈ s.shapeIn ↔ d ∈ s.shapeOut)
  zoIn : s.geoZo ∈ s.shapeIn → s.geoZo = s.geoZi
  ziOut : s.geoZi ∈ s.shapeOut → s.geoZi = s.geoZo
  sizes : ∀ d ∈ s.shapeIn, d ≠ s.geoZi → s.sizeIn d = s.sizeOut d
  conv : ∀ d ∈ s.convIn, d ∈ s.shapeIn
  /-- Heights of the output: from a converter, or fixed levels. -/
  out : match s.convOut with
    | some names => Shape s.unlimited s.sizeIn names ∧ (∀ d ∈ names, d ∈ s.shapeOut ∧ s.sizeIn d = s.sizeOut d) ∧
        (s.vertOut p).length = (names.map (inLen s)).prod
    | none => s.vAxis = s.geoZo ∧ s.level1.length = s.sizeOut s.geoZo
  /-- Limits are given for all positions of the unlimited dimension, and do not depend on the level. -/
  lim : ∀ l, l ∈ (limits s).1 ∨ l ∈ (limits s).2 → Shape s.unlimited s.sizeOut l.shape ∧
    (∀ d ∈ l.shape, d ∈ s.shapeOut ∧ d ≠ s.geoZo) ∧ l.values.length = (l.shape.map s.sizeOut).prod
  dataSize : (s.data p).length = (s.shapeIn.map (inLen s)).prod
  vertSize : (s.vertIn p).length = (s.convIn.map (inLen s)).prod

/-! ## The arrays of a call -/

theorem makeArr {u : Option String} {size : String → ℕ} {names : List String} (h : Shape u size names) (z : String) :
    ∃ a, makeDims size names = .ok a ∧
      forceLength1 u (a.setNotShared (a.dimIndex z)) = .ok (arr (lenOf u size) z names) :=
  ⟨_, makeDims_ok h.positive, by rw [setNotShared_ok size h.nodup z]; exact forceLength1_ok u size h.nodup z h.last⟩

/-- Dimensions of the heights of the output. -/
def outShape (s : Setup K) : List String := s.convOut.getD [s.vAxis]

/-- Lengths of the dimensions of the heights of the output. -/
def outVLen (s : Setup K) : String → ℕ := if s.convOut.isSome then inLen s else outLen s

theorem lenOf_pos {u : Option String} {size : String → ℕ} {d : String} (h : 0 < size d) : 0 < lenOf u size d := by
  unfold lenOf; split_ifs
  · exact Nat.one_pos
  · exact h

omit [Field K] [LinearOrder K] in
theorem outVertical_ok (s : Setup K) (p : ℕ) (h : Sensible s p) : ∃ a, outVertical s = .ok a ∧
    forceLength1 s.unlimited (a.setNotShared (a.dimIndex s.geoZo)) = .ok (arr (outVLen s) s.geoZo (outShape s)) := by
  have ho := h.out
  unfold outVertical outVLen outShape
  cases hc : s.convOut with
  | some names =>
    rw [hc] at ho
    exact makeArr ho.1 s.geoZo
  | none =>
    rw [hc] at ho
    obtain ⟨h1, h2⟩ := ho
    have hp := h.sOut.positive s.geoZo h.zo
    refine ⟨⟨[s.geoZo], [s.sizeOut s.geoZo], [1], [true]⟩, ?_, ?_⟩
    · simp only [emptyDims, Dims.add]
      rw [if_neg (by omega), h1, h2]
      rfl
    · have e := setNotShared_ok s.sizeOut (names := [s.geoZo]) (by simp) s.geoZo [1]
      simp only [List.map_cons, List.map_nil] at e
      rw [e]
      have e2 := forceLength1_ok s.unlimited s.sizeOut (names := [s.geoZo]) (by simp) s.geoZo (by simp)
      simp only [List.map_cons, List.map_nil, List.length_singleton, List.range_one, List.take_zero, List.prod_nil] at e2
      rw [e2, Option.getD_none, h1]
      rfl

omit [Field K] [LinearOrder K] in
theorem arraysOf_ok (s : Setup K) (p : ℕ) (h : Sensible s p) : arraysOf s = .ok
    ⟨arr (inLen s) s.geoZi s.shapeIn, arr (inLen s) s.geoZi s.convIn, arr (outLen s) s.geoZo s.shapeOut,
      arr (outVLen s) s.geoZo (outShape s)⟩ := by
  obtain ⟨a1, e1, f1⟩ := makeArr h.sIn s.geoZi
  obtain ⟨a2, e2, f2⟩ := makeArr h.sConv s.geoZi
  obtain ⟨a3, e3, f3⟩ := makeArr h.sOut s.geoZo
  obtain ⟨a4, e4, f4⟩ := outVertical_ok s p h
  unfold arraysOf
  rw [e1, Res.ok_bind, e2, Res.ok_bind, e3, Res.ok_bind, e4, Res.ok_bind]
  dsimp only
  rw [f1, Res.ok_bind, f2, Res.ok_bind, f3, Res.ok_bind, f4, Res.ok_bind]
  rfl

/-- The arrays of limits. -/
def limArrs (s : Setup K) (l : Option (Limits K)) : List Dims :=
  match l with
  | none => []
  | some l => [arr (outLen s) s.geoZo l.shape]

omit [Field K] [LinearOrder K] in
theorem limitDims_ok (s : Setup K) (l : Option (Limits K))
    (h : ∀ x ∈ l, Shape s.unlimited s.sizeOut x.shape ∧ ∀ d ∈ x.shape, d ≠ s.geoZo) :
    limitDims s l = .ok (limArrs s l) := by
  cases l with
  | none => rfl
  | some l =>
    obtain ⟨h1, h2⟩ := h l rfl
    unfold limitDims limArrs
    dsimp only
    rw [makeDims_ok h1.positive, Res.ok_bind]
    have e : (l.shape.map fun _ => true) = l.shape.map fun n => decide (n ≠ s.geoZo) :=
      List.map_congr_left fun n hn => by simp [h2 n hn]
    rw [e, forceLength1_ok s.unlimited s.sizeOut h1.nodup s.geoZo h1.last, Res.ok_bind]
    rfl

omit [Field K] [LinearOrder K] in
theorem len_same (s : Setup K) (p : ℕ) (h : Sensible s p) {d : String} (hd : d ∈ s.shapeIn) (hz : d ≠ s.geoZi) :
    inLen s d = outLen s d := by
  unfold inLen outLen lenOf
  rw [h.sizes d hd hz]

omit [Field K] [LinearOrder K] in
theorem mem_out (s : Setup K) (p : ℕ) (h : Sensible s p) {d : String} (hd : d ∈ s.shapeIn) (hz : d ≠ s.geoZi) :
    d ∈ s.shapeOut ∧ d ≠ s.geoZo := by
  have : d ≠ s.geoZo := by
    rintro rfl
    exact hz (h.zoIn hd)
  exact ⟨(h.same d hz this).1 hd, this⟩

/-- All arrays of a call, in the order of the group. -/
def allArrs (s : Setup K) : List Dims :=
  [arr (inLen s) s.geoZi s.shapeIn, arr (inLen s) s.geoZi s.convIn, arr (outLen s) s.geoZo s.shapeOut,
    arr (outVLen s) s.geoZo (outShape s)] ++ (limArrs s (limits s).1 ++ limArrs s (limits s).2)

omit [Field K] [LinearOrder K] in
theorem outShape_ok (s : Setup K) (p : ℕ) (h : Sensible s p) : (outShape s).Nodup ∧ ∀ d ∈ outShape s, d ∈ s.shapeOut ∧
    outVLen s d = outLen s d := by
  have ho := h.out
  unfold outShape outVLen
  cases hc : s.convOut with
  | some names =>
    rw [hc] at ho
    refine ⟨ho.1.nodup, fun d hd => ⟨(ho.2.1 d hd).1, ?_⟩⟩
    simp only [Option.isSome_some, if_true, inLen, outLen, lenOf]
    rw [(ho.2.1 d hd).2]
  | none =>
    rw [hc] at ho
    refine ⟨by simp, fun d hd => ?_⟩
    simp only [Option.getD_none, List.mem_singleton] at hd
    subst hd
    rw [ho.1]
    exact ⟨h.zo, rfl⟩

omit [Field K] [LinearOrder K] in
theorem allArrs_ok (s : Setup K) (p : ℕ) (h : Sensible s p) : ∀ a ∈ allArrs s, WF a ∧ LenOK (outLen s) a ∧ Contiguous a ∧
    ∀ (i : ℕ) n, a.name[i]? = some n → a.shared.getD i false = true → n ∈ s.shapeOut ∧ n ≠ s.geoZo := by
  have gen : ∀ (len : String → ℕ) (z : String) (names : List String), names.Nodup →
      (∀ d ∈ names, d ≠ z → len d = outLen s d ∧ d ∈ s.shapeOut ∧ d ≠ s.geoZo) →
      WF (arr len z names) ∧ LenOK (outLen s) (arr len z names) ∧ Contiguous (arr len z names) ∧
      ∀ (i : ℕ) n, (arr len z names).name[i]? = some n → (arr len z names).shared.getD i false = true →
        n ∈ s.shapeOut ∧ n ≠ s.geoZo := by
    intro len z names hn hd
    refine ⟨arr_wf len z hn, arr_lenOK fun d hd' hz => (hd d hd' hz).1, arr_contiguous len z names, ?_⟩
    intro i n hi hs
    have hi : names[i]? = some n := hi
    rw [arr_shared hi] at hs
    exact (hd n (List.mem_of_getElem? hi) (by simpa using hs)).2
  have glim : ∀ l : Option (Limits K), (∀ x ∈ l, x ∈ (limits s).1 ∨ x ∈ (limits s).2) → ∀ a ∈ limArrs s l,
      WF a ∧ LenOK (outLen s) a ∧ Contiguous a ∧
      ∀ (i : ℕ) n, a.name[i]? = some n → a.shared.getD i false = true → n ∈ s.shapeOut ∧ n ≠ s.geoZo := by
    intro l hl a ha
    cases l with
    | none => simp [limArrs] at ha
    | some l =>
      obtain ⟨h1, h2, -⟩ := h.lim l (hl l rfl)
      simp only [limArrs, List.mem_singleton] at ha
      subst ha
      exact gen _ _ _ h1.nodup fun d hd _ => ⟨rfl, h2 d hd⟩
  intro a ha
  unfold allArrs at ha
  simp only [List.mem_append, List.mem_cons, List.not_mem_nil, or_false] at ha
  rcases ha with (rfl | rfl | rfl | rfl) | ha | ha
  · exact gen _ _ _ h.sIn.nodup fun d hd hz => ⟨len_same s p h hd hz, mem_out s p h hd hz⟩
  · exact gen _ _ _ h.sConv.nodup fun d hd hz => ⟨len_same s p h (h.conv d hd) hz, mem_out s p h (h.conv d hd) hz⟩
  · exact gen _ _ _ h.sOut.nodup fun d hd hz => ⟨rfl, hd, hz⟩
  · obtain ⟨h1, h2⟩ := outShape_ok s p h
    exact gen _ _ _ h1 fun d hd hz => ⟨(h2 d hd).2, (h2 d hd).1, hz⟩
  · exact glim _ (fun x hx => Or.inl hx) a ha
  · exact glim _ (fun x hx => Or.inr hx) a ha

omit [Field K] [LinearOrder K] in
theorem levelGroup_ok (s : Setup K) (p : ℕ) (h : Sensible s p) : ∃ g, levelGroup
    ⟨arr (inLen s) s.geoZi s.shapeIn, arr (inLen s) s.geoZi s.convIn, arr (outLen s) s.geoZo s.shapeOut,
      arr (outVLen s) s.geoZo (outShape s)⟩ (limArrs s (limits s).1) (limArrs s (limits s).2) = .ok g ∧
    g.dims.Nodup ∧ g.lengths = g.dims.map (outLen s) ∧ (∀ d, d ∈ g.dims ↔ d ∈ s.shapeOut ∧ d ≠ s.geoZo) ∧
    Visited (outLen s) g (allArrs s) := by
  have hall := allArrs_ok s p h
  unfold levelGroup
  dsimp only
  obtain ⟨g1, e1, ok1, sz1, m1, -, n1, -⟩ := foldlM_add_sized (len := outLen s)
    [arr (inLen s) s.geoZi s.shapeIn, arr (inLen s) s.geoZi s.convIn, arr (outLen s) s.geoZo s.shapeOut,
      arr (outVLen s) s.geoZo (outShape s)] emptyGroup emptyGroup_ok (emptyGroup_sized _) (fun _ => rfl) (fun _ => rfl)
    (fun a ha => ⟨(hall a (by unfold allArrs; exact List.mem_append_left _ ha)).1,
      (hall a (by unfold allArrs; exact List.mem_append_left _ ha)).2.1⟩)
  rw [show groupOf _ = Res.ok g1 from e1, Res.ok_bind]
  obtain ⟨g2, e2, d2, l2, a2, ⟨k, hk, hk0, hk1⟩, v2⟩ := minimize_ok ok1 (n := 0) (fun _ => by omega)
  have ok2 : GroupOK g2 := ok1.minimized d2 l2 a2 ⟨k, hk, hk0, hk1⟩ v2
  rw [e2, Res.ok_bind]
  have hk00 : g2.sharedDims = some 0 := by rw [hk]; congr 1; omega
  have sz2 : Sized (outLen s) g2 := ⟨by rw [l2, d2]; exact sz1.lengths, by rw [d2, a2]; exact sz1.dims⟩
  have ne2 : g2.arrays ≠ [] := by
    rw [a2]; intro h0; rw [h0] at m1; simp [emptyGroup] at m1
  obtain ⟨g3, e3, ok3, sz3, m3, -, -, s3⟩ := foldlM_add_sized (len := outLen s)
    (limArrs s (limits s).1 ++ limArrs s (limits s).2) g2 ok2 sz2 (fun h0 => absurd h0 ne2)
    (fun h0 => by rw [hk00] at h0; cases h0)
    (fun a ha => ⟨(hall a (by unfold allArrs; exact List.mem_append_right _ ha)).1,
      (hall a (by unfold allArrs; exact List.mem_append_right _ ha)).2.1⟩)
  have hm : g3.arrays.map Prod.fst = allArrs s := by
    rw [m3, a2, m1]; simp [emptyGroup, allArrs]
  have hdims : ∀ d, d ∈ g3.dims ↔ d ∈ s.shapeOut ∧ d ≠ s.geoZo := by
    intro d
    constructor
    · intro hd
      obtain ⟨am, ham, i, hi, hs⟩ := sz3.dims d hd
      exact (hall am.1 (by rw [← hm]; exact List.mem_map_of_mem ham)).2.2.2 i d hi hs
    · rintro ⟨h1, h2⟩
      have hin : arr (outLen s) s.geoZo s.shapeOut ∈ g3.arrays.map Prod.fst := by rw [hm]; simp [allArrs]
      obtain ⟨am, ham, he⟩ := List.mem_map.1 hin
      obtain ⟨i, hi, hie⟩ := List.mem_iff_getElem.1 h1
      have hg : s.shapeOut[i]? = some d := by rw [List.getElem?_eq_getElem hi, hie]
      refine shared_in_dims ok3 ham (i := i) (by rw [he]; exact hg) ?_
      rw [he, arr_shared hg]
      simpa using h2
  refine ⟨g3, e3, ok3.nodup, sz3.lengths, hdims, visited ok3 sz3 (s3 hk00) hm
    (fun a ha => (hall a ha).2.2.1) fun d hd => ?_⟩
  exact lenOf_pos (h.sOut.positive d ((hdims d).1 hd).1)

/-! ## One value -/

omit [Field K] [LinearOrder K] in
theorem readInt_nat {α : Type} {l : List α} {i : ℕ} {v : α} (h : l[i]? = some v) : readInt l (i : ℤ) = .ok v := by
  unfold readInt
  rw [if_pos (by omega), Int.toNat_natCast]
  unfold readAt
  rw [h]

theorem readInt_getD {α : Type} {l : List α} {i : ℕ} (h : i < l.length) (d : α) : readInt l (i : ℤ) = .ok (l.getD i d) :=
  readInt_nat (by rw [List.getD_eq_getElem?_getD, List.getElem?_eq_getElem h]; rfl)

/-- The call of the interpolation for one value gives one value, or is refused. -/
theorem intFunc_cases (s : Setup K) (u v : Option K) (a b x : K) :
    (∃ w, intFunc s u v a b x = .ok [w]) ∨ intFunc s u v a b x = .throws := by
  have hr : ∀ u : Option K, readRange [u] 0 1 = .ok [u] := fun _ => rfl
  have hl : ∀ f : K, ∃ w, linearSimple [u] [v] 1 f = .ok [w] := fun f => ⟨_, rfl⟩
  have hlin : ∀ a b x : K, ∃ w, linear [u] [v] 1 a b x = .ok [w] := by
    intro a b x
    unfold linear
    dsimp only
    split_ifs
    · exact ⟨_, hr u⟩
    · exact ⟨_, hr v⟩
    · exact hl _
  have hconf : ∀ l r : K, ∃ w, linearConf l r [u] [v] 1 a b x = .ok [w] := by
    intro l r
    unfold linearConf
    dsimp only
    split_ifs
    · exact ⟨_, hr u⟩
    · exact ⟨_, hr v⟩
    · exact hl _
    · exact ⟨_, rfl⟩
  unfold intFunc
  cases s.method with
  | lin => exact Or.inl (hlin a b x)
  | linWeak => exact Or.inl (hconf _ _)
  | linNo => exact Or.inl (hconf _ _)
  | linConst =>
    left
    dsimp only
    unfold linearConst
    dsimp only
    split_ifs
    · exact ⟨_, hr v⟩
    · exact ⟨_, hr u⟩
    · exact hl _
  | log =>
    dsimp only
    unfold logInterp
    split_ifs
    · exact Or.inr rfl
    · exact Or.inl (hlin _ _ _)
  | logLog =>
    dsimp only
    unfold logLogInterp logInterp
    split_ifs
    · exact Or.inr rfl
    · exact Or.inr rfl
    · exact Or.inl (hlin _ _ _)
  | nearest => exact Or.inl ⟨_, hr u⟩

theorem closestLoop_lt (x : K) (n : ℕ) : ∀ (l : List K) (i : ℕ) (c : Closest K), i + l.length ≤ n → c.r1 < n → c.r2 < n →
    (closestLoop x l i c).r1 < n ∧ (closestLoop x l i c).r2 < n
  | [], _, _, _, h1, h2 => ⟨h1, h2⟩
  | a :: l, i, c, hi, h1, h2 => by
    rw [closestLoop]
    rw [List.length_cons] at hi
    have : (closestStep x i a c).r1 < n ∧ (closestStep x i a c).r2 < n := by
      unfold closestStep
      dsimp only
      split_ifs <;> exact ⟨by first | exact h1 | (dsimp only; omega), by first | exact h2 | exact h1 | (dsimp only; omega)⟩
    exact closestLoop_lt x n l (i + 1) _ (by omega) this.1 this.2

theorem neighbourLoop_lt (x : K) (n : ℕ) : ∀ (l : List K) (i : ℕ) (c : Neighbour K), i + l.length ≤ n → c.lowest < n →
    c.highest < n → (neighbourLoop x l i c).lowest < n ∧ (neighbourLoop x l i c).highest < n
  | [], _, _, _, h1, h2 => ⟨h1, h2⟩
  | a :: l, i, c, hi, h1, h2 => by
    rw [neighbourLoop]
    rw [List.length_cons] at hi
    have : (neighbourStep x i a c).lowest < n ∧ (neighbourStep x i a c).highest < n := by
      unfold neighbourStep
      dsimp only
      split_ifs <;> exact ⟨by first | exact h1 | (dsimp only; omega), by first | exact h2 | (dsimp only; omega)⟩
    exact neighbourLoop_lt x n l (i + 1) _ (by omega) this.1 this.2

theorem findNeighbours_lt (M : K) (l : List K) (x : K) (h : l ≠ []) :
    (findNeighbours M l x).1 < l.length ∧ (findNeighbours M l x).2 < l.length := by
  cases l with
  | nil => exact absurd rfl h
  | cons a rest =>
    unfold findNeighbours
    dsimp only
    split_ifs
    all_goals first
      | exact closestLoop_lt x (a :: rest).length (a :: rest) 0 ⟨0, 0, a, |x - a|, |x - a|⟩ (by simp) (by simp) (by simp)
      | exact neighbourLoop_lt x (a :: rest).length rest 1 _ (by simp; omega) (by simp) (by simp)

/-- What is written for a height in a column; `none` if nothing is written. -/
def inColumn (s : Setup K) (col : List K) (vals : List (Option K)) (x : K) : Option (Option K) :=
  let ij := findNeighbours s.largest col x
  if ij.1 ≠ ij.2 then
    match intFunc s (vals.getD ij.1 none) (vals.getD ij.2 none) (col.getD ij.1 0) (col.getD ij.2 0) x with
    | .ok l => l.head?
    | _ => none
  else some none

/-- What is written for an index assignment of the output, with the limits at position `q`. -/
def written (s : Setup K) (p q : ℕ) (τ : String → ℕ) : Option (Option K) :=
  if Within s q τ (heightAt s p τ) then inColumn s (heights s p τ) (values s p τ) (heightAt s p τ) else some none

theorem column_ok {α : Type} {l : List α} {start step n : ℕ} {f : ℕ → ℕ} (d : α) (hs : step ≠ 0)
    (hf : ∀ j, j < n → f j = start + j * step) (hl : ∀ j, j < n → f j < l.length) :
    column l (start : ℤ) step n = .ok ((List.range n).map fun j => l.getD (f j) d) := by
  unfold column
  rw [if_neg hs]
  refine mapM_ok_map _ _ _ fun j hj => ?_
  rw [List.mem_range] at hj
  have : (start : ℤ) + (j : ℤ) * (step : ℤ) = ((f j : ℕ) : ℤ) := by rw [hf j hj]; push_cast; rfl
  rw [this]
  exact readInt_getD (hl j hj) d

/-- The value for a height is that of the column. -/
theorem levelValue_ok (s : Setup K) (vert : List K) (data : List (Option K)) (vertAt dataAt vertStep dataStep nzi : ℕ)
    (fv fd : ℕ → ℕ) (hn : 0 < nzi) (hs : vertStep ≠ 0) (hv : ∀ j, j < nzi → fv j = vertAt + j * vertStep ∧ fv j < vert.length)
    (hd : ∀ j, j < nzi → fd j = dataAt + j * dataStep ∧ fd j < data.length) (x : K) :
    levelValue s vert data (vertAt : ℤ) (dataAt : ℤ) vertStep dataStep nzi x =
      .ok (inColumn s ((List.range nzi).map fun j => vert.getD (fv j) 0) ((List.range nzi).map fun j => data.getD (fd j) none) x) := by
  unfold levelValue
  rw [column_ok (f := fv) 0 hs (fun j hj => (hv j hj).1) (fun j hj => (hv j hj).2), Res.ok_bind]
  unfold inColumn
  have hne : ((List.range nzi).map fun j => vert.getD (fv j) 0) ≠ [] := by
    intro h0
    have := congrArg List.length h0
    simp at this; omega
  obtain ⟨l1, l2⟩ := findNeighbours_lt s.largest _ x hne
  rw [List.length_map, List.length_range] at l1 l2
  generalize hc : findNeighbours s.largest ((List.range nzi).map fun j => vert.getD (fv j) 0) x = ij at l1 l2 ⊢
  obtain ⟨i, j⟩ := ij
  dsimp only at l1 l2 ⊢
  by_cases hij : i ≠ j
  · rw [if_pos hij, if_pos hij]
    have gd : ∀ k, k < nzi → readInt data ((dataAt : ℤ) + (dataStep : ℤ) * (k : ℤ)) = .ok (data.getD (fd k) none) := by
      intro k hk
      have e : (dataAt : ℤ) + (dataStep : ℤ) * (k : ℤ) = ((fd k : ℕ) : ℤ) := by rw [(hd k hk).1]; push_cast; ring
      rw [e]; exact readInt_getD (hd k hk).2 none
    have gv : ∀ k, k < nzi → readInt vert ((vertAt : ℤ) + (k : ℤ) * (vertStep : ℤ)) = .ok (vert.getD (fv k) 0) := by
      intro k hk
      have e : (vertAt : ℤ) + (k : ℤ) * (vertStep : ℤ) = ((fv k : ℕ) : ℤ) := by rw [(hv k hk).1]; push_cast; rfl
      rw [e]; exact readInt_getD (hv k hk).2 0
    have m1 : ∀ k, k < nzi → ((List.range nzi).map fun j => vert.getD (fv j) 0).getD k 0 = vert.getD (fv k) 0 := by
      intro k hk; simp [List.getD_eq_getElem?_getD, hk]
    have m2 : ∀ k, k < nzi → ((List.range nzi).map fun j => data.getD (fd j) none).getD k none = data.getD (fd k) none := by
      intro k hk; simp [List.getD_eq_getElem?_getD, hk]
    rw [gd i l1, Res.ok_bind, gd j l2, Res.ok_bind, gv i l1, Res.ok_bind, gv j l2, Res.ok_bind, m1 i l1, m1 j l2, m2 i l1, m2 j l2]
    rcases intFunc_cases s (data.getD (fd i) none) (data.getD (fd j) none) (vert.getD (fv i) 0) (vert.getD (fv j) 0) x with ⟨w, e⟩ | e
    · rw [e]; rfl
    · rw [e]
  · rw [if_neg hij, if_neg hij]

/-! ## One visit -/

/-- The offsets at a visit. -/
def offsets (s : Setup K) (σ : String → ℕ) : List ℤ := (allArrs s).map fun a => (pos a.length (named a σ) : ℤ)

omit [Field K] [LinearOrder K] in
theorem offsets_eq (s : Setup K) (σ : String → ℕ) : offsets s σ =
    [(place (inLen s) s.shapeIn (Function.update σ s.geoZi 0) : ℤ), (place (inLen s) s.convIn (Function.update σ s.geoZi 0) : ℤ),
      (place (outLen s) s.shapeOut (Function.update σ s.geoZo 0) : ℤ), (place (outVLen s) (outShape s) (Function.update σ s.geoZo 0) : ℤ)] ++
    (((limits s).1.map fun l => (place (outLen s) l.shape (Function.update σ s.geoZo 0) : ℤ)).toList ++
      ((limits s).2.map fun l => (place (outLen s) l.shape (Function.update σ s.geoZo 0) : ℤ)).toList) := by
  unfold offsets allArrs
  simp only [List.map_append, List.map_cons, List.map_nil, arr_pos]
  congr 2
  · cases (limits s).1 <;> simp [limArrs, arr_pos]
  · cases (limits s).2 <;> simp [limArrs, arr_pos]

omit [LinearOrder K] in
theorem limit_read (s : Setup K) (p : ℕ) (h : Sensible s p) (l : Limits K) (hl : l ∈ (limits s).1 ∨ l ∈ (limits s).2)
    (σ τ : String → ℕ) (hσ : ∀ d ∈ s.shapeOut, d ≠ s.geoZo → σ d < outLen s d)
    (hτ : ∀ d ∈ s.shapeOut, d ≠ s.geoZo → τ d = σ d) :
    readInt l.values (place (outLen s) l.shape (Function.update σ s.geoZo 0) : ℤ) = .ok (limitAt s 0 l τ) := by
  obtain ⟨h1, h2, h3⟩ := h.lim l hl
  have hu : ∀ d ∈ l.shape, Function.update σ s.geoZo 0 d = atTime s.unlimited τ 0 d := by
    intro d hd
    obtain ⟨g1, g2⟩ := h2 d hd
    rw [Function.update_of_ne g2]
    unfold atTime
    cases hun : s.unlimited with
    | none => exact (hτ d g1 g2).symm
    | some u =>
      dsimp only
      by_cases hdu : d = u
      · subst hdu
        rw [Function.update_self]
        have := hσ d g1 g2
        unfold outLen lenOf at this
        rw [if_pos hun] at this
        omega
      · rw [Function.update_of_ne hdu]; exact (hτ d g1 g2).symm
  have e1 : place (outLen s) l.shape (Function.update σ s.geoZo 0) = place s.sizeOut l.shape (atTime s.unlimited τ 0) := by
    rw [place_congr hu]
    refine place_last (fun d hd => ?_) _
    unfold outLen lenOf
    rw [if_neg (h1.last d hd)]
  rw [e1]
  refine readInt_getD ?_ 0
  rw [h3]
  refine place_lt fun d hd => ?_
  rw [← hu d hd]
  obtain ⟨g1, g2⟩ := h2 d hd
  rw [Function.update_of_ne g2]
  refine lt_of_lt_of_le (hσ d g1 g2) ?_
  unfold outLen lenOf
  split_ifs
  · exact h1.positive d hd
  · exact le_rfl

theorem inLimits_ok (s : Setup K) (p : ℕ) (h : Sensible s p) (σ τ : String → ℕ)
    (hσ : ∀ d ∈ s.shapeOut, d ≠ s.geoZo → σ d < outLen s d) (hτ : ∀ d ∈ s.shapeOut, d ≠ s.geoZo → τ d = σ d) (x : K) :
    inLimits (limits s).2 (limits s).1 (if (limits s).1.isSome then 5 else 4) 4 (offsets s σ) x =
      .ok (decide (Within s 0 τ x)) := by
  have hr := limit_read s p h
  rw [offsets_eq]
  have hw : decide (Within s 0 τ x) = (decide (∀ l ∈ (limits s).2, limitAt s 0 l τ ≤ x) &&
      decide (∀ l ∈ (limits s).1, x ≤ limitAt s 0 l τ)) := by
    unfold Within; exact Bool.decide_and _ _
  rw [hw]
  clear hw
  generalize (limits s).1 = mx at hr ⊢
  generalize (limits s).2 = mn at hr ⊢
  cases mx with
  | none =>
    cases mn with
    | none => simp [inLimits]
    | some mn =>
      have e := hr mn (Or.inr rfl) σ τ hσ hτ
      simp only [inLimits]
      simp [List.getD, e, Res.ok_bind]
  | some mx =>
    have e' := hr mx (Or.inl rfl) σ τ hσ hτ
    cases mn with
    | none =>
      simp only [inLimits]
      simp [List.getD, e', Res.ok_bind]
    | some mn =>
      have e := hr mn (Or.inr rfl) σ τ hσ hτ
      simp only [inLimits]
      simp [List.getD, e, e', Res.ok_bind]
      by_cases hc : limitAt s 0 mn τ ≤ x <;> simp [hc]

/-- The array of the output after a visit. -/
def put (s : Setup K) (p : ℕ) (τ : String → ℕ) (out : List (Option K)) : List (Option K) :=
  match written s p 0 τ with
  | some v => out.set (place (outLen s) s.shapeOut τ) v
  | none => out

/-- Arrays of a call, as they come out. -/
def theArrays (s : Setup K) : Arrays :=
  ⟨arr (inLen s) s.geoZi s.shapeIn, arr (inLen s) s.geoZi s.convIn, arr (outLen s) s.geoZo s.shapeOut,
      arr (outVLen s) s.geoZo (outShape s)⟩

omit [LinearOrder K] in
theorem height_read (s : Setup K) (p : ℕ) (h : Sensible s p) (σ : String → ℕ) (k : ℕ) (hk : k < outLen s s.geoZo)
    (hσ : ∀ d ∈ s.shapeOut, d ≠ s.geoZo → σ d < outLen s d) :
    readInt (if s.convOut.isSome then s.vertOut p else s.level1)
      ((place (outVLen s) (outShape s) (Function.update σ s.geoZo 0) : ℤ) + (k : ℤ) * stride (outVLen s) s.geoZo (outShape s)) =
    .ok (heightAt s p (Function.update σ s.geoZo k)) := by
  obtain ⟨hn, hs⟩ := outShape_ok s p h
  have e : (place (outVLen s) (outShape s) (Function.update σ s.geoZo 0) : ℤ) + (k : ℤ) * stride (outVLen s) s.geoZo (outShape s) =
      ((place (outVLen s) (outShape s) (Function.update σ s.geoZo k) : ℕ) : ℤ) := by
    rw [place_update (outVLen s) s.geoZo k σ hn]; push_cast; rfl
  rw [e]
  have hout := h.out
  have hb : ∀ d ∈ outShape s, Function.update σ s.geoZo k d < outVLen s d := by
    intro d hd
    rw [(hs d hd).2]
    by_cases hz : d = s.geoZo
    · subst hz; rw [Function.update_self]; exact hk
    · rw [Function.update_of_ne hz]; exact hσ d (hs d hd).1 hz
  have hlt := place_lt hb
  unfold heightAt
  unfold outShape outVLen at hlt ⊢
  cases hc : s.convOut with
  | none =>
    rw [hc] at hout hlt
    obtain ⟨h1, h2⟩ := hout
    simp only [Option.getD_none, Option.isSome_none, Bool.false_eq_true, if_false, h1] at hlt ⊢
    have e2 : place (outLen s) [s.geoZo] (Function.update σ s.geoZo k) = k := by simp [place, pos]
    rw [e2] at hlt ⊢
    rw [Function.update_self]
    refine readInt_getD ?_ 0
    rw [h2]
    unfold outLen lenOf at hk
    rwa [if_neg h.zoU] at hk
  | some names =>
    rw [hc] at hout hlt
    obtain ⟨h1, h2, h3⟩ := hout
    simp only [Option.getD_some, Option.isSome_some, if_true] at hlt ⊢
    exact readInt_getD (by rw [h3]; exact hlt) 0

theorem levelStep_ok (s : Setup K) (p : ℕ) (h : Sensible s p) (σ : String → ℕ) (k : ℕ) (hk : k < outLen s s.geoZo)
    (hσ : ∀ d ∈ s.shapeOut, d ≠ s.geoZo → σ d < outLen s d) (out : List (Option K))
    (hl : out.length = (s.shapeOut.map (outLen s)).prod) :
    levelStep s p (theArrays s) (limits s).2 (limits s).1 k (offsets s σ) out =
      .ok (put s p (Function.update σ s.geoZo k) out) := by
  have o0 : (offsets s σ).getD 0 0 = (place (inLen s) s.shapeIn (Function.update σ s.geoZi 0) : ℤ) := by rw [offsets_eq]; rfl
  have o1 : (offsets s σ).getD 1 0 = (place (inLen s) s.convIn (Function.update σ s.geoZi 0) : ℤ) := by rw [offsets_eq]; rfl
  have o2 : (offsets s σ).getD 2 0 = (place (outLen s) s.shapeOut (Function.update σ s.geoZo 0) : ℤ) := by rw [offsets_eq]; rfl
  have o3 : (offsets s σ).getD 3 0 = (place (outVLen s) (outShape s) (Function.update σ s.geoZo 0) : ℤ) := by rw [offsets_eq]; rfl
  have hτ : ∀ d ∈ s.shapeOut, d ≠ s.geoZo → Function.update σ s.geoZo k d = σ d := fun d _ hz => Function.update_of_ne hz _ _
  unfold levelStep theArrays
  dsimp only
  rw [o0, o1, o2, o3, arr_stepOf, arr_stepOf, arr_stepOf, arr_stepOf, arr_lengthOf _ _ h.zi,
    height_read s p h σ k hk hσ, Res.ok_bind, inLimits_ok s p h σ _ hσ hτ, Res.ok_bind]
  have hnzi : inLen s s.geoZi = s.sizeIn s.geoZi := by unfold inLen lenOf; rw [if_neg h.ziU]
  have hcol : ∀ names : List String, names.Nodup → (∀ d ∈ names, d ∈ s.shapeIn) → ∀ j, j < s.sizeIn s.geoZi →
      place (inLen s) names (Function.update (Function.update σ s.geoZo k) s.geoZi j) =
        place (inLen s) names (Function.update σ s.geoZi 0) + j * stride (inLen s) s.geoZi names ∧
      place (inLen s) names (Function.update (Function.update σ s.geoZo k) s.geoZi j) < (names.map (inLen s)).prod := by
    intro names hn hm j hj
    have e : place (inLen s) names (Function.update (Function.update σ s.geoZo k) s.geoZi j) =
        place (inLen s) names (Function.update σ s.geoZi j) := by
      refine place_congr fun d hd => ?_
      by_cases hz : d = s.geoZi
      · subst hz; rw [Function.update_self, Function.update_self]
      · rw [Function.update_of_ne hz, Function.update_of_ne hz, Function.update_of_ne (mem_out s p h (hm d hd) hz).2]
    rw [e]
    refine ⟨place_update _ _ _ _ hn, place_lt fun d hd => ?_⟩
    by_cases hz : d = s.geoZi
    · subst hz; rw [Function.update_self, hnzi]; exact hj
    · rw [Function.update_of_ne hz, len_same s p h (hm d hd) hz]
      obtain ⟨g1, g2⟩ := mem_out s p h (hm d hd) hz
      exact hσ d g1 g2
  have hw : (if decide (Within s 0 (Function.update σ s.geoZo k) (heightAt s p (Function.update σ s.geoZo k))) = true then
      levelValue s (s.vertIn p) (s.data p) (place (inLen s) s.convIn (Function.update σ s.geoZi 0) : ℤ)
        (place (inLen s) s.shapeIn (Function.update σ s.geoZi 0) : ℤ) (stride (inLen s) s.geoZi s.convIn)
        (stride (inLen s) s.geoZi s.shapeIn) (inLen s s.geoZi) (heightAt s p (Function.update σ s.geoZo k))
      else Res.ok (some none)) = .ok (written s p 0 (Function.update σ s.geoZo k)) := by
    unfold written
    by_cases hin : Within s 0 (Function.update σ s.geoZo k) (heightAt s p (Function.update σ s.geoZo k))
    · rw [if_pos (by simpa using hin), if_pos hin, hnzi]
      exact levelValue_ok s _ _ _ _ _ _ _ _ _ (h.sIn.positive _ h.zi)
        (stride_ne_zero (fun d hd => lenOf_pos (h.sConv.positive d hd)) h.ziConv)
        (fun j hj => by rw [h.vertSize]; exact hcol s.convIn h.sConv.nodup h.conv j hj)
        (fun j hj => by rw [h.dataSize]; exact hcol s.shapeIn h.sIn.nodup (fun _ hd => hd) j hj) _
    · rw [if_neg (by simpa using hin), if_neg hin]
  have pull : ∀ (c : Prop) [Decidable c] (A B : Res (Option (Option K))) (f : Option (Option K) → Res (List (Option K))),
      (if c then (A >>= f) else (B >>= f)) = (if c then A else B) >>= f := by intros; split_ifs <;> rfl
  rw [pull, hw, Res.ok_bind]
  unfold put
  have e : (place (outLen s) s.shapeOut (Function.update σ s.geoZo 0) : ℤ) + (k : ℤ) * stride (outLen s) s.geoZo s.shapeOut =
      ((place (outLen s) s.shapeOut (Function.update σ s.geoZo k) : ℕ) : ℤ) := by
    rw [place_update (outLen s) s.geoZo k σ h.sOut.nodup]; push_cast; rfl
  rw [e]
  have hlt : place (outLen s) s.shapeOut (Function.update σ s.geoZo k) < out.length := by
    rw [hl]
    refine place_lt fun d hd => ?_
    by_cases hz : d = s.geoZo
    · subst hz; rw [Function.update_self]; exact hk
    · rw [Function.update_of_ne hz]; exact hσ d hd hz
  cases written s p 0 (Function.update σ s.geoZo k) with
  | none => rfl
  | some v =>
    dsimp only
    unfold writeInt
    rw [Int.toNat_natCast, if_pos ⟨by omega, hlt⟩]

/-! ## All visits -/

theorem written_congr (s : Setup K) (p q : ℕ) (h : Sensible s p) {τ τ' : String → ℕ} (e : ∀ d ∈ s.shapeOut, τ d = τ' d) :
    written s p q τ = written s p q τ' := by
  have hcol : ∀ names : List String, (∀ d ∈ names, d ∈ s.shapeIn) → ∀ j,
      place (inLen s) names (Function.update τ s.geoZi j) = place (inLen s) names (Function.update τ' s.geoZi j) := by
    intro names hm j
    refine place_congr fun d hd => ?_
    by_cases hz : d = s.geoZi
    · subst hz; rw [Function.update_self, Function.update_self]
    · rw [Function.update_of_ne hz, Function.update_of_ne hz]
      exact e d (mem_out s p h (hm d hd) hz).1
  have h1 : heights s p τ = heights s p τ' := by
    unfold heights; simp only [hcol s.convIn h.conv]
  have h2 : values s p τ = values s p τ' := by
    unfold values; simp only [hcol s.shapeIn fun _ hd => hd]
  have h3 : heightAt s p τ = heightAt s p τ' := by
    unfold heightAt
    have := h.out
    cases hc : s.convOut with
    | none => dsimp only; rw [e _ h.zo]
    | some names =>
      rw [hc] at this
      dsimp only
      rw [place_congr fun d hd => e d (this.2.1 d hd).1]
  have h4 : ∀ l, l ∈ (limits s).1 ∨ l ∈ (limits s).2 → limitAt s q l τ = limitAt s q l τ' := by
    intro l hl
    unfold limitAt
    rw [place_congr fun d hd => ?_]
    unfold atTime
    cases s.unlimited with
    | none => exact e d ((h.lim l hl).2.1 d hd).1
    | some u =>
      dsimp only
      by_cases hu : d = u
      · subst hu; rw [Function.update_self, Function.update_self]
      · rw [Function.update_of_ne hu, Function.update_of_ne hu]; exact e d ((h.lim l hl).2.1 d hd).1
  have h5 : ∀ x, Within s q τ x ↔ Within s q τ' x := by
    intro x
    unfold Within
    constructor
    · rintro ⟨a, b⟩
      exact ⟨fun l hl => by rw [← h4 l (Or.inr hl)]; exact a l hl, fun l hl => by rw [← h4 l (Or.inl hl)]; exact b l hl⟩
    · rintro ⟨a, b⟩
      exact ⟨fun l hl => by rw [h4 l (Or.inr hl)]; exact a l hl, fun l hl => by rw [h4 l (Or.inl hl)]; exact b l hl⟩
  unfold written
  rw [h1, h2, h3]
  simp only [h5]

/-- The value that ends up at a place, `old` being the value there before. -/
def result (s : Setup K) (p : ℕ) (τ : String → ℕ) (old : Option K) : Option K := (written s p 0 τ).getD old

theorem put_length (s : Setup K) (p : ℕ) (τ : String → ℕ) (out : List (Option K)) : (put s p τ out).length = out.length := by
  unfold put
  cases written s p 0 τ <;> simp

theorem put_get (s : Setup K) (p : ℕ) (τ : String → ℕ) (out : List (Option K)) (i : ℕ) :
    (put s p τ out)[i]? = if i = place (outLen s) s.shapeOut τ then out[i]?.map (result s p τ) else out[i]? := by
  unfold put result
  cases written s p 0 τ with
  | none =>
    split_ifs
    · cases out[i]? <;> rfl
    · rfl
  | some v =>
    dsimp only
    rw [List.getElem?_set]
    by_cases hi : i = place (outLen s) s.shapeOut τ
    · subst hi
      rw [if_pos rfl, if_pos rfl]
      by_cases hlt : place (outLen s) s.shapeOut τ < out.length
      · rw [if_pos hlt, List.getElem?_eq_getElem hlt]; rfl
      · rw [if_neg hlt, List.getElem?_eq_none (by omega)]; rfl
    · rw [if_neg (Ne.symm hi), if_neg hi]

/-- State of the output: the index assignments in `done` have their value, the others have not been touched. -/
structure Filled (s : Setup K) (p : ℕ) (junk : ℕ → Option K) (done : (String → ℕ) → Prop) (out : List (Option K)) : Prop where
  size : out.length = (s.shapeOut.map (outLen s)).prod
  yes : ∀ τ, OutIndex s τ → done τ → out[place (outLen s) s.shapeOut τ]? =
    some (result s p τ (junk (place (outLen s) s.shapeOut τ)))
  no : ∀ τ, OutIndex s τ → ¬ done τ → out[place (outLen s) s.shapeOut τ]? = some (junk (place (outLen s) s.shapeOut τ))

theorem filled_put (s : Setup K) (p : ℕ) (h : Sensible s p) (junk : ℕ → Option K) (done done' : (String → ℕ) → Prop)
    (τ : String → ℕ) (hτ : OutIndex s τ) (hnew : ¬ done τ)
    (hd : ∀ τ', OutIndex s τ' → (done' τ' ↔ done τ' ∨ ∀ d ∈ s.shapeOut, τ' d = τ d)) (hc : ∀ τ' , (∀ d ∈ s.shapeOut, τ' d = τ d) → (done τ' ↔ done τ))
    (out : List (Option K)) (hf : Filled s p junk done out) : Filled s p junk done' (put s p τ out) := by
  have same : ∀ τ', OutIndex s τ' → (place (outLen s) s.shapeOut τ' = place (outLen s) s.shapeOut τ ↔ ∀ d ∈ s.shapeOut, τ' d = τ d) :=
    fun τ' h' => ⟨fun e => place_inj h' hτ e, fun e => place_congr e⟩
  refine ⟨by rw [put_length, hf.size], ?_, ?_⟩
  · intro τ' h' hdone
    rw [put_get]
    by_cases hs : ∀ d ∈ s.shapeOut, τ' d = τ d
    · rw [if_pos ((same τ' h').2 hs), hf.no τ' h' (fun hh => hnew ((hc τ' hs).1 hh)), Option.map_some]
      unfold result
      rw [written_congr s p 0 h hs]
    · rw [if_neg (fun e => hs ((same τ' h').1 e))]
      exact hf.yes τ' h' (((hd τ' h').1 hdone).resolve_right hs)
  · intro τ' h' hdone
    have h1 := fun hh => hdone ((hd τ' h').2 hh)
    rw [put_get, if_neg (fun e => h1 (Or.inr ((same τ' h').1 e)))]
    exact hf.no τ' h' (fun hh => h1 (Or.inl hh))

theorem doLoop_level (s : Setup K) (p : ℕ) (h : Sensible s p) (junk : ℕ → Option K) (g : Group)
    (hg : ∀ d, d ∈ g.dims ↔ d ∈ s.shapeOut ∧ d ≠ s.geoZo) (hl : g.lengths = g.dims.map (outLen s))
    (hv : Visited (outLen s) g (allArrs s)) (k : ℕ) (hk : k < outLen s s.geoZo) (out : List (Option K))
    (hf : Filled s p junk (fun τ => τ s.geoZo < k) out) :
    ∃ out', doLoop g (levelStep s p (theArrays s) (limits s).2 (limits s).1 k) g.lengths.prod (start g) out = .ok out' ∧
      Filled s p junk (fun τ => τ s.geoZo < k + 1) out' := by
  rw [hl]
  have := doLoop_inv hv.positive hv.last (levelStep s p (theArrays s) (limits s).2 (limits s).1 k)
    (fun n => Filled s p junk fun τ => τ s.geoZo < k ∨ (τ s.geoZo = k ∧ pos (g.dims.map (outLen s)) (g.dims.map τ) < n)) out
    (by simpa using hf) ?_
  · obtain ⟨x, e, hx⟩ := this
    refine ⟨x, e, hx.size, fun τ h1 h2 => hx.yes τ h1 ?_, fun τ h1 h2 => hx.no τ h1 ?_⟩
    · rcases Nat.lt_succ_iff_lt_or_eq.1 h2 with h3 | h3
      · exact Or.inl h3
      · refine Or.inr ⟨h3, pos_lt (inShape_map fun d hd => h1 d ((hg d).1 hd).1)⟩
    · rintro (h3 | ⟨h3, -⟩) <;> omega
  · intro n hn x hx
    obtain ⟨σ, hσ, hpos, hidx⟩ := hv.visit n hn
    have hσ' : ∀ d ∈ s.shapeOut, d ≠ s.geoZo → σ d < outLen s d := fun d hd hz => hσ d ((hg d).2 ⟨hd, hz⟩)
    refine ⟨put s p (Function.update σ s.geoZo k) x, ?_, ?_⟩
    · rw [hidx]
      exact levelStep_ok s p h σ k hk hσ' x hx.size
    have hdm : g.dims.map (Function.update σ s.geoZo k) = g.dims.map σ :=
      List.map_congr_left fun d hd => Function.update_of_ne ((hg d).1 hd).2 _ _
    refine filled_put s p h junk _ _ _ ?_ ?_ ?_ ?_ x hx
    · intro d hd
      by_cases hz : d = s.geoZo
      · subst hz; rw [Function.update_self]; exact hk
      · rw [Function.update_of_ne hz]; exact hσ' d hd hz
    · rw [Function.update_self, hdm, hpos]
      rintro (h3 | ⟨-, h3⟩) <;> omega
    · intro τ' h'
      have key : (∀ d ∈ s.shapeOut, τ' d = Function.update σ s.geoZo k d) ↔
          τ' s.geoZo = k ∧ pos (g.dims.map (outLen s)) (g.dims.map τ') = n := by
        constructor
        · intro hs
          refine ⟨by rw [hs _ h.zo, Function.update_self], ?_⟩
          rw [List.map_congr_left fun d hd => hs d ((hg d).1 hd).1, hdm, hpos]
        · rintro ⟨h1, h2⟩ d hd
          by_cases hz : d = s.geoZo
          · subst hz; rw [Function.update_self, h1]
          · rw [Function.update_of_ne hz]
            have := pos_inj (inShape_map fun d hd => h' d ((hg d).1 hd).1) (inShape_map hσ) (h2.trans hpos.symm)
            exact List.map_inj_left.1 this d ((hg d).2 ⟨hd, hz⟩)
      rw [key]
      constructor
      · rintro (h3 | ⟨h3, h4⟩)
        · exact Or.inl (Or.inl h3)
        · rcases Nat.lt_succ_iff_lt_or_eq.1 h4 with h5 | h5
          · exact Or.inl (Or.inr ⟨h3, h5⟩)
          · exact Or.inr ⟨h3, h5⟩
      · rintro ((h3 | ⟨h3, h4⟩) | ⟨h3, h4⟩)
        · exact Or.inl h3
        · exact Or.inr ⟨h3, by omega⟩
        · exact Or.inr ⟨h3, by omega⟩
    · intro τ' hs
      rw [hs _ h.zo, List.map_congr_left fun d hd => hs d ((hg d).1 hd).1]

theorem levelLoop_ok (s : Setup K) (p : ℕ) (h : Sensible s p) (junk : ℕ → Option K) (g : Group)
    (hg : ∀ d, d ∈ g.dims ↔ d ∈ s.shapeOut ∧ d ≠ s.geoZo) (hl : g.lengths = g.dims.map (outLen s))
    (hv : Visited (outLen s) g (allArrs s)) : ∀ n k, k + n = outLen s s.geoZo → ∀ out,
    Filled s p junk (fun τ => τ s.geoZo < k) out →
    ∃ out', levelLoop s p (theArrays s) (limits s).2 (limits s).1 g n k out = .ok out' ∧
      Filled s p junk (fun τ => τ s.geoZo < k + n) out'
  | 0, k, _, out, hf => ⟨out, rfl, hf⟩
  | n + 1, k, hn, out, hf => by
    obtain ⟨o1, e1, f1⟩ := doLoop_level s p h junk g hg hl hv k (by omega) out hf
    obtain ⟨o2, e2, f2⟩ := levelLoop_ok s p h junk g hg hl hv n (k + 1) (by omega) o1 f1
    refine ⟨o2, ?_, ?_⟩
    · rw [levelLoop, e1, Res.ok_bind, e2]
    · have : k + (n + 1) = k + 1 + n := by omega
      rw [this]; exact f2

/-- A value put between the smallest and the largest valid value, if there are any; an undefined value stays so. -/
def inRange (lo hi : Option K) (v : Option K) : Option K :=
  v.map fun w => (match hi with | some b => min b | none => id) ((match lo with | some a => max a | none => id) w)

theorem toValid_eq (lo hi : Option K) : toValid lo hi = inRange lo hi := by
  funext v
  cases v with
  | none => cases lo <;> cases hi <;> rfl
  | some w =>
    cases lo with
    | none =>
      cases hi with
      | none => rfl
      | some b =>
        by_cases h : w > b
        · unfold toValid inRange; simp [h, min_eq_left h.le]
        · unfold toValid inRange; simp [h, min_eq_right (not_lt.1 h)]
    | some a =>
      by_cases ha : w < a
      · cases hi with
        | none => unfold toValid inRange; simp [ha, max_eq_left ha.le]
        | some b =>
          by_cases h : a > b
          · unfold toValid inRange; simp [ha, h, max_eq_left ha.le, min_eq_left h.le]
          · unfold toValid inRange; simp [ha, h, max_eq_left ha.le, min_eq_right (not_lt.1 h)]
      · cases hi with
        | none => unfold toValid inRange; simp [ha, max_eq_right (not_lt.1 ha)]
        | some b =>
          by_cases h : w > b
          · unfold toValid inRange; simp [ha, h, max_eq_right (not_lt.1 ha), min_eq_left h.le]
          · unfold toValid inRange; simp [ha, h, max_eq_right (not_lt.1 ha), min_eq_right (not_lt.1 h)]

/-- C81, all values of a slice: each output place holds what `result` says for its index assignment. -/
theorem C81_every_value (s : Setup K) (p : ℕ) (h : Sensible s p) (junk : ℕ → Option K) : ∃ out,
    levelSlice s p junk = .ok out ∧ out.length = (s.shapeOut.map (outLen s)).prod ∧
    ∀ τ, OutIndex s τ → out[place (outLen s) s.shapeOut τ]? =
      some (inRange s.validMin s.validMax (result s p τ (junk (place (outLen s) s.shapeOut τ)))) := by
  obtain ⟨g, eg, -, hl, hg, hv⟩ := levelGroup_ok s p h
  have hz : lengthOf (theArrays s).oData s.geoZo = outLen s s.geoZo := arr_lengthOf _ _ h.zo
  have hvol : (theArrays s).oData.volume = (s.shapeOut.map (outLen s)).prod := arr_volume _ _ _
  have f0 : Filled s p junk (fun τ => τ s.geoZo < 0) ((List.range (s.shapeOut.map (outLen s)).prod).map junk) := by
    refine ⟨by simp, fun τ _ h0 => absurd h0 (Nat.not_lt_zero _), fun τ hτ _ => ?_⟩
    rw [List.getElem?_map, List.getElem?_range (place_lt hτ)]; rfl
  obtain ⟨out, eo, fo⟩ := levelLoop_ok s p h junk g hg hl hv (outLen s s.geoZo) 0 (by omega) _ f0
  refine ⟨out.map (inRange s.validMin s.validMax), ?_, by rw [List.length_map, fo.size], ?_⟩
  · unfold levelSlice
    rw [show arraysOf s = Res.ok (theArrays s) from arraysOf_ok s p h, Res.ok_bind]
    dsimp only
    rw [limitDims_ok s _ fun l hl => ⟨(h.lim l (Or.inl hl)).1, fun d hd => ((h.lim l (Or.inl hl)).2.1 d hd).2⟩, Res.ok_bind,
      limitDims_ok s _ fun l hl => ⟨(h.lim l (Or.inr hl)).1, fun d hd => ((h.lim l (Or.inr hl)).2.1 d hd).2⟩, Res.ok_bind]
    rw [show levelGroup (theArrays s) _ _ = Res.ok g from eg, Res.ok_bind, hz, hvol, eo, Res.ok_bind, toValid_eq]
  · intro τ hτ
    rw [List.getElem?_map, fo.yes τ hτ (by have := hτ _ h.zo; omega), Option.map_some]

/-! ## The claim -/

/-- The coordinate in which a method is linear. -/
def coord (s : Setup K) (a : K) : K :=
  match s.method with
  | .log => s.log a
  | .logLog => s.log (s.log (a + s.e))
  | _ => a

/-- A logarithm that increases, and is not negative for the constant of the double logarithm. -/
structure LogOK (s : Setup K) : Prop where
  mono : ∀ a b, 0 < a → a < b → s.log a < s.log b
  pos : 0 < s.e
  e : 0 ≤ s.log s.e

/-- The method takes logarithms of heights. -/
def TakesLog (s : Setup K) : Prop := s.method = .log ∨ s.method = .logLog

variable [IsStrictOrderedRing K]

theorem coord_inj (s : Setup K) (h : LogOK s) {a b : K} (ha : TakesLog s → 0 < a) (hb : TakesLog s → 0 < b)
    (hab : a ≠ b) : coord s a ≠ coord s b := by
  have inj : ∀ {a b : K}, 0 < a → 0 < b → a ≠ b → s.log a ≠ s.log b := by
    intro a b ha hb hab
    rcases lt_or_gt_of_ne hab with hlt | hlt
    · exact (h.mono a b ha hlt).ne
    · exact (h.mono b a hb hlt).ne'
  have hp : ∀ {a : K}, 0 < a → 0 < s.log (a + s.e) := fun {a} ha =>
    lt_of_le_of_lt h.e (h.mono s.e (a + s.e) h.pos (by linarith))
  unfold coord
  unfold TakesLog at ha hb
  cases hm : s.method with
  | log => exact inj (ha (Or.inl hm)) (hb (Or.inl hm)) hab
  | logLog =>
    have ha := ha (Or.inr hm)
    have hb := hb (Or.inr hm)
    have hpos := h.pos
    exact inj (hp ha) (hp hb) (inj (by linarith) (by linarith) fun e => hab (by linarith))
  | _ => exact hab

theorem logStep (s : Setup K) (h : LogOK s) {a : K} (ha : 0 < a) : 0 < s.log (a + s.e) :=
  lt_of_le_of_lt h.e (h.mono s.e (a + s.e) h.pos (by linarith))

/-- The method for one value is the straight line in its coordinate. -/
theorem intFunc_line (s : Setup K) (h : LogOK s) (hn : s.method ≠ .nearest) {a b x : K} (u v : Option K)
    (hp : TakesLog s → 0 < a ∧ 0 < b ∧ 0 < x) (hx : InInterval a b x ∨ a ≠ b ∧ (s.method = .lin ∨ TakesLog s)) :
    intFunc s u v a b x = .ok [lineValue (coord s a) (coord s b) (coord s x) u v] := by
  have pw : ∀ f : Option K → Option K → Option K, pointwise f [u] [v] 1 = [f u v] := fun f => rfl
  by_cases hab : a = b
  · subst hab
    have hxa : x = a := by
      rcases hx with (⟨h1, h2⟩ | ⟨h1, h2⟩) | ⟨h1, -⟩
      · exact le_antisymm h2 h1
      · exact le_antisymm h2 h1
      · exact absurd rfl h1
    subst hxa
    have hl : lineValue (coord s x) (coord s x) (coord s x) u v = u := by unfold lineValue; rw [if_pos rfl]
    rw [hl]
    obtain ⟨e1, e2, e3, e4⟩ := C34_equal_coordinates [u] [v] 1 x x (by simp)
    have e0 : ∀ y : K, linear [u] [v] 1 y y y = .ok [u] := fun y => (C34_equal_coordinates [u] [v] 1 y y (by simp)).1
    unfold intFunc
    cases hm : s.method with
    | lin => exact e1
    | linWeak => exact e3
    | linNo => exact e2
    | linConst => exact e4
    | nearest => exact absurd hm hn
    | log =>
      obtain ⟨h1, -, -⟩ := hp (Or.inl hm)
      dsimp only
      unfold logInterp
      rw [if_neg (by push Not; exact ⟨h1, h1, h1⟩)]
      exact e0 _
    | logLog =>
      obtain ⟨h1, -, -⟩ := hp (Or.inr hm)
      have h2 := logStep s h h1
      dsimp only
      unfold logLogInterp logInterp
      rw [if_neg (by push Not; exact ⟨h1, h1, h1⟩), if_neg (by push Not; exact ⟨h2, h2, h2⟩)]
      exact e0 _
  · have hc := coord_inj s h (fun t => (hp t).1) (fun t => (hp t).2.1) hab
    have hl : ∀ {a b x : K}, a ≠ b → linear [u] [v] 1 a b x = .ok [lineValue a b x u v] := fun hab => by
      rw [C34_linear [u] [v] 1 _ _ _ (by simp) (by simp) hab, pw]
    have hint : s.method ≠ .lin → ¬ TakesLog s → InInterval a b x := fun h1 h2 => by
      rcases hx with hx | ⟨-, h3 | h3⟩
      · exact hx
      · exact absurd h3 h1
      · exact absurd h3 h2
    have hweak : InInterval a b x → InInterval (a - (b - a)) (b + (b - a)) x := by
      rintro (⟨h1, h2⟩ | ⟨h1, h2⟩)
      · exact Or.inl ⟨by linarith, by linarith⟩
      · exact Or.inr ⟨by linarith, by linarith⟩
    unfold coord at hc ⊢
    unfold intFunc
    cases hm : s.method with
    | lin => rw [hm] at hc; exact hl hc
    | linWeak =>
      have := hint (by rw [hm]; decide) (by unfold TakesLog; rw [hm]; decide)
      dsimp only
      rw [(C34_weak_extrapolation [u] [v] 1 a b x (by simp) (by simp) hab).1 (hweak this), pw]
    | linNo =>
      have := hint (by rw [hm]; decide) (by unfold TakesLog; rw [hm]; decide)
      dsimp only
      rw [(C34_no_extrapolation [u] [v] 1 a b x (by simp) (by simp) hab).1 this, pw]
    | linConst =>
      have := hint (by rw [hm]; decide) (by unfold TakesLog; rw [hm]; decide)
      dsimp only
      rw [(C34_constant_extrapolation [u] [v] 1 a b x (by simp) (by simp) hab).1 this, pw]
    | nearest => exact absurd hm hn
    | log =>
      obtain ⟨h1, h2, h3⟩ := hp (Or.inl hm)
      rw [hm] at hc
      dsimp only at hc ⊢
      unfold logInterp
      rw [if_neg (by push Not; exact ⟨h1, h2, h3⟩)]
      exact hl hc
    | logLog =>
      obtain ⟨h1, h2, h3⟩ := hp (Or.inr hm)
      rw [hm] at hc
      dsimp only at hc ⊢
      unfold logLogInterp logInterp
      rw [if_neg (by push Not; exact ⟨h1, h2, h3⟩),
        if_neg (by push Not; exact ⟨logStep s h h1, logStep s h h2, logStep s h h3⟩)]
      exact hl hc

omit [IsStrictOrderedRing K] in
theorem inColumn_line (s : Setup K) (col : List K) (vals : List (Option K)) (x : K) {i j : ℕ} {v w r : Option K} {a b : K}
    (hf : findNeighbours s.largest col x = (i, j)) (hij : i ≠ j) (hi : col[i]? = some a) (hj : col[j]? = some b)
    (hv : vals[i]? = some v) (hw : vals[j]? = some w) (hr : intFunc s v w a b x = .ok [r]) :
    inColumn s col vals x = some r := by
  unfold inColumn
  rw [hf]
  dsimp only
  rw [if_pos hij]
  simp only [List.getD_eq_getElem?_getD, hi, hj, hv, hw, Option.getD_some, hr]
  rfl

/-- The limits in use are the same at position 0 and at position `p`. -/
def LimitsFixed (s : Setup K) (p : ℕ) : Prop :=
  p = 0 ∨ ∀ l, l ∈ (limits s).1 ∨ l ∈ (limits s).2 → ∀ u ∈ s.unlimited, u ∉ l.shape

omit [IsStrictOrderedRing K] in
theorem within_fixed (s : Setup K) (p : ℕ) (h : LimitsFixed s p) (τ : String → ℕ) (x : K) :
    Within s 0 τ x ↔ Within s p τ x := by
  rcases h with rfl | h
  · exact Iff.rfl
  have key : ∀ l, l ∈ (limits s).1 ∨ l ∈ (limits s).2 → limitAt s 0 l τ = limitAt s p l τ := by
    intro l hl
    unfold limitAt
    rw [place_congr fun d hd => ?_]
    unfold atTime
    cases hu : s.unlimited with
    | none => rfl
    | some u =>
      dsimp only
      have : d ≠ u := fun e => h l hl u hu (e ▸ hd)
      rw [Function.update_of_ne this, Function.update_of_ne this]
  unfold Within
  constructor
  · rintro ⟨a, b⟩
    exact ⟨fun l hl => by rw [← key l (Or.inr hl)]; exact a l hl, fun l hl => by rw [← key l (Or.inl hl)]; exact b l hl⟩
  · rintro ⟨a, b⟩
    exact ⟨fun l hl => by rw [key l (Or.inr hl)]; exact a l hl, fun l hl => by rw [key l (Or.inl hl)]; exact b l hl⟩

omit [Field K] [LinearOrder K] [IsStrictOrderedRing K] in
theorem values_get [Field K] (s : Setup K) (p : ℕ) (τ : String → ℕ) {i : ℕ} {a : K} (h : (heights s p τ)[i]? = some a) :
    ∃ v, (values s p τ)[i]? = some v := by
  have : i < (heights s p τ).length := (List.getElem?_eq_some_iff.1 h).1
  have hl : (values s p τ).length = (heights s p τ).length := by simp [values, heights]
  exact ⟨_, List.getElem?_eq_getElem (by omega)⟩

/-- C81, within the column: if the height of an output value is within the limits and between two heights of its
column, then the value is that of the straight line (in the coordinate of the method) between two neighbouring heights
of the column, put within the valid range.  The full claim has neither `LimitsFixed` nor the condition on the first
height, and it covers the method `nearest`; all three are needed, see `C81_limits_of_the_first_position`,
`C81_first_height_undefined` and `C81_nearest_takes_lower`. -/
theorem C81_vertical_interpolation_partial (s : Setup K) (p : ℕ) (h : Sensible s p) (hlim : LimitsFixed s p)
    (hlog : LogOK s) (hn : s.method ≠ .nearest) (junk : ℕ → Option K) : ∃ out, levelSlice s p junk = .ok out ∧
    out.length = (s.shapeOut.map (outLen s)).prod ∧
    ∀ τ, OutIndex s τ →
      (¬ Within s p τ (heightAt s p τ) → out[place (outLen s) s.shapeOut τ]? = some none) ∧
      (Within s p τ (heightAt s p τ) →
        (∀ v ∈ heights s p τ, |heightAt s p τ - v| < s.largest) → (heights s p τ).head? ≠ some (heightAt s p τ) →
        (TakesLog s → 0 < heightAt s p τ ∧ ∀ v ∈ heights s p τ, 0 < v) →
        (∃ v ∈ heights s p τ, v ≤ heightAt s p τ) → (∃ v ∈ heights s p τ, heightAt s p τ ≤ v) →
        ∃ (i j : ℕ) (a b : K) (u v : Option K), (heights s p τ)[i]? = some a ∧ (heights s p τ)[j]? = some b ∧ (values s p τ)[i]? = some u ∧
          (values s p τ)[j]? = some v ∧ InInterval a b (heightAt s p τ) ∧
          (∀ c ∈ heights s p τ, ¬ (min a b < c ∧ c < heightAt s p τ) ∧ ¬ (heightAt s p τ < c ∧ c < max a b)) ∧
          out[place (outLen s) s.shapeOut τ]? = some (inRange s.validMin s.validMax
            (lineValue (coord s a) (coord s b) (coord s (heightAt s p τ)) u v))) := by
  obtain ⟨out, e, hl, hv⟩ := C81_every_value s p h junk
  refine ⟨out, e, hl, fun τ hτ => ⟨fun hw => ?_, fun hw hM hfirst hpos hlo hhi => ?_⟩⟩
  · rw [hv τ hτ]
    unfold result written
    rw [if_neg (fun h0 => hw ((within_fixed s p hlim τ _).1 h0)), Option.getD_some]
    unfold inRange
    cases s.validMin <;> cases s.validMax <;> rfl
  · have hv := hv τ hτ
    unfold result written at hv
    rw [if_pos ((within_fixed s p hlim τ _).2 hw)] at hv
    generalize hx : heightAt s p τ = x at hv hM hfirst hpos hlo hhi ⊢
    have hvals := fun {i : ℕ} {a : K} (hi : (heights s p τ)[i]? = some a) => values_get s p τ hi
    generalize heights s p τ = col at hv hM hfirst hpos hlo hhi hvals ⊢
    cases col with
    | nil => obtain ⟨v, hv, -⟩ := hlo; exact absurd hv (by simp)
    | cons c rest =>
      obtain ⟨i, j, a, b, hf, hij, hi, hj, h1, h2, h3⟩ := C38_neighbours_partial s.largest x c rest hM
        (fun h0 => hfirst (by rw [h0]; rfl)) hlo hhi
      have hint : InInterval a b x := by
        rcases le_total a b with hab | hab
        · rw [min_eq_left hab] at h1; rw [max_eq_right hab] at h2; exact Or.inl ⟨h1, h2⟩
        · rw [min_eq_right hab] at h1; rw [max_eq_left hab] at h2; exact Or.inr ⟨h1, h2⟩
      obtain ⟨u, hu⟩ := hvals hi
      obtain ⟨v, hv'⟩ := hvals hj
      refine ⟨i, j, a, b, u, v, hi, hj, hu, hv', hint, h3, ?_⟩
      have hr := intFunc_line s hlog hn u v (fun t => ⟨(hpos t).2 a (List.mem_of_getElem? hi),
        (hpos t).2 b (List.mem_of_getElem? hj), (hpos t).1⟩) (Or.inl hint)
      rw [inColumn_line s _ _ x hf hij hi hj hu hv' hr] at hv
      exact hv

theorem neighbours_outside (M x a : K) (rest : List K) (hM : ∀ v ∈ a :: rest, |x - v| < M)
    (h : (∀ v ∈ a :: rest, x < v) ∨ ∀ v ∈ a :: rest, v < x) :
    findNeighbours M (a :: rest) x = findClosestDistinct (a :: rest) x := by
  have hMa := hM a (by simp)
  rw [abs_lt] at hMa
  have ha : a ≠ x := by
    rcases h with h | h
    · exact (h a (by simp)).ne'
    · exact (h a (by simp)).ne
  have h0 : NInv x M a [] ⟨0, 0, if x - a < 0 then M else x - a, if -(x - a) < 0 then M else -(x - a)⟩ := by
    rcases lt_or_gt_of_ne ha with h | h
    · rw [if_neg (by linarith), if_pos (by linarith)]
      exact ⟨Or.inr ⟨hMa.2, a, rfl, rfl, h.le, by simp⟩, Or.inl ⟨rfl, by simpa using h.le⟩⟩
    · rw [if_pos (by linarith), if_neg (by linarith)]
      exact ⟨Or.inl ⟨rfl, by simpa using h⟩,
        Or.inr ⟨by dsimp only; linarith, a, rfl, by dsimp only; ring, h, by simp⟩⟩
  have hinv := neighbourLoop_inv x M a rest [] _ h0 fun v hv => hM v (by simp [hv])
  rw [List.nil_append] at hinv
  unfold findNeighbours
  dsimp only
  generalize hs : neighbourLoop x rest ([].length + 1) _ = s at hinv
  rw [if_pos]
  rcases h with h | h
  · rcases hinv.low with ⟨hl, -⟩ | ⟨-, v, hv, -, hvx, -⟩
    · exact Or.inl hl
    · exact absurd (h v (List.mem_of_getElem? hv)) (not_lt.2 hvx)
  · rcases hinv.high with ⟨hl, -⟩ | ⟨-, v, hv, -, hvx, -⟩
    · exact Or.inr hl
    · exact absurd (h v (List.mem_of_getElem? hv)) (not_lt.2 hvx.le)

/-- C81 outside the column: with the methods that extrapolate, a height outside the column, at the end that is not the
first, gives the straight line through the closest height and the closest other one.  At the end where the first height
is the value is undefined, see `C81_first_end_undefined`. -/
theorem C81_extrapolation_partial (s : Setup K) (p : ℕ) (h : Sensible s p) (hlim : LimitsFixed s p) (hlog : LogOK s)
    (hm : s.method = .lin ∨ TakesLog s) (junk : ℕ → Option K) (τ : String → ℕ) (hτ : OutIndex s τ)
    (hw : Within s p τ (heightAt s p τ)) (hM : ∀ v ∈ heights s p τ, |heightAt s p τ - v| < s.largest)
    (hpos : TakesLog s → 0 < heightAt s p τ ∧ ∀ v ∈ heights s p τ, 0 < v)
    (hout : (∀ v ∈ heights s p τ, heightAt s p τ < v) ∨ ∀ v ∈ heights s p τ, v < heightAt s p τ)
    (hfar : ∃ c ∈ (heights s p τ).head?, ∃ v ∈ heights s p τ, |heightAt s p τ - v| < |heightAt s p τ - c|) :
    ∃ (out : List (Option K)) (i j : ℕ) (a b : K) (u v : Option K), levelSlice s p junk = .ok out ∧ (heights s p τ)[i]? = some a ∧ (heights s p τ)[j]? = some b ∧
      (values s p τ)[i]? = some u ∧ (values s p τ)[j]? = some v ∧ a ≠ b ∧
      (∀ c ∈ heights s p τ, |heightAt s p τ - a| ≤ |heightAt s p τ - c|) ∧
      (∀ c ∈ heights s p τ, c ≠ a → |heightAt s p τ - b| ≤ |heightAt s p τ - c|) ∧
      out[place (outLen s) s.shapeOut τ]? = some (inRange s.validMin s.validMax
        (lineValue (coord s a) (coord s b) (coord s (heightAt s p τ)) u v)) := by
  obtain ⟨out, e, -, hv⟩ := C81_every_value s p h junk
  have hv := hv τ hτ
  unfold result written at hv
  rw [if_pos ((within_fixed s p hlim τ _).2 hw)] at hv
  generalize hx : heightAt s p τ = x at hv hM hout hpos hfar ⊢
  have hvals := fun {i : ℕ} {a : K} (hi : (heights s p τ)[i]? = some a) => values_get s p τ hi
  generalize heights s p τ = col at hv hM hout hpos hfar hvals ⊢
  cases col with
  | nil => obtain ⟨c, hc, -⟩ := hfar; exact absurd hc (by simp)
  | cons c rest =>
    obtain ⟨c', hc', hcl⟩ := hfar
    simp only [List.head?_cons, Option.mem_def, Option.some.injEq] at hc'
    subst hc'
    obtain ⟨i, j, a, b, hf, hi, hj, hab, h1, h2⟩ := C38_closest_distinct_partial (c :: rest) x c rest rfl hcl
    obtain ⟨u, hu⟩ := hvals hi
    obtain ⟨v, hv'⟩ := hvals hj
    refine ⟨out, i, j, a, b, u, v, e, hi, hj, hu, hv', hab, h1, h2, ?_⟩
    have hn : s.method ≠ .nearest := by
      rcases hm with h0 | h0 | h0 <;> rw [h0] <;> decide
    have hr := intFunc_line s hlog hn (x := x) u v (fun t => ⟨(hpos t).2 a (List.mem_of_getElem? hi),
      (hpos t).2 b (List.mem_of_getElem? hj), (hpos t).1⟩) (Or.inr ⟨hab, hm⟩)
    have hij : i ≠ j := by
      rintro rfl
      rw [hi] at hj
      exact hab (by simpa using hj)
    rw [← neighbours_outside s.largest x c rest hM hout] at hf
    rw [inColumn_line s _ _ x hf hij hi hj hu hv' hr] at hv
    exact hv

omit [IsStrictOrderedRing K] in
theorem same_undefined (s : Setup K) (p : ℕ) (h : Sensible s p) (junk : ℕ → Option K) (τ : String → ℕ) (hτ : OutIndex s τ)
    (i : ℕ) (hf : findNeighbours s.largest (heights s p τ) (heightAt s p τ) = (i, i)) :
    ∃ out, levelSlice s p junk = .ok out ∧ out[place (outLen s) s.shapeOut τ]? = some none := by
  obtain ⟨out, e, -, hv⟩ := C81_every_value s p h junk
  refine ⟨out, e, ?_⟩
  rw [hv τ hτ]
  unfold result written inColumn
  rw [hf]
  have : ∀ c : Prop, ∀ [Decidable c], (if c then (if (i, i).1 ≠ (i, i).2 then
      match intFunc s ((values s p τ).getD (i, i).1 none) ((values s p τ).getD (i, i).2 none) ((heights s p τ).getD (i, i).1 0)
        ((heights s p τ).getD (i, i).2 0) (heightAt s p τ) with
      | .ok l => l.head?
      | _ => none
      else some none) else some none) = some (none : Option K) := by
    intro c _; simp
  dsimp only at this ⊢
  rw [this, Option.getD_some]
  unfold inRange
  cases s.validMin <;> cases s.validMax <;> rfl

/-- The missing case of C81 for every call and method: a height equal to the first height of the column gives an
undefined value. -/
theorem C81_first_height_undefined (s : Setup K) (p : ℕ) (h : Sensible s p) (hM : 0 < s.largest) (junk : ℕ → Option K)
    (τ : String → ℕ) (hτ : OutIndex s τ) (hfirst : (heights s p τ).head? = some (heightAt s p τ)) :
    ∃ out, levelSlice s p junk = .ok out ∧ out[place (outLen s) s.shapeOut τ]? = some none := by
  refine same_undefined s p h junk τ hτ 0 ?_
  cases hc : heights s p τ with
  | nil => rw [hc] at hfirst; simp at hfirst
  | cons c rest =>
    rw [hc] at hfirst
    simp only [List.head?_cons, Option.some.injEq] at hfirst
    rw [hfirst]
    exact C38_first_element_twice s.largest _ rest hM

/-- Nor is there extrapolation beyond the end of the column where its first height is, with any method. -/
theorem C81_first_end_undefined (s : Setup K) (p : ℕ) (h : Sensible s p) (junk : ℕ → Option K) (τ : String → ℕ)
    (hτ : OutIndex s τ) (hM : ∀ v ∈ heights s p τ, |heightAt s p τ - v| < s.largest)
    (hout : (∀ v ∈ heights s p τ, heightAt s p τ < v) ∨ ∀ v ∈ heights s p τ, v < heightAt s p τ)
    (hnear : ∀ c ∈ (heights s p τ).head?, ∀ v ∈ heights s p τ, v ≠ c → |heightAt s p τ - c| < |heightAt s p τ - v|) :
    ∃ out, levelSlice s p junk = .ok out ∧ out[place (outLen s) s.shapeOut τ]? = some none := by
  refine same_undefined s p h junk τ hτ 0 ?_
  cases hc : heights s p τ with
  | nil =>
    have := congrArg List.length hc
    simp only [heights, List.length_map, List.length_range, List.length_nil] at this
    have := h.sIn.positive _ h.zi
    omega
  | cons c rest =>
    rw [hc] at hM hout hnear
    rw [neighbours_outside _ _ _ _ hM hout]
    exact C38_closest_first_not_distinct _ _ _ fun v hv => hnear c rfl v (List.mem_cons_of_mem _ hv)

/-! ## Cases -/

/-- A dataset with three levels interpolated to two fixed heights; the dimensions have another order in each array. -/
def caseA : Setup ℚ where
  sizeIn d := if d = "x" then 2 else if d = "lev" then 3 else if d = "time" then 2 else 1
  sizeOut d := if d = "x" then 2 else if d = "height" then 2 else if d = "time" then 2 else 1
  unlimited := some "time"
  shapeIn := ["lev", "x", "time"]
  shapeOut := ["x", "height", "time"]
  geoZi := "lev"
  geoZo := "height"
  convIn := ["x", "lev"]
  convOut := none
  vAxis := "height"
  level1 := [15, 25]
  data p := if p = 0 then [some 1, some 2, some 3, some 10, some 20, none] else [some 5, some 6, some 7, some 8, some 9, some 0]
  vertIn _ := [10, 0, 20, 20, 30, 30]
  vertOut _ := []
  maxOut := none
  minOut := none
  maxIn := some ⟨["x", "time"], [22, 100, 100, 22]⟩
  minIn := none
  ignoreMax := false
  ignoreMin := false
  method := .lin
  log x := x
  e := 1
  largest := 1000000
  validMin := none
  validMax := some 16

theorem caseA_first : Sensible caseA 0 := by
  have sh : ∀ u (size : String → ℕ) names, names.Nodup → (∀ d ∈ names.dropLast, u ≠ some d) → (∀ d ∈ names, 0 < size d) →
      Shape u size names := fun _ _ _ a b c => ⟨a, b, c⟩
  refine ⟨sh _ _ _ (by decide +kernel) (by decide +kernel) (by decide +kernel),
    sh _ _ _ (by decide +kernel) (by decide +kernel) (by decide +kernel),
    sh _ _ _ (by decide +kernel) (by decide +kernel) (by decide +kernel), by decide +kernel, by decide +kernel, by decide +kernel,
    by decide +kernel, by decide +kernel, ?_, by decide +kernel, by decide +kernel, by decide +kernel, by decide +kernel,
    ⟨rfl, by decide +kernel⟩, ?_, by decide +kernel, by decide +kernel⟩
  · intro d h1 h2
    simp only [caseA] at h1 h2
    simp [caseA, h1, h2]
  · intro l hl
    simp [limits, caseA] at hl
    subst hl
    exact ⟨sh _ _ _ (by decide +kernel) (by decide +kernel) (by decide +kernel), by decide +kernel, by decide +kernel⟩

theorem caseA_sensible (p : ℕ) (m : Method) (f : Bool) (l : List ℚ) (hl : l.length = 2) :
    Sensible { caseA with method := m, ignoreMax := f, level1 := l } p := by
  have h := caseA_first
  refine ⟨h.sIn, h.sOut, h.sConv, h.zi, h.ziConv, h.zo, h.ziU, h.zoU, h.same, h.zoIn, h.ziOut, h.sizes, h.conv,
    ⟨rfl, hl.trans (show 2 = caseA.sizeOut caseA.geoZo by decide +kernel)⟩, ?_, ?_, h.vertSize⟩
  · intro l hl
    cases f with
    | true => simp [limits, caseA] at hl
    | false => exact h.lim l hl
  · rw [show (caseA.data p).length = (caseA.data 0).length by simp only [caseA]; split_ifs <;> rfl]
    exact h.dataSize

/-- In the first column (heights 10, 20, 30) the height 15 gives 1.5 and the height 25 is above the limit; in the
second (0, 20, 30) they give 17.5, which is put to the valid maximum, and the undefined value. -/
example : levelSlice caseA 0 (fun _ => some 99) = .ok [some (3 / 2), some 16, none, none] := by decide +kernel

/-- The hypotheses of C81 are met in this case. -/
example : Sensible caseA 0 ∧ LimitsFixed caseA 0 ∧ LogOK caseA ∧ caseA.method ≠ .nearest ∧ OutIndex caseA (fun _ => 0) ∧
    Within caseA 0 (fun _ => 0) (heightAt caseA 0 fun _ => 0) ∧ heights caseA 0 (fun _ => 0) = [10, 20, 30] ∧
    values caseA 0 (fun _ => 0) = [some 1, some 2, some 3] ∧ heightAt caseA 0 (fun _ => 0) = 15 :=
  ⟨caseA_first, Or.inl rfl, ⟨fun _ _ _ h => h, by decide +kernel, by decide +kernel⟩, by decide,
    by unfold OutIndex; decide +kernel, by decide +kernel, by decide +kernel, by decide +kernel, by decide +kernel⟩

/-- C81 does not hold for later positions of the unlimited dimension if the limits depend on it: at position 1 the
limits are 100 and 22, but those of position 0 (22 and 100) are used.  The height 25 in the second column is above its
limit 22 and gets a value, and the one in the first column is within its limit 100 and gets none. -/
theorem C81_limits_of_the_first_position : ∃ s : Setup ℚ, Sensible s 1 ∧ s.method = .lin ∧ ∃ out,
    levelSlice s 1 (fun _ => some 99) = .ok out ∧
    (∃ τ, OutIndex s τ ∧ ¬ Within s 1 τ (heightAt s 1 τ) ∧ out[place (outLen s) s.shapeOut τ]? ≠ some none) ∧
    (∃ τ, OutIndex s τ ∧ Within s 1 τ (heightAt s 1 τ) ∧ heights s 1 τ = [10, 20, 30] ∧ heightAt s 1 τ = 25 ∧
      values s 1 τ = [some 5, some 6, some 7] ∧ out[place (outLen s) s.shapeOut τ]? = some none) := by
  refine ⟨caseA, caseA_sensible 1 _ _ _ rfl, rfl, [some (11 / 2), some (35 / 4), none, some (9 / 2)],
    by decide +kernel,
    ⟨fun d => if d = "time" then 0 else 1, by unfold OutIndex; decide +kernel, by decide +kernel, by decide +kernel⟩,
    ⟨fun d => if d = "height" then 1 else 0, by unfold OutIndex; decide +kernel, by decide +kernel, by decide +kernel, by decide +kernel,
      by decide +kernel, by decide +kernel⟩⟩

/-- The method `nearest` does not take the nearest height: for 29 between 20 and 30 it takes the value at 20. -/
theorem C81_nearest_takes_lower : ∃ s : Setup ℚ, Sensible s 0 ∧ s.method = .nearest ∧ ∃ out τ,
    levelSlice s 0 (fun _ => some 99) = .ok out ∧ OutIndex s τ ∧ heights s 0 τ = [10, 20, 30] ∧ heightAt s 0 τ = 29 ∧
    values s 0 τ = [some 1, some 2, some 3] ∧ out[place (outLen s) s.shapeOut τ]? = some (some 2) :=
  ⟨{ caseA with method := .nearest, ignoreMax := true, level1 := [15, 29] }, caseA_sensible 0 _ _ _ rfl, rfl,
    [some 1, some 10, some 2, some 16], fun d => if d = "height" then 1 else 0, by decide +kernel, by unfold OutIndex; decide +kernel,
    by decide +kernel, by decide +kernel, by decide +kernel, by decide +kernel⟩

/-- A logarithmic method with a height that is not positive leaves the output as the allocation made it: what is
delivered is the content of uninitialised memory. -/
theorem C81_log_uninitialised : ∃ s : Setup ℚ, Sensible s 0 ∧ s.method = .log ∧ ∃ τ, OutIndex s τ ∧
    heights s 0 τ = [0, 20, 30] ∧ heightAt s 0 τ = 15 ∧
    ∀ junk : ℕ → Option ℚ, (∀ i, ∀ v ∈ junk i, v ≤ 16) → ∃ out, levelSlice s 0 junk = .ok out ∧
      out[place (outLen s) s.shapeOut τ]? = some (junk (place (outLen s) s.shapeOut τ)) := by
  refine ⟨{ caseA with method := .log, ignoreMax := true }, caseA_sensible 0 _ _ _ rfl, rfl,
    fun d => if d = "x" then 1 else 0, by unfold OutIndex; decide +kernel, by decide +kernel, by decide +kernel, fun junk hj => ?_⟩
  obtain ⟨out, e, -, hv⟩ := C81_every_value { caseA with method := .log, ignoreMax := true } 0
    (caseA_sensible 0 _ _ _ rfl) junk
  refine ⟨out, e, ?_⟩
  rw [hv _ (by unfold OutIndex; decide +kernel)]
  have hw : written { caseA with method := .log, ignoreMax := true } 0 0 (fun d => if d = "x" then 1 else 0) = none := by
    decide +kernel
  unfold result
  rw [hw, Option.getD_none]
  congr 1
  generalize place _ _ _ = i
  have := hj i
  cases h : junk i with
  | none => rfl
  | some v =>
    have hv := this v h
    unfold inRange
    simp only [caseA]
    rw [Option.map_some, id, min_eq_right hv]

/-- A vertical axis that is not called like its dimension ("lev" along "k"): nothing is found in the columns, and every
value is undefined. -/
theorem C81_axis_not_called_like_dimension : ∃ s : Setup ℚ, s.shapeIn = ["k", "x", "time"] ∧ s.convIn = ["x", "k"] ∧
    s.geoZi = "lev" ∧ s.vertIn 0 = [10, 0, 20, 20, 30, 30] ∧ s.level1 = [15, 25] ∧
    levelSlice s 0 (fun _ => some 99) = .ok [none, none, none, none] :=
  ⟨{ caseA with shapeIn := ["k", "x", "time"], convIn := ["x", "k"], ignoreMax := true
                sizeIn := fun d => if d = "x" then 2 else if d = "k" then 3 else if d = "time" then 2 else 1 },
    rfl, rfl, rfl, rfl, rfl, by decide +kernel⟩

/-- The height 30 is not found where it is the first height of a column in which heights decrease. -/
example : ∃ s : Setup ℚ, Sensible s 0 ∧ 0 < s.largest ∧ ∃ τ, OutIndex s τ ∧ (heights s 0 τ).head? = some (heightAt s 0 τ) :=
  ⟨{ caseA with level1 := [10, 25] }, caseA_sensible 0 _ _ _ rfl, by decide +kernel, fun _ => 0,
    by unfold OutIndex; decide +kernel, by decide +kernel⟩

/-- Extrapolation at the far end, and none at the first. -/
example : levelSlice { caseA with level1 := [5, 40], ignoreMax := true, validMax := none } 0 (fun _ => some 99) =
    .ok [none, some (25 / 2), some 4, none] := by decide +kernel

end Fimex.Levels
