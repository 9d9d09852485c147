import Verif.Netcdf.Writer
import Verif.Slice.Lemmas
import Mathlib.Data.List.Forall2
import Mathlib.Tactic.Common

/-!
# Hyper-rectangles of netCDF files
-/

namespace Fimex.Netcdf

open Fimex.Cdm

variable {A F U : Type}

theorem inside_lengths : ∀ {start count idx : List Nat}, inside start count idx = true →
    start.length = count.length ∧ idx.length = count.length
  | [], [], [], _ => ⟨rfl, rfl⟩
  | s :: start, n :: count, i :: idx, h => by
    simp only [inside, Bool.and_eq_true] at h
    obtain ⟨a, b⟩ := inside_lengths h.2
    simp [a, b]
  | [], [], _ :: _, h => by simp [inside] at h
  | [], _ :: _, _, h => by simp [inside] at h
  | _ :: _, [], _, h => by simp [inside] at h
  | _ :: _, _ :: _, [], h => by simp [inside] at h

/-- An index inside a hyper-rectangle is its start plus an index of its shape. -/
theorem inside_iff : ∀ {start count idx : List Nat}, inside start count idx = true ↔
    start.length = count.length ∧ ∃ j, InShape count j ∧ idx = List.zipWith (· + ·) start j
  | [], [], [] => by
    simp only [inside, true_iff, true_and]
    exact ⟨[], trivial, rfl⟩
  | s :: start, n :: count, i :: idx => by
    simp only [inside, Bool.and_eq_true, decide_eq_true_eq]
    rw [inside_iff]
    constructor
    · rintro ⟨⟨h1, h2⟩, hl, j, hj, rfl⟩
      refine ⟨by simp [hl], (i - s) :: j, ⟨by omega, hj⟩, ?_⟩
      simp only [List.zipWith_cons_cons, List.cons.injEq, and_true]
      omega
    · rintro ⟨hl, j, hj, he⟩
      match j, hj with
      | k :: j, hj =>
        simp only [List.zipWith_cons_cons, List.cons.injEq] at he
        have := hj.1
        exact ⟨⟨by omega, by omega⟩, by simpa using hl, j, hj.2, he.2⟩
  | [], [], _ :: _ => by
    simp only [inside, Bool.false_eq_true, false_iff]
    rintro ⟨_, j, hj, he⟩
    cases j <;> simp at he
  | [], _ :: _, _ => by
    simp only [inside, Bool.false_eq_true, false_iff]
    rintro ⟨h, _⟩
    simp at h
  | _ :: _, [], _ => by
    simp only [inside, Bool.false_eq_true, false_iff]
    rintro ⟨h, _⟩
    simp at h
  | _ :: _, _ :: _, [] => by
    simp only [inside, Bool.false_eq_true, false_iff]
    rintro ⟨_, j, hj, he⟩
    cases j with
    | nil => exact hj
    | cons => simp at he

theorem zipWith_sub_add : ∀ {start j : List Nat}, j.length = start.length →
    List.zipWith (· - ·) (List.zipWith (· + ·) start j) start = j
  | [], [], _ => rfl
  | s :: start, k :: j, h => by
    simp only [List.zipWith_cons_cons]
    rw [zipWith_sub_add (by simpa using h)]
    simp
  | [], _ :: _, h => by simp at h
  | _ :: _, [], h => by simp at h

theorem inShape_append : ∀ {s i t j : List Nat}, i.length = s.length →
    (InShape (s ++ t) (i ++ j) ↔ InShape s i ∧ InShape t j)
  | [], [], _, _, _ => by simp [InShape]
  | n :: s, k :: i, t, j, h => by
    simp only [List.cons_append, InShape]
    rw [inShape_append (by simpa using h)]
    tauto
  | [], _ :: _, _, _, h => by simp at h
  | _ :: _, [], _, _, h => by simp at h

theorem inShape_reverse : ∀ {s i : List Nat}, InShape s i → InShape s.reverse i.reverse
  | [], [], _ => trivial
  | n :: s, k :: i, h => by
    rw [List.reverse_cons, List.reverse_cons, inShape_append (by simpa using h.2.length_eq)]
    exact ⟨inShape_reverse h.2, h.1, trivial⟩
  | [], _ :: _, h => h.elim
  | _ :: _, [], h => h.elim

theorem inShape_reverse_iff {s i : List Nat} : InShape s.reverse i.reverse ↔ InShape s i := by
  constructor
  · intro h
    have := inShape_reverse h
    simpa using this
  · exact inShape_reverse

theorem offset_add {start count j : List Nat} (hl : start.length = count.length) (hj : InShape count j) :
    offset start count (List.zipWith (· + ·) start j) = pos count.reverse j.reverse := by
  unfold offset
  rw [zipWith_sub_add (by rw [hl]; exact hj.length_eq)]

theorem offset_lt {start count idx : List Nat} (h : inside start count idx = true) :
    offset start count idx < count.prod := by
  obtain ⟨hl, j, hj, rfl⟩ := inside_iff.1 h
  rw [offset_add hl hj, ← List.prod_reverse]
  exact pos_lt (inShape_reverse hj)

/-- Reading the values of a shape in the order of positions gives the list of values. -/
theorem map_cells_getD {s : List Nat} {vals : List A} (hv : vals.length = s.prod) (d : List Nat → A) :
    (cells s).map (fun j => vals.getD (pos s j) (d j)) = vals := by
  apply List.ext_getElem?
  intro k
  by_cases hk : k < s.prod
  · obtain ⟨i, hi, rfl⟩ := exists_pos hk
    rw [List.getElem?_map, cells_getElem? hi]
    simp only [Option.map_some]
    rw [List.getElem?_eq_getElem (by rw [hv]; exact hk)]
    simp [List.getD, List.getElem?_eq_getElem (show pos s i < vals.length by rw [hv]; exact hk)]
  · rw [List.getElem?_eq_none (by rw [List.length_map, cells_length]; omega),
      List.getElem?_eq_none (by omega)]

/-! ## Dimensions -/

/-- The dimensions of the ids. -/
def DimsAt (ds : List NcDim) (ids : List Nat) (fds : List NcDim) : Prop :=
  List.Forall₂ (fun i d => ds[i]? = some d) ids fds

theorem dimLens_ok {ds : List NcDim} : ∀ {ids : List Nat} {fds : List NcDim}, DimsAt ds ids fds →
    dimLens ds ids = .ok (fds.map (·.len))
  | [], [], _ => rfl
  | i :: ids, d :: fds, h => by
    cases h with
    | cons h1 h2 =>
      simp only [dimLens, h1]
      rw [dimLens_ok h2]
      rfl

theorem lastIdx_absent {u : Option Nat} {l : List Nat} (h : ∀ i ∈ l, some i ≠ u) : lastIdx u l = none := by
  unfold lastIdx
  have : (l.zipIdx.filter fun p => some p.1 = u) = [] := by
    rw [List.filter_eq_nil_iff]
    rintro ⟨a, k⟩ ha
    have := (List.mem_zipIdx' ha)
    simp only [decide_eq_true_eq]
    apply h
    rw [this.2]
    exact List.getElem_mem _
  rw [this]
  rfl

theorem lastIdx_split {u : Nat} {a b : List Nat} (hb : u ∉ b) : lastIdx (some u) (a ++ u :: b) = some a.length := by
  unfold lastIdx
  have hb' : ((b.zipIdx (0 + a.length + 1)).filter fun p => some p.1 = some u) = [] := by
    rw [List.filter_eq_nil_iff]
    rintro ⟨x, k⟩ hx
    have := List.fst_mem_of_mem_zipIdx hx
    simp only [Option.some.injEq, decide_eq_true_eq]
    rintro rfl
    exact hb this
  rw [List.zipIdx_append, List.zipIdx_cons, List.filter_append, List.filter_cons]
  simp only [decide_true, if_true, hb']
  simp

theorem dimsAt_append {ds : List NcDim} : ∀ {a b : List Nat} {fds : List NcDim}, DimsAt ds (a ++ b) fds →
    ∃ fa fb, DimsAt ds a fa ∧ DimsAt ds b fb ∧ fds = fa ++ fb
  | [], _, fds, h => ⟨[], fds, .nil, h, rfl⟩
  | _ :: _, _, _ :: _, h => by
    cases h with
    | cons h1 h2 =>
      obtain ⟨fa, fb, ha, hb, rfl⟩ := dimsAt_append h2
      exact ⟨_ :: fa, fb, .cons h1 ha, hb, rfl⟩

theorem dimsAt_mem {ds : List NcDim} {ids : List Nat} {fds : List NcDim} (h : DimsAt ds ids fds) {d : NcDim} (hd : d ∈ fds) :
    ∃ i ∈ ids, ds[i]? = some d := by
  induction h with
  | nil => cases hd
  | cons h1 _ ih =>
    rcases List.mem_cons.1 hd with rfl | hd
    · exact ⟨_, List.mem_cons_self, h1⟩
    · obtain ⟨i, hi, h⟩ := ih hd
      exact ⟨i, List.mem_cons_of_mem _ hi, h⟩

theorem dimsAt_get {ds : List NcDim} {ids : List Nat} {fds : List NcDim} (h : DimsAt ds ids fds) {i : Nat} (hi : i ∈ ids) :
    ∃ d ∈ fds, ds[i]? = some d := by
  induction h with
  | nil => cases hi
  | cons h1 _ ih =>
    rcases List.mem_cons.1 hi with rfl | hi
    · exact ⟨_, List.mem_cons_self, h1⟩
    · obtain ⟨d, hd, h⟩ := ih hi
      exact ⟨d, List.mem_cons_of_mem _ hd, h⟩

/-- The id is the one of the unlimited dimension of the dimensions. -/
def Unlim (ds : List NcDim) (ids : List Nat) (u : Option Nat) : Prop :=
  ∀ i d, i ∈ ids → ds[i]? = some d → (d.unlimited = true ↔ u = some i)

/-- Replacing the entry of the unlimited dimension. -/
theorem setAt_unlimited {ds : List NcDim} {ids : List Nat} {fds : List NcDim} {u : Option Nat} (hd : DimsAt ds ids fds)
    (hnd : ids.Nodup) (hu : Unlim ds ids u) (g : NcDim → Nat) (x : Nat) :
    setAt (fds.map g) (lastIdx u ids) x = fds.map (fun d => if d.unlimited then x else g d) := by
  have hno : ∀ {is : List Nat} {l : List NcDim}, DimsAt ds is l → (∀ i ∈ is, i ∈ ids ∧ u ≠ some i) →
      l.map (fun d => if d.unlimited then x else g d) = l.map g := by
    intro is l hl his
    apply List.map_congr_left
    intro d hdm
    obtain ⟨i, hi, hdi⟩ := dimsAt_mem hl hdm
    rw [if_neg]
    intro hc
    exact (his i hi).2 ((hu i d (his i hi).1 hdi).1 hc)
  by_cases hmem : ∃ i ∈ ids, u = some i
  · obtain ⟨i, hi, rfl⟩ := hmem
    obtain ⟨a, b, rfl⟩ := List.append_of_mem hi
    rw [List.nodup_append] at hnd
    have hb : i ∉ b := (List.nodup_cons.1 hnd.2.1).1
    have ha : i ∉ a := fun hc => hnd.2.2 i hc i (by simp) rfl
    rw [lastIdx_split hb]
    obtain ⟨fa, fb', hfa, hfb', rfl⟩ := dimsAt_append hd
    cases hfb' with
    | @cons _ fu _ fb h1 h2 =>
      have hfu : fu.unlimited = true := (hu i fu hi h1).2 rfl
      rw [List.map_append, List.map_append, hno hfa, List.map_cons, List.map_cons, hno h2, if_pos hfu]
      · simp only [setAt]
        have hl : a.length = (fa.map g).length := by rw [List.length_map]; exact hfa.length_eq
        rw [hl, List.set_append_right _ _ (Nat.le_refl _)]
        simp
      · intro k hk
        refine ⟨by simp [hk], ?_⟩
        rintro h
        cases h
        exact hb hk
      · intro k hk
        refine ⟨by simp [hk], ?_⟩
        rintro h
        cases h
        exact ha hk
  · have hnone : ∀ i ∈ ids, u ≠ some i := fun i hi hc => hmem ⟨i, hi, hc⟩
    rw [lastIdx_absent (fun i hi hc => hnone i hi hc.symm), hno hd (fun i hi => ⟨hi, hnone i hi⟩)]
    rfl

theorem lastIdx_isSome {ds : List NcDim} {ids : List Nat} {fds : List NcDim} {u : Option Nat} (hd : DimsAt ds ids fds)
    (hnd : ids.Nodup) (hu : Unlim ds ids u) : (lastIdx u ids).isSome = fds.any (·.unlimited) := by
  by_cases hmem : ∃ i ∈ ids, u = some i
  · obtain ⟨i, hi, rfl⟩ := hmem
    obtain ⟨d, hdm, hdi⟩ := dimsAt_get hd hi
    have h2 : fds.any (·.unlimited) = true := List.any_eq_true.2 ⟨d, hdm, (hu i d hi hdi).2 rfl⟩
    rw [h2]
    obtain ⟨a, b, rfl⟩ := List.append_of_mem hi
    rw [List.nodup_append] at hnd
    rw [lastIdx_split (List.nodup_cons.1 hnd.2.1).1]
    rfl
  · have hnone : ∀ i ∈ ids, u ≠ some i := fun i hi hc => hmem ⟨i, hi, hc⟩
    rw [lastIdx_absent (fun i hi hc => hnone i hi hc.symm)]
    symm
    rw [Option.isSome_none, List.any_eq_false]
    intro d hdm hc
    obtain ⟨i, hi, hdi⟩ := dimsAt_mem hd hdm
    exact hnone i hi ((hu i d hi hdi).1 hc)

theorem growDims_length : ∀ (ids : List Nat) (ds : List NcDim) (start count : List Nat),
    (growDims ds ids start count).length = ds.length
  | [], _, _, _ => by simp [growDims]
  | _ :: _, _, [], _ => by simp [growDims]
  | _ :: _, _, _ :: _, [] => by simp [growDims]
  | i :: ids, ds, s :: start, n :: count => by
    simp only [growDims]
    rw [growDims_length]
    cases ds[i]? <;> simp

end Fimex.Netcdf
