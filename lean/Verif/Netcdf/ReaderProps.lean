import Verif.Netcdf.Reader
import Verif.Netcdf.FileLemmas
import Verif.Cdm.Invariant
import Mathlib.Data.List.Nodup

/-!
# The netCDF reader delivers what the file holds (C92)
-/

namespace Fimex.Netcdf

open Fimex.Cdm
open Fimex.Tables (DataType)

variable {A F U : Type}

/-! ## Specification -/

/-- What the library guarantees of a file: names are unique, the dimensions of variables exist. -/
structure ValidFile (f : NcFile A) : Prop where
  dimNames : (f.dims.map (·.name)).Nodup
  varNames : (f.vars.map (·.name)).Nodup
  dims : ∀ v ∈ f.vars, ∀ i ∈ v.dims, i < f.dims.length
  atts : ∀ v ∈ f.vars, (v.atts.map (·.name)).Nodup
  gatts : (f.gatts.map (·.name)).Nodup

/-- The names of the dimensions of a variable, the fastest first. -/
def shapeNames (f : NcFile A) (v : NcVar A) : List String := (v.dims.filterMap fun i => (f.dims[i]?).map (·.name)).reverse

/-- A variable of the dataset. -/
def cdmVar (f : NcFile A) (v : NcVar A) : Var (Payload A) := ⟨v.name, shapeNames f v, ⟨ncType2cdmDataType v.ty, none⟩⟩

/-- The attributes of the dataset. -/
def cdmAtts (isZero : A → Bool) (l : List (NcAtt A)) : List (Attr (Data A)) := l.map fun a => ⟨a.name, ncGetAttValues isZero a⟩

/-- The dimensions of the dataset: the first unlimited one is unlimited. -/
def cdmDims (f : NcFile A) : List Dim :=
  f.dims.mapIdx fun i d => ⟨d.name, d.len, decide (f.dims.findIdx? (·.unlimited) = some i)⟩

/-! ## Opening -/

theorem readDims_ok (recid : Option Nat) : ∀ (l : List NcDim) (c : Ds A) (i : Nat),
    ((c.dims.map (·.name)) ++ l.map (·.name)).Nodup →
    ∃ c', readDims recid c i l = .ok c' ∧ c'.vars = c.vars ∧ c'.attrs = c.attrs ∧
      c'.dims = c.dims ++ l.mapIdx (fun k d => ⟨d.name, d.len, decide (recid = some (i + k))⟩)
  | [], c, i, _ => ⟨c, rfl, rfl, rfl, by simp⟩
  | d :: l, c, i, h => by
    have hnot : hasDimension { c with coordsInitialized := false } d.name = false := by
      rw [Bool.eq_false_iff]
      intro hc
      rw [hasDimension_iff] at hc
      rw [List.nodup_append] at h
      exact h.2.2 _ hc d.name (by simp) rfl
    obtain ⟨c', h1, h2, h3, h4⟩ := readDims_ok recid l
      { c with coordsInitialized := false, dims := c.dims ++ [⟨d.name, d.len, decide (recid = some i)⟩] } (i + 1)
      (by simpa using h)
    refine ⟨c', ?_, h2, h3, ?_⟩
    · simp only [readDims, addDimension, hnot, Bool.not_false, if_true]
      exact h1
    · rw [h4]
      simp only [List.append_assoc, List.mapIdx_cons, List.cons_append, List.nil_append, Nat.add_zero]
      congr 3
      funext k e
      have : i + 1 + k = i + (k + 1) := by omega
      rw [this]

theorem shapeOf_ok {f : NcFile A} : ∀ {ids : List Nat}, (∀ i ∈ ids, i < f.dims.length) →
    shapeOf f ids = .ok (ids.filterMap fun i => (f.dims[i]?).map (·.name)).reverse
  | [], _ => rfl
  | i :: ids, h => by
    have hi := h i List.mem_cons_self
    simp only [shapeOf, shapeOf_ok fun j hj => h j (List.mem_cons_of_mem _ hj), Res.ok_bind,
      List.getElem?_eq_getElem hi, List.filterMap_cons, Option.map_some, List.reverse_cons]

theorem readAtts_ok (isZero : A → Bool) (n : String) : ∀ (l : List (NcAtt A)) (c : Ds A),
    (n = globalNS ∨ hasVariable c n = true) → ((getAttributes c n ++ cdmAtts isZero l).map (·.name)).Nodup →
    ∃ c', readAtts isZero n c l = .ok c' ∧ c'.vars = c.vars ∧ c'.dims = c.dims ∧
      (∀ m, getAttributes c' m = if m = n then getAttributes c n ++ cdmAtts isZero l else getAttributes c m)
  | [], c, _, _ => ⟨c, rfl, rfl, rfl, by intro m; by_cases h : m = n <;> simp [h, cdmAtts]⟩
  | a :: l, c, hv, hnd => by
    rcases addAttribute_cases c n ⟨a.name, ncGetAttValues isZero a⟩ with ⟨h0, -⟩ | ⟨-, h0, -⟩ | ⟨-, -, h0⟩
    · rcases hv with hv | hv
      · exact absurd hv h0.1
      · rw [hv] at h0
        cases h0.2
    · exfalso
      rw [List.map_append, List.nodup_append] at hnd
      exact hnd.2.2 a.name h0 a.name (by simp [cdmAtts]) rfl
    · obtain ⟨c', h1, h2, h3, h4⟩ := readAtts_ok isZero n l
        { c with coordsInitialized := false, attrs := fun m => if m = n then some (getAttributes c n ++ [⟨a.name, ncGetAttValues isZero a⟩]) else c.attrs m }
        hv (by
          have : getAttributes ({ c with coordsInitialized := false, attrs := fun m => if m = n then some (getAttributes c n ++ [⟨a.name, ncGetAttValues isZero a⟩]) else c.attrs m } : Ds A) n
              = getAttributes c n ++ [⟨a.name, ncGetAttValues isZero a⟩] := by simp [getAttributes]
          rw [this]
          simpa [cdmAtts] using hnd)
      refine ⟨c', ?_, h2, h3, ?_⟩
      · simp only [readAtts, h0]
        exact h1
      · intro m
        rw [h4 m]
        by_cases hm : m = n
        · subst hm
          simp [getAttributes, cdmAtts]
        · simp [getAttributes, hm]

theorem readVars_ok {isZero : A → Bool} {f : NcFile A} : ∀ (l : List (NcVar A)) (c : Ds A),
    ((c.vars.map (·.name)) ++ l.map (·.name)).Nodup → (∀ v ∈ l, ∀ i ∈ v.dims, i < f.dims.length) →
    (∀ v ∈ l, (v.atts.map (·.name)).Nodup) → (∀ v ∈ l, getAttributes c v.name = []) →
    ∃ c', readVars isZero f c l = .ok c' ∧ c'.vars = c.vars ++ l.map (cdmVar f) ∧ c'.dims = c.dims ∧
      (∀ v ∈ l, getAttributes c' v.name = cdmAtts isZero v.atts) ∧
      (∀ m, m ∉ l.map (·.name) → getAttributes c' m = getAttributes c m)
  | [], c, _, _, _, _ => ⟨c, rfl, by simp, rfl, by simp, fun _ _ => rfl⟩
  | v :: l, c, hnd, hd, ha, hempty => by
    have hnot : hasVariable { c with coordsInitialized := false } v.name = false := by
      rw [Bool.eq_false_iff]
      intro hc
      rw [hasVariable_iff] at hc
      rw [List.nodup_append] at hnd
      exact hnd.2.2 _ hc v.name (by simp) rfl
    have hvl : v.name ∉ l.map (·.name) := by
      rw [List.nodup_append] at hnd
      exact (List.nodup_cons.1 hnd.2.1).1
    obtain ⟨c1, a1, a2, a3, a4⟩ := readAtts_ok isZero v.name v.atts
      { c with coordsInitialized := false, vars := c.vars ++ [cdmVar f v] }
      (.inr (by rw [hasVariable_iff]; simp [cdmVar])) (by
        have : getAttributes ({ c with coordsInitialized := false, vars := c.vars ++ [cdmVar f v] } : Ds A) v.name = [] :=
          hempty v List.mem_cons_self
        rw [this, List.nil_append, cdmAtts, List.map_map]
        exact ha v List.mem_cons_self)
    have hget : ∀ m, getAttributes c1 m = if m = v.name then cdmAtts isZero v.atts else getAttributes c m := by
      intro m
      rw [a4 m]
      have : getAttributes ({ c with coordsInitialized := false, vars := c.vars ++ [cdmVar f v] } : Ds A) v.name = [] :=
          hempty v List.mem_cons_self
      rw [this, List.nil_append]
      rfl
    obtain ⟨c', h1, h2, h3, h4, h5⟩ := readVars_ok l c1
      (by
        rw [a2]
        simpa [cdmVar] using hnd)
      (fun x hx => hd x (List.mem_cons_of_mem _ hx)) (fun x hx => ha x (List.mem_cons_of_mem _ hx))
      (by
        intro x hx
        rw [hget, if_neg]
        · exact hempty x (List.mem_cons_of_mem _ hx)
        · intro hc
          exact hvl (hc ▸ List.mem_map_of_mem hx))
    refine ⟨c', ?_, ?_, by rw [h3, a3], ?_, ?_⟩
    · simp only [readVars, shapeOf_ok (hd v List.mem_cons_self), Res.ok_bind, addVariable, hnot, Bool.not_false, if_true]
      have : (⟨v.name, (v.dims.filterMap fun i => (f.dims[i]?).map (·.name)).reverse, ⟨ncType2cdmDataType v.ty, none⟩⟩ : Var (Payload A)) = cdmVar f v := rfl
      rw [this, a1, Res.ok_bind, h1]
    · rw [h2, a2]
      simp
    · intro x hx
      rcases List.mem_cons.1 hx with rfl | hx
      · rw [h5 _ hvl, hget, if_pos rfl]
      · exact h4 x hx
    · intro m hm
      rw [List.map_cons, List.mem_cons, not_or] at hm
      rw [h5 m hm.2, hget, if_neg hm.1]

/-- C92: the dataset has the dimensions, variables and attributes of the file, in the order of the file, with the
dimensions of the variables in reverse order. -/
theorem C92_opened (isZero : A → Bool) (f : NcFile A) (hf : ValidFile f) (hg : globalNS ∉ f.vars.map (·.name)) :
    ∃ c, openFile isZero f = .ok c ∧ c.dims = cdmDims f ∧ c.vars = f.vars.map (cdmVar f) ∧
      (∀ v ∈ f.vars, getAttributes c v.name = cdmAtts isZero v.atts) ∧
      getAttributes c globalNS = cdmAtts isZero f.gatts ∧
      (∀ m, m ≠ globalNS → m ∉ f.vars.map (·.name) → getAttributes c m = []) := by
  obtain ⟨c1, a1, a2, a3, a4⟩ := readDims_ok (ncInqUnlimdim f) f.dims (⟨fun _ => none, [], [], false, ()⟩ : Ds A) 0
    (by simpa using hf.dimNames)
  obtain ⟨c2, b1, b2, b3, b4, b5⟩ := readVars_ok (isZero := isZero) (f := f) f.vars c1
    (by rw [a2]; simpa using hf.varNames) hf.dims hf.atts (by intro v _; unfold getAttributes; rw [a3]; rfl)
  have hg2 : getAttributes c2 globalNS = [] := by
    rw [b5 _ hg]
    unfold getAttributes
    rw [a3]
    rfl
  obtain ⟨c3, d1, d2, d3, d4⟩ := readAtts_ok isZero globalNS f.gatts c2 (.inl rfl) (by
    rw [hg2, List.nil_append, cdmAtts, List.map_map]
    exact hf.gatts)
  refine ⟨c3, ?_, ?_, ?_, ?_, ?_, ?_⟩
  · simp only [openFile, a1, Res.ok_bind, b1, d1]
  · rw [d3, b3, a4]
    simp [cdmDims, ncInqUnlimdim]
  · rw [d2, b2, a2]
    simp
  · intro v hv
    rw [d4, if_neg]
    · exact b4 v hv
    · intro hc
      exact hg (hc ▸ List.mem_map_of_mem hv)
  · rw [d4, if_pos rfl, hg2, List.nil_append]
  · intro m hm hmv
    rw [d4, if_neg hm, b5 m hmv]
    unfold getAttributes
    rw [a3]
    rfl

end Fimex.Netcdf
