import Verif.Netcdf.FileLemmas
import Verif.Netcdf.DefineLemmas
import Mathlib.Data.List.Nodup

/-!
# What the steps of `writeData` leave in the file
-/

namespace Fimex.Netcdf

open Fimex.Cdm
open Fimex.Tables (DataType)

variable {A F U : Type}

/-! ## Specification -/

/-- The first index of the part of a variable at a position, in the order of the file. -/
def sliceStart (p : Option Nat) (ds : List NcDim) : List Nat := ds.map fun d => if d.unlimited then p.getD 0 else 0

/-- The lengths of the part of a variable at a position, in the order of the file. -/
def sliceCount (ds : List NcDim) : List Nat := ds.map fun d => if d.unlimited then 1 else d.len

/-- A dimension after `n` records. -/
def growTo (n : Nat) (d : NcDim) : NcDim := if d.unlimited then { d with len := n } else d

/-- Variables with the unlimited dimension are written at its positions, the others once. -/
def Due (c : Ds A) (p : Option Nat) (v : Var (Payload A)) : Prop := hasUnlimitedDim c v = p.isSome

/-- The data of the reader, converted. -/
def Converted (O : Ops A F U) (src : Source A) (w : Writer A) (v : Var (Payload A)) : Option (Data A) → Option (Data A) → Prop
  | none, none => True
  | some d, some e => convertData O src.cdm w v d = .ok e
  | _, _ => False

/-- What there is to write for a variable at a position: `n` values, or nothing.  Without data there is
nothing to write in the netCDF-4 formats and the fill value in the others. -/
def Supplies (O : Ops A F U) (src : Source A) (w : Writer A) (format : Format) (v : Var (Payload A)) (p : Option Nat)
    (n : Nat) (s : Option (List A)) : Prop :=
  v.payload.ty ≠ .nat ∧
  ∃ d e, (match p with
      | none => src.getData v.name
      | some k => src.getDataSlice v.name k) = .ok d ∧ Converted O src w v d e ∧
    ((∃ y vals, e = some y ∧ y.vals ≠ [] ∧ y.vals.length = n ∧
        O.asType (ncType2cdmDataType (cdmDataType2ncType v.payload.ty)) y = .ok vals ∧
        vals.length = n ∧ s = some vals) ∨
      (noValues e = true ∧ 3 ≤ format.code ∧ s = none) ∨
      (noValues e = true ∧ format.code < 3 ∧ ∃ fill a vals, getFillValue O w.cdm v.name = .ok fill ∧
        O.castFill v.payload.ty fill = .ok a ∧
        O.asType (ncType2cdmDataType (cdmDataType2ncType v.payload.ty)) ⟨v.payload.ty, List.replicate n a⟩ = .ok vals ∧
        vals.length = n ∧ 0 < n ∧ s = some vals))

/-- The library accepts the writing of data. -/
def Accepts (L : Lib A) : Prop := (∀ f id start count, L.refuse f (.put id start count) = false) ∧ ∀ f, L.refuse f .sync = false

/-- The number of records is that of the last position something was written to. -/
def Longest (c : Ds A) (s : Option Nat → Var (Payload A) → Option (List A)) (done : List (Option Nat × Var (Payload A)))
    (n : Nat) : Prop :=
  (∀ p v vals, (some p, v) ∈ done → Due c (some p) v → s (some p) v = some vals → p < n) ∧
  (n = 0 ∨ ∃ p v vals, (some p, v) ∈ done ∧ Due c (some p) v ∧ s (some p) v = some vals ∧ n = p + 1)

/-- The cells of a variable after some steps. -/
def CellsAfter (c : Ds A) (s : Option Nat → Var (Payload A) → Option (List A)) (done : List (Option Nat × Var (Payload A)))
    (v : Var (Payload A)) (fds : List NcDim) (before after : List Nat → A) : Prop :=
  (∀ p vals idx, (p, v) ∈ done → Due c p v → s p v = some vals →
    inside (sliceStart p fds) (sliceCount fds) idx = true →
    vals[offset (sliceStart p fds) (sliceCount fds) idx]? = some (after idx)) ∧
  (∀ idx, (∀ p vals, (p, v) ∈ done → Due c p v → s p v = some vals →
    inside (sliceStart p fds) (sliceCount fds) idx = false) → after idx = before idx)

/-- The file after some steps. -/
structure Now (c : Ds A) (s : Option Nat → Var (Payload A) → Option (List A)) (f0 : NcFile A)
    (done : List (Option Nat × Var (Payload A))) (f : NcFile A) : Prop where
  fmt : f.format = f0.format
  gatts : f.gatts = f0.gatts
  dims : ∃ n, f.dims = f0.dims.map (growTo n) ∧ Longest c s done n
  len : f.vars.length = f0.vars.length
  vars : ∀ (i : Nat) (v : Var (Payload A)) (nv0 : NcVar A) (fds : List NcDim), c.vars[i]? = some v → f0.vars[i]? = some nv0 → DimsAt f0.dims nv0.dims fds →
    ∃ g, f.vars[i]? = some { nv0 with cells := g } ∧ CellsAfter c s done v fds nv0.cells g

/-! ## Growing -/

/-- At most the dimension `u` is unlimited. -/
def OnlyUnlim (ds : List NcDim) (u : Option Nat) : Prop :=
  ∀ i d, ds[i]? = some d → (d.unlimited = true ↔ u = some i)

theorem growTo_set {ds : List NcDim} {u : Option Nat} (hu : OnlyUnlim ds u) {i : Nat} {d : NcDim} (hd : ds[i]? = some d)
    (hdu : d.unlimited = true) (n m : Nat) : (ds.map (growTo n)).set i { d with len := m } = ds.map (growTo m) := by
  apply List.ext_getElem?
  intro j
  rw [List.getElem?_set, List.getElem?_map]
  split
  · rename_i hij
    subst hij
    have hlt := (List.getElem?_eq_some_iff.1 hd).1
    rw [if_pos (by simpa using hlt), List.getElem?_map, hd]
    simp [growTo, hdu]
  · rename_i hij
    rw [List.getElem?_map]
    cases hj : ds[j]? with
    | none => rfl
    | some e =>
      simp only [Option.map_some, Option.some.injEq]
      have : e.unlimited = false := by
        cases he : e.unlimited
        · rfl
        · have h1 := (hu j e hj).1 he
          have h2 := (hu i d hd).1 hdu
          rw [h1] at h2
          injection h2 with h2
          exact absurd h2.symm hij
      simp [growTo, this]

theorem growTo_unlimited (n : Nat) (d : NcDim) : (growTo n d).unlimited = d.unlimited := by
  unfold growTo
  split <;> rfl

theorem growDims_ok {ds : List NcDim} {u : Option Nat} (hu : OnlyUnlim ds u) (p : Option Nat) :
    ∀ {ids : List Nat} {fds : List NcDim}, DimsAt ds ids fds → ∀ n,
    growDims (ds.map (growTo n)) ids (sliceStart p fds) (sliceCount fds) =
      ds.map (growTo (if fds.any (·.unlimited) then max n (p.getD 0 + 1) else n))
  | [], [], _, n => by simp [growDims]
  | i :: ids, d :: fds, h, n => by
    cases h with
    | cons h1 h2 =>
      simp only [sliceStart, sliceCount, List.map_cons, growDims, List.getElem?_map, h1, Option.map_some]
      cases hdu : d.unlimited with
      | true =>
        have hg : grown (growTo n d) (if (true : Bool) = true then p.getD 0 else 0) (if (true : Bool) = true then 1 else d.len)
            = { d with len := max n (p.getD 0 + 1) } := by
          simp [grown, growTo, hdu]
        rw [hg, growTo_set hu h1 hdu]
        have := growDims_ok hu p h2 (max n (p.getD 0 + 1))
        simp only [sliceStart, sliceCount] at this
        rw [this]
        congr 2
        simp only [List.any_cons, hdu, Bool.true_or, if_true]
        split <;> omega
      | false =>
        have hg : grown (growTo n d) (if (false : Bool) = true then p.getD 0 else 0) (if (false : Bool) = true then 1 else d.len)
            = growTo n d := by
          simp [grown, growTo_unlimited, hdu]
        rw [hg]
        have hset : (ds.map (growTo n)).set i (growTo n d) = ds.map (growTo n) := by
          apply List.ext_getElem?
          intro j
          rw [List.getElem?_set]
          split
          · rename_i hij
            subst hij
            have hlt := (List.getElem?_eq_some_iff.1 h1).1
            rw [if_pos (by simpa using hlt), List.getElem?_map, h1]
            rfl
          · rfl
        rw [hset]
        have := growDims_ok hu p h2 n
        simp only [sliceStart, sliceCount] at this
        rw [this]
        simp [hdu]

theorem fits_ok {ds : List NcDim} (p : Option Nat) (n : Nat) :
    ∀ {ids : List Nat} {fds : List NcDim}, DimsAt ds ids fds →
    fits (ds.map (growTo n)) ids (sliceStart p fds) (sliceCount fds) = true
  | [], [], _ => by simp [fits, sliceStart, sliceCount]
  | i :: ids, d :: fds, h => by
    cases h with
    | cons h1 h2 =>
      have := fits_ok p n h2
      simp only [sliceStart, sliceCount] at this
      simp only [sliceStart, sliceCount, List.map_cons, fits, List.getElem?_map, h1, Option.map_some, this, Bool.and_true,
        growTo_unlimited]
      cases hdu : d.unlimited <;> simp [growTo, hdu]

theorem dimsAt_grow {ds : List NcDim} (n : Nat) : ∀ {ids : List Nat} {fds : List NcDim}, DimsAt ds ids fds →
    DimsAt (ds.map (growTo n)) ids (fds.map (growTo n))
  | [], [], _ => .nil
  | i :: ids, d :: fds, h => by
    cases h with
    | cons h1 h2 => exact .cons (by rw [List.getElem?_map, h1]; rfl) (dimsAt_grow n h2)

theorem onlyUnlim_grow {ds : List NcDim} {u : Option Nat} (hu : OnlyUnlim ds u) (n : Nat) (ids : List Nat) :
    Unlim (ds.map (growTo n)) ids u := by
  intro i d _ hd
  rw [List.getElem?_map] at hd
  cases he : ds[i]? with
  | none => rw [he] at hd; cases hd
  | some e =>
    rw [he] at hd
    injection hd with hd
    rw [← hd, growTo_unlimited]
    exact hu i e he

/-- `count` and `start` do not depend on the number of records. -/
theorem bounds_ok {ds : List NcDim} {u : Option Nat} (hu : OnlyUnlim ds u) (p : Option Nat) (n : Nat) {ids : List Nat}
    {fds : List NcDim} (hd : DimsAt ds ids fds) (hnd : ids.Nodup) :
    setAt ((fds.map (growTo n)).map (·.len)) (lastIdx u ids) 1 = sliceCount fds ∧
    setAt (((fds.map (growTo n)).map (·.len)).map fun _ => 0) (lastIdx u ids) (p.getD 0) = sliceStart p fds := by
  have hd' := dimsAt_grow n hd
  have hu' := onlyUnlim_grow hu n ids
  constructor
  · rw [setAt_unlimited hd' hnd hu', List.map_map]
    apply List.map_congr_left
    intro d _
    simp only [Function.comp, growTo_unlimited]
    unfold growTo
    split
    · rfl
    · rfl
  · rw [List.map_map, setAt_unlimited hd' hnd hu', List.map_map]
    apply List.map_congr_left
    intro d _
    simp only [Function.comp, growTo_unlimited]

/-- Parts at different positions are disjoint. -/
theorem inside_slice_inj {p q : Option Nat} : ∀ {fds : List NcDim} {idx : List Nat},
    fds.any (·.unlimited) = true → inside (sliceStart p fds) (sliceCount fds) idx = true →
    inside (sliceStart q fds) (sliceCount fds) idx = true → p.getD 0 = q.getD 0
  | [], _, h, _, _ => by simp at h
  | d :: fds, [], _, h, _ => by simp [sliceStart, sliceCount, inside] at h
  | d :: fds, i :: idx, h, hp, hq => by
    simp only [sliceStart, sliceCount, List.map_cons, inside, Bool.and_eq_true, decide_eq_true_eq] at hp hq
    by_cases hdu : d.unlimited = true
    · simp only [hdu, if_true] at hp hq
      omega
    · exact inside_slice_inj (fds := fds) (idx := idx) (by simpa [hdu] using h) hp.2 hq.2

/-! ## One step -/

theorem dimIds_dimsAt {w : Writer A} {shape : List String} {ids : List Nat} (h : DimIds w.cdm shape ids) :
    ∃ fds, DimsAt (w.cdm.dims.map (fileDim w)) ids fds := by
  have key : ∀ {l : List String} {is : List Nat},
      List.Forall₂ (fun n i => ∃ d, w.cdm.dims[i]? = some d ∧ d.name = n) l is →
      ∃ fds, DimsAt (w.cdm.dims.map (fileDim w)) is fds := by
    intro l is hl
    induction hl with
    | nil => exact ⟨[], .nil⟩
    | cons h1 _ ih =>
      obtain ⟨d, hd, _⟩ := h1
      obtain ⟨fds, hf⟩ := ih
      exact ⟨fileDim w d :: fds, .cons (by rw [List.getElem?_map, hd]; rfl) hf⟩
  obtain ⟨fds, hf⟩ := key h
  refine ⟨fds.reverse, ?_⟩
  unfold DimsAt at hf ⊢
  rw [← List.forall₂_reverse_iff, List.reverse_reverse]
  exact hf

theorem dims_name_inj {c : Ds A} (hinv : Inv c) {d e : Dim} (hd : d ∈ c.dims) (he : e ∈ c.dims) (h : d.name = e.name) :
    d = e := List.inj_on_of_nodup_map hinv.dims hd he h

/-- At most one dimension of the dataset is unlimited. -/
def OneUnlimited (c : Ds A) : Prop := ∀ d e, d ∈ c.dims → e ∈ c.dims → d.unlimited = true → e.unlimited = true → d = e

theorem hasUnlimitedDim_iff {c : Ds A} (hone : OneUnlimited c) {v : Var (Payload A)} :
    hasUnlimitedDim c v = true ↔ ∃ d ∈ c.dims, d.unlimited = true ∧ d.name ∈ v.shape := by
  unfold hasUnlimitedDim getUnlimitedDim
  cases h : c.dims.find? (·.unlimited) with
  | none =>
    rw [List.find?_eq_none] at h
    simp only [Bool.false_eq_true, false_iff]
    rintro ⟨d, hd, hdu, _⟩
    exact h d hd hdu
  | some d =>
    have hm := List.mem_of_find?_eq_some h
    have hp := List.find?_some h
    simp only [List.contains_eq_mem, decide_eq_true_eq]
    constructor
    · exact fun hs => ⟨d, hm, hp, hs⟩
    · rintro ⟨e, he, heu, hs⟩
      rw [hone d e hm he hp heu]
      exact hs

theorem hasUnlimited_file {w : Writer A} (hinv : Inv w.cdm) (hone : OneUnlimited w.cdm) {v : Var (Payload A)}
    {ids : List Nat} {fds : List NcDim} (hids : DimIds w.cdm v.shape ids)
    (hd : DimsAt (w.cdm.dims.map (fileDim w)) ids fds) : hasUnlimitedDim w.cdm v = fds.any (·.unlimited) := by
  rw [Bool.eq_iff_iff, hasUnlimitedDim_iff hone, List.any_eq_true]
  constructor
  · rintro ⟨d, hdm, hdu, hs⟩
    obtain ⟨i, hi, e, he, hen⟩ : ∃ i ∈ ids, ∃ e, w.cdm.dims[i]? = some e ∧ e.name = d.name := by
      obtain ⟨k, hk, hks⟩ := List.getElem_of_mem hs
      have hl := List.Forall₂.length_eq hids
      have := List.Forall₂.get hids (i := k) hk (by omega)
      refine ⟨ids.reverse[k]'(by omega), List.mem_reverse.1 (List.getElem_mem _), ?_⟩
      simpa [hks] using this
    have hed := dims_name_inj hinv (List.mem_of_getElem? he) hdm hen
    subst hed
    obtain ⟨fd, hfd, hfi⟩ := dimsAt_get hd hi
    rw [List.getElem?_map, he] at hfi
    injection hfi with hfi
    exact ⟨fd, hfd, by rw [← hfi]; exact hdu⟩
  · rintro ⟨fd, hfd, hfu⟩
    obtain ⟨i, hi, hfi⟩ := dimsAt_mem hd hfd
    obtain ⟨n, hn, e, he, hen⟩ : ∃ n ∈ v.shape, ∃ e, w.cdm.dims[i]? = some e ∧ e.name = n := by
      obtain ⟨k, hk, hks⟩ := List.getElem_of_mem (List.mem_reverse.2 hi)
      have hl := List.Forall₂.length_eq hids
      have := List.Forall₂.get hids (i := k) (by omega) hk
      refine ⟨v.shape[k]'(by omega), List.getElem_mem _, ?_⟩
      simpa [hks] using this
    rw [List.getElem?_map, he] at hfi
    injection hfi with hfi
    refine ⟨e, List.mem_of_getElem? he, ?_, hen ▸ hn⟩
    rw [← hfi] at hfu
    exact hfu

theorem dimIds_nodup {w : Writer A} {shape : List String} {ids : List Nat} (h : DimIds w.cdm shape ids) (hs : shape.Nodup) :
    ids.Nodup := by
  rw [← List.nodup_reverse]
  unfold DimIds at h
  generalize ids.reverse = is at h ⊢
  induction h with
  | nil => exact List.nodup_nil
  | @cons n i l is h1 h2 ih =>
    rw [List.nodup_cons] at hs ⊢
    refine ⟨?_, ih hs.2⟩
    intro hmem
    obtain ⟨d, hd, hdn⟩ := h1
    obtain ⟨k, hk, hki⟩ := List.getElem_of_mem hmem
    have hl := h2.length_eq
    obtain ⟨e, he, hen⟩ := List.Forall₂.get h2 (i := k) (by omega) hk
    simp only [List.get_eq_getElem, hki] at he hen
    rw [hd] at he
    injection he with he
    subst he
    apply hs.1
    rw [← hdn, hen]
    exact List.getElem_mem _

theorem putData_ok {L : Lib A} {O : Ops A F U} (hL : Accepts L) {f : NcFile A} {v : Var (Payload A)} {i : Nat}
    {start count : List Nat} {y : Data A} {vals : List A} {nv : NcVar A} (hi : f.vars[i]? = some nv)
    (hfits : fits f.dims nv.dims start count = true) (hne : y.vals ≠ []) (hn : y.vals.length = count.prod)
    (hty : cdmDataType2ncType v.payload.ty ≠ .nat)
    (has : O.asType (ncType2cdmDataType (cdmDataType2ncType v.payload.ty)) y = .ok vals) (hvn : vals.length = count.prod) :
    putData L O f v i start count (some y) = .ok { f with
      dims := growDims f.dims nv.dims start count
      vars := f.vars.set i { nv with
        cells := fun idx =>
          if inside start count idx then vals.getD (offset start count idx) (nv.cells idx) else nv.cells idx } } := by
  have hemp : y.vals.isEmpty = false := by
    cases hy : y.vals with
    | nil => exact absurd hy hne
    | cons => rfl
  have hlen : count.prod ≠ 0 := by
    intro hc
    rw [← hn] at hc
    exact hne (List.length_eq_zero_iff.1 hc)
  simp only [putData, hemp, Bool.false_eq_true, if_false, ncPutValues, if_neg hlen, if_neg hty, has, Res.ok_bind,
    ncPutVara, hL.1, hi, hfits, Bool.not_true, hvn, Nat.lt_irrefl, hn, ne_eq, not_true_eq_false]

theorem dimsAt_unique {ds : List NcDim} : ∀ {ids : List Nat} {a b : List NcDim}, DimsAt ds ids a → DimsAt ds ids b → a = b
  | [], [], [], _, _ => rfl
  | i :: ids, x :: a, y :: b, ha, hb => by
    cases ha with
    | cons a1 a2 =>
      cases hb with
      | cons b1 b2 =>
        rw [a1] at b1
        injection b1 with b1
        rw [b1, dimsAt_unique a2 b2]

variable {s : Option Nat → Var (Payload A) → Option (List A)}

/-- A step that writes nothing. -/
theorem Now.skip {c : Ds A} {f0 f : NcFile A} {done : List (Option Nat × Var (Payload A))} (h : Now c s f0 done f)
    {p : Option Nat} {v : Var (Payload A)} (hp : Due c p v → s p v = none) : Now c s f0 ((p, v) :: done) f := by
  refine ⟨h.fmt, h.gatts, ?_, h.len, ?_⟩
  · obtain ⟨n, hn, h1, h2⟩ := h.dims
    refine ⟨n, hn, ?_, ?_⟩
    · intro q x vals hq hdue hsq
      rcases List.mem_cons.1 hq with he | hq
      · injection he with he1 he2
        subst he1; subst he2
        rw [hp hdue] at hsq
        cases hsq
      · exact h1 q x vals hq hdue hsq
    · rcases h2 with h2 | ⟨q, x, vals, hq, h2⟩
      · exact .inl h2
      · exact .inr ⟨q, x, vals, List.mem_cons_of_mem _ hq, h2⟩
  · intro j x nv0 fds hx hnv hfds
    obtain ⟨g, hg, c1, c2⟩ := h.vars j x nv0 fds hx hnv hfds
    refine ⟨g, hg, ?_, ?_⟩
    · intro q vals idx hq hdue hsq hin
      rcases List.mem_cons.1 hq with he | hq
      · injection he with he1 he2
        subst he1; subst he2
        rw [hp hdue] at hsq
        cases hsq
      · exact c1 q vals idx hq hdue hsq hin
    · intro idx hno
      exact c2 idx fun q vals hq => hno q vals (List.mem_cons_of_mem _ hq)

/-- The cells of a variable after its part at a position has been written. -/
theorem CellsAfter.put {c : Ds A} {done : List (Option Nat × Var (Payload A))} {v : Var (Payload A)} {fds : List NcDim}
    {before after : List Nat → A} (h : CellsAfter c s done v fds before after) {p : Option Nat} {vals : List A}
    (hdue : Due c p v) (hany : hasUnlimitedDim c v = fds.any (·.unlimited)) (hs : s p v = some vals)
    (hlen : vals.length = (sliceCount fds).prod) :
    CellsAfter c s ((p, v) :: done) v fds before (fun idx =>
      if inside (sliceStart p fds) (sliceCount fds) idx then
        vals.getD (offset (sliceStart p fds) (sliceCount fds) idx) (after idx) else after idx) := by
  constructor
  · intro q vals' idx hq hdq hsq hin
    by_cases hpin : inside (sliceStart p fds) (sliceCount fds) idx = true
    · have hqp : q = p := by
        unfold Due at hdue hdq
        rw [hany] at hdue hdq
        cases hun : fds.any (·.unlimited) with
        | false =>
          rw [hun] at hdue hdq
          cases p with
          | none => cases q with
            | none => rfl
            | some => cases hdq
          | some => cases hdue
        | true =>
          have he := inside_slice_inj hun hin hpin
          rw [hun] at hdue hdq
          cases p with
          | none => cases hdue
          | some => cases q with
            | none => cases hdq
            | some => simpa using he
      subst hqp
      rw [hs] at hsq
      injection hsq with hsq
      subst hsq
      beta_reduce
      rw [if_pos hpin]
      have hlt : offset (sliceStart q fds) (sliceCount fds) idx < vals.length := by
        rw [hlen]
        exact offset_lt hpin
      simp [List.getD, List.getElem?_eq_getElem hlt]
    · beta_reduce
      rw [if_neg hpin]
      rcases List.mem_cons.1 hq with he | hq
      · injection he with he1
        subst he1
        exact absurd hin hpin
      · exact h.1 q vals' idx hq hdq hsq hin
  · intro idx hno
    have := hno p vals List.mem_cons_self hdue hs
    simp only [this, Bool.false_eq_true, if_false]
    exact h.2 idx fun q vals' hq => hno q vals' (List.mem_cons_of_mem _ hq)

theorem CellsAfter.other {c : Ds A} {done : List (Option Nat × Var (Payload A))} {v x : Var (Payload A)} {fds : List NcDim}
    {before after : List Nat → A} (h : CellsAfter c s done x fds before after) (p : Option Nat) (hx : x ≠ v) :
    CellsAfter c s ((p, v) :: done) x fds before after := by
  constructor
  · intro q vals idx hq
    rcases List.mem_cons.1 hq with he | hq
    · injection he with _ he
      exact absurd he hx
    · exact h.1 q vals idx hq
  · intro idx hno
    exact h.2 idx fun q vals hq => hno q vals (List.mem_cons_of_mem _ hq)

/-- The part of a variable at a position has been written. -/
theorem Now.put {c : Ds A} (hinv : Inv c) {f0 f : NcFile A} {done : List (Option Nat × Var (Payload A))} (h : Now c s f0 done f)
    {u : Option Nat} (hu : OnlyUnlim f0.dims u)
    {i : Nat} {v : Var (Payload A)} {nv0 : NcVar A} {fds : List NcDim} (hv : c.vars[i]? = some v)
    (hnv : f0.vars[i]? = some nv0) (hfds : DimsAt f0.dims nv0.dims fds)
    {p : Option Nat} {vals : List A}
    (hdue : Due c p v) (hany : hasUnlimitedDim c v = fds.any (·.unlimited)) (hs : s p v = some vals)
    (hlen : vals.length = (sliceCount fds).prod) {nv : NcVar A} (hnow : f.vars[i]? = some nv) :
    Now c s f0 ((p, v) :: done) { f with
      dims := growDims f.dims nv.dims (sliceStart p fds) (sliceCount fds)
      vars := f.vars.set i { nv with
        cells := fun idx =>
          if inside (sliceStart p fds) (sliceCount fds) idx then
            vals.getD (offset (sliceStart p fds) (sliceCount fds) idx) (nv.cells idx) else nv.cells idx } } := by
  obtain ⟨g0, hg0, hc0⟩ := h.vars i v nv0 fds hv hnv hfds
  rw [hnow] at hg0
  injection hg0 with hg0
  subst hg0
  refine ⟨h.fmt, h.gatts, ?_, by simpa using h.len, ?_⟩
  · obtain ⟨n, hn, h1, h2⟩ := h.dims
    refine ⟨if fds.any (·.unlimited) then max n (p.getD 0 + 1) else n, ?_, ?_⟩
    · show growDims f.dims nv0.dims _ _ = _
      rw [hn]
      exact growDims_ok hu p hfds n
    · unfold Due at hdue
      rw [hany] at hdue
      rw [hdue]
      cases p with
      | none =>
        simp only [Option.isSome_none, Bool.false_eq_true, if_false]
        refine ⟨?_, ?_⟩
        · intro q x vals' hq
          rcases List.mem_cons.1 hq with he | hq
          · injection he with he
            cases he
          · exact h1 q x vals' hq
        · rcases h2 with h2 | ⟨q, x, vals', hq, h2⟩
          · exact .inl h2
          · exact .inr ⟨q, x, vals', List.mem_cons_of_mem _ hq, h2⟩
      | some k =>
        simp only [Option.isSome_some, if_true, Option.getD_some]
        refine ⟨?_, ?_⟩
        · intro q x vals' hq hdq hsq
          rcases List.mem_cons.1 hq with he | hq
          · injection he with he
            injection he with he
            omega
          · have := h1 q x vals' hq hdq hsq
            omega
        · by_cases hnk : n ≤ k + 1
          · refine .inr ⟨k, v, vals, List.mem_cons_self, ?_, hs, by omega⟩
            unfold Due
            rw [hany, hdue]
          · rcases h2 with h2 | ⟨q, x, vals', hq, hd, hsq, h2⟩
            · omega
            · exact .inr ⟨q, x, vals', List.mem_cons_of_mem _ hq, hd, hsq, by omega⟩
  · intro j x nv1 fds1 hx hnv1 hfds1
    by_cases hij : i = j
    · subst hij
      rw [hv] at hx
      injection hx with hx
      subst hx
      rw [hnv] at hnv1
      injection hnv1 with hnv1
      subst hnv1
      have := dimsAt_unique hfds hfds1
      subst this
      refine ⟨_, ?_, hc0.put hdue hany hs hlen⟩
      have hlt := (List.getElem?_eq_some_iff.1 hnow).1
      simp [hlt]
    · obtain ⟨g, hg, hc⟩ := h.vars j x nv1 fds1 hx hnv1 hfds1
      refine ⟨g, ?_, hc.other p ?_⟩
      · simp only [List.getElem?_set, if_neg hij]
        exact hg
      · rintro rfl
        apply hij
        have hnd := hinv.vars
        rw [List.nodup_iff_injective_getElem] at hnd
        obtain ⟨hi', hvi⟩ := List.getElem?_eq_some_iff.1 hv
        obtain ⟨hj', hxj⟩ := List.getElem?_eq_some_iff.1 hx
        have := @hnd ⟨i, by simpa using hi'⟩ ⟨j, by simpa using hj'⟩ (by simp [hvi, hxj])
        simpa using this

theorem nat_type {t : DataType} (h : t ≠ .nat) : cdmDataType2ncType t ≠ .nat := by
  cases t <;> first | exact absurd rfl h | (intro hc; cases hc)

/-- One variable at one position. -/
theorem writeVar_step {L : Lib A} {O : Ops A F U} {src : Source A} {w : Writer A} {fm : Format} {f0 f : NcFile A} {ids : Map Nat}
    (hL : Accepts L) (hinv : Inv w.cdm) (hone : OneUnlimited w.cdm) (hD : Defined L O w fm f0 ids) {u : Option Nat}
    (hu : OnlyUnlim f0.dims u) {done : List (Option Nat × Var (Payload A))} (hnow : Now w.cdm s f0 done f)
    {i : Nat} {v : Var (Payload A)} (hv : w.cdm.vars[i]? = some v) (hnd : v.shape.Nodup) {p : Option Nat}
    (hsup : Due w.cdm p v → ∀ nv0 fds, f0.vars[i]? = some nv0 → DimsAt f0.dims nv0.dims fds →
      Supplies O src w fm v p (sliceCount fds).prod (s p v)) :
    ∃ f', writeVar L O src w ids u f p v = .ok (f', false) ∧ Now w.cdm s f0 ((p, v) :: done) f' := by
  obtain ⟨hid, nv0, hnv0, hisv, -⟩ := hD.vars i v hv
  obtain ⟨fds, hfds⟩ := dimIds_dimsAt hisv.dims
  have hany := hasUnlimited_file hinv hone hisv.dims hfds
  rw [← hD.dims] at hfds
  have hidnd := dimIds_nodup hisv.dims hnd
  obtain ⟨g, hg, hcells⟩ := hnow.vars i v nv0 fds hv hnv0 hfds
  obtain ⟨n, hn, -⟩ := hnow.dims
  have hlens : dimLens f.dims nv0.dims = .ok ((fds.map (growTo n)).map (·.len)) := by
    rw [hn]
    exact dimLens_ok (dimsAt_grow n hfds)
  obtain ⟨hcount, hstart⟩ := bounds_ok hu p n hfds hidnd
  have hsome : (lastIdx u nv0.dims).isSome = hasUnlimitedDim w.cdm v := by
    rw [hany]
    exact lastIdx_isSome hfds hidnd fun i d _ hd => hu i d hd
  simp only [writeVar, hid, hg, hlens, Res.ok_bind, hcount, hstart]
  by_cases hdue : Due w.cdm p v
  · obtain ⟨hty, d, e, hread, hconv, hcases⟩ := hsup hdue nv0 fds hnv0 hfds
    have hrd : readData O src w v p (lastIdx u nv0.dims) = some (.ok e) := by
      unfold Due at hdue
      rw [hdue] at hsome
      unfold readData
      cases p with
      | none =>
        cases hl : lastIdx u nv0.dims with
        | some => rw [hl] at hsome; cases hsome
        | none =>
          simp only at hread
          simp only [Option.isSome_none] at hdue
          simp only [hdue, hread, Option.map_some, Res.ok_bind]
          cases d with
          | none =>
            cases e with
            | none => rfl
            | some => exact hconv.elim
          | some d =>
            cases e with
            | none => exact hconv.elim
            | some e =>
              simp only [Converted] at hconv
              simp only [hconv, Res.ok_bind]
      | some k =>
        cases hl : lastIdx u nv0.dims with
        | none => rw [hl] at hsome; cases hsome
        | some =>
          simp only at hread
          simp only [Option.isSome_some] at hdue
          simp only [hdue, hread, Option.map_some, Res.ok_bind]
          cases d with
          | none =>
            cases e with
            | none => rfl
            | some => exact hconv.elim
          | some d =>
            cases e with
            | none => exact hconv.elim
            | some e =>
              simp only [Converted] at hconv
              simp only [hconv, Res.ok_bind]
    have hfits : fits f.dims nv0.dims (sliceStart p fds) (sliceCount fds) = true := by
      rw [hn]
      exact fits_ok p n hfds
    have hfm : f.format = fm := by rw [hnow.fmt, hD.fmt]
    simp only [hrd]
    rcases hcases with ⟨y, vals, rfl, hyne, hyl, hyt, hvl, hsv⟩ | ⟨hnov, h3, hsv⟩ | ⟨hnov, h3, fill, a, vals, hfill, hcast, hyt, hvl, hpos, hsv⟩
    · have hor : orFill O w f.format v (sliceCount fds) (some y) = .ok (some y) := by
        unfold orFill
        rw [if_neg]
        simp only [noValues, Bool.and_eq_true, List.isEmpty_iff]
        exact fun hc => hyne hc.1
      rw [hor, Res.ok_bind, putData_ok hL hg hfits hyne hyl (nat_type hty) hyt hvl, Res.ok_bind]
      exact ⟨_, rfl, hnow.put hinv hu hv hnv0 hfds hdue hany hsv hvl hg⟩
    · have hor : orFill O w f.format v (sliceCount fds) e = .ok e := by
        unfold orFill
        rw [if_neg]
        simp only [hfm, Bool.and_eq_true, decide_eq_true_eq]
        omega
      rw [hor, Res.ok_bind]
      have hput : putData L O f v i (sliceStart p fds) (sliceCount fds) e = .ok f := by
        unfold putData
        cases e with
        | none => rfl
        | some y =>
          simp only [noValues] at hnov
          simp only [hnov, if_true]
      rw [hput, Res.ok_bind]
      exact ⟨f, rfl, hnow.skip fun _ => hsv⟩
    · have hor : orFill O w f.format v (sliceCount fds) e =
          .ok (some ⟨v.payload.ty, List.replicate (sliceCount fds).prod a⟩) := by
        unfold orFill
        rw [if_pos (by simp [hfm, hnov, h3]), hfill]
        simp only [Res.ok_bind, hcast]
      rw [hor, Res.ok_bind, putData_ok hL hg hfits ?_ (by simp) (nat_type hty) hyt hvl, Res.ok_bind]
      · exact ⟨_, rfl, hnow.put hinv hu hv hnv0 hfds hdue hany hsv hvl hg⟩
      · intro hc
        have := congrArg List.length hc
        simp at this
        omega
  · have hrd : readData O src w v p (lastIdx u nv0.dims) = none := by
      unfold Due at hdue
      unfold readData
      cases p with
      | none =>
        cases hl : lastIdx u nv0.dims with
        | none => rw [hl] at hsome; rw [← hsome] at hdue; exact absurd rfl hdue
        | some => rfl
      | some k =>
        cases hl : lastIdx u nv0.dims with
        | none => rfl
        | some =>
          rw [hl] at hsome; rw [← hsome] at hdue; exact absurd rfl hdue
    simp only [hrd]
    exact ⟨f, rfl, hnow.skip fun hc => absurd hc hdue⟩

/-! ## All steps -/

/-- The positions and variables of the steps, the last step first. -/
def doneBy (done : List (Option Nat × Var (Payload A))) : List (Step A) → List (Option Nat × Var (Payload A))
  | [] => done
  | .sync :: l => doneBy done l
  | .var p v :: l => doneBy ((p, v) :: done) l

theorem mem_doneBy : ∀ {l : List (Step A)} {done : List (Option Nat × Var (Payload A))} {x : Option Nat × Var (Payload A)},
    x ∈ doneBy done l ↔ x ∈ done ∨ Step.var x.1 x.2 ∈ l
  | [], _, _ => by simp [doneBy]
  | .sync :: l, done, x => by
    simp only [doneBy]
    rw [mem_doneBy]
    simp
  | .var p v :: l, done, x => by
    simp only [doneBy]
    rw [mem_doneBy]
    simp only [List.mem_cons, Step.var.injEq]
    rw [Prod.ext_iff]
    tauto

theorem runSteps_ok {L : Lib A} {O : Ops A F U} {src : Source A} {w : Writer A} {fm : Format} {f0 : NcFile A} {ids : Map Nat}
    (hL : Accepts L) (hinv : Inv w.cdm) (hone : OneUnlimited w.cdm) (hD : Defined L O w fm f0 ids) {u : Option Nat}
    (hu : OnlyUnlim f0.dims u) (hnd : ∀ v ∈ w.cdm.vars, v.shape.Nodup) :
    ∀ (steps : List (Step A)) (done : List (Option Nat × Var (Payload A))) (f : NcFile A), Now w.cdm s f0 done f →
    (∀ p v, Step.var p v ∈ steps → ∃ i : Nat, w.cdm.vars[i]? = some v ∧
      (Due w.cdm p v → ∀ nv0 fds, f0.vars[i]? = some nv0 → DimsAt f0.dims nv0.dims fds →
        Supplies O src w fm v p (sliceCount fds).prod (s p v))) →
    ∃ f', runSteps L O src w ids u f false steps = .ok (f', false) ∧ Now w.cdm s f0 (doneBy done steps) f'
  | [], done, f, hnow, _ => ⟨f, rfl, hnow⟩
  | .sync :: l, done, f, hnow, hs => by
    obtain ⟨f', h1, h2⟩ := runSteps_ok hL hinv hone hD hu hnd l done f hnow
      fun p v h => hs p v (List.mem_cons_of_mem _ h)
    refine ⟨f', ?_, h2⟩
    simp only [runSteps, hL.2, Bool.false_eq_true, if_false]
    exact h1
  | .var p v :: l, done, f, hnow, hs => by
    obtain ⟨i, hv, hsup⟩ := hs p v List.mem_cons_self
    obtain ⟨f1, h1, h2⟩ := writeVar_step hL hinv hone hD hu hnow hv (hnd v (List.mem_of_getElem? hv)) hsup
    obtain ⟨f', h3, h4⟩ := runSteps_ok hL hinv hone hD hu hnd l ((p, v) :: done) f1 h2
      fun p v h => hs p v (List.mem_cons_of_mem _ h)
    refine ⟨f', ?_, h4⟩
    simp only [runSteps, h1, Res.ok_bind]
    exact h3

theorem findIdx?_name {l : List NcDim} (h : (l.map (·.name)).Nodup) {i : Nat} {d : NcDim} (hd : l[i]? = some d) :
    l.findIdx? (fun e => e.name == d.name) = some i := by
  rw [List.findIdx?_eq_some_iff_getElem]
  obtain ⟨hi, hdi⟩ := List.getElem?_eq_some_iff.1 hd
  refine ⟨hi, by simp [hdi], ?_⟩
  intro j hj hc
  rw [List.nodup_iff_injective_getElem] at h
  have := @h ⟨j, by simp; omega⟩ ⟨i, by simpa using hi⟩ (by simpa [hdi] using hc)
  simp at this
  omega

/-- The dimension the writer takes for the unlimited one is the unlimited one, if it keeps its name. -/
theorem unLimDimId_ok {L : Lib A} {O : Ops A F U} {w : Writer A} {fm : Format} {f0 : NcFile A} {ids : Map Nat}
    (hinv : Inv w.cdm) (hone : OneUnlimited w.cdm) (hD : Defined L O w fm f0 ids)
    (hname : ∀ d ∈ w.cdm.dims, d.unlimited = true → written w.dimNames d.name = d.name) :
    ∃ u, unLimDimId f0 w.cdm = .ok u ∧ OnlyUnlim f0.dims u := by
  unfold unLimDimId getUnlimitedDim
  cases h : w.cdm.dims.find? (·.unlimited) with
  | none =>
    refine ⟨none, rfl, ?_⟩
    intro i d hd
    rw [List.find?_eq_none] at h
    rw [hD.dims, List.getElem?_map] at hd
    cases he : w.cdm.dims[i]? with
    | none => rw [he] at hd; cases hd
    | some e =>
      rw [he] at hd
      injection hd with hd
      have := h e (List.mem_of_getElem? he)
      rw [← hd]
      simpa [fileDim] using this
  | some d =>
    have hm := List.mem_of_find?_eq_some h
    have hp := List.find?_some h
    obtain ⟨i, hi, hdi⟩ := List.getElem_of_mem hm
    have hfi : f0.dims[i]? = some (fileDim w d) := by
      rw [hD.dims, List.getElem?_map, List.getElem?_eq_getElem hi, hdi]
      rfl
    have hfind := findIdx?_name hD.dimNames hfi
    have hn : (fileDim w d).name = d.name := hname d hm hp
    rw [hn] at hfind
    refine ⟨some i, ?_, ?_⟩
    · simp only [ncInqDimid, hfind, Res.ok_bind]
    · intro j e he
      rw [hD.dims, List.getElem?_map] at he
      cases hx : w.cdm.dims[j]? with
      | none => rw [hx] at he; cases he
      | some x =>
        rw [hx] at he
        injection he with he
        rw [← he]
        constructor
        · intro hxu
          have hxd := hone x d (List.mem_of_getElem? hx) hm hxu hp
          subst hxd
          have hnd := hinv.dims
          rw [List.nodup_iff_injective_getElem] at hnd
          obtain ⟨hj', hxj⟩ := List.getElem?_eq_some_iff.1 hx
          have := @hnd ⟨i, by simpa using hi⟩ ⟨j, by simpa using hj'⟩ (by simp [hdi, hxj])
          simpa using this
        · intro hij
          injection hij with hij
          subst hij
          rw [List.getElem?_eq_getElem hi, hdi] at hx
          injection hx with hx
          subst hx
          exact hp

theorem now_start {L : Lib A} {O : Ops A F U} {w : Writer A} {fm : Format} {f0 : NcFile A} {ids : Map Nat}
    (hD : Defined L O w fm f0 ids) : Now w.cdm s f0 [] f0 := by
  refine ⟨rfl, rfl, ⟨0, ?_, ?_, .inl rfl⟩, rfl, ?_⟩
  · rw [hD.dims, List.map_map]
    apply List.map_congr_left
    intro d _
    by_cases h : d.unlimited = true
    · have := (definedLength_zero d).2 h
      simp [Function.comp, growTo, fileDim, h, this]
    · simp [Function.comp, growTo, fileDim, h]
  · intro p v vals h
    cases h
  · intro i v nv0 fds hv hnv hfds
    refine ⟨nv0.cells, hnv, ?_, ?_⟩
    · intro p vals idx h
      cases h
    · intro _ _
      rfl

end Fimex.Netcdf
