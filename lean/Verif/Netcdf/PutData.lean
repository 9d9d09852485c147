import Verif.Netcdf.ReadData

/-!
# Data put into a netCDF file is the data read from it (C92)
-/

namespace Fimex.Netcdf

open Fimex.Cdm
open Fimex.Tables (DataType)

variable {A F U : Type}

/-! ## Lemmas on the library -/

theorem growDims_names : ∀ (ids : List Nat) (ds : List NcDim) (start count : List Nat),
    (growDims ds ids start count).map (fun d => (d.name, d.unlimited)) = ds.map (fun d => (d.name, d.unlimited))
  | [], _, _, _ => by simp [growDims]
  | _ :: _, _, [], _ => by simp [growDims]
  | _ :: _, _, _ :: _, [] => by simp [growDims]
  | i :: ids, ds, s :: start, n :: count => by
    simp only [growDims]
    rw [growDims_names ids]
    cases h : ds[i]? with
    | none => rfl
    | some d =>
      simp only
      rw [List.map_set]
      apply List.ext_getElem?
      intro j
      rw [List.getElem?_set]
      split
      · rename_i hij
        subst hij
        obtain ⟨h1, h2⟩ := List.getElem?_eq_some_iff.1 h
        rw [if_pos (by simpa using h1), List.getElem?_map, h]
        unfold grown
        split <;> rfl
      · rfl

theorem growDims_mono : ∀ (ids : List Nat) (ds : List NcDim) (start count : List Nat) (i : Nat) (d : NcDim), ds[i]? = some d →
    ∃ e, (growDims ds ids start count)[i]? = some e ∧ d.len ≤ e.len
  | [], _, _, _, _, d, h => ⟨d, by simpa [growDims] using h, Nat.le_refl _⟩
  | _ :: _, _, [], _, _, d, h => ⟨d, by simpa [growDims] using h, Nat.le_refl _⟩
  | _ :: _, _, _ :: _, [], _, d, h => ⟨d, by simpa [growDims] using h, Nat.le_refl _⟩
  | x :: ids, ds, s :: start, n :: count, i, d, h => by
    simp only [growDims]
    have : ∃ d', (match ds[x]? with
      | some d => ds.set x (grown d s n)
      | none => ds)[i]? = some d' ∧ d.len ≤ d'.len := by
      cases hx : ds[x]? with
      | none => exact ⟨d, h, Nat.le_refl _⟩
      | some e =>
        simp only [List.getElem?_set]
        split
        · rename_i hxi
          subst hxi
          rw [h] at hx
          injection hx with hx
          subst hx
          rw [if_pos (List.getElem?_eq_some_iff.1 h).1]
          refine ⟨_, rfl, ?_⟩
          unfold grown
          split
          · exact Nat.le_max_left _ _
          · exact Nat.le_refl _
        · exact ⟨d, h, Nat.le_refl _⟩
    obtain ⟨d', h1, h2⟩ := this
    obtain ⟨e, h3, h4⟩ := growDims_mono ids _ start count i d' h1
    exact ⟨e, h3, Nat.le_trans h2 h4⟩

theorem fits_set {ds : List NcDim} {x : Nat} {e : NcDim} (hx : ds[x]? = some e) (s n : Nat) : ∀ {ids start count : List Nat},
    fits ds ids start count = true → fits (ds.set x (grown e s n)) ids start count = true
  | [], [], [], _ => rfl
  | i :: ids, a :: start, b :: count, h => by
    simp only [fits, Bool.and_eq_true] at h ⊢
    refine ⟨?_, fits_set hx s n h.2⟩
    rw [List.getElem?_set]
    by_cases hxi : x = i
    · subst hxi
      rw [if_pos rfl, if_pos (List.getElem?_eq_some_iff.1 hx).1]
      have h1 := h.1
      rw [hx] at h1
      unfold grown
      cases hu : e.unlimited with
      | true => simp
      | false => simpa [hu] using h1
    · rw [if_neg hxi]
      exact h.1
  | [], [], _ :: _, h => by simp [fits] at h
  | [], _ :: _, _, h => by simp [fits] at h
  | _ :: _, [], _, h => by simp [fits] at h
  | _ :: _, _ :: _, [], h => by simp [fits] at h

/-- After writing, the hyper-rectangle can be read. -/
theorem fitsNow_growDims : ∀ {ids start count : List Nat} {ds : List NcDim}, fits ds ids start count = true →
    fitsNow (growDims ds ids start count) ids start count = true
  | [], [], [], _, _ => by simp [fitsNow]
  | i :: ids, s :: start, n :: count, ds, h => by
    simp only [fits, Bool.and_eq_true] at h
    cases hi : ds[i]? with
    | none => rw [hi] at h; simp at h
    | some d =>
      rw [hi] at h
      simp only [growDims, hi, fitsNow, Bool.and_eq_true]
      refine ⟨?_, fitsNow_growDims (fits_set hi s n h.2)⟩
      obtain ⟨e, he, hle⟩ := growDims_mono ids (ds.set i (grown d s n)) start count i (grown d s n) (by
        rw [List.getElem?_set_self (List.getElem?_eq_some_iff.1 hi).1])
      rw [he]
      simp only [decide_eq_true_eq]
      refine Nat.le_trans ?_ hle
      have h1 := h.1
      simp only [Bool.or_eq_true, decide_eq_true_eq] at h1
      unfold grown
      split
      · simp only
        omega
      · rename_i hu
        rcases h1 with h1 | h1
        · exact absurd h1 hu
        · exact h1
  | [], [], _ :: _, _, h => by simp [fits] at h
  | [], _ :: _, _, _, h => by simp [fits] at h
  | _ :: _, [], _, _, h => by simp [fits] at h
  | _ :: _, _ :: _, [], _, h => by simp [fits] at h

theorem fits_lengths : ∀ {ids start count : List Nat} {ds : List NcDim}, fits ds ids start count = true →
    start.length = ids.length ∧ count.length = ids.length
  | [], [], [], _, _ => ⟨rfl, rfl⟩
  | i :: ids, s :: start, n :: count, ds, h => by
    simp only [fits, Bool.and_eq_true] at h
    obtain ⟨a, b⟩ := fits_lengths h.2
    simp [a, b]
  | [], [], _ :: _, _, h => by simp [fits] at h
  | [], _ :: _, _, _, h => by simp [fits] at h
  | _ :: _, [], _, _, h => by simp [fits] at h
  | _ :: _, _ :: _, [], _, h => by simp [fits] at h

/-- The file after values have been put into the rectangle. -/
structure PutAt (f : NcFile A) (id : Nat) (nv : NcVar A) (start count : List Nat) (vals : List A) (f' : NcFile A) : Prop where
  fmt : f'.format = f.format
  gatts : f'.gatts = f.gatts
  dims : f'.dims = growDims f.dims nv.dims start count
  fit : fits f.dims nv.dims start count = true
  len : vals.length = count.prod
  vars : ∃ g, f'.vars = f.vars.set id { nv with cells := g } ∧
    (∀ j, InShape count.reverse j → vals[pos count.reverse j]? = some (g (List.zipWith (· + ·) start j.reverse))) ∧
    (∀ idx, (∀ j, InShape count.reverse j → idx ≠ List.zipWith (· + ·) start j.reverse) → g idx = nv.cells idx)

theorem putVara_ok {L : Lib A} {f f' : NcFile A} {id : Nat} {nv : NcVar A} {start count : List Nat} {vals : List A}
    (hid : f.vars[id]? = some nv) (hlen : vals.length = count.prod) (h : ncPutVara L f id start count vals = .ok f') :
    PutAt f id nv start count vals f' := by
  unfold ncPutVara at h
  split at h
  · cases h
  simp only [hid] at h
  split at h
  · cases h
  rename_i hfit
  rw [if_neg (by omega)] at h
  injection h with h
  have hfit' : fits f.dims nv.dims start count = true := by simpa using hfit
  obtain ⟨hl1, hl2⟩ := fits_lengths hfit'
  subst h
  refine ⟨rfl, rfl, rfl, hfit', hlen, _, rfl, ?_, ?_⟩
  · intro j hj
    have hj' : InShape count j.reverse := by simpa using inShape_reverse hj
    have hin : inside start count (List.zipWith (· + ·) start j.reverse) = true :=
      inside_iff.2 ⟨by omega, _, hj', rfl⟩
    simp only [hin, if_true]
    rw [offset_add (by omega) hj', List.reverse_reverse, List.getD_eq_getElem?_getD]
    have hlt := pos_lt hj
    rw [List.prod_reverse, ← hlen] at hlt
    rw [List.getElem?_eq_getElem hlt]
    rfl
  · intro idx hidx
    have hin : inside start count idx = false := by
      rw [Bool.eq_false_iff]
      intro hc
      obtain ⟨-, j, hj, rfl⟩ := inside_iff.1 hc
      exact hidx j.reverse (inShape_reverse hj) (by rw [List.reverse_reverse])
    simp only [hin, Bool.false_eq_true, if_false]

theorem map_cells_eq {s : List Nat} {vals : List A} (hv : vals.length = s.prod) {g : List Nat → A}
    (h : ∀ j, InShape s j → vals[pos s j]? = some (g j)) : (cells s).map g = vals := by
  cases vals with
  | nil =>
    have hnone : ∀ j, ¬ InShape s j := fun j hj => by
      have := h j hj
      simp at this
    have : cells s = [] := by
      rw [List.eq_nil_iff_forall_not_mem]
      exact fun j hj => hnone j (mem_cells.1 hj)
    rw [this]
    rfl
  | cons a l =>
    have := map_cells_getD (s := s) hv (fun _ => a)
    rw [← this]
    apply List.map_congr_left
    intro j hj
    rw [List.getD_eq_getElem?_getD, h j (mem_cells.1 hj)]
    rfl

theorem PutAt.get {f f' : NcFile A} {id : Nat} {nv : NcVar A} {start count : List Nat} {vals : List A}
    (h : PutAt f id nv start count vals f') (hid : f.vars[id]? = some nv) : ncGetVara f' id start count = .ok vals := by
  obtain ⟨g, hg, hput, -⟩ := h.vars
  have : f'.vars[id]? = some { nv with cells := g } := by
    rw [hg, List.getElem?_set_self (List.getElem?_eq_some_iff.1 hid).1]
  unfold ncGetVara
  simp only [this, h.dims, fitsNow_growDims h.fit, Bool.not_true, Bool.false_eq_true, if_false]
  congr 1
  exact map_cells_eq (by rw [List.prod_reverse]; exact h.len) hput

theorem map_name_set {f : NcFile A} {id : Nat} {nv : NcVar A} (hid : f.vars[id]? = some nv) (g : List Nat → A) {β : Type} (q : NcVar A → β)
    (hq : q { nv with cells := g } = q nv) : (f.vars.set id { nv with cells := g }).map q = f.vars.map q := by
  rw [List.map_set, hq]
  apply List.ext_getElem?
  intro j
  rw [List.getElem?_set]
  split
  · rename_i hij
    subst hij
    rw [if_pos (by simpa using (List.getElem?_eq_some_iff.1 hid).1), List.getElem?_map, hid]
    rfl
  · rfl

theorem PutAt.names {f f' : NcFile A} {id : Nat} {nv : NcVar A} {start count : List Nat} {vals : List A}
    (h : PutAt f id nv start count vals f') :
    f'.dims.map (fun d => (d.name, d.unlimited)) = f.dims.map (fun d => (d.name, d.unlimited)) := by
  rw [h.dims, growDims_names]

theorem PutAt.valid {f f' : NcFile A} {id : Nat} {nv : NcVar A} {start count : List Nat} {vals : List A}
    (h : PutAt f id nv start count vals f') (hid : f.vars[id]? = some nv) (hf : ValidFile f) : ValidFile f' := by
  obtain ⟨g, hg, -, -⟩ := h.vars
  have hn := h.names
  have hlen : f'.dims.length = f.dims.length := by
    have := congrArg List.length hn
    simpa using this
  have hmem : ∀ v ∈ f'.vars, v ∈ f.vars ∨ v = { nv with cells := g } := by
    intro v hv
    rw [hg] at hv
    rcases List.mem_or_eq_of_mem_set hv with h | h
    · exact .inl h
    · exact .inr h
  have hnv := List.mem_of_getElem? hid
  refine ⟨?_, ?_, ?_, ?_, ?_⟩
  · have := congrArg (List.map Prod.fst) hn
    simp only [List.map_map] at this
    have h2 := hf.dimNames
    have h3 : f'.dims.map (·.name) = f.dims.map (·.name) := this
    rw [h3]
    exact h2
  · rw [hg, map_name_set hid g _ rfl]
    exact hf.varNames
  · intro v hv i hi
    rw [hlen]
    rcases hmem v hv with hv | rfl
    · exact hf.dims v hv i hi
    · exact hf.dims nv hnv i hi
  · intro v hv
    rcases hmem v hv with hv | rfl
    · exact hf.atts v hv
    · exact hf.atts nv hnv
  · rw [h.gatts]
    exact hf.gatts

theorem PutAt.serves {f f' : NcFile A} {id : Nat} {nv : NcVar A} {start count : List Nat} {vals : List A}
    (h : PutAt f id nv start count vals f') (hid : f.vars[id]? = some nv) {c : Ds A} (hs : Serves f c) : Serves f' c := by
  obtain ⟨g, hg, -, -⟩ := h.vars
  have hn := h.names
  have hname : ∀ i : Nat, (f'.dims[i]?).map (fun d : NcDim => d.name) = (f.dims[i]?).map (fun d : NcDim => d.name) := by
    intro i
    have := congrArg (fun l => (l[i]?).map Prod.fst) hn
    simpa [List.getElem?_map, Option.map_map, Function.comp_def] using this
  have hvar : ∀ v, cdmVar f' v = cdmVar f v := by
    intro v
    unfold cdmVar shapeNames
    congr 2
    congr 1
    funext i
    exact hname i
  refine ⟨?_, ?_⟩
  · rw [hs.vars, hg, show cdmVar f' = cdmVar f from funext hvar]
    rw [map_name_set hid g _ rfl]
  · rw [hs.unlim]
    have h1 : ∀ l : List NcDim, (l.find? (·.unlimited)).map (·.name) =
        ((l.map (fun d => (d.name, d.unlimited))).find? (·.2)).map Prod.fst := by
      intro l
      rw [List.find?_map, Option.map_map]
      rfl
    rw [h1, h1, hn]

theorem PutAt.record {f f' : NcFile A} {id : Nat} {nv : NcVar A} {start count : List Nat} {vals : List A}
    (h : PutAt f id nv start count vals f') : recordDim f' = recordDim f := by
  have h1 : ∀ l : List NcDim, l.findIdx? (·.unlimited) = (l.map (fun d => (d.name, d.unlimited))).findIdx? (·.2) := by
    intro l
    rw [List.findIdx?_map]
    rfl
  unfold recordDim
  rw [h1, h1, h.names]

theorem dropMem_serves {f : NcFile A} {c : Ds A} (hs : Serves f c) (n : String) : dropMem n c.vars = c.vars := by
  rw [hs.vars]
  generalize f.vars = l
  induction l with
  | nil => rfl
  | cons v l ih =>
    simp only [List.map_cons, dropMem, ih]
    split <;> rfl

/-- Dimensions other than `u` keep their lengths if nothing is written beyond them. -/
theorem growDims_same {u : Option Nat} : ∀ {ids start count : List Nat} {ds : List NcDim},
    (∀ i s n, (i, s, n) ∈ ids.zip (start.zip count) → u ≠ some i → ∀ d, ds[i]? = some d → s + n ≤ d.len) →
    ∀ i, u ≠ some i → (growDims ds ids start count)[i]? = ds[i]?
  | [], _, _, _, _, _, _ => by simp [growDims]
  | _ :: _, [], _, _, _, _, _ => by simp [growDims]
  | _ :: _, _ :: _, [], _, _, _, _ => by simp [growDims]
  | x :: ids, s :: start, n :: count, ds, h, i, hi => by
    cases hx : ds[x]? with
    | none =>
      simp only [growDims, hx]
      exact growDims_same (u := u) (fun k a b hm => h k a b (by
        simp only [List.zip_cons_cons, List.mem_cons]
        exact .inr hm)) i hi
    | some e =>
      simp only [growDims, hx]
      have hset : ∀ k, u ≠ some k → (ds.set x (grown e s n))[k]? = ds[k]? := by
        intro k hk
        rw [List.getElem?_set]
        split
        · rename_i hxk
          subst hxk
          have hle := h x s n (by simp) hk e hx
          rw [if_pos (List.getElem?_eq_some_iff.1 hx).1, hx]
          unfold grown
          split
          · rw [Nat.max_eq_left hle]
          · rfl
        · rfl
      rw [growDims_same (u := u) (by
        intro k a b hm hk d hd
        rw [hset k hk] at hd
        exact h k a b (by simp only [List.zip_cons_cons, List.mem_cons]; exact .inr hm) hk d hd) i hi]
      exact hset i hi

/-! ## Putting -/

/-- The type conversions keep the number of values. -/
def KeepsNumber (O : Ops A F U) : Prop := ∀ t d vals, O.asType t d = .ok vals → vals.length = d.vals.length

theorem putValues_ok {L : Lib A} {O : Ops A F U} (hO : KeepsNumber O) {f f' : NcFile A} {id : Nat} {nv : NcVar A} {d : Data A}
    {start count : List Nat} (hid : f.vars[id]? = some nv) (hty : nv.ty ≠ .nat) (hne : d.vals ≠ [])
    (h : ncPutValues L O f d id nv.ty start count = .ok f') :
    ∃ vals, O.asType (ncType2cdmDataType nv.ty) d = .ok vals ∧ PutAt f id nv start count vals f' := by
  unfold ncPutValues at h
  rw [if_neg (by simpa using hne)] at h
  by_cases hlen : count.prod ≠ d.vals.length
  · rw [if_pos hlen] at h
    cases h
  rw [if_neg hlen, if_neg hty] at h
  obtain ⟨vals, h1, h2⟩ := Res.bind_eq_ok.1 h
  refine ⟨vals, h1, putVara_ok hid ?_ h2⟩
  rw [hO _ _ _ h1]
  omega

/-- C92: what is put at a position of the unlimited dimension is read from there afterwards; all other cells of all
variables are as before, and only the unlimited dimension may be longer. -/
theorem C92_put_slice_partial {L : Lib A} {O : Ops A F U} (hO : KeepsNumber O) {mem : FromMemory A} {f f' : NcFile A}
    {c c' : Ds A} (hf : ValidFile f) (hs : Serves f c) {nv : NcVar A} {id : Nat} (hid : f.vars[id]? = some nv)
    (hty : nv.ty ≠ .nat) (hrec : RecordFirst f nv.dims) {k : Nat} {d : Data A} (hne : d.vals ≠ [])
    (h : putSlice L O c f nv.name k (some d) = .ok (c', f')) :
    c' = c ∧ ValidFile f' ∧ Serves f' c ∧ ∃ vals g, O.asType (ncType2cdmDataType nv.ty) d = .ok vals ∧
      readSlice mem c f' nv.name k = .ok ⟨ncType2cdmDataType nv.ty, vals⟩ ∧
      f'.vars = f.vars.set id { nv with cells := g } ∧
      (∀ idx, (∀ j, InShape (partLens f nv.dims) j → idx ≠ (partPlace f nv.dims k j).reverse) → g idx = nv.cells idx) ∧
      ∀ i, recordDim f ≠ some i → f'.dims[i]? = f.dims[i]? := by
  have hnv := List.mem_of_getElem? hid
  have hc : ({ c with vars := dropMem nv.name c.vars } : Ds A) = c := by
    rw [dropMem_serves hs]
  simp only [putSlice, getVariable_ok hf hs hnv, Res.ok_bind, hc] at h
  rw [if_neg (by simpa using hne)] at h
  simp only [fileVar_ok hf hid, Res.ok_bind, sliceBounds_ok hf hs hnv hrec k] at h
  obtain ⟨f'', h1, h2⟩ := Res.bind_eq_ok.1 h
  injection h2 with h2
  injection h2 with h2 h3
  subst h2 h3
  obtain ⟨vals, hv, hp⟩ := putValues_ok hO hid hty hne h1
  have hf' := hp.valid hid hf
  have hs' := hp.serves hid hs
  have hsame : ∀ i, recordDim f ≠ some i → f''.dims[i]? = f.dims[i]? := by
    rw [hp.dims]
    refine growDims_same ?_
    intro i s n hm hi e he
    have : ∀ {ids : List Nat}, (i, s, n) ∈ ids.zip ((ids.map fun i => if recordDim f = some i then k else 0).zip
        (ids.map fun i => if recordDim f = some i then 1 else ((f.dims[i]?).map (·.len)).getD 0)) →
        s = 0 ∧ n = ((f.dims[i]?).map (·.len)).getD 0 := by
      intro ids
      induction ids with
      | nil => simp
      | cons a ids ih =>
        simp only [List.map_cons, List.zip_cons_cons, List.mem_cons, Prod.mk.injEq]
        rintro (⟨rfl, rfl, rfl⟩ | h)
        · simp [hi]
        · exact ih h
    obtain ⟨rfl, rfl⟩ := this (by simpa [partLens] using hm)
    rw [he]
    simp
  obtain ⟨g, hg, hput, hother⟩ := hp.vars
  refine ⟨rfl, hf', hs', vals, g, hv, ?_, hg, ?_, hsame⟩
  · have hid' : f''.vars[id]? = some { nv with cells := g } := by
      rw [hg, List.getElem?_set_self (List.getElem?_eq_some_iff.1 hid).1]
    have hnv' := List.mem_of_getElem? hid'
    have hlens : partLens f'' nv.dims = partLens f nv.dims := by
      unfold partLens
      rw [hp.record]
      congr 1
      apply List.map_congr_left
      intro i _
      split
      · rfl
      · rename_i hi
        rw [hsame i hi]
    have hb := sliceBounds_ok (nv := { nv with cells := g }) hf' hs' hnv' (by
      intro i hi
      rw [hp.record]
      exact hrec i hi) k
    have hgv := getVariable_ok hf' hs' hnv'
    have hfv := fileVar_ok hf' hid'
    simp only at hgv hfv hb
    simp only [readSlice, hgv, Res.ok_bind]
    simp only [cdmVar] at hb ⊢
    simp only [hfv, Res.ok_bind, hb, ncGetValues, hty, if_false]
    have := hp.get hid
    rw [hp.record, hlens]
    rw [this]
    rfl
  · intro idx hidx
    apply hother
    intro j hj
    rw [List.reverse_reverse] at hj
    have := hidx j hj
    have hin' : InShape (nv.dims.map fun i => if recordDim f = some i then 1 else ((f.dims[i]?).map (·.len)).getD 0) j.reverse := by
      have := inShape_reverse hj
      simpa [partLens] using this
    rw [place_slice hin']
    rw [partPlace] at this
    rw [zipWith_reverse_swap]
    · exact this
    · have := hj.length_eq
      simpa [partLens] using this.symm

/-- C92: the same for regions. -/
theorem C92_put_region_partial {L : Lib A} {O : Ops A F U} (hO : KeepsNumber O) {mem : FromMemory A} {f f' : NcFile A}
    {c c' : Ds A} (hf : ValidFile f) (hs : Serves f c) {nv : NcVar A} {id : Nat} (hid : f.vars[id]? = some nv)
    (hty : nv.ty ≠ .nat) {start size : List Nat} {d : Data A} (hne : d.vals ≠ [])
    (h : putRegion L O c f nv.name start size (some d) = .ok (c', f')) :
    c' = c ∧ ValidFile f' ∧ Serves f' c ∧ ∃ vals g, O.asType (ncType2cdmDataType nv.ty) d = .ok vals ∧
      readRegion mem c f' nv.name start size = .ok ⟨ncType2cdmDataType nv.ty, vals⟩ ∧
      f'.vars = f.vars.set id { nv with cells := g } ∧
      (∀ idx, (∀ j, InShape size j → idx ≠ (addIdx start j).reverse) → g idx = nv.cells idx) := by
  have hnv := List.mem_of_getElem? hid
  have hc : ({ c with vars := dropMem nv.name c.vars } : Ds A) = c := by
    rw [dropMem_serves hs]
  simp only [putRegion, getVariable_ok hf hs hnv, Res.ok_bind, hc] at h
  rw [if_neg (by simpa using hne)] at h
  simp only [fileVar_ok hf hid, Res.ok_bind] at h
  by_cases hreq : start.length ≠ nv.dims.length ∨ size.length ≠ nv.dims.length ∨ nv.dims = []
  · simp only [requestBounds, hreq, if_true, Res.ub_bind] at h
    cases h
  simp only [requestBounds, hreq, if_false, Res.ok_bind] at h
  obtain ⟨f'', h1, h2⟩ := Res.bind_eq_ok.1 h
  injection h2 with h2
  injection h2 with h2 h3
  subst h2 h3
  obtain ⟨vals, hv, hp⟩ := putValues_ok hO hid hty hne h1
  have hf' := hp.valid hid hf
  have hs' := hp.serves hid hs
  obtain ⟨g, hg, hput, hother⟩ := hp.vars
  refine ⟨rfl, hf', hs', vals, g, hv, ?_, hg, ?_⟩
  · have hid' : f''.vars[id]? = some { nv with cells := g } := by
      rw [hg, List.getElem?_set_self (List.getElem?_eq_some_iff.1 hid).1]
    have hnv' := List.mem_of_getElem? hid'
    have hgv := getVariable_ok hf' hs' hnv'
    have hfv := fileVar_ok hf' hid'
    simp only at hgv hfv
    simp only [readRegion, hgv, Res.ok_bind]
    simp only [cdmVar, hfv, Res.ok_bind, requestBounds, hreq, if_false, ncGetValues, hty]
    rw [hp.get hid]
    rfl
  · intro idx hidx
    apply hother
    intro j hj
    rw [List.reverse_reverse] at hj
    have := hidx j hj
    push Not at hreq
    rw [addIdx, List.reverse_zipWith (by rw [hreq.1, ← hreq.2.1, hj.length_eq])] at this
    exact this

end Fimex.Netcdf
