import Verif.Netcdf.Writer
import Verif.Netcdf.ChunkProps
import Verif.Cdm.Invariant
import Mathlib.Data.List.Forall2
import Mathlib.Tactic.Common

/-!
# What `define` puts into the file
-/

namespace Fimex.Netcdf

open Fimex.Cdm
open Fimex.Tables (DataType)

variable {A F U : Type}

/-! ## Specification -/

/-- A dimension of the file. -/
def fileDim (w : Writer A) (d : Dim) : NcDim := ⟨written w.dimNames d.name, definedLength d, d.unlimited⟩

/-- The ids of a variable of the file name the dimensions of the shape, in reverse order. -/
def DimIds (c : Ds A) (shape : List String) (ids : List Nat) : Prop :=
  List.Forall₂ (fun n i => ∃ d, c.dims[i]? = some d ∧ d.name = n) shape ids.reverse

/-- The attributes of the file are those of the dataset, in the same order. -/
def AttsOf (O : Ops A F U) (format : Format) (as : List (Attr (Data A))) (ns : List (NcAtt A)) : Prop :=
  List.Forall₂ (fun a n => attToNc O format a = .ok n) as ns

/-- A variable of the file. -/
structure IsVar (L : Lib A) (w : Writer A) (k : Nat) (v : Var (Payload A)) (nv : NcVar A) : Prop where
  name : nv.name = written w.varNames v.name
  ty : nv.ty = cdmDataType2ncType (definedType w v)
  typed : nv.ty ≠ .nat
  dims : DimIds w.cdm v.shape nv.dims
  cells : nv.cells = L.blank k

/-- The file after `define`. -/
structure Defined (L : Lib A) (O : Ops A F U) (w : Writer A) (format : Format) (f : NcFile A) (ids : Map Nat) :
    Prop where
  fmt : f.format = format
  dims : f.dims = w.cdm.dims.map (fileDim w)
  dimNames : (f.dims.map (·.name)).Nodup
  oneUnlimited : format ≠ .netcdf4 → (f.dims.filter (·.unlimited)).length ≤ 1
  len : f.vars.length = w.cdm.vars.length
  varNames : (f.vars.map (·.name)).Nodup
  vars : ∀ i v, w.cdm.vars[i]? = some v → ids v.name = some i ∧
    ∃ nv, f.vars[i]? = some nv ∧ IsVar L w i v nv ∧ AttsOf O format (getAttributes w.cdm v.name) nv.atts
  gatts : AttsOf O format (getAttributes w.cdm globalNS) f.gatts

/-! ## Dimensions -/

theorem throughInt_small {n : Nat} (h : n < 2 ^ 31) : throughInt n = n := by
  unfold throughInt
  rw [Nat.mod_eq_of_lt (by omega), if_pos h]

theorem definedLength_zero (d : Dim) : definedLength d = 0 ↔ d.unlimited = true := by
  unfold definedLength
  cases d.unlimited
  · simp only [Bool.false_eq_true, if_false, iff_false]
    split <;> omega
  · simp

theorem ncDefDim_ok {L : Lib A} {f f' : NcFile A} {n : String} {len id : Nat}
    (h : ncDefDim L f n len = .ok (f', id)) :
    f' = { f with dims := f.dims ++ [⟨n, len, len == 0⟩] } ∧ id = f.dims.length ∧ n ∉ f.dims.map (·.name) ∧
      (len = 0 → f.format ≠ .netcdf4 → f.dims.any (·.unlimited) = false) := by
  unfold ncDefDim at h
  split at h
  · cases h
  · split at h
    · cases h
    · rename_i hn
      split at h
      · cases h
      · rename_i hu
        injection h with h
        injection h with h1 h2
        refine ⟨h1.symm, h2.symm, ?_, ?_⟩
        · intro hmem
          obtain ⟨d, hd, hdn⟩ := List.mem_map.1 hmem
          exact hn (List.any_eq_true.2 ⟨d, hd, by simpa using hdn⟩)
        · intro h0 hf
          by_contra hc
          exact hu ⟨h0, hf, by simpa using hc⟩

theorem defineDimensions_ok {L : Lib A} {w : Writer A} : ∀ {l : List Dim} {f f' : NcFile A} {ids ids' : Map Nat},
    (l.map (·.name)).Nodup → defineDimensions L w f ids l = .ok (f', ids') →
    f' = { f with dims := f.dims ++ l.map (fileDim w) } ∧
      ((f.dims.map (·.name)).Nodup → (f'.dims.map (·.name)).Nodup) ∧
      (f.format ≠ .netcdf4 → (f.dims.filter (·.unlimited)).length ≤ 1 →
        (f'.dims.filter (·.unlimited)).length ≤ 1) ∧
      (∀ n, n ∉ l.map (·.name) → ids' n = ids n) ∧
      (∀ i d, l[i]? = some d → ids' d.name = some (f.dims.length + i))
  | [], f, f', ids, ids', _, h => by
    simp only [defineDimensions] at h
    injection h with h
    injection h with h1 h2
    subst h1; subst h2
    simp
  | d :: l, f, f', ids, ids', hnd, h => by
    simp only [defineDimensions] at h
    obtain ⟨⟨g, id⟩, h1, h⟩ := Res.bind_eq_ok.1 h
    obtain ⟨hg, hid, hnew, hun⟩ := ncDefDim_ok h1
    simp only [List.map_cons, List.nodup_cons] at hnd
    obtain ⟨e1, e2, e3, e4, e5⟩ := defineDimensions_ok hnd.2 h
    have hu : (definedLength d == 0) = d.unlimited := by
      have := definedLength_zero d
      cases hd : d.unlimited <;> simp_all
    have hgd : g.dims = f.dims ++ [fileDim w d] := by rw [hg]; simp [fileDim, hu]
    have hgf : g.format = f.format := by rw [hg]
    refine ⟨?_, ?_, ?_, ?_, ?_⟩
    · rw [e1, hg]
      simp [fileDim, hu]
    · intro hf
      apply e2
      rw [hgd]
      simp only [List.map_append, List.map_cons, List.map_nil, List.nodup_append, hf, List.nodup_cons,
        List.not_mem_nil, not_false_eq_true, List.nodup_nil, and_self, List.mem_cons, or_false, true_and]
      rintro a ha b rfl rfl
      exact hnew (by simpa [fileDim] using ha)
    · intro hfmt h1f
      apply e3 (by rw [hgf]; exact hfmt)
      rw [hgd, List.filter_append, List.length_append]
      by_cases hdu : d.unlimited = true
      · have hz := (definedLength_zero d).2 hdu
        have hnone := hun hz hfmt
        have : f.dims.filter (·.unlimited) = [] := by
          rw [List.filter_eq_nil_iff]
          intro e he heu
          rw [List.any_eq_false] at hnone
          exact hnone e he heu
        rw [this]
        simp only [List.length_nil, Nat.zero_add]
        exact List.length_filter_le _ _
      · have : [fileDim w d].filter (·.unlimited) = [] := by simp [fileDim, hdu]
        rw [this]
        simpa using h1f
    · intro n hn
      simp only [List.map_cons, List.mem_cons, not_or] at hn
      rw [e4 n hn.2]
      simp [Map.put, hn.1]
    · intro i e he
      cases i with
      | zero =>
        simp only [List.getElem?_cons_zero, Option.some.injEq] at he
        subst he
        rw [e4 _ hnd.1, hid]
        simp [Map.put]
      | succ i =>
        simp only [List.getElem?_cons_succ] at he
        rw [e5 i e he, hgd]
        simp only [List.length_append, List.length_cons, List.length_nil]
        congr 1
        omega

theorem idsOf_ok {c : Ds A} {ids : Map Nat} (hids : ∀ n i, ids n = some i → ∃ d, c.dims[i]? = some d ∧ d.name = n) :
    ∀ {shape : List String} {l : List Nat}, idsOf ids shape = .ok l → DimIds c shape l
  | [], l, h => by
    simp only [idsOf] at h
    injection h with h
    subst h
    exact .nil
  | n :: shape, l, h => by
    simp only [idsOf] at h
    obtain ⟨rest, h1, h⟩ := Res.bind_eq_ok.1 h
    cases hi : ids n with
    | none => rw [hi] at h; cases h
    | some i =>
      rw [hi] at h
      injection h with h
      subst h
      unfold DimIds
      rw [List.reverse_append]
      exact .cons (hids n i hi) (idsOf_ok hids h1)

/-! ## Variables -/

theorem ncDefVar_ok {L : Lib A} {f f' : NcFile A} {n : String} {ty : NcType} {dims : List Nat} {id : Nat}
    (h : ncDefVar L f n ty dims = .ok (f', id)) :
    f' = { f with vars := f.vars ++ [⟨n, ty, dims, [], none, none, L.blank f.vars.length⟩] } ∧
      id = f.vars.length ∧ n ∉ f.vars.map (·.name) ∧ ty ≠ .nat := by
  unfold ncDefVar at h
  split at h
  · cases h
  · split at h
    · cases h
    · rename_i hn
      split at h
      · cases h
      · rename_i ht
        split at h
        · cases h
        · injection h with h
          injection h with h1 h2
          refine ⟨h1.symm, h2.symm, ?_, ?_⟩
          · intro hmem
            obtain ⟨d, hd, hdn⟩ := List.mem_map.1 hmem
            exact hn (List.any_eq_true.2 ⟨d, hd, by simpa using hdn⟩)
          · intro h0
            exact ht (Or.inl h0)

theorem ncDefChunking_ok {L : Lib A} {f f' : NcFile A} {id : Nat} {ks : List Nat} {nv : NcVar A}
    (hv : f.vars[id]? = some nv) (h : ncDefChunking L f id ks = .ok f') :
    f' = { f with vars := f.vars.set id { nv with chunks := some ks } } := by
  unfold ncDefChunking at h
  rw [hv] at h
  split at h
  · cases h
  · simp only at h
    split at h
    · cases h
    · injection h with h
      exact h.symm

theorem ncDefDeflate_ok {L : Lib A} {f f' : NcFile A} {id : Nat} {s : Bool} {k : Nat} {nv : NcVar A}
    (hv : f.vars[id]? = some nv) (h : ncDefDeflate L f id s k = .ok f') :
    f' = { f with vars := f.vars.set id { nv with deflate := some (s, k) } } := by
  unfold ncDefDeflate at h
  rw [hv] at h
  split at h
  · cases h
  · split at h
    · cases h
    · injection h with h
      exact h.symm

theorem set_self {α : Type} : ∀ (l : List α) (i : Nat) (a : α), l[i]? = some a → l.set i a = l
  | [], _, _, h => by simp at h
  | b :: l, 0, a, h => by simp at h; simp [h]
  | b :: l, i + 1, a, h => by
    simp only [List.getElem?_cons_succ] at h
    simp only [List.set_cons_succ]
    rw [set_self l i a h]

theorem compress_ok {L : Lib A} {w : Writer A} {f f' : NcFile A} {v : Var (Payload A)} {id : Nat} {nv : NcVar A}
    (hv : f.vars[id]? = some nv) (h : compress L w f v id = .ok f') :
    ∃ ch de, f' = { f with vars := f.vars.set id { nv with chunks := ch, deflate := de } } := by
  have hself : ∃ ch de, f = { f with vars := f.vars.set id { nv with chunks := ch, deflate := de } } := by
    refine ⟨nv.chunks, nv.deflate, ?_⟩
    have : ({ nv with chunks := nv.chunks, deflate := nv.deflate } : NcVar A) = nv := rfl
    rw [this, set_self _ _ _ hv]
  unfold compress at h
  split at h
  · simp only at h
    split at h
    · obtain ⟨⟨total, ks⟩, h1, h⟩ := Res.bind_eq_ok.1 h
      simp only at h
      split at h
      · obtain ⟨g, h2, h⟩ := Res.bind_eq_ok.1 h
        have hg := ncDefChunking_ok hv h2
        have hgv : g.vars[id]? = some { nv with chunks := some ks.reverse } := by
          rw [hg]
          have : id < f.vars.length := by
            by_contra hc
            rw [List.getElem?_eq_none (by omega)] at hv
            cases hv
          simp [this]
        refine ⟨some ks.reverse, some ((compressionOf w v.name).2, (compressionOf w v.name).1), ?_⟩
        rw [ncDefDeflate_ok hgv h, hg]
        simp
      · exact ⟨nv.chunks, _, ncDefDeflate_ok hv h⟩
    · injection h with h
      subst h
      exact hself
  · injection h with h
    subst h
    exact hself

theorem defineVariables_ok {L : Lib A} {w : Writer A} {dimIds : Map Nat}
    (hids : ∀ n i, dimIds n = some i → ∃ d, w.cdm.dims[i]? = some d ∧ d.name = n) :
    ∀ {l : List (Var (Payload A))} {f f' : NcFile A} {ids ids' : Map Nat},
    (l.map (·.name)).Nodup → defineVariables L w dimIds f ids l = .ok (f', ids') →
    ∃ new, f' = { f with vars := f.vars ++ new } ∧ new.length = l.length ∧
      ((f.vars.map (·.name)).Nodup → (f'.vars.map (·.name)).Nodup) ∧
      (∀ n, n ∉ l.map (·.name) → ids' n = ids n) ∧
      (∀ i v, l[i]? = some v → ids' v.name = some (f.vars.length + i) ∧
        ∃ nv, new[i]? = some nv ∧ IsVar L w (f.vars.length + i) v nv ∧ nv.atts = [])
  | [], f, f', ids, ids', _, h => by
    simp only [defineVariables] at h
    injection h with h
    injection h with h1 h2
    subst h1; subst h2
    exact ⟨[], by simp, rfl, fun h => h, fun _ _ => rfl, fun i v hv => by simp at hv⟩
  | v :: l, f, f', ids, ids', hnd, h => by
    simp only [defineVariables] at h
    obtain ⟨dims, h0, h⟩ := Res.bind_eq_ok.1 h
    obtain ⟨⟨g, id⟩, h1, h⟩ := Res.bind_eq_ok.1 h
    obtain ⟨k, h2, h⟩ := Res.bind_eq_ok.1 h
    obtain ⟨hg, hid, hnew, hty⟩ := ncDefVar_ok h1
    have hgv : g.vars[id]? = some ⟨written w.varNames v.name, cdmDataType2ncType (definedType w v), dims, [], none,
        none, L.blank f.vars.length⟩ := by
      rw [hg, hid]
      simp
    obtain ⟨ch, de, hk⟩ := compress_ok hgv h2
    have hkv : k = { f with vars := f.vars ++ [⟨written w.varNames v.name, cdmDataType2ncType (definedType w v), dims, [],
        ch, de, L.blank f.vars.length⟩] } := by
      rw [hk, hg, hid]
      simp
    simp only [List.map_cons, List.nodup_cons] at hnd
    obtain ⟨new, e1, e2, e3, e4, e5⟩ := defineVariables_ok hids hnd.2 h
    refine ⟨⟨written w.varNames v.name, cdmDataType2ncType (definedType w v), dims, [], ch, de,
      L.blank f.vars.length⟩ :: new, ?_, by simp [e2], ?_, ?_, ?_⟩
    · rw [e1, hkv]
      simp
    · intro hf
      apply e3
      rw [hkv]
      simp only [List.map_append, List.map_cons, List.map_nil, List.nodup_append, hf, List.nodup_cons,
        List.not_mem_nil, not_false_eq_true, List.nodup_nil, and_self, List.mem_cons, or_false, true_and]
      rintro a ha b rfl rfl
      exact hnew ha
    · intro n hn
      simp only [List.map_cons, List.mem_cons, not_or] at hn
      rw [e4 n hn.2]
      simp [Map.put, hn.1]
    · intro i u hu
      cases i with
      | zero =>
        simp only [List.getElem?_cons_zero, Option.some.injEq] at hu
        subst hu
        refine ⟨?_, _, rfl, ⟨rfl, rfl, hty, idsOf_ok hids h0, rfl⟩, rfl⟩
        rw [e4 _ hnd.1, hid]
        simp [Map.put]
      | succ i =>
        simp only [List.getElem?_cons_succ] at hu
        obtain ⟨a1, nv, a2, a3, a4⟩ := e5 i u hu
        have hl : k.vars.length + i = f.vars.length + (i + 1) := by
          rw [hkv]
          simp only [List.length_append, List.length_cons, List.length_nil]
          omega
        rw [hl] at a1 a3
        exact ⟨a1, nv, by simpa using a2, a3, a4⟩

/-! ## Attributes -/

theorem attToNc_name {O : Ops A F U} {fm : Format} {a : Attr (Data A)} {n : NcAtt A} (h : attToNc O fm a = .ok n) :
    n.name = a.name := by
  unfold attToNc at h
  split at h
  · injection h with h; subst h; rfl
  · split at h
    · injection h with h; subst h; rfl
    · split at h
      · obtain ⟨t, _, h⟩ := Res.bind_eq_ok.1 h
        injection h with h; subst h; rfl
      · cases h
  · cases h
  · injection h with h; subst h; rfl

theorem setAtt_new {l : List (NcAtt A)} {a : NcAtt A} (h : a.name ∉ l.map (·.name)) : setAtt l a = l ++ [a] := by
  unfold setAtt
  rw [if_neg]
  intro hc
  obtain ⟨b, hb, hn⟩ := List.any_eq_true.1 hc
  exact h (List.mem_map.2 ⟨b, hb, by simpa using hn⟩)

/-- The file with the attributes of one owner replaced. -/
def withAtts (f : NcFile A) (id : Option Nat) (l : List (NcAtt A)) : NcFile A :=
  match id with
  | none => { f with gatts := l }
  | some i =>
    match f.vars[i]? with
    | some v => { f with vars := f.vars.set i { v with atts := l } }
    | none => f

/-- The attributes of one owner. -/
def attsAt (f : NcFile A) (id : Option Nat) : List (NcAtt A) :=
  match id with
  | none => f.gatts
  | some i =>
    match f.vars[i]? with
    | some v => v.atts
    | none => []

/-- The owner exists. -/
def ownerIn (f : NcFile A) (id : Option Nat) : Prop := ∀ i, id = some i → i < f.vars.length

theorem ncPutAtt_ok {L : Lib A} {f f' : NcFile A} {id : Option Nat} {a : NcAtt A} (h : ncPutAtt L f id a = .ok f') :
    f' = withAtts f id (setAtt (attsAt f id) a) := by
  unfold ncPutAtt at h
  split at h
  · cases h
  · split at h
    · cases h
    · cases id with
      | none => injection h with h; exact h.symm
      | some i =>
        simp only at h
        unfold withAtts attsAt
        simp only
        cases hv : f.vars[i]? with
        | none => rw [hv] at h; cases h
        | some v =>
          rw [hv] at h
          injection h with h
          rw [← h]

theorem attsAt_withAtts {f : NcFile A} {id : Option Nat} (ho : ownerIn f id) (l : List (NcAtt A)) :
    attsAt (withAtts f id l) id = l := by
  cases id with
  | none => rfl
  | some i =>
    have hi := ho i rfl
    unfold withAtts attsAt
    simp only [List.getElem?_eq_getElem hi]
    simp [hi]

theorem withAtts_withAtts (f : NcFile A) (id : Option Nat) (l m : List (NcAtt A)) :
    withAtts (withAtts f id l) id m = withAtts f id m := by
  cases id with
  | none => rfl
  | some i =>
    by_cases hi : i < f.vars.length
    · unfold withAtts
      simp only [List.getElem?_eq_getElem hi]
      simp [hi]
    · unfold withAtts
      simp only [List.getElem?_eq_none (Nat.not_lt.1 hi)]

theorem withAtts_self (f : NcFile A) (id : Option Nat) : withAtts f id (attsAt f id) = f := by
  cases id with
  | none => rfl
  | some i =>
    unfold withAtts attsAt
    simp only
    cases hv : f.vars[i]? with
    | none => rfl
    | some v =>
      simp only
      have : ({ v with atts := v.atts } : NcVar A) = v := rfl
      rw [this, set_self _ _ _ hv]

theorem withAtts_format (f : NcFile A) (id : Option Nat) (l : List (NcAtt A)) :
    (withAtts f id l).format = f.format ∧ (withAtts f id l).dims = f.dims ∧
      (withAtts f id l).vars.length = f.vars.length := by
  cases id with
  | none => exact ⟨rfl, rfl, rfl⟩
  | some i =>
    unfold withAtts
    simp only
    cases f.vars[i]? <;> simp

theorem writeAtts_ok {L : Lib A} {O : Ops A F U} {id : Option Nat} : ∀ {as : List (Attr (Data A))} {f f' : NcFile A},
    ownerIn f id → (as.map (·.name)).Nodup → (∀ a ∈ as, a.name ∉ (attsAt f id).map (·.name)) →
    writeAtts L O id f as = .ok f' →
    ∃ ns, AttsOf O f.format as ns ∧ f' = withAtts f id (attsAt f id ++ ns)
  | [], f, f', _, _, _, h => by
    simp only [writeAtts] at h
    injection h with h
    subst h
    exact ⟨[], .nil, by rw [List.append_nil, withAtts_self]⟩
  | a :: as, f, f', ho, hnd, hnew, h => by
    simp only [writeAtts] at h
    obtain ⟨n, h1, h⟩ := Res.bind_eq_ok.1 h
    obtain ⟨g, h2, h⟩ := Res.bind_eq_ok.1 h
    have hname := attToNc_name h1
    have hg := ncPutAtt_ok h2
    rw [setAtt_new (by rw [hname]; exact hnew a (by simp))] at hg
    simp only [List.map_cons, List.nodup_cons] at hnd
    have hga : attsAt g id = attsAt f id ++ [n] := by rw [hg, attsAt_withAtts ho]
    obtain ⟨hgf, hgd, hgl⟩ := withAtts_format f id (attsAt f id ++ [n])
    rw [← hg] at hgf hgd hgl
    obtain ⟨ns, e1, e2⟩ := writeAtts_ok (f := g) (f' := f') (fun i hi => by rw [hgl]; exact ho i hi) hnd.2 (by
      intro b hb
      rw [hga]
      simp only [List.map_append, List.map_cons, List.map_nil, List.mem_append, List.mem_cons, List.not_mem_nil, or_false,
        not_or]
      refine ⟨hnew b (by simp [hb]), ?_⟩
      rw [hname]
      intro hc
      exact hnd.1 (List.mem_map.2 ⟨b, hb, hc⟩)) h
    refine ⟨n :: ns, .cons h1 (by rw [← hgf]; exact e1), ?_⟩
    rw [e2, hga, hg, withAtts_withAtts]
    simp

theorem attsAt_withAtts_ne {f : NcFile A} {id id' : Option Nat} (h : id' ≠ id) (l : List (NcAtt A)) :
    attsAt (withAtts f id l) id' = attsAt f id' := by
  cases id with
  | none =>
    cases id' with
    | none => exact absurd rfl h
    | some j => rfl
  | some i =>
    cases hv : f.vars[i]? with
    | none => unfold withAtts; simp only [hv]
    | some v =>
      cases id' with
      | none => unfold withAtts; simp only [hv]; rfl
      | some j =>
        have hij : i ≠ j := fun hc => h (by rw [hc])
        unfold withAtts attsAt
        simp only [hv]
        simp [hij]

/-- Everything but the attributes is the same. -/
def SameButAtts (f g : NcFile A) : Prop :=
  g.format = f.format ∧ g.dims = f.dims ∧
    List.Forall₂ (fun v u : NcVar A => ∃ l, u = { v with atts := l }) f.vars g.vars

theorem SameButAtts.refl (f : NcFile A) : SameButAtts f f := by
  refine ⟨rfl, rfl, ?_⟩
  rw [List.forall₂_same]
  exact fun v _ => ⟨v.atts, rfl⟩

theorem SameButAtts.trans {f g h : NcFile A} (a : SameButAtts f g) (b : SameButAtts g h) : SameButAtts f h := by
  refine ⟨b.1.trans a.1, b.2.1.trans a.2.1, ?_⟩
  refine List.forall₂_iff_get.2 ⟨a.2.2.length_eq.trans b.2.2.length_eq, ?_⟩
  intro i h1 h2
  have ha := (List.forall₂_iff_get.1 a.2.2).2 i h1 (by rw [← a.2.2.length_eq]; exact h1)
  have hb := (List.forall₂_iff_get.1 b.2.2).2 i (by rw [← a.2.2.length_eq]; exact h1) h2
  obtain ⟨l, hl⟩ := ha
  obtain ⟨m, hm⟩ := hb
  exact ⟨m, by rw [hm, hl]⟩

theorem forall₂_set {α : Type} {R : α → α → Prop} (hr : ∀ a, R a a) : ∀ (l : List α) (i : Nat) (a b : α),
    l[i]? = some a → R a b → List.Forall₂ R l (l.set i b)
  | [], _, _, _, h, _ => by simp at h
  | x :: l, 0, a, b, h, hab => by
    simp only [List.getElem?_cons_zero, Option.some.injEq] at h
    subst h
    exact .cons hab (List.forall₂_same.2 fun y _ => hr y)
  | x :: l, i + 1, a, b, h, hab => by
    simp only [List.getElem?_cons_succ] at h
    exact .cons (hr x) (forall₂_set hr l i a b h hab)

theorem SameButAtts.withAtts (f : NcFile A) (id : Option Nat) (l : List (NcAtt A)) : SameButAtts f (withAtts f id l) := by
  cases id with
  | none =>
    refine ⟨rfl, rfl, ?_⟩
    exact List.forall₂_same.2 fun v _ => ⟨v.atts, rfl⟩
  | some i =>
    unfold Netcdf.withAtts
    simp only
    cases hv : f.vars[i]? with
    | none => exact .refl f
    | some v =>
      exact ⟨rfl, rfl, forall₂_set (fun a => ⟨a.atts, rfl⟩) _ _ _ _ hv ⟨l, rfl⟩⟩

theorem writeAttributes_ok {L : Lib A} {O : Ops A F U} {c : Ds A} (hinv : Inv c) {ids : Map Nat}
    (hinj : ∀ m n i, ids m = some i → ids n = some i → m = n) :
    ∀ {keys : List String} {f f' : NcFile A}, keys.Nodup →
    (∀ n i, ids n = some i → i < f.vars.length) →
    (∀ n ∈ keys, ∀ id, attOwner ids n = .ok id → attsAt f id = []) →
    writeAttributes L O c ids f keys = .ok f' →
    SameButAtts f f' ∧
      (∀ n ∈ keys, ∃ id, attOwner ids n = .ok id ∧ AttsOf O f.format (getAttributes c n) (attsAt f' id)) ∧
      (∀ n id, n ∉ keys → attOwner ids n = .ok id → attsAt f' id = attsAt f id)
  | [], f, f', _, _, _, h => by
    simp only [writeAttributes] at h
    injection h with h
    subst h
    exact ⟨.refl f, by simp, fun _ _ _ _ => rfl⟩
  | n :: keys, f, f', hnd, hlt, hemp, h => by
    simp only [writeAttributes] at h
    obtain ⟨id, h1, h⟩ := Res.bind_eq_ok.1 h
    obtain ⟨g, h2, h⟩ := Res.bind_eq_ok.1 h
    have howner : ∀ {m : String} {j : Option Nat}, attOwner ids m = .ok j →
        (m = globalNS ∧ j = none) ∨ (m ≠ globalNS ∧ ∃ i, j = some i ∧ ids m = some i) := by
      intro m j hm
      unfold attOwner at hm
      split at hm
      · rename_i hg
        injection hm with hm
        exact Or.inl ⟨hg, hm.symm⟩
      · rename_i hg
        cases hi : ids m with
        | none => rw [hi] at hm; cases hm
        | some i =>
          rw [hi] at hm
          injection hm with hm
          exact Or.inr ⟨hg, i, hm.symm, rfl⟩
    have hne : ∀ {m : String} {j : Option Nat}, attOwner ids m = .ok j → m ≠ n → j ≠ id := by
      intro m j hm hmn hc
      subst hc
      rcases howner hm with ⟨a, b⟩ | ⟨a, i, b, b'⟩ <;> rcases howner h1 with ⟨a', b2⟩ | ⟨a', i', b2, b2'⟩
      · exact hmn (a.trans a'.symm)
      · rw [b] at b2; cases b2
      · rw [b] at b2; cases b2
      · rw [b] at b2
        injection b2 with b2
        subst b2
        exact hmn (hinj m n i b' b2')
    have ho : ownerIn f id := by
      intro i hi
      rcases howner h1 with ⟨_, b⟩ | ⟨_, i', b, b'⟩
      · rw [b] at hi; cases hi
      · rw [b] at hi
        injection hi with hi
        subst hi
        exact hlt n _ b'
    have hnames : ((getAttributes c n).map (·.name)).Nodup := nodup_getAttributes c hinv n
    have hempty := hemp n (by simp) id h1
    obtain ⟨ns, e1, e2⟩ := writeAtts_ok ho hnames (by intro a _; rw [hempty]; simp) h2
    rw [hempty, List.nil_append] at e2
    have hs : SameButAtts f g := by rw [e2]; exact SameButAtts.withAtts f id ns
    have hgl : g.vars.length = f.vars.length := hs.2.2.length_eq.symm
    simp only [List.nodup_cons] at hnd
    obtain ⟨k1, k2, k3⟩ := writeAttributes_ok hinv hinj hnd.2 (by rw [hgl]; exact hlt)
      (by
        intro m hm j hj
        have hmn : m ≠ n := by rintro rfl; exact hnd.1 hm
        rw [e2, attsAt_withAtts_ne (hne hj hmn)]
        exact hemp m (by simp [hm]) j hj) h
    refine ⟨hs.trans k1, ?_, ?_⟩
    · intro m hm
      rcases List.mem_cons.1 hm with rfl | hm
      · refine ⟨id, h1, ?_⟩
        rw [k3 m id hnd.1 h1, e2, attsAt_withAtts ho]
        exact e1
      · obtain ⟨j, hj, hjj⟩ := k2 m hm
        exact ⟨j, hj, by rw [← hs.1]; exact hjj⟩
    · intro m j hm hj
      simp only [List.mem_cons, not_or] at hm
      rw [k3 m j hm.2 hj, e2, attsAt_withAtts_ne (hne hj hm.1)]

/-! ## All together -/

/-- The keys of the map of attributes, in some order. -/
def KeysOf (c : Ds A) (keys : List String) : Prop := keys.Nodup ∧ ∀ n, n ∈ keys ↔ c.attrs n ≠ none

theorem define_ok {L : Lib A} {O : Ops A F U} {w : Writer A} {keys : List String} {fm : Format} {f : NcFile A}
    {ids : Map Nat} (hinv : Inv w.cdm) (hkeys : KeysOf w.cdm keys) (hglob : hasVariable w.cdm globalNS = false)
    (h : define L O w keys fm = .ok (f, ids)) : Defined L O w fm f ids := by
  unfold define at h
  obtain ⟨⟨f1, dimIds⟩, h1, h⟩ := Res.bind_eq_ok.1 h
  obtain ⟨⟨f2, ids2⟩, h2, h⟩ := Res.bind_eq_ok.1 h
  obtain ⟨f3, h3, h⟩ := Res.bind_eq_ok.1 h
  split at h
  · cases h
  injection h with h
  injection h with h4 h5
  subst h4; subst h5
  obtain ⟨a1, a2, a3, a4, a5⟩ := defineDimensions_ok hinv.dims h1
  have hids : ∀ n i, dimIds n = some i → ∃ d, w.cdm.dims[i]? = some d ∧ d.name = n := by
    intro n i hn
    by_cases hm : n ∈ w.cdm.dims.map (·.name)
    · obtain ⟨d, hd, rfl⟩ := List.mem_map.1 hm
      obtain ⟨j, hj⟩ := List.getElem?_of_mem hd
      have := a5 j d hj
      rw [this] at hn
      injection hn with hn
      simp only [List.length_nil, Nat.zero_add] at hn
      subst hn
      exact ⟨d, hj, rfl⟩
    · rw [a4 n hm] at hn
      cases hn
  obtain ⟨new, b1, b2, b3, b4, b5⟩ := defineVariables_ok hids hinv.vars h2
  have hf1v : f1.vars = [] := by rw [a1]
  have hf1d : f1.dims = w.cdm.dims.map (fileDim w) := by rw [a1]; simp
  have hf2v : f2.vars = new := by rw [b1]; simp [hf1v]
  have hf2d : f2.dims = f1.dims := by rw [b1]
  have hf2f : f2.format = fm := by rw [b1]; simp [a1]
  have hf2g : f2.gatts = [] := by rw [b1]; simp [a1]
  have hf1l : f1.vars.length = 0 := by rw [hf1v]; rfl
  have hidx : ∀ n i, ids2 n = some i → ∃ v, w.cdm.vars[i]? = some v ∧ v.name = n := by
    intro n i hn
    by_cases hm : n ∈ w.cdm.vars.map (·.name)
    · obtain ⟨v, hv, rfl⟩ := List.mem_map.1 hm
      obtain ⟨j, hj⟩ := List.getElem?_of_mem hv
      have := (b5 j v hj).1
      rw [this, hf1l, Nat.zero_add] at hn
      injection hn with hn
      subst hn
      exact ⟨v, hj, rfl⟩
    · rw [b4 n hm] at hn
      cases hn
  have hinj : ∀ m n i, ids2 m = some i → ids2 n = some i → m = n := by
    intro m n i hm hn
    obtain ⟨v, hv, rfl⟩ := hidx m i hm
    obtain ⟨u, hu, rfl⟩ := hidx n i hn
    rw [hv] at hu
    injection hu with hu
    rw [hu]
  have hlt : ∀ n i, ids2 n = some i → i < f2.vars.length := by
    intro n i hn
    obtain ⟨v, hv, _⟩ := hidx n i hn
    rw [hf2v, b2]
    by_contra hc
    rw [List.getElem?_eq_none (by omega)] at hv
    cases hv
  have hemp : ∀ n ∈ keys, ∀ id, attOwner ids2 n = .ok id → attsAt f2 id = [] := by
    intro n _ id hid
    cases id with
    | none => exact hf2g
    | some i =>
      have hi : ids2 n = some i := by
        unfold attOwner at hid
        split at hid
        · cases hid
        · cases hi : ids2 n with
          | none => rw [hi] at hid; cases hid
          | some j => rw [hi] at hid; injection hid with hid
      obtain ⟨v, hv, rfl⟩ := hidx n i hi
      obtain ⟨_, nv, hnv, _, hatts⟩ := b5 i v hv
      unfold attsAt
      simp only [hf2v, hnv, hatts]
  obtain ⟨c1, c2, c3⟩ := writeAttributes_ok hinv hinj hkeys.1 hlt hemp h3
  have hattsNone : ∀ n, n ∉ keys → getAttributes w.cdm n = [] := by
    intro n hn
    have : w.cdm.attrs n = none := by
      by_contra hc
      exact hn ((hkeys.2 n).2 hc)
    simp [getAttributes, this]
  refine ⟨c1.1.trans hf2f, ?_, ?_, ?_, ?_, ?_, ?_, ?_⟩
  · rw [c1.2.1, hf2d, hf1d]
  · rw [c1.2.1, hf2d]
    exact a2 (by simp)
  · intro hfm
    rw [c1.2.1, hf2d]
    exact a3 hfm (by simp)
  · rw [← c1.2.2.length_eq, hf2v, b2]
  · have : f3.vars.map (·.name) = f2.vars.map (·.name) := by
      apply List.ext_getElem?
      intro i
      simp only [List.getElem?_map]
      by_cases hi : i < f2.vars.length
      · have hi3 : i < f3.vars.length := by rw [← c1.2.2.length_eq]; exact hi
        obtain ⟨l, hl⟩ := (List.forall₂_iff_get.1 c1.2.2).2 i hi hi3
        rw [List.getElem?_eq_getElem hi, List.getElem?_eq_getElem hi3]
        simp only [List.get_eq_getElem] at hl
        rw [hl]
        rfl
      · have hl := c1.2.2.length_eq
        rw [List.getElem?_eq_none (by omega), List.getElem?_eq_none (by omega)]
    rw [this]
    exact b3 (by simp [hf1v])
  · intro i v hv
    obtain ⟨d1, nv, d2, d3, d4⟩ := b5 i v hv
    rw [hf1l, Nat.zero_add] at d1 d3
    refine ⟨d1, ?_⟩
    have hi := hlt _ _ d1
    have hi3 : i < f3.vars.length := by rw [← c1.2.2.length_eq]; exact hi
    obtain ⟨l, hl⟩ := (List.forall₂_iff_get.1 c1.2.2).2 i hi hi3
    simp only [List.get_eq_getElem] at hl
    have hnv : f2.vars[i] = nv := by
      have h2i : f2.vars[i]? = some nv := by rw [hf2v]; exact d2
      rw [List.getElem?_eq_getElem hi] at h2i
      injection h2i
    rw [hnv] at hl
    refine ⟨f3.vars[i], List.getElem?_eq_getElem hi3, ?_, ?_⟩
    · rw [hl]
      exact ⟨d3.name, d3.ty, d3.typed, d3.dims, d3.cells⟩
    · have hvn : v.name ≠ globalNS := by
        intro hc
        have : hasVariable w.cdm globalNS = true := by
          rw [hasVariable_iff, ← hc]
          exact List.mem_map.2 ⟨v, List.mem_of_getElem? hv, rfl⟩
        rw [this] at hglob
        cases hglob
      have how : attOwner ids2 v.name = .ok (some i) := by
        unfold attOwner
        rw [if_neg hvn, d1]
      have hat : attsAt f3 (some i) = f3.vars[i].atts := by
        unfold attsAt
        simp only [List.getElem?_eq_getElem hi3]
      by_cases hk : v.name ∈ keys
      · obtain ⟨id, e1, e2⟩ := c2 v.name hk
        rw [how] at e1
        injection e1 with e1
        subst e1
        rw [hat, hf2f] at e2
        exact e2
      · have := c3 v.name (some i) hk how
        rw [hat] at this
        have h2a : attsAt f2 (some i) = [] := by
          unfold attsAt
          simp only [hf2v, d2, d4]
        rw [this, h2a, hattsNone _ hk]
        exact .nil
  · have how : attOwner ids2 globalNS = .ok none := by unfold attOwner; rw [if_pos rfl]
    by_cases hk : globalNS ∈ keys
    · obtain ⟨id, e1, e2⟩ := c2 globalNS hk
      rw [how] at e1
      injection e1 with e1
      subst e1
      rw [hf2f] at e2
      exact e2
    · have := c3 globalNS none hk how
      have h3g : f3.gatts = [] := by
        have h0 : attsAt f3 none = f3.gatts := rfl
        rw [← h0, this]
        exact hf2g
      rw [h3g, hattsNone _ hk]
      exact .nil

end Fimex.Netcdf
