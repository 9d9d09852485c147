import Verif.Netcdf.DataLemmas

/-!
# The data the netCDF writer writes (C91)
-/

namespace Fimex.Netcdf

open Fimex.Cdm
open Fimex.Tables (DataType)

variable {A F U : Type}

/-! ## Specification -/

/-- The place of cell `j` of the part at position `p`, in the order of the dataset. -/
def placeAt (p : Option Nat) (ds : List Dim) (j : List Nat) : List Nat :=
  List.zipWith (fun d k => if d.unlimited then p.getD 0 else k) ds j

/-- The variable in the file holds the values supplied for its parts, each at its place, and is as the
library made it elsewhere.  The index of the file is in reverse order. -/
def Holds (L : Lib A) (c : Ds A) (s : Option Nat → Var (Payload A) → Option (List A)) (i : Nat) (v : Var (Payload A))
    (ds : List Dim) (content : List Nat → A) : Prop :=
  (∀ p vals, p ∈ positions c → Due c p v → s p v = some vals → ∀ j, InShape (ds.map cellsAlong) j →
    vals[pos (ds.map cellsAlong) j]? = some (content (placeAt p ds j).reverse)) ∧
  (∀ idx, (∀ p, p ∈ positions c → Due c p v → s p v ≠ none → ∀ j, InShape (ds.map cellsAlong) j →
    idx ≠ (placeAt p ds j).reverse) → content idx = L.blank i idx)

/-- `n` records: the last one is the last position something is supplied for. -/
def Records (c : Ds A) (s : Option Nat → Var (Payload A) → Option (List A)) (n : Nat) : Prop :=
  (∀ p v, some p ∈ positions c → v ∈ c.vars → hasUnlimitedDim c v = true → s (some p) v ≠ none → p < n) ∧
  (n = 0 ∨ ∃ p v, some p ∈ positions c ∧ v ∈ c.vars ∧ hasUnlimitedDim c v = true ∧ s (some p) v ≠ none ∧ n = p + 1)

/-- The complete file. -/
structure Complete (L : Lib A) (O : Ops A F U) (w : Writer A) (s : Option Nat → Var (Payload A) → Option (List A))
    (fm : Format) (f : NcFile A) : Prop where
  fmt : f.format = fm
  dims : ∃ n, Records w.cdm s n ∧ f.dims = w.cdm.dims.map fun d =>
    ⟨written w.dimNames d.name, if d.unlimited then n else max 1 d.length, d.unlimited⟩
  dimNames : (f.dims.map (·.name)).Nodup
  len : f.vars.length = w.cdm.vars.length
  varNames : (f.vars.map (·.name)).Nodup
  vars : ∀ (i : Nat) (v : Var (Payload A)) (ds : List Dim), w.cdm.vars[i]? = some v → DimsOf w.cdm v.shape ds →
    ∃ nv : NcVar A, f.vars[i]? = some nv ∧
    nv.name = written w.varNames v.name ∧ nv.ty = cdmDataType2ncType (definedType w v) ∧ nv.ty ≠ .nat ∧
    DimIds w.cdm v.shape nv.dims ∧
    AttsOf O fm (getAttributes w.cdm v.name) nv.atts ∧ Holds L w.cdm s i v ds nv.cells
  gatts : AttsOf O fm (getAttributes w.cdm globalNS) f.gatts

/-! ## From the order of the file to that of the dataset -/

theorem getDimension_ok {c : Ds A} {n : String} {d : Dim} (h : getDimension c n = .ok d) : d ∈ c.dims ∧ d.name = n := by
  unfold getDimension at h
  split at h
  · rename_i e he
    injection h with h
    subst h
    exact ⟨List.mem_of_find?_eq_some he, by simpa using List.find?_some he⟩
  · cases h

theorem dimsOf_mem {c : Ds A} {shape : List String} {ds : List Dim} (h : DimsOf c shape ds) : ∀ d ∈ ds, d ∈ c.dims := by
  induction h with
  | nil => simp
  | cons h1 _ ih =>
    intro d hd
    rcases List.mem_cons.1 hd with rfl | hd
    · exact (getDimension_ok h1).1
    · exact ih d hd

theorem dimsAt_of_dimsOf {w : Writer A} (hinv : Inv w.cdm) {shape : List String} {ids : List Nat} {ds : List Dim}
    (hids : DimIds w.cdm shape ids) (hds : DimsOf w.cdm shape ds) :
    DimsAt (w.cdm.dims.map (fileDim w)) ids (ds.map (fileDim w)).reverse := by
  unfold DimsAt
  rw [← List.forall₂_reverse_iff, List.reverse_reverse]
  unfold DimIds at hids
  generalize ids.reverse = is at hids ⊢
  induction hds generalizing is with
  | nil =>
    cases hids
    exact .nil
  | cons h1 _ ih =>
    cases hids with
    | cons h2 h3 =>
      obtain ⟨e, he, hen⟩ := h2
      obtain ⟨hdm, hdn⟩ := getDimension_ok h1
      have := dims_name_inj hinv (List.mem_of_getElem? he) hdm (hen.trans hdn.symm)
      subst this
      refine .cons ?_ (ih _ h3)
      rw [List.getElem?_map, he]
      rfl

theorem definedLength_small {d : Dim} (hd : d.length < 2 ^ 31) : (if d.unlimited then 1 else definedLength d) = cellsAlong d := by
  unfold definedLength cellsAlong
  rw [throughInt_small hd]
  cases d.unlimited
  · simp only [Bool.false_eq_true, if_false]
    split <;> omega
  · rfl

theorem sliceCount_file {w : Writer A} {ds : List Dim} (hs : ∀ d ∈ ds, d.length < 2 ^ 31) :
    sliceCount (ds.map (fileDim w)).reverse = (ds.map cellsAlong).reverse := by
  unfold sliceCount
  rw [List.map_reverse, List.map_map]
  congr 1
  apply List.map_congr_left
  intro d hd
  exact definedLength_small (hs d hd)

theorem sliceStart_file {w : Writer A} (p : Option Nat) (ds : List Dim) :
    sliceStart p (ds.map (fileDim w)).reverse = (ds.map fun d => if d.unlimited then p.getD 0 else 0).reverse := by
  unfold sliceStart
  rw [List.map_reverse, List.map_map]
  rfl

theorem placeAt_eq (p : Option Nat) : ∀ {ds : List Dim} {j : List Nat}, InShape (ds.map cellsAlong) j →
    List.zipWith (· + ·) (ds.map fun d => if d.unlimited then p.getD 0 else 0) j = placeAt p ds j
  | [], [], _ => rfl
  | d :: ds, k :: j, h => by
    have h1 : k < cellsAlong d := h.1
    have h2 := placeAt_eq p (ds := ds) (j := j) h.2
    unfold placeAt at h2 ⊢
    simp only [List.map_cons, List.zipWith_cons_cons, h2, List.cons.injEq, and_true]
    unfold cellsAlong at h1
    by_cases hd : d.unlimited = true
    · rw [if_pos hd] at h1
      rw [if_pos hd, if_pos hd]
      omega
    · rw [if_neg hd, if_neg hd]
      omega
  | [], _ :: _, h => h.elim
  | _ :: _, [], h => h.elim

theorem zip_file (p : Option Nat) {ds : List Dim} {j : List Nat} (hj : InShape (ds.map cellsAlong) j) :
    List.zipWith (· + ·) (ds.map fun d => if d.unlimited then p.getD 0 else 0).reverse j.reverse =
      (placeAt p ds j).reverse := by
  rw [← placeAt_eq p hj, List.reverse_zipWith]
  rw [hj.length_eq, List.length_map, List.length_map]

theorem inside_file {w : Writer A} {p : Option Nat} {ds : List Dim} (hs : ∀ d ∈ ds, d.length < 2 ^ 31) {idx : List Nat} :
    inside (sliceStart p (ds.map (fileDim w)).reverse) (sliceCount (ds.map (fileDim w)).reverse) idx = true ↔
      ∃ j, InShape (ds.map cellsAlong) j ∧ idx = (placeAt p ds j).reverse := by
  rw [inside_iff, sliceCount_file hs, sliceStart_file]
  constructor
  · rintro ⟨_, j, hj, rfl⟩
    have hj' := inShape_reverse hj
    rw [List.reverse_reverse] at hj'
    refine ⟨j.reverse, hj', ?_⟩
    rw [← zip_file p hj', List.reverse_reverse]
  · rintro ⟨j, hj, rfl⟩
    exact ⟨by simp, j.reverse, inShape_reverse hj, (zip_file p hj).symm⟩

theorem offset_file {w : Writer A} {p : Option Nat} {ds : List Dim} (hs : ∀ d ∈ ds, d.length < 2 ^ 31) {j : List Nat}
    (hj : InShape (ds.map cellsAlong) j) :
    offset (sliceStart p (ds.map (fileDim w)).reverse) (sliceCount (ds.map (fileDim w)).reverse) (placeAt p ds j).reverse
      = pos (ds.map cellsAlong) j := by
  rw [sliceCount_file hs, sliceStart_file, ← zip_file p hj, offset_add (by simp) (inShape_reverse hj),
    List.reverse_reverse, List.reverse_reverse]

/-! ## Property -/

/-- The steps are those of all variables at all positions, in some order. -/
def AllSteps (c : Ds A) (steps : List (Step A)) : Prop :=
  ∀ p v, Step.var p v ∈ steps ↔ p ∈ positions c ∧ v ∈ c.vars

/-- C91: the file is complete after `writeData`, whatever the order of the steps. -/
theorem C91_data_written_partial {L : Lib A} {O : Ops A F U} {src : Source A} {w : Writer A} {fm : Format} {f0 : NcFile A}
    {ids : Map Nat} {keys : List String} {s : Option Nat → Var (Payload A) → Option (List A)} {steps : List (Step A)}
    (hL : Accepts L) (hinv : Inv w.cdm) (hkeys : KeysOf w.cdm keys) (hglob : hasVariable w.cdm globalNS = false)
    (hone : OneUnlimited w.cdm)
    (hname : ∀ d ∈ w.cdm.dims, d.unlimited = true → written w.dimNames d.name = d.name)
    (hsmall : ∀ d ∈ w.cdm.dims, d.length < 2 ^ 31) (hnd : ∀ v ∈ w.cdm.vars, v.shape.Nodup)
    (hdef : define L O w keys fm = .ok (f0, ids)) (hsteps : AllSteps w.cdm steps)
    (hsup : ∀ p v ds, p ∈ positions w.cdm → v ∈ w.cdm.vars → Due w.cdm p v → DimsOf w.cdm v.shape ds →
      Supplies O src w fm v p (ds.map cellsAlong).prod (s p v)) :
    ∃ f, writeData L O src w ids f0 steps = .ok f ∧ Complete L O w s fm f := by
  have hD := define_ok hinv hkeys hglob hdef
  obtain ⟨u, hu, hou⟩ := unLimDimId_ok hinv hone hD hname
  have hdimsOf : ∀ (i : Nat) (v : Var (Payload A)), w.cdm.vars[i]? = some v → ∀ (nv0 : NcVar A) (fds : List NcDim), f0.vars[i]? = some nv0 → DimsAt f0.dims nv0.dims fds →
      ∃ ds, DimsOf w.cdm v.shape ds ∧ fds = (ds.map (fileDim w)).reverse := by
    intro i v hv nv0 fds hnv hfds
    obtain ⟨-, nv, hnv', hisv, -⟩ := hD.vars i v hv
    rw [hnv] at hnv'
    injection hnv' with hnv'
    subst hnv'
    obtain ⟨ds, hds⟩ : ∃ ds, DimsOf w.cdm v.shape ds := by
      have := hisv.dims
      unfold DimIds at this
      generalize nv0.dims.reverse = is at this
      generalize v.shape = sh at this
      induction this with
      | nil => exact ⟨[], .nil⟩
      | cons h1 _ ih =>
        obtain ⟨ds, hds⟩ := ih
        obtain ⟨d, hd, hdn⟩ := h1
        refine ⟨d :: ds, .cons ?_ hds⟩
        unfold getDimension
        cases hf : w.cdm.dims.find? (fun e => e.name == _) with
        | none =>
          rw [List.find?_eq_none] at hf
          exact absurd (by simpa using hdn) (hf d (List.mem_of_getElem? hd))
        | some e =>
          have h2 := List.find?_some hf
          rw [dims_name_inj hinv (List.mem_of_find?_eq_some hf) (List.mem_of_getElem? hd) (by rw [hdn]; simpa using h2)]
    refine ⟨ds, hds, ?_⟩
    rw [hD.dims] at hfds
    exact dimsAt_unique hfds (dimsAt_of_dimsOf hinv hisv.dims hds)
  obtain ⟨f, hrun, hnow⟩ := runSteps_ok (src := src) hL hinv hone hD hou hnd steps [] f0 (now_start hD) (s := s) (by
    intro p v hmem
    obtain ⟨hp, hv⟩ := (hsteps p v).1 hmem
    obtain ⟨i, hi, hvi⟩ := List.getElem_of_mem hv
    have hvi' : w.cdm.vars[i]? = some v := by rw [List.getElem?_eq_getElem hi, hvi]
    refine ⟨i, hvi', ?_⟩
    intro hdue nv0 fds hnv hfds
    obtain ⟨ds, hds, rfl⟩ := hdimsOf i v hvi' nv0 fds hnv hfds
    rw [sliceCount_file fun d hd => hsmall d (dimsOf_mem hds d hd), List.prod_reverse]
    exact hsup p v ds hp hv hdue hds)
  have hmem : ∀ p v, (p, v) ∈ doneBy [] steps ↔ p ∈ positions w.cdm ∧ v ∈ w.cdm.vars := by
    intro p v
    rw [mem_doneBy, ← hsteps]
    simp
  refine ⟨f, ?_, ?_⟩
  · simp only [writeData, hu, Res.ok_bind, hrun, Bool.false_eq_true, if_false]
  · obtain ⟨n, hn, hlong⟩ := hnow.dims
    have hdims : f.dims = w.cdm.dims.map fun d =>
        ⟨written w.dimNames d.name, if d.unlimited then n else max 1 d.length, d.unlimited⟩ := by
      rw [hn, hD.dims, List.map_map]
      apply List.map_congr_left
      intro d hd
      by_cases h : d.unlimited = true
      · simp [growTo, fileDim, h]
      · have := definedLength_small (hsmall d hd)
        unfold cellsAlong at this
        rw [if_neg h, if_neg h] at this
        simp [growTo, fileDim, h, this]
    have hvar : ∀ (i : Nat) (v : Var (Payload A)), w.cdm.vars[i]? = some v → ∃ (nv0 : NcVar A) (g : List Nat → A), f0.vars[i]? = some nv0 ∧ f.vars[i]? = some { nv0 with cells := g } := by
      intro i v hv
      obtain ⟨-, nv0, hnv0, hisv, -⟩ := hD.vars i v hv
      obtain ⟨fds, hfds⟩ := dimIds_dimsAt hisv.dims
      rw [← hD.dims] at hfds
      obtain ⟨g, hg, -⟩ := hnow.vars i v nv0 fds hv hnv0 hfds
      exact ⟨nv0, g, hnv0, hg⟩
    refine ⟨by rw [hnow.fmt, hD.fmt], ⟨n, ?_, hdims⟩, ?_, by rw [hnow.len, hD.len], ?_, ?_, ?_⟩
    · constructor
      · intro p v hp hv hu2 hs
        obtain ⟨vals, hvals⟩ := Option.ne_none_iff_exists'.1 hs
        exact hlong.1 p v vals ((hmem _ _).2 ⟨hp, hv⟩) hu2 hvals
      · rcases hlong.2 with h0 | ⟨p, v, vals, hd, hdue, hs, h⟩
        · exact .inl h0
        · obtain ⟨hp, hv⟩ := (hmem _ _).1 hd
          exact .inr ⟨p, v, hp, hv, hdue, by rw [hs]; simp, h⟩
    · have hnames : f.dims.map (·.name) = f0.dims.map (·.name) := by
        rw [hn, List.map_map]
        apply List.map_congr_left
        intro d _
        simp only [Function.comp, growTo]
        split <;> rfl
      rw [hnames]
      exact hD.dimNames
    · have hnames : f.vars.map (·.name) = f0.vars.map (·.name) := by
        apply List.ext_getElem?
        intro i
        rw [List.getElem?_map, List.getElem?_map]
        by_cases hi : i < w.cdm.vars.length
        · obtain ⟨nv0, g, h1, h2⟩ := hvar i _ (List.getElem?_eq_getElem hi)
          rw [h1, h2]
          rfl
        · rw [List.getElem?_eq_none (by rw [hnow.len, hD.len]; omega), List.getElem?_eq_none (by rw [hD.len]; omega)]
      rw [hnames]
      exact hD.varNames
    · intro i v ds hv hds
      obtain ⟨-, nv0, hnv0, hisv, hatts⟩ := hD.vars i v hv
      have hfds := dimsAt_of_dimsOf hinv hisv.dims hds
      rw [← hD.dims] at hfds
      obtain ⟨g, hg, hc1, hc2⟩ := hnow.vars i v nv0 _ hv hnv0 hfds
      have hsm : ∀ d ∈ ds, d.length < 2 ^ 31 := fun d hd => hsmall d (dimsOf_mem hds d hd)
      refine ⟨_, hg, hisv.name, hisv.ty, hisv.typed, hisv.dims, hatts, ?_, ?_⟩
      · intro p vals hp hdue hs j hj
        have := hc1 p vals _ ((hmem _ _).2 ⟨hp, List.mem_of_getElem? hv⟩) hdue hs ((inside_file hsm).2 ⟨j, hj, rfl⟩)
        rw [offset_file hsm hj] at this
        exact this
      · intro idx hno
        show g idx = _
        rw [hc2 idx ?_, hisv.cells]
        intro p vals hd hdue hs
        by_contra hc
        have hc' := Bool.of_not_eq_false hc
        obtain ⟨j, hj, rfl⟩ := (inside_file hsm).1 hc'
        exact hno p ((hmem _ _).1 hd).1 hdue (by rw [hs]; simp) j hj rfl
    · rw [hnow.gatts]
      exact hD.gatts

/-- The steps of a single thread are such steps. -/
theorem sequential_allSteps (c : Ds A) : AllSteps c (sequential c) := by
  intro p v
  unfold sequential
  rw [List.mem_flatMap]
  constructor
  · rintro ⟨q, hq, h⟩
    rcases List.mem_append.1 h with h | h
    · obtain ⟨x, hx, he⟩ := List.mem_map.1 h
      injection he with h1 h2
      exact ⟨h1 ▸ hq, h2 ▸ hx⟩
    · split at h
      · rcases List.mem_cons.1 h with h | h
        · cases h
        · cases h
      · cases h
  · rintro ⟨hp, hv⟩
    exact ⟨p, hp, List.mem_append_left _ (List.mem_map.2 ⟨v, hv, rfl⟩)⟩

/-! ## Errors while reading -/

/-- The variables have the same dimensions. -/
def SameVarDims (f0 f : NcFile A) : Prop :=
  ∀ (i : Nat) (nv0 : NcVar A), f0.vars[i]? = some nv0 → ∃ nv : NcVar A, f.vars[i]? = some nv ∧ nv.dims = nv0.dims

theorem SameVarDims.trans {a b c : NcFile A} (h1 : SameVarDims a b) (h2 : SameVarDims b c) : SameVarDims a c := by
  intro i nv0 h
  obtain ⟨nv1, hnv1, e1⟩ := h1 i nv0 h
  obtain ⟨nv2, hnv2, e2⟩ := h2 i nv1 hnv1
  exact ⟨nv2, hnv2, e2.trans e1⟩

theorem SameVarDims.rfl {a : NcFile A} : SameVarDims a a := fun _ nv h => ⟨nv, h, Eq.refl _⟩

theorem ncPutVara_dims {L : Lib A} {f f' : NcFile A} {id : Nat} {start count : List Nat} {vals : List A}
    (h : ncPutVara L f id start count vals = .ok f') : SameVarDims f f' := by
  unfold ncPutVara at h
  split at h
  · cases h
  · split at h
    · cases h
    · rename_i v hv
      split at h
      · cases h
      · split at h
        · cases h
        · injection h with h
          subst h
          intro i nv0 hi
          simp only [List.getElem?_set]
          split
          · rename_i hid
            subst hid
            rw [hv] at hi
            injection hi with hi
            subst hi
            rw [if_pos (List.getElem?_eq_some_iff.1 hv).1]
            exact ⟨_, Eq.refl _, Eq.refl _⟩
          · exact ⟨nv0, hi, Eq.refl _⟩

theorem putData_dims {L : Lib A} {O : Ops A F U} {f f' : NcFile A} {v : Var (Payload A)} {id : Nat} {start count : List Nat}
    {d : Option (Data A)} (h : putData L O f v id start count d = .ok f') : SameVarDims f f' := by
  unfold putData at h
  split at h
  · injection h with h
    subst h
    exact .rfl
  · split at h
    · injection h with h
      subst h
      exact .rfl
    · split at h
      · rename_i hp
        injection h with h
        subst h
        unfold ncPutValues at hp
        split at hp
        · injection hp with hp
          subst hp
          exact .rfl
        · split at hp
          · cases hp
          · split at hp
            · injection hp with hp
              subst hp
              exact .rfl
            · obtain ⟨vals, -, hp⟩ := Res.bind_eq_ok.1 hp
              exact ncPutVara_dims hp
      · injection h with h
        subst h
        exact .rfl
      · cases h

theorem writeVar_inv {L : Lib A} {O : Ops A F U} {src : Source A} {w : Writer A} {ids : Map Nat} {u : Option Nat}
    {f f' : NcFile A} {p : Option Nat} {v : Var (Payload A)} {b : Bool}
    (h : writeVar L O src w ids u f p v = .ok (f', b)) : SameVarDims f f' ∧
      ∃ (i : Nat) (nv : NcVar A), ids v.name = some i ∧ f.vars[i]? = some nv ∧
        (b = false → readData O src w v p (lastIdx u nv.dims) = none ∨
          ∃ e, readData O src w v p (lastIdx u nv.dims) = some (.ok e)) := by
  unfold writeVar at h
  cases hid : ids v.name with
  | none => simp only [hid] at h; cases h
  | some i =>
    simp only [hid] at h
    cases hnv : f.vars[i]? with
    | none => simp only [hnv] at h; cases h
    | some nv =>
      simp only [hnv] at h
      obtain ⟨lens, -, h⟩ := Res.bind_eq_ok.1 h
      cases hr : readData O src w v p (lastIdx u nv.dims) with
      | none =>
        simp only [hr] at h
        injection h with h
        injection h with h1 h2
        subst h1
        exact ⟨.rfl, i, nv, Eq.refl _, hnv, fun _ => .inl hr⟩
      | some r =>
        cases r with
        | throws =>
          simp only [hr] at h
          injection h with h
          injection h with h1 h2
          subst h1
          exact ⟨.rfl, i, nv, Eq.refl _, hnv, fun hb => by rw [← h2] at hb; cases hb⟩
        | ub => simp only [hr] at h; cases h
        | ok e =>
          simp only [hr] at h
          obtain ⟨d, -, h⟩ := Res.bind_eq_ok.1 h
          obtain ⟨g, hg, h⟩ := Res.bind_eq_ok.1 h
          injection h with h
          injection h with h1 h2
          subst h1
          exact ⟨putData_dims hg, i, nv, Eq.refl _, hnv, fun _ => .inr ⟨e, hr⟩⟩

theorem runSteps_reads {L : Lib A} {O : Ops A F U} {src : Source A} {w : Writer A} {ids : Map Nat} {u : Option Nat}
    {f0 : NcFile A} : ∀ {steps : List (Step A)} {f f' : NcFile A} {ex : Bool}, SameVarDims f0 f →
    runSteps L O src w ids u f ex steps = .ok (f', false) → ex = false ∧
      ∀ p v, Step.var p v ∈ steps → ∀ (i : Nat) (nv0 : NcVar A), ids v.name = some i → f0.vars[i]? = some nv0 →
        readData O src w v p (lastIdx u nv0.dims) = none ∨
          ∃ e, readData O src w v p (lastIdx u nv0.dims) = some (.ok e)
  | [], f, f', ex, _, h => by
    simp only [runSteps] at h
    injection h with h
    injection h with h1 h2
    exact ⟨h2, by simp⟩
  | .sync :: l, f, f', ex, hs, h => by
    simp only [runSteps] at h
    split at h
    · cases h
    · obtain ⟨h1, h2⟩ := runSteps_reads hs h
      exact ⟨h1, fun p v hm => h2 p v (by simpa using hm)⟩
  | .var q x :: l, f, f', true, hs, h => by
    simp only [runSteps] at h
    obtain ⟨h1, -⟩ := runSteps_reads hs h
    cases h1
  | .var q x :: l, f, f', false, hs, h => by
    simp only [runSteps] at h
    obtain ⟨⟨g, b⟩, hg, h⟩ := Res.bind_eq_ok.1 h
    obtain ⟨hd, j, nv, hj, hnv, hr⟩ := writeVar_inv hg
    obtain ⟨h1, h2⟩ := runSteps_reads (hs.trans hd) h
    refine ⟨Eq.refl _, ?_⟩
    intro p v hm i nv0 hi hnv0
    rcases List.mem_cons.1 hm with he | hm
    · injection he with he1 he2
      subst he1; subst he2
      rw [hi] at hj
      injection hj with hj
      subst hj
      obtain ⟨nv', hnv', he⟩ := hs i nv0 hnv0
      rw [hnv] at hnv'
      injection hnv' with hnv'
      subst hnv'
      rw [← he]
      exact hr h1
    · exact h2 p v hm i nv0 hi hnv0

/-- C91: an error while reading or converting data is reported: `writeData` succeeds only if the data of
all variables at all positions has been delivered and converted. -/
theorem C91_success_means_read {L : Lib A} {O : Ops A F U} {src : Source A} {w : Writer A} {fm : Format} {f0 f : NcFile A}
    {ids : Map Nat} {keys : List String} {steps : List (Step A)}
    (hinv : Inv w.cdm) (hkeys : KeysOf w.cdm keys) (hglob : hasVariable w.cdm globalNS = false)
    (hone : OneUnlimited w.cdm)
    (hname : ∀ d ∈ w.cdm.dims, d.unlimited = true → written w.dimNames d.name = d.name)
    (hnd : ∀ v ∈ w.cdm.vars, v.shape.Nodup)
    (hdef : define L O w keys fm = .ok (f0, ids)) (h : writeData L O src w ids f0 steps = .ok f)
    {p : Option Nat} {v : Var (Payload A)} (hv : v ∈ w.cdm.vars) (hm : Step.var p v ∈ steps) (hdue : Due w.cdm p v) :
    ∃ d e, (match p with
      | none => src.getData v.name
      | some k => src.getDataSlice v.name k) = .ok d ∧ Converted O src w v d e := by
  have hD := define_ok hinv hkeys hglob hdef
  obtain ⟨u, hu, hou⟩ := unLimDimId_ok hinv hone hD hname
  simp only [writeData, hu, Res.ok_bind] at h
  obtain ⟨⟨f', ex⟩, hrun, h⟩ := Res.bind_eq_ok.1 h
  cases ex with
  | true => cases h
  | false =>
    obtain ⟨i, hi, hvi⟩ := List.getElem_of_mem hv
    have hvi' : w.cdm.vars[i]? = some v := by rw [List.getElem?_eq_getElem hi, hvi]
    obtain ⟨hid, nv0, hnv0, hisv, -⟩ := hD.vars i v hvi'
    obtain ⟨fds, hfds⟩ := dimIds_dimsAt hisv.dims
    have hany := hasUnlimited_file hinv hone hisv.dims hfds
    rw [← hD.dims] at hfds
    have hsome : (lastIdx u nv0.dims).isSome = hasUnlimitedDim w.cdm v := by
      rw [hany]
      exact lastIdx_isSome hfds (dimIds_nodup hisv.dims (hnd v hv)) fun i d _ hd => hou i d hd
    have hr := (runSteps_reads .rfl hrun).2 p v hm i nv0 hid hnv0
    unfold Due at hdue
    rw [hdue] at hsome
    unfold readData at hr
    cases p with
    | none =>
      cases hl : lastIdx u nv0.dims with
      | some => rw [hl] at hsome; cases hsome
      | none =>
        simp only [Option.isSome_none] at hdue
        simp only [hdue, hl, Option.map_some, Option.some.injEq, reduceCtorEq, false_or] at hr
        obtain ⟨e, hr⟩ := hr
        obtain ⟨d, hd, hr⟩ := Res.bind_eq_ok.1 hr
        refine ⟨d, e, hd, ?_⟩
        cases d with
        | none =>
          injection hr with hr
          subst hr
          trivial
        | some d =>
          obtain ⟨x, hx, hr⟩ := Res.bind_eq_ok.1 hr
          injection hr with hr
          subst hr
          exact hx
    | some k =>
      cases hl : lastIdx u nv0.dims with
      | none => rw [hl] at hsome; cases hsome
      | some =>
        simp only [Option.isSome_some] at hdue
        simp only [hdue, hl, Option.map_some, Option.some.injEq, reduceCtorEq, false_or] at hr
        obtain ⟨e, hr⟩ := hr
        obtain ⟨d, hd, hr⟩ := Res.bind_eq_ok.1 hr
        refine ⟨d, e, hd, ?_⟩
        cases d with
        | none =>
          injection hr with hr
          subst hr
          trivial
        | some d =>
          obtain ⟨x, hx, hr⟩ := Res.bind_eq_ok.1 hr
          injection hr with hr
          subst hr
          exact hx

/-- C91 is violated: with a new name for the unlimited dimension no data is written (the dimension is looked for
under its old name). -/
theorem C91_renamed_unlimited {L : Lib A} {O : Ops A F U} {src : Source A} {w : Writer A} {fm : Format} {f0 : NcFile A}
    {ids : Map Nat} {keys : List String} {steps : List (Step A)} {d : Dim}
    (hinv : Inv w.cdm) (hkeys : KeysOf w.cdm keys) (hglob : hasVariable w.cdm globalNS = false)
    (hdef : define L O w keys fm = .ok (f0, ids)) (hd : getUnlimitedDim w.cdm = some d)
    (hname : ∀ e ∈ w.cdm.dims, written w.dimNames e.name ≠ d.name) : writeData L O src w ids f0 steps = .throws := by
  have hD := define_ok hinv hkeys hglob hdef
  have : f0.dims.findIdx? (fun e => e.name == d.name) = none := by
    rw [List.findIdx?_eq_none_iff]
    intro e he
    rw [hD.dims] at he
    obtain ⟨x, hx, rfl⟩ := List.mem_map.1 he
    simpa [fileDim] using hname x hx
  simp only [writeData, unLimDimId, hd, ncInqDimid, this, Res.throws_bind]

/-! ## Conversion -/

/-- What decides about the conversion of a variable. -/
structure Meta (F : Type) where
  units : String
  fill : F
  scale : F
  offset : F

/-- The metadata of a variable can be read and is this. -/
def HasMeta (O : Ops A F U) (c : Ds A) (v : String) (m : Meta F) : Prop :=
  getUnits O c v = .ok m.units ∧ getFillValue O c v = .ok m.fill ∧ getScaleFactor O c v = .ok m.scale ∧
    getAddOffset O c v = .ok m.offset

/-- The conversion from one packing to another. -/
def Conversion (O : Ops A F U) (a b : Meta F) (ty : DataType) (d e : Data A) : Prop :=
  ∃ uc, (if a.units = b.units then uc = none else ∃ x, O.getConverter a.units b.units = .ok x ∧ uc = some x) ∧
    O.convert d a.fill a.scale a.offset uc ty b.fill b.scale b.offset = .ok e

/-- C91: data whose metadata is the same in the reader and in the file is written as it is read. -/
theorem C91_unchanged {O : Ops A F U} {reader : Ds A} {w : Writer A} {v : Var (Payload A)} {d : Data A} {m n : Meta F}
    (ho : HasMeta O reader v.name m) (hn : HasMeta O w.cdm v.name n) (hu : m.units = n.units)
    (hf : O.differs m.fill n.fill = false) (hs : O.differs m.scale n.scale = false)
    (ha : O.differs m.offset n.offset = false)
    (ht : w.varTypes v.name = none ∨ w.varTypes v.name = some v.payload.ty) :
    convertData O reader w v d = .ok d := by
  obtain ⟨o1, o2, o3, o4⟩ := ho
  obtain ⟨n1, n2, n3, n4⟩ := hn
  have hty : (w.varTypes v.name).getD v.payload.ty = v.payload.ty := by
    rcases ht with ht | ht <;> rw [ht] <;> rfl
  simp only [convertData, o1, o2, o3, o4, n1, n2, n3, n4, Res.ok_bind, hty, hu, hf, hs, ha]
  simp

/-- C91: other data is converted, if it can be. -/
theorem C91_converted {O : Ops A F U} {reader : Ds A} {w : Writer A} {v : Var (Payload A)} {d e : Data A} {m n : Meta F}
    (ho : HasMeta O reader v.name m) (hn : HasMeta O w.cdm v.name n)
    (hty : v.payload.ty ≠ .nat) (ht : w.varTypes v.name = none ∨ w.varTypes v.name = some v.payload.ty)
    (hdiff : m.units ≠ n.units ∨ O.differs m.fill n.fill = true ∨ O.differs m.scale n.scale = true ∨
      O.differs m.offset n.offset = true)
    (hc : Conversion O m n v.payload.ty d e) : convertData O reader w v d = .ok e := by
  obtain ⟨o1, o2, o3, o4⟩ := ho
  obtain ⟨n1, n2, n3, n4⟩ := hn
  obtain ⟨uc, huc, hconv⟩ := hc
  have hty' : (w.varTypes v.name).getD v.payload.ty = v.payload.ty := by
    rcases ht with ht | ht <;> rw [ht] <;> rfl
  simp only [convertData, o1, o2, o3, o4, n1, n2, n3, n4, Res.ok_bind, hty']
  rw [if_pos ⟨⟨hty, hty⟩, by
    rcases hdiff with h | h | h | h
    · exact .inr (.inl (Ne.symm h))
    · exact .inr (.inr (.inl h))
    · exact .inr (.inr (.inr (.inl h)))
    · exact .inr (.inr (.inr (.inr h)))⟩]
  have hun : unitConverter O m.units n.units = .ok uc := by
    unfold unitConverter
    by_cases hmn : m.units = n.units
    · rw [if_pos hmn] at huc
      rw [if_neg (by simpa using hmn), huc]
    · rw [if_neg hmn] at huc
      obtain ⟨x, hx, rfl⟩ := huc
      rw [if_pos hmn, hx]
      rfl
  simp only [hun, Res.ok_bind, hconv]

/-- C91 is violated: when the units cannot be converted, the data is written as it is read although the
file has other units, scale, offset and fill value. -/
theorem C91_failed_conversion {O : Ops A F U} {reader : Ds A} {w : Writer A} {v : Var (Payload A)} {d : Data A}
    {m n : Meta F} (ho : HasMeta O reader v.name m) (hn : HasMeta O w.cdm v.name n) (hu : m.units ≠ n.units)
    (hc : O.getConverter m.units n.units = .throws) : convertData O reader w v d = .ok d := by
  obtain ⟨o1, o2, o3, o4⟩ := ho
  obtain ⟨n1, n2, n3, n4⟩ := hn
  simp only [convertData, o1, o2, o3, o4, n1, n2, n3, n4, Res.ok_bind]
  split
  · simp only [unitConverter, hu, ne_eq, not_false_eq_true, if_true, hc, Res.throws_bind]
  · rfl

/-- C91 is violated: a text variable with a fill value or a missing value cannot be written at all. -/
theorem C91_text_with_fill {L : Lib A} {O : Ops A F U} {src : Source A} {w : Writer A} {fm : Format} {f0 f : NcFile A}
    {ids : Map Nat} {keys : List String} {steps : List (Step A)}
    (hinv : Inv w.cdm) (hkeys : KeysOf w.cdm keys) (hglob : hasVariable w.cdm globalNS = false)
    (hone : OneUnlimited w.cdm)
    (hname : ∀ d ∈ w.cdm.dims, d.unlimited = true → written w.dimNames d.name = d.name)
    (hnd : ∀ v ∈ w.cdm.vars, v.shape.Nodup)
    (hdef : define L O w keys fm = .ok (f0, ids)) {p : Option Nat} {v x : Var (Payload A)} (hv : v ∈ w.cdm.vars)
    (hm : Step.var p v ∈ steps) (hdue : Due w.cdm p v)
    (hx : getVariable src.cdm v.name = .ok x) (htext : x.payload.ty = .string)
    (hfill : findAtt src.cdm v.name "_FillValue" ≠ none ∨ findAtt src.cdm v.name "missing_value" ≠ none)
    (hdata : ∀ k, src.getData v.name ≠ .ok none ∧ src.getDataSlice v.name k ≠ .ok none) :
    writeData L O src w ids f0 steps ≠ .ok f := by
  intro h
  obtain ⟨d, e, hd, hc⟩ := C91_success_means_read hinv hkeys hglob hone hname hnd hdef h hv hm hdue
  have hgf : ∀ y, getFillValue O src.cdm v.name ≠ .ok y := by
    intro y
    unfold getFillValue
    rw [hx, Res.ok_bind]
    have key : ∀ a : Data A, (if x.payload.ty ≠ a.ty then Res.throws else firstDouble O a) ≠ .ok y := by
      intro a
      split
      · simp
      · rename_i ht
        have : a.ty = .string := by rw [← htext]; exact (not_not.1 ht).symm
        simp [firstDouble, this]
    cases h1 : findAtt src.cdm v.name "_FillValue" with
    | some a => exact key a
    | none =>
      cases h2 : findAtt src.cdm v.name "missing_value" with
      | some a => exact key a
      | none => rcases hfill with hf | hf <;> contradiction
  cases d with
  | none =>
    cases p with
    | none => exact (hdata 0).1 hd
    | some k => exact (hdata k).2 hd
  | some d =>
    cases e with
    | none => exact hc
    | some e =>
      simp only [Converted, convertData] at hc
      obtain ⟨_, _, hc⟩ := Res.bind_eq_ok.1 hc
      obtain ⟨_, _, hc⟩ := Res.bind_eq_ok.1 hc
      obtain ⟨y, hy, -⟩ := Res.bind_eq_ok.1 hc
      exact hgf y hy

end Fimex.Netcdf
