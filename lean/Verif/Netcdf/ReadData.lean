import Verif.Netcdf.ReaderProps

/-!
# Reading and putting data of a netCDF file (C92)
-/

namespace Fimex.Netcdf

open Fimex.Cdm
open Fimex.Tables (DataType)

variable {A F U : Type}

/-! ## Specification -/

/-- The dimension the library calls the unlimited one: the first. -/
def recordDim (f : NcFile A) : Option Nat := f.dims.findIdx? (·.unlimited)

/-- The lengths of the part of a variable at one position of the unlimited dimension, the fastest first. -/
def partLens (f : NcFile A) (ids : List Nat) : List Nat :=
  (ids.map fun i => if recordDim f = some i then 1 else ((f.dims[i]?).map (·.len)).getD 0).reverse

/-- The place of index `j` of the part at position `k`, the fastest first. -/
def partPlace (f : NcFile A) (ids : List Nat) (k : Nat) (j : List Nat) : List Nat :=
  List.zipWith (fun i x => if recordDim f = some i then k else x) ids.reverse j

/-- The lengths of a variable, the fastest first. -/
def fullLens (f : NcFile A) (ids : List Nat) : List Nat :=
  (ids.map fun i => ((f.dims[i]?).map (·.len)).getD 0).reverse

/-- The unlimited dimension, if the variable has it, is its slowest one. -/
def RecordFirst (f : NcFile A) (ids : List Nat) : Prop := ∀ i ∈ ids.tail, recordDim f ≠ some i

/-- Position `k` exists, if the variable has the unlimited dimension. -/
def PositionIn (f : NcFile A) (ids : List Nat) (k : Nat) : Prop :=
  ∀ i ∈ ids, recordDim f = some i → k < ((f.dims[i]?).map (·.len)).getD 0

/-- The dataset of an open file, nothing in memory. -/
structure Serves (f : NcFile A) (c : Ds A) : Prop where
  vars : c.vars = f.vars.map (cdmVar f)
  unlim : (getUnlimitedDim c).map (·.name) = (f.dims.find? (·.unlimited)).map (·.name)

/-! ## Lemmas -/

theorem getUnlimitedDim_open (l : List NcDim) : ∀ i, 
    ((l.mapIdx fun k (d : NcDim) => (⟨d.name, d.len, decide ((l.findIdx? (·.unlimited)).map (· + i) = some (i + k))⟩ : Dim)).find? (·.unlimited)).map (·.name) =
      (l.find? (·.unlimited)).map (·.name) := by
  induction l with
  | nil => simp
  | cons d l ih =>
    intro i
    cases hd : d.unlimited with
    | true => simp [hd, List.findIdx?_cons]
    | false =>
      have := ih (i + 1)
      rw [List.mapIdx_cons, List.find?_cons, List.find?_cons]
      simp only [hd, List.findIdx?_cons, Bool.false_eq_true, if_false, Nat.add_zero]
      have h0 : decide (Option.map (fun x => x + i) (Option.map (fun i => i + 1) (l.findIdx? (·.unlimited))) = some i) = false := by
        cases l.findIdx? (·.unlimited) with
        | none => rfl
        | some x => simp
      rw [h0]
      simp only
      rw [← this]
      congr 4
      funext k e
      congr 2
      cases l.findIdx? (·.unlimited) with
      | none => simp
      | some x => simp; omega

theorem serves_open {isZero : A → Bool} {f : NcFile A} (hf : ValidFile f) (hg : globalNS ∉ f.vars.map (·.name)) {c : Ds A}
    (h : openFile isZero f = .ok c) : Serves f c := by
  obtain ⟨c', h1, h2, h3, -, -, -⟩ := C92_opened isZero f hf hg
  rw [h] at h1
  injection h1 with h1
  subst h1
  refine ⟨h3, ?_⟩
  unfold getUnlimitedDim
  rw [h2]
  have := getUnlimitedDim_open f.dims 0
  simpa [cdmDims] using this

theorem getVariable_ok {f : NcFile A} {c : Ds A} (hf : ValidFile f) (hs : Serves f c) {nv : NcVar A} (hnv : nv ∈ f.vars) :
    getVariable c nv.name = .ok (cdmVar f nv) := by
  unfold getVariable
  rw [hs.vars, List.find?_map]
  cases h : f.vars.find? ((fun v : Var (Payload A) => v.name == nv.name) ∘ cdmVar f) with
  | none =>
    rw [List.find?_eq_none] at h
    exact absurd (by simp [cdmVar]) (h nv hnv)
  | some x =>
    have hx := List.mem_of_find?_eq_some h
    have hn := List.find?_some h
    have : x = nv := List.inj_on_of_nodup_map hf.varNames hx hnv (by simpa [cdmVar] using hn)
    rw [this]
    rfl

theorem fileVar_ok {f : NcFile A} (hf : ValidFile f) {nv : NcVar A} {id : Nat} (hnv : f.vars[id]? = some nv) :
    fileVar f nv.name = .ok (id, nv) := by
  have : f.vars.findIdx? (fun e => e.name == nv.name) = some id := by
    rw [List.findIdx?_eq_some_iff_getElem]
    obtain ⟨hi, hdi⟩ := List.getElem?_eq_some_iff.1 hnv
    refine ⟨hi, by simp [hdi], ?_⟩
    intro j hj hc
    have h := hf.varNames
    rw [List.nodup_iff_injective_getElem] at h
    have := @h ⟨j, by simp; omega⟩ ⟨id, by simpa using hi⟩ (by simpa [hdi] using hc)
    simp at this
    omega
  simp only [fileVar, ncInqVarid, this, Res.ok_bind, hnv]

theorem dimLens_valid {f : NcFile A} : ∀ {ids : List Nat}, (∀ i ∈ ids, i < f.dims.length) →
    dimLens f.dims ids = .ok (ids.map fun i => ((f.dims[i]?).map (·.len)).getD 0)
  | [], _ => rfl
  | i :: ids, h => by
    have hi := h i List.mem_cons_self
    simp only [dimLens, List.getElem?_eq_getElem hi, dimLens_valid fun j hj => h j (List.mem_cons_of_mem _ hj), Res.ok_bind,
      List.map_cons, Option.map_some, Option.getD_some]

theorem mem_shapeNames {f : NcFile A} {nv : NcVar A} {n : String} :
    n ∈ shapeNames f nv ↔ ∃ i d, i ∈ nv.dims ∧ f.dims[i]? = some d ∧ d.name = n := by
  unfold shapeNames
  rw [List.mem_reverse, List.mem_filterMap]
  constructor
  · rintro ⟨i, hi, h⟩
    obtain ⟨d, hd, hn⟩ := Option.map_eq_some_iff.1 h
    exact ⟨i, d, hi, hd, hn⟩
  · rintro ⟨i, d, hi, hd, hn⟩
    exact ⟨i, hi, by rw [hd, ← hn]; rfl⟩

theorem hasUnlimited_serves {f : NcFile A} {c : Ds A} (hf : ValidFile f) (hs : Serves f c) {nv : NcVar A} :
    hasUnlimitedDim c (cdmVar f nv) = true ↔ ∃ i ∈ nv.dims, recordDim f = some i := by
  have hu := hs.unlim
  unfold hasUnlimitedDim
  cases hc : f.dims.find? (·.unlimited) with
  | none =>
    rw [hc] at hu
    cases hg : getUnlimitedDim c with
    | some d => rw [hg] at hu; cases hu
    | none =>
      simp only [Bool.false_eq_true, false_iff]
      rintro ⟨i, -, hi⟩
      unfold recordDim at hi
      rw [List.findIdx?_eq_some_iff_getElem] at hi
      obtain ⟨h1, h2, -⟩ := hi
      rw [List.find?_eq_none] at hc
      exact hc _ (List.getElem_mem h1) h2
  | some e =>
    rw [hc] at hu
    cases hg : getUnlimitedDim c with
    | none => rw [hg] at hu; cases hu
    | some d =>
      rw [hg] at hu
      simp only [Option.map_some, Option.some.injEq] at hu
      simp only [List.contains_eq_mem, decide_eq_true_eq]
      have hm := List.mem_of_find?_eq_some hc
      have hp := List.find?_some hc
      have hrec : ∀ i d', f.dims[i]? = some d' → d'.name = e.name → recordDim f = some i := by
        intro i d' hi hn
        have : d' = e := List.inj_on_of_nodup_map hf.dimNames (List.mem_of_getElem? hi) hm hn
        subst this
        unfold recordDim
        rw [List.find?_eq_some_iff_getElem] at hc
        obtain ⟨-, k, hk, hke, hlt⟩ := hc
        rw [List.findIdx?_eq_some_iff_getElem]
        obtain ⟨hi1, hi2⟩ := List.getElem?_eq_some_iff.1 hi
        have hki : k = i := by
          have h := hf.dimNames
          rw [List.nodup_iff_injective_getElem] at h
          have := @h ⟨k, by simpa using hk⟩ ⟨i, by simpa using hi1⟩ (by simp [hke, hi2])
          simpa using this
        subst hki
        exact ⟨hk, by rw [hke]; exact hp, fun j hj => by simpa using hlt j hj⟩
      rw [show (cdmVar f nv).shape = shapeNames f nv from rfl, mem_shapeNames]
      constructor
      · rintro ⟨i, d', hi, hd', hn⟩
        exact ⟨i, hi, hrec i d' hd' (hn.trans hu)⟩
      · rintro ⟨i, hi, hr⟩
        have hr' := hr
        unfold recordDim at hr
        rw [List.findIdx?_eq_some_iff_getElem] at hr
        obtain ⟨h1, h2, h3⟩ := hr
        refine ⟨i, f.dims[i], hi, List.getElem?_eq_getElem h1, ?_⟩
        rw [hu]
        obtain ⟨k, hk⟩ := List.getElem?_of_mem hm
        have := hrec k e hk rfl
        rw [hr'] at this
        injection this with this
        subst this
        rw [List.getElem?_eq_getElem h1] at hk
        injection hk with hk
        rw [hk]

/-- `start` and `count` of a slice in the order of the library. -/
theorem sliceBounds_ok {f : NcFile A} {c : Ds A} (hf : ValidFile f) (hs : Serves f c) {nv : NcVar A} (hnv : nv ∈ f.vars)
    (hrec : RecordFirst f nv.dims) (k : Nat) : sliceBounds c f (cdmVar f nv) nv k =
      .ok (nv.dims.map fun i => if recordDim f = some i then k else 0, (partLens f nv.dims).reverse) := by
  have hu := hasUnlimited_serves hf hs (nv := nv)
  have hv := hf.dims nv hnv
  simp only [sliceBounds, dimLens_valid hv, Res.ok_bind, partLens, List.reverse_reverse]
  revert hu hrec
  generalize nv.dims = ids
  intro hrec hu
  cases hh : hasUnlimitedDim c (cdmVar f nv) with
  | false =>
    have hno : ∀ i ∈ ids, recordDim f ≠ some i := by
      intro i hi hr
      have := hu.2 ⟨i, hi, hr⟩
      rw [hh] at this
      cases this
    rw [if_neg (by simp)]
    congr 2
    · rw [List.map_map]
      apply List.map_congr_left
      intro i hi
      simp [hno i hi]
    · apply List.map_congr_left
      intro i hi
      simp [hno i hi]
  | true =>
    rw [if_pos rfl]
    obtain ⟨i, hi, hr⟩ := hu.1 hh
    cases ids with
    | nil => cases hi
    | cons a ids =>
      have ha : recordDim f = some a := by
        rcases List.mem_cons.1 hi with rfl | hi
        · exact hr
        · exact absurd hr (hrec i hi)
      simp only [List.map_cons, setHead, Res.ok_bind, ha, if_true]
      congr 3
      · rw [List.map_map]
        apply List.map_congr_left
        intro i hi
        have : ¬ a = i := fun hc => hrec i hi (hc ▸ ha)
        simp [this]
      · apply List.map_congr_left
        intro i hi
        have : ¬ a = i := fun hc => hrec i hi (hc ▸ ha)
        simp [this]

theorem fitsNow_iff {f : NcFile A} : ∀ {ids start count : List Nat}, (∀ i ∈ ids, i < f.dims.length) →
    (fitsNow f.dims ids start count = true ↔
      RegionIn (ids.map fun i => ((f.dims[i]?).map (·.len)).getD 0) start count)
  | [], [], [], _ => by simp [fitsNow, RegionIn]
  | [], [], _ :: _, _ => by simp [fitsNow, RegionIn]
  | [], _ :: _, _, _ => by simp [fitsNow, RegionIn]
  | _ :: _, [], _, _ => by simp [fitsNow, RegionIn]
  | _ :: _, _ :: _, [], _ => by simp [fitsNow, RegionIn]
  | i :: ids, s :: start, n :: count, h => by
    have hi := h i List.mem_cons_self
    simp only [fitsNow, List.map_cons, RegionIn, List.getElem?_eq_getElem hi, Bool.and_eq_true, decide_eq_true_eq,
      Option.map_some, Option.getD_some]
    rw [fitsNow_iff fun j hj => h j (List.mem_cons_of_mem _ hj)]

theorem regionIn_append : ∀ {a b c a' b' c' : List Nat}, b.length = a.length → c.length = a.length →
    (RegionIn (a ++ a') (b ++ b') (c ++ c') ↔ RegionIn a b c ∧ RegionIn a' b' c')
  | [], [], [], _, _, _, _, _ => by simp [RegionIn]
  | x :: a, y :: b, z :: c, a', b', c', h1, h2 => by
    simp only [List.cons_append, RegionIn]
    rw [regionIn_append (by simpa using h1) (by simpa using h2), and_assoc]
  | [], _ :: _, _, _, _, _, h, _ => by simp at h
  | [], [], _ :: _, _, _, _, _, h => by simp at h
  | _ :: _, [], _, _, _, _, h, _ => by simp at h
  | _ :: _, _ :: _, [], _, _, _, _, h => by simp at h

theorem RegionIn.lengths : ∀ {a b c : List Nat}, RegionIn a b c → b.length = a.length ∧ c.length = a.length
  | [], [], [], _ => ⟨rfl, rfl⟩
  | _ :: _, _ :: _, _ :: _, h => by
    obtain ⟨h1, h2⟩ := RegionIn.lengths h.2
    simp [h1, h2]
  | [], [], _ :: _, h => h.elim
  | [], _ :: _, _, h => h.elim
  | _ :: _, [], _, h => h.elim
  | _ :: _, _ :: _, [], h => h.elim

theorem regionIn_reverse : ∀ {a b c : List Nat}, RegionIn a b c → RegionIn a.reverse b.reverse c.reverse
  | [], [], [], _ => trivial
  | x :: a, y :: b, z :: c, h => by
    obtain ⟨h1, h2⟩ := RegionIn.lengths h.2
    rw [List.reverse_cons, List.reverse_cons, List.reverse_cons, regionIn_append (by simpa using h1) (by simpa using h2)]
    exact ⟨regionIn_reverse h.2, h.1, trivial⟩
  | [], [], _ :: _, h => h.elim
  | [], _ :: _, _, h => h.elim
  | _ :: _, [], _, h => h.elim
  | _ :: _, _ :: _, [], h => h.elim

theorem regionIn_reverse_iff {a b c : List Nat} : RegionIn a.reverse b.reverse c.reverse ↔ RegionIn a b c :=
  ⟨fun h => by simpa using regionIn_reverse h, regionIn_reverse⟩

/-- A slice along the unlimited dimension is within the variable if its position is. -/
theorem fits_slice {f : NcFile A} {k : Nat} : ∀ {ids : List Nat},
    (RegionIn (ids.map fun i => ((f.dims[i]?).map (·.len)).getD 0) (ids.map fun i => if recordDim f = some i then k else 0)
      (ids.map fun i => if recordDim f = some i then 1 else ((f.dims[i]?).map (·.len)).getD 0) ↔ PositionIn f ids k)
  | [] => by simp [RegionIn, PositionIn]
  | i :: ids => by
    simp only [List.map_cons, RegionIn]
    rw [fits_slice]
    simp only [PositionIn, List.forall_mem_cons]
    constructor
    · rintro ⟨h1, h2⟩
      refine ⟨fun h => ?_, h2⟩
      simp only [h, if_true] at h1
      omega
    · rintro ⟨h1, h2⟩
      refine ⟨?_, h2⟩
      split
      · rename_i h
        have := h1 h
        omega
      · omega

theorem place_slice {f : NcFile A} {k : Nat} : ∀ {ids j : List Nat},
    InShape (ids.map fun i => if recordDim f = some i then 1 else ((f.dims[i]?).map (·.len)).getD 0) j →
    List.zipWith (· + ·) (ids.map fun i => if recordDim f = some i then k else 0) j =
      List.zipWith (fun i x => if recordDim f = some i then k else x) ids j
  | [], [], _ => rfl
  | i :: ids, x :: j, h => by
    simp only [List.map_cons, List.zipWith_cons_cons, InShape] at h ⊢
    rw [place_slice h.2]
    congr 1
    split
    · rename_i hr
      rw [if_pos hr] at h
      omega
    · omega
  | [], _ :: _, h => h.elim
  | _ :: _, [], h => h.elim

theorem zipWith_reverse_swap {α β γ : Type} (g : α → β → γ) {a : List α} {b : List β} (h : a.length = b.length) :
    List.zipWith g a b.reverse = (List.zipWith g a.reverse b).reverse := by
  rw [List.reverse_zipWith (by simpa using h), List.reverse_reverse]

/-! ## Reading -/

/-- C92: the data at a position of the unlimited dimension is the hyper-rectangle of the file, in the order of the
dataset; positions that do not exist raise. -/
theorem C92_slice_partial {mem : FromMemory A} {f : NcFile A} {c : Ds A} (hf : ValidFile f) (hs : Serves f c) {nv : NcVar A}
    (hnv : nv ∈ f.vars) (hty : nv.ty ≠ .nat) (hrec : RecordFirst f nv.dims) (k : Nat) :
    (PositionIn f nv.dims k → readSlice mem c f nv.name k = .ok ⟨ncType2cdmDataType nv.ty,
      (cells (partLens f nv.dims)).map fun j => nv.cells (partPlace f nv.dims k j).reverse⟩) ∧
    (¬ PositionIn f nv.dims k → readSlice mem c f nv.name k = .throws) := by
  obtain ⟨id, hid⟩ := List.getElem?_of_mem hnv
  have hbase : readSlice mem c f nv.name k = (do
      let vals ← ncGetVara f id (nv.dims.map fun i => if recordDim f = some i then k else 0) (partLens f nv.dims).reverse
      .ok ⟨ncType2cdmDataType nv.ty, vals⟩) := by
    simp only [readSlice, getVariable_ok hf hs hnv, Res.ok_bind, cdmVar, fileVar_ok hf hid]
    have := sliceBounds_ok hf hs hnv hrec k
    simp only [cdmVar] at this
    rw [this]
    simp only [Res.ok_bind, ncGetValues, hty, if_false]
  have hfit : fitsNow f.dims nv.dims (nv.dims.map fun i => if recordDim f = some i then k else 0) (partLens f nv.dims).reverse = true ↔
      PositionIn f nv.dims k := by
    rw [fitsNow_iff (hf.dims nv hnv), partLens, List.reverse_reverse, fits_slice]
  rw [hbase]
  constructor
  · intro hp
    simp only [ncGetVara, hid, hfit.2 hp, Bool.not_true, Bool.false_eq_true, if_false, Res.ok_bind, List.reverse_reverse]
    congr 2
    apply List.map_congr_left
    intro j hj
    have hin := mem_cells.1 hj
    have hin' : InShape (nv.dims.map fun i => if recordDim f = some i then 1 else ((f.dims[i]?).map (·.len)).getD 0) j.reverse := by
      have := inShape_reverse hin
      simpa [partLens] using this
    rw [place_slice hin', partPlace]
    congr 1
    refine zipWith_reverse_swap _ ?_
    have := hin.length_eq
    simpa [partLens] using this.symm
  · intro hp
    have : fitsNow f.dims nv.dims (nv.dims.map fun i => if recordDim f = some i then k else 0) (partLens f nv.dims).reverse = false := by
      rw [Bool.eq_false_iff]
      exact fun h => hp (hfit.1 h)
    simp only [ncGetVara, hid, this, Bool.not_false, if_true, Res.throws_bind]

/-- C92: a requested region of a variable with dimensions is the hyper-rectangle of the file; regions that are not
within the variable raise. -/
theorem C92_region_partial {mem : FromMemory A} {f : NcFile A} {c : Ds A} (hf : ValidFile f) (hs : Serves f c) {nv : NcVar A}
    (hnv : nv ∈ f.vars) (hty : nv.ty ≠ .nat) (hne : nv.dims ≠ []) {start size : List Nat}
    (h1 : start.length = nv.dims.length) (h2 : size.length = nv.dims.length) :
    (RegionIn (fullLens f nv.dims) start size → readRegion mem c f nv.name start size = .ok ⟨ncType2cdmDataType nv.ty,
      (cells size).map fun j => nv.cells (addIdx start j).reverse⟩) ∧
    (¬ RegionIn (fullLens f nv.dims) start size → readRegion mem c f nv.name start size = .throws) := by
  obtain ⟨id, hid⟩ := List.getElem?_of_mem hnv
  have hbase : readRegion mem c f nv.name start size = (do
      let vals ← ncGetVara f id start.reverse size.reverse
      .ok ⟨ncType2cdmDataType nv.ty, vals⟩) := by
    simp only [readRegion, getVariable_ok hf hs hnv, Res.ok_bind, cdmVar, fileVar_ok hf hid, requestBounds, h1, h2, hne,
      ne_eq, not_true_eq_false, or_self, if_false, ncGetValues, hty]
  have hfit : fitsNow f.dims nv.dims start.reverse size.reverse = true ↔ RegionIn (fullLens f nv.dims) start size := by
    rw [fitsNow_iff (hf.dims nv hnv), fullLens, ← regionIn_reverse_iff (b := start), List.reverse_reverse]
  rw [hbase]
  constructor
  · intro hp
    simp only [ncGetVara, hid, hfit.2 hp, Bool.not_true, Bool.false_eq_true, if_false, Res.ok_bind, List.reverse_reverse]
    congr 2
    apply List.map_congr_left
    intro j hj
    have hin := mem_cells.1 hj
    rw [addIdx, List.reverse_zipWith]
    rw [h1, ← h2, hin.length_eq]
  · intro hp
    have : fitsNow f.dims nv.dims start.reverse size.reverse = false := by
      rw [Bool.eq_false_iff]
      exact fun h => hp (hfit.1 h)
    simp only [ncGetVara, hid, this, Bool.not_false, if_true, Res.throws_bind]

/-- C92 is violated: a request for a variable without dimensions takes the address of the first element of an empty
array. -/
theorem C92_scalar_region {mem : FromMemory A} {f : NcFile A} {c : Ds A} (hf : ValidFile f) (hs : Serves f c) {nv : NcVar A}
    (hnv : nv ∈ f.vars) (hne : nv.dims = []) (start size : List Nat) : readRegion mem c f nv.name start size = .ub := by
  obtain ⟨id, hid⟩ := List.getElem?_of_mem hnv
  simp only [readRegion, getVariable_ok hf hs hnv, Res.ok_bind, cdmVar, fileVar_ok hf hid, requestBounds, hne,
      or_true, if_true, Res.ub_bind]

end Fimex.Netcdf
