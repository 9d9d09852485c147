import Verif.Netcdf.DataProps
import Verif.Netcdf.ConfigProps
import Verif.Netcdf.PutData

/-!
# Reading a written file (C93)
-/

namespace Fimex.Netcdf

open Fimex.Cdm
open Fimex.Tables (DataType)

variable {A F U : Type}

/-! ## Specification -/

/-- An attribute that a file of the format can hold unchanged. -/
def Faithful (isZero : A → Bool) (fm : Format) (a : Attr (Data A)) : Prop :=
  a.value.ty ≠ .nat ∧ (a.value.ty = .strings → fm = .netcdf4) ∧
  (a.value.ty = .string → ∀ z, a.value.vals.getLast? = some z → isZero z = false)

/-- The unlimited dimension is the slowest one of the variable. -/
def UnlimitedLast (c : Ds A) (v : Var (Payload A)) : Prop :=
  ∀ d ∈ c.dims, d.unlimited = true → d.name ∉ v.shape.dropLast

/-! ## Lemmas -/

theorem type_round_trip : ∀ t : DataType, ncType2cdmDataType (cdmDataType2ncType t) = t := by
  intro t
  cases t <;> rfl

theorem attToNc_faithful {O : Ops A F U} {fm : Format} {isZero : A → Bool} {a : Attr (Data A)} {n : NcAtt A}
    (h : attToNc O fm a = .ok n) (hf : Faithful isZero fm a) : (⟨n.name, ncGetAttValues isZero n⟩ : Attr (Data A)) = a := by
  obtain ⟨an, ⟨t, vals⟩⟩ := a
  obtain ⟨h1, h2, h3⟩ := hf
  unfold attToNc at h
  cases t <;> simp only at h h1 h2 h3
  case string =>
    injection h with h
    subst h
    simp only [ncGetAttValues]
    cases hl : vals.getLast? with
    | none =>
      have : vals = [] := by simpa using hl
      rw [this]
    | some z => simp [h3 trivial z hl]
  case strings =>
    simp only [h2 trivial, if_true] at h
    injection h with h
    subst h
    rfl
  case nat => exact absurd rfl h1
  all_goals
    injection h with h
    subst h
    rfl

theorem attsOf_names {O : Ops A F U} {fm : Format} : ∀ {as : List (Attr (Data A))} {ns : List (NcAtt A)}, AttsOf O fm as ns →
    ns.map (·.name) = as.map (·.name) := by
  intro as ns h
  unfold AttsOf at h
  induction h with
  | nil => rfl
  | cons h1 _ ih => simp only [List.map_cons, ih, attToNc_name h1]

theorem attsOf_faithful {O : Ops A F U} {fm : Format} {isZero : A → Bool} {as : List (Attr (Data A))} {ns : List (NcAtt A)}
    (h : AttsOf O fm as ns) (hf : ∀ a ∈ as, Faithful isZero fm a) : cdmAtts isZero ns = as := by
  unfold AttsOf at h
  unfold cdmAtts
  induction h with
  | nil => rfl
  | cons h1 _ ih =>
    rw [List.map_cons, ih fun a ha => hf a (List.mem_cons_of_mem _ ha), attToNc_faithful h1 (hf _ List.mem_cons_self)]

theorem getDimension_at {c : Ds A} (hinv : Inv c) {n : String} {d e : Dim} {i : Nat} (h : getDimension c n = .ok d)
    (hi : c.dims[i]? = some e) (hn : e.name = n) : e = d := by
  obtain ⟨hm, hd⟩ := getDimension_ok h
  exact List.inj_on_of_nodup_map hinv.dims (List.mem_of_getElem? hi) hm (hn.trans hd.symm)

theorem dimIds_dims {c : Ds A} (hinv : Inv c) : ∀ {shape : List String} {is : List Nat} {ds : List Dim},
    List.Forall₂ (fun n i => ∃ d, c.dims[i]? = some d ∧ d.name = n) shape is → DimsOf c shape ds →
    List.Forall₂ (fun i d => c.dims[i]? = some d) is ds
  | [], _, _, h, hd => by
    cases h
    cases hd
    exact .nil
  | n :: shape, _, _, h, hd => by
    cases h with
    | cons h1 h2 =>
      cases hd with
      | cons e1 e2 =>
        obtain ⟨d, a1, a2⟩ := h1
        have := getDimension_at hinv e1 a1 a2
        subst this
        exact .cons a1 (dimIds_dims hinv h2 e2)

theorem exists_dimsOf {c : Ds A} (hinv : Inv c) : ∀ {shape : List String} {is : List Nat},
    List.Forall₂ (fun n i => ∃ d, c.dims[i]? = some d ∧ d.name = n) shape is → ∃ ds, DimsOf c shape ds
  | [], _, _ => ⟨[], .nil⟩
  | n :: shape, _, h => by
    cases h with
    | cons h1 h2 =>
      obtain ⟨d, a1, a2⟩ := h1
      obtain ⟨ds, hds⟩ := exists_dimsOf hinv h2
      refine ⟨d :: ds, .cons ?_ hds⟩
      unfold getDimension
      cases hf : c.dims.find? (fun e => e.name == n) with
      | none =>
        rw [List.find?_eq_none] at hf
        exact absurd (by simpa using a2) (hf d (List.mem_of_getElem? a1))
      | some e =>
        have he := List.mem_of_find?_eq_some hf
        have hn := List.find?_some hf
        have : e = d := List.inj_on_of_nodup_map hinv.dims he (List.mem_of_getElem? a1) (by
          rw [a2]; simpa using hn)
        rw [this]

section Reread

variable {L : Lib A} {O : Ops A F U} {w : Writer A} {s : Option Nat → Var (Payload A) → Option (List A)} {fm : Format} {f : NcFile A}

theorem Complete.dimAt (h : Complete L O w s fm f) : ∃ n, Records w.cdm s n ∧ ∀ i : Nat, f.dims[i]? = (w.cdm.dims[i]?).map fun d =>
    ⟨written w.dimNames d.name, if d.unlimited then n else max 1 d.length, d.unlimited⟩ := by
  obtain ⟨n, hr, hd⟩ := h.dims
  exact ⟨n, hr, fun i => by rw [hd, List.getElem?_map]⟩

theorem Complete.unlimited (h : Complete L O w s fm f) : f.dims.map (·.unlimited) = w.cdm.dims.map (·.unlimited) := by
  obtain ⟨n, -, hd⟩ := h.dims
  rw [hd, List.map_map]
  rfl

/-- The dimension the library calls unlimited. -/
theorem Complete.record (h : Complete L O w s fm f) (hinv : Inv w.cdm) (hone : OneUnlimited w.cdm) {i : Nat} {d : Dim} (hi : w.cdm.dims[i]? = some d) :
    recordDim f = some i ↔ d.unlimited = true := by
  obtain ⟨n, -, hd⟩ := h.dimAt
  have hfi := hd i
  rw [hi, Option.map_some] at hfi
  obtain ⟨hlt, hget⟩ := List.getElem?_eq_some_iff.1 hfi
  unfold recordDim
  rw [List.findIdx?_eq_some_iff_getElem]
  constructor
  · rintro ⟨h1, h2, -⟩
    rw [hget] at h2
    exact h2
  · intro hu
    refine ⟨hlt, by rw [hget]; exact hu, ?_⟩
    intro j hj hc
    have hjl : j < f.dims.length := by omega
    have hfj := hd j
    cases hw : w.cdm.dims[j]? with
    | none =>
      rw [hw, Option.map_none, List.getElem?_eq_getElem hjl] at hfj
      cases hfj
    | some e =>
      rw [hw, Option.map_some, List.getElem?_eq_getElem hjl] at hfj
      injection hfj with hfj
      rw [hfj] at hc
      have : e = d := hone e d (List.mem_of_getElem? hw) (List.mem_of_getElem? hi) hc hu
      subst this
      obtain ⟨l1, e1⟩ := List.getElem?_eq_some_iff.1 hw
      obtain ⟨l2, e2⟩ := List.getElem?_eq_some_iff.1 hi
      have hn := hinv.dims
      rw [List.nodup_iff_injective_getElem] at hn
      have := @hn ⟨j, by simpa using l1⟩ ⟨i, by simpa using l2⟩ (by simp [e1, e2])
      simp at this
      omega

theorem Complete.valid (h : Complete L O w s fm f) (hinv : Inv w.cdm)
    (hclosed : ∀ v ∈ w.cdm.vars, ∃ ds, DimsOf w.cdm v.shape ds) : ValidFile f := by
  obtain ⟨n, -, hd⟩ := h.dimAt
  have hvar : ∀ nv ∈ f.vars, ∃ (v : Var (Payload A)) (ds : List Dim), v ∈ w.cdm.vars ∧ DimsOf w.cdm v.shape ds ∧
      DimIds w.cdm v.shape nv.dims ∧ AttsOf O fm (getAttributes w.cdm v.name) nv.atts := by
    intro nv hnv
    obtain ⟨i, hi⟩ := List.getElem?_of_mem hnv
    have hlt := (List.getElem?_eq_some_iff.1 hi).1
    rw [h.len] at hlt
    obtain ⟨ds, hds⟩ := hclosed _ (List.getElem_mem hlt)
    obtain ⟨nv', h1, -, -, -, h2, h3, -⟩ := h.vars i _ ds (List.getElem?_eq_getElem hlt) hds
    rw [hi] at h1
    injection h1 with h1
    subst h1
    exact ⟨_, ds, List.getElem_mem hlt, hds, h2, h3⟩
  refine ⟨h.dimNames, h.varNames, ?_, ?_, ?_⟩
  · intro nv hnv i hi
    obtain ⟨v, ds, hv, hds, h1, -⟩ := hvar nv hnv
    have := dimIds_dims hinv h1 hds
    obtain ⟨d, hd'⟩ : ∃ d, w.cdm.dims[i]? = some d := by
      have hi' : i ∈ nv.dims.reverse := by simpa using hi
      revert hi'
      generalize nv.dims.reverse = is at this
      clear * - this
      intro hi'
      induction this with
      | nil => cases hi'
      | cons a1 _ ih =>
        rcases List.mem_cons.1 hi' with rfl | hi'
        · exact ⟨_, a1⟩
        · exact ih hi'
    have := hd i
    rw [hd', Option.map_some] at this
    exact (List.getElem?_eq_some_iff.1 this).1
  · intro nv hnv
    obtain ⟨v, ds, hv, hds, -, h2⟩ := hvar nv hnv
    rw [attsOf_names h2]
    exact nodup_getAttributes _ hinv _
  · rw [attsOf_names h.gatts]
    exact nodup_getAttributes _ hinv _

/-- The names of the dimensions of a variable. -/
theorem Complete.shapeNames (h : Complete L O w s fm f) {v : Var (Payload A)} {nv : NcVar A} (hids : DimIds w.cdm v.shape nv.dims) :
    shapeNames f nv = v.shape.map (written w.dimNames) := by
  obtain ⟨n, -, hd⟩ := h.dimAt
  unfold Fimex.Netcdf.shapeNames
  rw [← List.filterMap_reverse]
  unfold DimIds at hids
  generalize nv.dims.reverse = is at hids
  generalize v.shape = sh at hids
  induction hids with
  | nil => rfl
  | cons h1 _ ih =>
    obtain ⟨d, a1, a2⟩ := h1
    rw [List.filterMap_cons, hd, a1]
    simp only [Option.map_some, List.map_cons, ih, a2]

theorem Complete.opened (h : Complete L O w s fm f)
    (hclosed : ∀ v ∈ w.cdm.vars, ∃ ds, DimsOf w.cdm v.shape ds) : f.vars.map (cdmVar f) = w.cdm.vars.map fun v =>
      (⟨written w.varNames v.name, v.shape.map (written w.dimNames), ⟨definedType w v, none⟩⟩ : Var (Payload A)) := by
  apply List.ext_getElem?
  intro i
  rw [List.getElem?_map, List.getElem?_map]
  cases hv : w.cdm.vars[i]? with
  | none =>
    have : f.vars[i]? = none := by
      rw [List.getElem?_eq_none_iff] at hv ⊢
      rw [h.len]
      exact hv
    rw [this]
    rfl
  | some v =>
    obtain ⟨ds, hds⟩ := hclosed v (List.mem_of_getElem? hv)
    obtain ⟨nv, h1, h2, h3, -, h5, -, -⟩ := h.vars i v ds hv hds
    rw [h1]
    simp only [Option.map_some, Option.some.injEq]
    unfold cdmVar
    rw [h.shapeNames h5, h2, h3, type_round_trip]

/-- The part of a variable at a position. -/
theorem Complete.part (h : Complete L O w s fm f) (hinv : Inv w.cdm) (hone : OneUnlimited w.cdm) {ids : List Nat} {ds : List Dim}
    (hids : List.Forall₂ (fun i d => w.cdm.dims[i]? = some d) ids.reverse ds) :
    partLens f ids = ds.map cellsAlong ∧ ∀ k j, partPlace f ids k j = placeAt (some k) ds j := by
  obtain ⟨n, -, hd⟩ := h.dimAt
  unfold partLens partPlace placeAt
  rw [← List.map_reverse]
  revert hids
  generalize ids.reverse = is
  intro hids
  induction hids with
  | nil => exact ⟨rfl, fun k j => rfl⟩
  | cons a1 _ ih =>
    rename_i i d is' ds' _
    have hr := h.record hinv hone a1
    constructor
    · simp only [List.map_cons]
      rw [ih.1, hd, a1]
      congr 1
      simp only [Option.map_some, Option.getD_some, cellsAlong]
      by_cases hu : d.unlimited = true
      · rw [if_pos (hr.2 hu), if_pos hu]
      · rw [if_neg (fun hc => hu (hr.1 hc)), if_neg hu, if_neg hu]
    · intro k j
      cases j with
      | nil => rfl
      | cons x j =>
        simp only [List.zipWith_cons_cons, ih.2, Option.getD_some]
        congr 1
        by_cases hu : d.unlimited = true
        · rw [if_pos (hr.2 hu), if_pos hu]
        · rw [if_neg (fun hc => hu (hr.1 hc)), if_neg hu]

end Reread

/-- C93: the file read again has the dimensions and variables of the dataset it was written from under their names in
the file, the attributes that the format can hold, and at each position the values that were written there. -/
theorem C93_reread_partial {L : Lib A} {O : Ops A F U} {w : Writer A} {s : Option Nat → Var (Payload A) → Option (List A)}
    {fm : Format} {f : NcFile A} {isZero : A → Bool} {mem : FromMemory A} (h : Complete L O w s fm f) (hinv : Inv w.cdm)
    (hone : OneUnlimited w.cdm) (hclosed : ∀ v ∈ w.cdm.vars, ∃ ds, DimsOf w.cdm v.shape ds)
    (hsup : ∀ p v ds vals, p ∈ positions w.cdm → v ∈ w.cdm.vars → Due w.cdm p v → DimsOf w.cdm v.shape ds → s p v = some vals →
      vals.length = (ds.map cellsAlong).prod)
    (hglob : ∀ v ∈ w.cdm.vars, written w.varNames v.name ≠ globalNS) :
    ∃ c, openFile isZero f = .ok c ∧
      (∃ n, Records w.cdm s n ∧ c.dims = w.cdm.dims.map fun d =>
        ⟨written w.dimNames d.name, if d.unlimited then n else max 1 d.length, d.unlimited⟩) ∧
      c.vars = w.cdm.vars.map (fun v => ⟨written w.varNames v.name, v.shape.map (written w.dimNames), ⟨definedType w v, none⟩⟩) ∧
      (∀ v ∈ w.cdm.vars, (∀ a ∈ getAttributes w.cdm v.name, Faithful isZero fm a) →
        getAttributes c (written w.varNames v.name) = getAttributes w.cdm v.name) ∧
      ((∀ a ∈ getAttributes w.cdm globalNS, Faithful isZero fm a) → getAttributes c globalNS = getAttributes w.cdm globalNS) ∧
      (∀ v ∈ w.cdm.vars, UnlimitedLast w.cdm v → ∀ p vals k, p ∈ positions w.cdm → Due w.cdm p v → s p v = some vals →
        (p = none ∨ p = some k) → readSlice mem c f (written w.varNames v.name) k = .ok ⟨definedType w v, vals⟩) := by
  have hvalid := h.valid hinv hclosed
  have hmem : ∀ v ∈ w.cdm.vars, ∃ (i : Nat) (ds : List Dim) (nv : NcVar A), w.cdm.vars[i]? = some v ∧ DimsOf w.cdm v.shape ds ∧ f.vars[i]? = some nv ∧
    nv.name = written w.varNames v.name ∧ nv.ty = cdmDataType2ncType (definedType w v) ∧ nv.ty ≠ .nat ∧
    DimIds w.cdm v.shape nv.dims ∧
    AttsOf O fm (getAttributes w.cdm v.name) nv.atts ∧ Holds L w.cdm s i v ds nv.cells := by
    intro v hv
    obtain ⟨i, hi⟩ := List.getElem?_of_mem hv
    obtain ⟨ds, hds⟩ := hclosed v hv
    obtain ⟨nv, hnv⟩ := h.vars i v ds hi hds
    exact ⟨i, ds, nv, hi, hds, hnv⟩
  have hg : globalNS ∉ f.vars.map (·.name) := by
    intro hc
    obtain ⟨nv, hnv, hn⟩ := List.mem_map.1 hc
    have : cdmVar f nv ∈ f.vars.map (cdmVar f) := List.mem_map_of_mem hnv
    rw [h.opened hclosed] at this
    obtain ⟨v, hv, he⟩ := List.mem_map.1 this
    have := congrArg Var.name he
    simp only [cdmVar] at this
    exact hglob v hv (this.trans hn)
  obtain ⟨c, h1, h2, h3, h4, h5, -⟩ := C92_opened isZero f hvalid hg
  have hs := serves_open hvalid hg h1
  refine ⟨c, h1, ?_, ?_, ?_, ?_, ?_⟩
  · obtain ⟨n, hr, hd⟩ := h.dims
    refine ⟨n, hr, ?_⟩
    rw [h2]
    apply List.ext_getElem?
    intro i
    unfold cdmDims
    rw [List.getElem?_mapIdx, List.getElem?_map]
    have hi : f.dims[i]? = (w.cdm.dims[i]?).map fun d =>
      (⟨written w.dimNames d.name, if d.unlimited then n else max 1 d.length, d.unlimited⟩ : NcDim) := by
      rw [hd, List.getElem?_map]
    rw [hi]
    cases hw : w.cdm.dims[i]? with
    | none => rfl
    | some d =>
      simp only [Option.map_some, Option.some.injEq, Dim.mk.injEq, true_and]
      have hr := h.record hinv hone hw
      unfold recordDim at hr
      rw [Bool.eq_iff_iff, decide_eq_true_eq]
      exact hr
  · rw [h3, h.opened hclosed]
  · intro v hv hfaith
    obtain ⟨i, ds, nv, hi, hds, hnv, hname, -, -, -, hatts, -⟩ := hmem v hv
    rw [← hname, h4 nv (List.mem_of_getElem? hnv)]
    exact attsOf_faithful hatts hfaith
  · intro hfaith
    rw [h5]
    exact attsOf_faithful h.gatts hfaith
  · intro v hv hlast p vals k hp hdue hsv hpk
    obtain ⟨i, ds, nv, hi, hds, hnv, hname, hty, hnat, hids, -, hholds⟩ := hmem v hv
    have hF := dimIds_dims hinv hids hds
    obtain ⟨hlens, hplace⟩ := h.part hinv hone hF
    have hdueiff := hasUnlimitedDim_iff hone (v := v)
    have hnvm := List.mem_of_getElem? hnv
    -- the ids of the unlimited dimension
    have hunl : ∀ x ∈ nv.dims, recordDim f = some x → ∃ d ∈ w.cdm.dims, w.cdm.dims[x]? = some d ∧ d.unlimited = true ∧ d.name ∈ v.shape := by
      intro x hx hr
      have hx' : x ∈ nv.dims.reverse := by simpa using hx
      obtain ⟨d, hd, hn⟩ : ∃ d, w.cdm.dims[x]? = some d ∧ d.name ∈ v.shape := by
        unfold DimIds at hids
        revert hx'
        generalize nv.dims.reverse = is at hids
        generalize v.shape = sh at hids
        clear * - hids
        intro hx'
        induction hids with
        | nil => cases hx'
        | cons a1 _ ih =>
          rcases List.mem_cons.1 hx' with rfl | hx'
          · obtain ⟨d, b1, b2⟩ := a1
            exact ⟨d, b1, by rw [b2]; exact List.mem_cons_self⟩
          · obtain ⟨d, b1, b2⟩ := ih hx'
            exact ⟨d, b1, List.mem_cons_of_mem _ b2⟩
      exact ⟨d, List.mem_of_getElem? hd, hd, (h.record hinv hone hd).1 hr, hn⟩
    have hrec : RecordFirst f nv.dims := by
      intro x hx hr
      obtain ⟨d, hdm, hd, hu, -⟩ := hunl x (List.mem_of_mem_tail hx) hr
      apply hlast d hdm hu
      have hx' : x ∈ nv.dims.reverse.dropLast := by
        rw [List.dropLast_reverse, List.mem_reverse]
        exact hx
      unfold DimIds at hids
      revert hx'
      generalize nv.dims.reverse = is at hids
      generalize v.shape = sh at hids
      clear * - hids hd
      intro hx'
      induction hids with
      | nil => cases hx'
      | cons a1 a2 ih =>
        cases a2 with
        | nil => simp at hx'
        | cons b1 b2 =>
          rw [List.dropLast_cons_cons] at hx' ⊢
          rcases List.mem_cons.1 hx' with rfl | hx'
          · obtain ⟨e, c1, c2⟩ := a1
            rw [hd] at c1
            injection c1 with c1
            rw [c1, c2]
            exact List.mem_cons_self
          · exact List.mem_cons_of_mem _ (ih hx')
    have hpos : PositionIn f nv.dims k := by
      intro x hx hr
      obtain ⟨d, hdm, hd, hu, hn⟩ := hunl x hx hr
      have hhas := hdueiff.2 ⟨d, hdm, hu, hn⟩
      have hpk' : p = some k := by
        rcases hpk with rfl | hpk
        · unfold Due at hdue
          rw [hhas] at hdue
          cases hdue
        · exact hpk
      subst hpk'
      obtain ⟨n, hrn, hdn⟩ := h.dimAt
      rw [hdn, hd]
      simp only [Option.map_some, Option.getD_some, hu, if_true]
      exact hrn.1 k v hp hv hhas (by rw [hsv]; simp)
    rw [← hname, (C92_slice_partial hvalid hs hnvm hnat hrec k).1 hpos, hty, type_round_trip]
    congr 2
    rw [hlens]
    refine map_cells_eq (hsup p v ds vals hp hv hdue hds hsv) ?_
    intro j hj
    rw [hholds.1 p vals hp hdue hsv j hj, hplace]
    congr 3
    rcases hpk with rfl | rfl
    · have hno : ∀ d ∈ ds, d.unlimited = false := by
        intro d hd
        cases hu : d.unlimited with
        | false => rfl
        | true =>
          exfalso
          have hdn : d.name ∈ v.shape := by
            clear * - hds hd
            generalize v.shape = sh at hds ⊢
            induction hds with
            | nil => cases hd
            | cons a1 _ ih =>
              rcases List.mem_cons.1 hd with rfl | hd
              · rw [(getDimension_ok a1).2]
                exact List.mem_cons_self
              · exact List.mem_cons_of_mem _ (ih hd)
          have := hdueiff.2 ⟨d, dimsOf_mem hds d hd, hu, hdn⟩
          unfold Due at hdue
          rw [this] at hdue
          cases hdue
      clear * - hno
      unfold placeAt
      induction ds generalizing j with
      | nil => rfl
      | cons d ds ih =>
        cases j with
        | nil => rfl
        | cons x j =>
          simp only [List.zipWith_cons_cons]
          rw [ih j fun e he => hno e (List.mem_cons_of_mem _ he)]
          simp [hno d List.mem_cons_self]
    · rfl

end Fimex.Netcdf
