import Verif.Netcdf.RoundTrip
import Verif.Netcdf.DataExamples

/-!
# Writing without configuration and reading again is the identity (C93)
-/

namespace Fimex.Netcdf

open Fimex.Cdm
open Fimex.Tables (DataType)

variable {A F U : Type}

/-! ## Specification -/

/-- The data of a reader at a position, `none` for variables without the unlimited dimension. -/
def Source.at (src : Source A) (p : Option Nat) (n : String) : Res (Option (Data A)) :=
  match p with
  | none => src.getData n
  | some k => src.getDataSlice n k

/-- The dimensions that some variable has, with at least one cell along each fixed one. -/
def usedDims (c : Ds A) : List Dim :=
  (c.dims.filter fun d => c.vars.any fun v => v.shape.contains d.name).map fun d =>
    { d with length := if d.unlimited then d.length else max 1 d.length }

/-- A position of a variable: along the unlimited dimension, if it has that. -/
def PositionOf (c : Ds A) (v : Var (Payload A)) (p : Option Nat) : Prop :=
  match p with
  | none => ∀ d ∈ c.dims, d.unlimited = true → d.name ∉ v.shape
  | some k => ∃ d ∈ c.dims, d.unlimited = true ∧ d.name ∈ v.shape ∧ k < d.length

/-- A dataset that can be written: it is well formed with at most one unlimited dimension, all shapes have
known dimensions, each at most once, with the unlimited one last, and variables have types. -/
structure Writable (c : Ds A) : Prop where
  inv : Inv c
  one : OneUnlimited c
  closed : ∀ v ∈ c.vars, ∀ n ∈ v.shape, hasDimension c n = true
  once : ∀ v ∈ c.vars, v.shape.Nodup
  last : ∀ v ∈ c.vars, UnlimitedLast c v
  typed : ∀ v ∈ c.vars, v.payload.ty ≠ .nat
  notGlobal : hasVariable c globalNS = false
  small : ∀ d ∈ c.dims, d.length < 2 ^ 31

/-- The reader delivers data of the type and size of the variable for all positions. -/
def Delivers (src : Source A) : Prop :=
  ∀ v p ds, v ∈ src.cdm.vars → PositionOf src.cdm v p → DimsOf src.cdm v.shape ds →
    ∃ d, src.at p v.name = .ok (some d) ∧ d.ty = v.payload.ty ∧ d.vals ≠ [] ∧ d.vals.length = (ds.map cellsAlong).prod

/-- The metadata of all variables can be read and is equal to itself (a fill value that is not a number is not). -/
def MetaReadable (O : Ops A F U) (c : Ds A) : Prop :=
  ∀ v ∈ c.vars, ∃ m, HasMeta O c v.name m ∧ O.differs m.fill m.fill = false ∧ O.differs m.scale m.scale = false ∧
    O.differs m.offset m.offset = false

/-! ## Lemmas -/

theorem hasMeta_congr {O : Ops A F U} {c c' : Ds A} {n : String} {m : Meta F} (hv : c'.vars = c.vars)
    (ha : getAttributes c' n = getAttributes c n) (h : HasMeta O c n m) : HasMeta O c' n m := by
  unfold HasMeta getUnits getFillValue getScaleFactor getAddOffset findAtt getVariable at *
  rw [hv, ha]
  exact h

theorem configure_nothing (O : Ops A F U) {c : Ds A} (hi : Inv c) : ∃ w, configure O {} c = .ok w ∧ Inv w.cdm ∧ w.cdm.vars = c.vars ∧
    w.cdm.dims = c.dims.filter (fun d => c.vars.any fun v => v.shape.contains d.name) ∧
    (∀ n, getAttributes w.cdm n = getAttributes c n) ∧ (∀ n, w.varNames n = none) ∧ (∀ n, w.dimNames n = none) ∧
    (∀ n, w.varTypes n = none) := by
  obtain ⟨c1, h1, v1, d1, a1, i1⟩ := C89_removed {} c
  have hv : keptVars {} c = c.vars := by
    unfold keptVars
    rw [List.filter_eq_self]
    intro v _
    rfl
  have hd : keptDims {} c = c.dims.filter (fun d => c.vars.any fun v => v.shape.contains d.name) := by
    unfold keptDims needed
    rw [hv]
    simp
  have ha : ∀ n, keptAtts {} c n = getAttributes c n := by
    intro n
    unfold keptAtts
    rw [if_neg (by simp), List.filter_eq_self]
    intro a _
    simp
  rw [hv] at v1
  rw [hd] at d1
  simp only [configure, h1, Res.ok_bind, initFillRenameVariable, renameVars, retypeVars, initFillRenameDimension,
    initFillRenameAttribute]
  exact ⟨_, rfl, i1 hi, v1, d1, fun n => (a1 n).trans (ha n), fun _ => rfl, fun _ => rfl, fun _ => rfl⟩

theorem dimsOf_names {c : Ds A} : ∀ {shape : List String} {ds : List Dim}, DimsOf c shape ds → ds.map (·.name) = shape := by
  intro shape ds h
  induction h with
  | nil => rfl
  | cons a1 _ ih => rw [List.map_cons, ih, (getDimension_ok a1).2]

theorem dimsOf_sub {c c' : Ds A} (hi : Inv c) (hsub : ∀ d ∈ c'.dims, d ∈ c.dims) {shape : List String} {ds : List Dim}
    (h : DimsOf c' shape ds) : DimsOf c shape ds := by
  induction h with
  | nil => exact .nil
  | cons a1 _ ih =>
    obtain ⟨h1, h2⟩ := getDimension_ok a1
    refine .cons ?_ ih
    rename_i n l d ds' _
    unfold getDimension
    cases hf : c.dims.find? (fun e => e.name == n) with
    | none =>
      rw [List.find?_eq_none] at hf
      exact absurd (by simpa using h2) (hf d (hsub d h1))
    | some e =>
      have he := List.mem_of_find?_eq_some hf
      have hn := List.find?_some hf
      have : e = d := List.inj_on_of_nodup_map hi.dims he (hsub d h1) (by rw [h2]; simpa using hn)
      rw [this]

theorem dimsOf_of_closed {c : Ds A} : ∀ {shape : List String}, (∀ n ∈ shape, hasDimension c n = true) → ∃ ds, DimsOf c shape ds
  | [], _ => ⟨[], .nil⟩
  | n :: shape, h => by
    obtain ⟨ds, hds⟩ := dimsOf_of_closed fun m hm => h m (List.mem_cons_of_mem _ hm)
    have := h n List.mem_cons_self
    rw [hasDimension_iff] at this
    obtain ⟨d, hd, hn⟩ := List.mem_map.1 this
    cases hf : c.dims.find? (fun e => e.name == n) with
    | none =>
      rw [List.find?_eq_none] at hf
      exact absurd (by simpa using hn) (hf d hd)
    | some e =>
      refine ⟨e :: ds, .cons ?_ hds⟩
      unfold getDimension
      rw [hf]

/-- C93: a dataset written without configuration is the dataset read again: the variables, the dimensions they have,
the attributes that the format can hold and all data. -/
theorem C93_round_trip_partial {L : Lib A} {O : Ops A F U} {src : Source A} {version : Int} {keys : Ds A → List String}
    {order : Ds A → List (Step A)} {isZero : A → Bool} {mem : FromMemory A} {f : NcFile A}
    (hL : Accepts L) (hO : ∀ d : Data A, O.asType d.ty d = .ok d.vals)
    (hkeys : ∀ w, configure O {} src.cdm = .ok w → KeysOf w.cdm (keys w.cdm)) (horder : ∀ c, AllSteps c (order c))
    (hw : Writable src.cdm) (hm : MetaReadable O src.cdm) (hd : Delivers src)
    (h : write L O src {} version keys order = .ok f) :
    ∃ fm c, getFormat version none = .ok fm ∧ openFile isZero f = .ok c ∧
      c.vars = src.cdm.vars.map (fun v => { v with payload := { v.payload with mem := none } }) ∧
      c.dims = usedDims src.cdm ∧
      (∀ n, n = globalNS ∨ hasVariable src.cdm n = true → (∀ a ∈ getAttributes src.cdm n, Faithful isZero fm a) →
        getAttributes c n = getAttributes src.cdm n) ∧
      (∀ v ∈ src.cdm.vars, ∀ p k d, PositionOf src.cdm v p → (p = none ∨ p = some k) → src.at p v.name = .ok (some d) →
        readSlice mem c f v.name k = .ok d) := by
  obtain ⟨w, hcfg, winv, wvars, wdims, watts, wvn, wdn, wvt⟩ := configure_nothing O hw.inv
  have hsub : ∀ d ∈ w.cdm.dims, d ∈ src.cdm.dims := by
    intro d hd
    rw [wdims] at hd
    exact (List.mem_filter.1 hd).1
  have wone : OneUnlimited w.cdm := fun d e h1 h2 => hw.one d e (hsub d h1) (hsub e h2)
  have hvn : ∀ n, written w.varNames n = n := fun n => by unfold written; rw [wvn]; rfl
  have hdn : ∀ n, written w.dimNames n = n := fun n => by unfold written; rw [wdn]; rfl
  have hdt : ∀ v ∈ src.cdm.vars, definedType w v = v.payload.ty := by
    intro v hv
    unfold definedType
    rw [wvt]
    simp [hw.typed v hv]
  have hkept : ∀ v ∈ src.cdm.vars, ∀ d ∈ src.cdm.dims, d.name ∈ v.shape → d ∈ w.cdm.dims := by
    intro v hv d hd hn
    rw [wdims, List.mem_filter]
    refine ⟨hd, List.any_eq_true.2 ⟨v, hv, ?_⟩⟩
    simpa using hn
  have hclosed : ∀ v ∈ w.cdm.vars, ∃ ds, DimsOf w.cdm v.shape ds := by
    intro v hv
    rw [wvars] at hv
    apply dimsOf_of_closed
    intro n hn
    have := hw.closed v hv n hn
    rw [hasDimension_iff] at this ⊢
    obtain ⟨d, hd, hdn⟩ := List.mem_map.1 this
    exact List.mem_map.2 ⟨d, hkept v hv d hd (by rw [hdn]; exact hn), hdn⟩
  -- positions
  have hposTo : ∀ (v : Var (Payload A)) (p : Option Nat), v ∈ src.cdm.vars → p ∈ positions w.cdm → Due w.cdm p v → PositionOf src.cdm v p := by
    intro v p hv hp hdue
    have hiff := hasUnlimitedDim_iff wone (v := v)
    unfold Due at hdue
    cases p with
    | none =>
      intro d hd hu hn
      have := hiff.2 ⟨d, hkept v hv d hd hn, hu, hn⟩
      rw [this] at hdue
      cases hdue
    | some k =>
      obtain ⟨d, hd, hu, hn⟩ := hiff.1 hdue
      refine ⟨d, hsub d hd, hu, hn, ?_⟩
      unfold positions at hp
      rcases List.mem_cons.1 hp with hp | hp
      · cases hp
      cases hg : getUnlimitedDim w.cdm with
      | none => rw [hg] at hp; cases hp
      | some e =>
        rw [hg] at hp
        simp only [List.mem_map, List.mem_range, Option.some.injEq] at hp
        obtain ⟨k', hk, rfl⟩ := hp
        have he1 := List.mem_of_find?_eq_some hg
        have he2 := List.find?_some hg
        rw [wone d e hd he1 hu he2]
        exact hk
  have hposFrom : ∀ (v : Var (Payload A)) (p : Option Nat), v ∈ src.cdm.vars → PositionOf src.cdm v p → p ∈ positions w.cdm ∧ Due w.cdm p v := by
    intro v p hv hp
    have hiff := hasUnlimitedDim_iff wone (v := v)
    cases p with
    | none =>
      refine ⟨List.mem_cons_self, ?_⟩
      unfold Due
      rw [Option.isSome_none, Bool.eq_false_iff]
      intro hc
      obtain ⟨d, hd, hu, hn⟩ := hiff.1 hc
      exact hp d (hsub d hd) hu hn
    | some k =>
      obtain ⟨d, hd, hu, hn, hk⟩ := hp
      have hdw := hkept v hv d hd hn
      refine ⟨?_, hiff.2 ⟨d, hdw, hu, hn⟩⟩
      unfold positions
      refine List.mem_cons_of_mem _ ?_
      cases hg : getUnlimitedDim w.cdm with
      | none =>
        unfold getUnlimitedDim at hg
        rw [List.find?_eq_none] at hg
        exact absurd hu (hg d hdw)
      | some e =>
        have he1 := List.mem_of_find?_eq_some hg
        have he2 := List.find?_some hg
        have : d = e := wone d e hdw he1 hu he2
        subst this
        simp [hk]
  -- what is supplied
  let s : Option Nat → Var (Payload A) → Option (List A) := fun p v =>
    match src.at p v.name with
    | .ok (some d) => some d.vals
    | _ => none
  have hsup : ∀ p v ds, p ∈ positions w.cdm → v ∈ w.cdm.vars → Due w.cdm p v → DimsOf w.cdm v.shape ds →
      ∃ d, src.at p v.name = .ok (some d) ∧ d.ty = v.payload.ty ∧ d.vals ≠ [] ∧ d.vals.length = (ds.map cellsAlong).prod := by
    intro p v ds hp hv hdue hds
    rw [wvars] at hv
    exact hd v p ds hv (hposTo v p hv hp hdue) (dimsOf_sub hw.inv hsub hds)
  unfold write at h
  obtain ⟨fm, hfm, h⟩ := Res.bind_eq_ok.1 h
  simp only [hcfg, Res.ok_bind] at h
  obtain ⟨⟨f0, ids⟩, hdef, h⟩ := Res.bind_eq_ok.1 h
  have hglob : hasVariable w.cdm globalNS = false := by
    have := hw.notGlobal
    unfold hasVariable at this ⊢
    rw [wvars]
    exact this
  obtain ⟨f', hwd, hcomp⟩ := C91_data_written_partial (s := s) (src := src) (steps := order w.cdm) hL winv (hkeys w hcfg) hglob wone
    (fun d _ _ => hdn d.name) (fun d hd => hw.small d (hsub d hd)) (fun v hv => hw.once v (by rwa [wvars] at hv)) hdef
    (horder _) (by
      intro p v ds hp hv hdue hds
      obtain ⟨d, h1, h2, h3, h4⟩ := hsup p v ds hp hv hdue hds
      rw [wvars] at hv
      refine ⟨hw.typed v hv, some d, some d, h1, ?_, .inl ⟨d, d.vals, rfl, h3, h4, ?_, h4, ?_⟩⟩
      · obtain ⟨m, hm1, hm2, hm3, hm4⟩ := hm v hv
        exact C91_unchanged hm1 (hasMeta_congr wvars (watts _) hm1) rfl hm2 hm3 hm4 (.inl (wvt _))
      · rw [type_round_trip, ← h2]
        exact hO d
      · show (match src.at p v.name with
          | .ok (some d) => some d.vals
          | _ => none) = some d.vals
        rw [h1])
  rw [h] at hwd
  injection hwd with hwd
  subst hwd
  obtain ⟨c, hc1, ⟨n, hn, hc2⟩, hc3, hc4, hc5, hc6⟩ := C93_reread_partial (isZero := isZero) (mem := mem) hcomp winv wone hclosed
    (by
      intro p v ds vals hp hv hdue hds hsv
      obtain ⟨d, h1, -, -, h4⟩ := hsup p v ds hp hv hdue hds
      have : s p v = some d.vals := by
        show (match src.at p v.name with
          | .ok (some d) => some d.vals
          | _ => none) = some d.vals
        rw [h1]
      rw [this] at hsv
      injection hsv with hsv
      rw [← hsv]
      exact h4)
    (by
      intro v hv hc
      rw [hvn] at hc
      have := hw.notGlobal
      rw [Bool.eq_false_iff] at this
      apply this
      rw [hasVariable_iff, ← hc]
      rw [wvars] at hv
      exact List.mem_map_of_mem hv)
  refine ⟨fm, c, hfm, hc1, ?_, ?_, ?_, ?_⟩
  · rw [hc3, wvars]
    apply List.map_congr_left
    intro v hv
    rw [hvn, hdt v hv]
    have : v.shape.map (written w.dimNames) = v.shape := by
      rw [show written w.dimNames = id from funext hdn, List.map_id]
    rw [this]
  · rw [hc2, wdims]
    unfold usedDims
    apply List.map_congr_left
    intro d hdm
    rw [hdn]
    cases hu : d.unlimited with
    | false => rfl
    | true =>
      simp only [if_true]
      congr 1
      -- the number of records is the length
      obtain ⟨hdm1, hdm2⟩ := List.mem_filter.1 hdm
      obtain ⟨v, hv, hvd⟩ := List.any_eq_true.1 hdm2
      have hvd' : d.name ∈ v.shape := by simpa using hvd
      have hall : ∀ k, k < d.length → k < n := by
        intro k hk
        obtain ⟨hp, hdue⟩ := hposFrom v (some k) hv ⟨d, hdm1, hu, hvd', hk⟩
        obtain ⟨ds, hds⟩ := hclosed v (by rw [wvars]; exact hv)
        obtain ⟨e, h1, -⟩ := hsup (some k) v ds hp (by rw [wvars]; exact hv) hdue hds
        refine hn.1 k v hp (by rw [wvars]; exact hv) hdue ?_
        show (match src.at (some k) v.name with
          | .ok (some d) => some d.vals
          | _ => none) ≠ none
        rw [h1]
        simp
      have hle : n ≤ d.length := by
        rcases hn.2 with h0 | ⟨p, v', hp, hv', hun, -, rfl⟩
        · omega
        · rw [wvars] at hv'
          obtain ⟨e, he, heu, -, hk⟩ := hposTo v' (some p) hv' hp hun
          have : e = d := hw.one e d he hdm1 heu hu
          subst this
          omega
      by_contra hne
      have := hall n (by omega)
      omega
  · intro m hmn hfaith
    have hfaith' : ∀ a ∈ getAttributes w.cdm m, Faithful isZero fm a := by
      rw [watts]
      exact hfaith
    rcases hmn with rfl | hmn
    · rw [hc5 hfaith', watts]
    · rw [hasVariable_iff] at hmn
      obtain ⟨v, hv, rfl⟩ := List.mem_map.1 hmn
      have := hc4 v (by rw [wvars]; exact hv) hfaith'
      rw [hvn, watts] at this
      exact this
  · intro v hv p k d hp hpk hsrc
    obtain ⟨hpp, hdue⟩ := hposFrom v p hv hp
    obtain ⟨ds, hds⟩ := hclosed v (by rw [wvars]; exact hv)
    obtain ⟨d', h1, h2, -, -⟩ := hsup p v ds hpp (by rw [wvars]; exact hv) hdue hds
    rw [hsrc] at h1
    injection h1 with h1
    injection h1 with h1
    subst h1
    have := hc6 v (by rw [wvars]; exact hv) (fun e he => hw.last v hv e (hsub e he)) p d.vals k hpp hdue (by
      show (match src.at p v.name with
          | .ok (some d) => some d.vals
          | _ => none) = some d.vals
      rw [hsrc]) hpk
    rw [hvn, hdt v hv, ← h2] at this
    exact this

/-! ## The hypotheses can be met -/

theorem toyWritable : Writable toyDs where
  inv := toyInv
  one := toyOne
  closed := by decide +kernel
  once := by decide +kernel
  last := by
    intro v hv d hd
    simp only [toyDs, List.mem_cons, List.not_mem_nil, or_false] at hv hd
    rcases hv with rfl | rfl <;> rcases hd with rfl | rfl <;> decide +kernel
  typed := by decide +kernel
  notGlobal := by decide +kernel
  small := by decide +kernel

theorem toyReadable : MetaReadable toyOps toyDs := by
  intro v hv
  simp only [toyDs, List.mem_cons, List.not_mem_nil, or_false] at hv
  rcases hv with rfl | rfl
  · exact ⟨_, toyMeta "x" (.inl rfl), rfl, rfl, rfl⟩
  · exact ⟨_, toyMeta "t" (.inr rfl), rfl, rfl, rfl⟩

theorem toyDelivers : Delivers toySrc := by
  intro v p ds hv hp hds
  have e1 : getDimension toyDs "x" = .ok ⟨"x", 2, false⟩ := by decide +kernel
  have e2 : getDimension toyDs "time" = .ok ⟨"time", 2, true⟩ := by decide +kernel
  simp only [toySrc, toyDs, List.mem_cons, List.not_mem_nil, or_false] at hv
  rcases hv with rfl | rfl
  · cases p with
    | some k =>
      obtain ⟨d, hd, hu, hn, -⟩ := hp
      simp only [toySrc, toyDs, List.mem_cons, List.not_mem_nil, or_false] at hd
      rcases hd with rfl | rfl
      · cases hu
      · exact absurd hn (by decide +kernel)
    | none =>
      cases hds with
      | cons h1 h2 =>
        cases h2
        rw [show getDimension toySrc.cdm "x" = getDimension toyDs "x" from rfl, e1] at h1
        cases h1
        exact ⟨_, rfl, rfl, by simp, rfl⟩
  · cases p with
    | none => exact absurd (by decide +kernel) (hp ⟨"time", 2, true⟩ (by decide +kernel) rfl)
    | some k =>
      cases hds with
      | cons h1 h2 =>
        cases h2 with
        | cons h2 h3 =>
          cases h3
          rw [show getDimension toySrc.cdm "x" = getDimension toyDs "x" from rfl, e1] at h1
          rw [show getDimension toySrc.cdm "time" = getDimension toyDs "time" from rfl, e2] at h2
          cases h1
          cases h2
          exact ⟨_, rfl, rfl, by simp, rfl⟩

/-- C93 is about something: the toy dataset is written and read again. -/
example : ∃ f c, write toyLib toyOps toySrc {} 3 (fun _ => []) sequential = .ok f ∧ openFile (fun a => a == 0) f = .ok c ∧
    readSlice (fun d => .ok d) c f "t" 1 = .ok ⟨.double, [100, 101]⟩ ∧ readSlice (fun d => .ok d) c f "x" 7 = .ok ⟨.int, [10, 20]⟩ := by
  obtain ⟨f, hf⟩ : ∃ f, write toyLib toyOps toySrc {} 3 (fun _ => []) sequential = .ok f := ⟨_, rfl⟩
  obtain ⟨fm, c, -, h2, -, -, -, h6⟩ := C93_round_trip_partial (isZero := fun a => a == 0) (mem := fun d => .ok d)
    ⟨fun _ _ _ _ => rfl, fun _ => rfl⟩ (fun _ => rfl)
    (by
      intro w hw
      refine ⟨List.nodup_nil, fun n => ?_⟩
      have hnone : w.cdm.attrs n = none := by
        cases hw
        rfl
      simp [hnone])
    sequential_allSteps toyWritable toyReadable toyDelivers hf
  exact ⟨f, c, hf, h2,
    h6 ⟨"t", ["x", "time"], ⟨.double, none⟩⟩ (by simp [toySrc, toyDs]) (some 1) 1 _
      ⟨⟨"time", 2, true⟩, by simp [toySrc, toyDs], rfl, by decide +kernel, by decide⟩ (.inr rfl) rfl,
    h6 ⟨"x", ["x"], ⟨.int, none⟩⟩ (by simp [toySrc, toyDs]) none 7 _
      (by intro d hd hu
          simp only [toySrc, toyDs, List.mem_cons, List.not_mem_nil, or_false] at hd
          rcases hd with rfl | rfl
          · cases hu
          · decide +kernel) (.inl rfl) rfl⟩

/-! ## What is violated -/

/-- C92 is violated: the unlimited dimension is looked for at the slowest place.  In this file of the netCDF-4 format the
variable has the slowest dimension x and the fastest time; the value at position 1 in time should be that of x 0 and 1. -/
def timeFastest : NcFile Nat :=
  ⟨.netcdf4, [⟨"x", 2, false⟩, ⟨"time", 3, true⟩], [⟨"t", .int, [0, 1], [], none, none, fun l => 10 * l.headD 0 + l.getLastD 0⟩], []⟩

theorem C92_record_not_first : (do
    let c ← openFile (fun a => a == 0) timeFastest
    readSlice (fun d => .ok d) c timeFastest "t" 1) = .ok ⟨.int, [10, 11, 12]⟩ ∧
    ((cells (partLens timeFastest [0, 1])).map fun j => (10 * (partPlace timeFastest [0, 1] 1 j).reverse.headD 0 +
      (partPlace timeFastest [0, 1] 1 j).reverse.getLastD 0)) = [1, 11] := by decide +kernel

/-- C92 is violated: after data has been put behind the end, the dataset still has the old length. -/
theorem C92_length_not_updated : (match (do
    let c ← openFile (fun a => a == 0) ⟨.classic, [⟨"time", 1, true⟩], [⟨"t", .int, [0], [], none, none, fun _ => (5 : Int)⟩], []⟩
    putSlice toyLib toyOps c ⟨.classic, [⟨"time", 1, true⟩], [⟨"t", .int, [0], [], none, none, fun _ => (5 : Int)⟩], []⟩ "t" 3 (some ⟨.int, [8]⟩) : Res (Ds Int × NcFile Int)) with
    | .ok (c, f) => (c.dims.map (·.length), f.dims.map (·.len), [[0], [3]].map ((f.vars.map (·.cells)).headD fun _ => 0))
    | _ => ([], [], [])) = ([1], [4], [5, 8]) := by decide +kernel

end Fimex.Netcdf
