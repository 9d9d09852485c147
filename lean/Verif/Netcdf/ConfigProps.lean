import Verif.Netcdf.Writer
import Verif.Cdm.Invariant
import Mathlib.Data.List.Nodup
import Mathlib.Tactic.Common

/-!
# The configuration of the netCDF writer (C89)
-/

namespace Fimex.Netcdf

open Fimex.Cdm
open Fimex.Tables (DataType)

variable {A F U : Type}

/-! ## Specification -/

/-- The last value given for a name. -/
def lastOf {α : Type} (l : List (String × α)) (n : String) : Option α :=
  ((l.filter fun p => p.1 == n).getLast?).map (·.2)

/-- The first value given for a name. -/
def firstOf {α : Type} (l : List (String × α)) (n : String) : Option α :=
  (l.find? fun p => p.1 == n).map (·.2)

/-- The variables that stay. -/
def keptVars (cfg : Config) (c : Ds A) : List (Var (Payload A)) := c.vars.filter fun v => !cfg.removeVars.contains v.name

/-- A dimension that a variable that stays has. -/
def needed (cfg : Config) (c : Ds A) (d : Dim) : Bool := (keptVars cfg c).any fun v => v.shape.contains d.name

/-- The dimensions that stay. -/
def keptDims (cfg : Config) (c : Ds A) : List Dim :=
  c.dims.filter fun d => needed cfg c d || (cfg.keepDims && !cfg.removeDims.contains d.name)

/-- The attributes that stay. -/
def keptAtts (cfg : Config) (c : Ds A) (n : String) : List (Attr (Data A)) :=
  if n ∈ cfg.removeVars then []
  else (getAttributes c n).filter fun a =>
    !(decide (n = globalNS) && cfg.removeAtts.contains a.name) && !cfg.removeVarAtts.contains (n, a.name)

/-- The type of a variable after the configuration. -/
def retyped (cfg : Config) (v : Var (Payload A)) : Var (Payload A) :=
  match lastOf cfg.varTypes v.name with
  | some t => { v with payload := { v.payload with ty := Tables.string2datatype t.toList } }
  | none => v

/-! ## Removing -/

theorem removeAtts_ok (n : String) : ∀ (l : List String) (c : Ds A),
    let c' := l.foldl (fun c a => removeAttribute c n a) c
    c'.vars = c.vars ∧ c'.dims = c.dims ∧ (Inv c → Inv c') ∧
      ∀ m, getAttributes c' m = (getAttributes c m).filter fun a => !(decide (m = n) && l.contains a.name)
  | [], c => by simp
  | a :: l, c => by
    obtain ⟨h1, h2, h3, h4⟩ := removeAtts_ok n l (removeAttribute c n a)
    refine ⟨h1, h2, fun hi => h3 ?_, ?_⟩
    · refine inv_setAttrs c hi n _ false ?_ ?_
      · intro hne
        apply hi.owners
        intro hc
        rw [hc] at hne
        exact hne rfl
      · intro x hx
        cases hc : c.attrs n with
        | none => rw [hc] at hx; cases hx
        | some y =>
          rw [hc] at hx
          injection hx with hx
          rw [← hx]
          exact nodup_filter_map _ _ (hi.attrNames n y hc)
    · intro m
      rw [List.foldl_cons, h4 m]
      have : getAttributes (removeAttribute c n a) m =
          (getAttributes c m).filter fun b => !(decide (m = n) && b.name == a) := by
        unfold removeAttribute getAttributes
        by_cases hm : m = n
        · subst hm
          cases c.attrs m <;> simp
        · simp [hm]
      rw [this, List.filter_filter]
      apply List.filter_congr
      intro b _
      by_cases hm : m = n
      · by_cases hb : b.name = a <;> simp [hm, hb]
      · simp [hm]

theorem removeVarAtts_ok : ∀ (l : List (String × String)) (c : Ds A),
    let c' := l.foldl (fun c p => removeAttribute c p.1 p.2) c
    c'.vars = c.vars ∧ c'.dims = c.dims ∧ (Inv c → Inv c') ∧
      ∀ m, getAttributes c' m = (getAttributes c m).filter fun a => !l.contains (m, a.name)
  | [], c => by simp
  | p :: l, c => by
    obtain ⟨e1, e2, e3, e4⟩ := removeAtts_ok p.1 [p.2] c
    simp only [List.foldl_cons, List.foldl_nil] at e1 e2 e3 e4
    obtain ⟨h1, h2, h3, h4⟩ := removeVarAtts_ok l (removeAttribute c p.1 p.2)
    refine ⟨by rw [List.foldl_cons, h1, e1], by rw [List.foldl_cons, h2, e2], fun hi => h3 (e3 hi), ?_⟩
    intro m
    rw [List.foldl_cons, h4 m, e4 m, List.filter_filter]
    apply List.filter_congr
    intro b _
    have : ((m, b.name) == p) = (decide (m = p.1) && b.name == p.2) := by
      obtain ⟨p1, p2⟩ := p
      rw [Bool.eq_iff_iff]
      simp
    simp only [List.contains_cons, this, List.contains_nil, Bool.or_false]
    cases decide (m = p.1) && b.name == p.2 <;> simp

theorem removeVars_ok : ∀ (l : List String) (c : Ds A),
    let c' := l.foldl removeVariable c
    c'.vars = c.vars.filter (fun v => !l.contains v.name) ∧ c'.dims = c.dims ∧ (Inv c → Inv c') ∧
      ∀ m, getAttributes c' m = if m ∈ l then [] else getAttributes c m
  | [], c => by simp
  | n :: l, c => by
    obtain ⟨h1, h2, h3, h4⟩ := removeVars_ok l (removeVariable c n)
    refine ⟨?_, by rw [List.foldl_cons, h2]; rfl, fun hi => h3 (inv_removeVariable c hi n), ?_⟩
    · rw [List.foldl_cons, h1]
      simp only [removeVariable, List.filter_filter]
      apply List.filter_congr
      intro v _
      simp only [List.contains_cons]
      cases v.name == n <;> simp
    · intro m
      rw [List.foldl_cons, h4 m]
      by_cases hm : m ∈ l
      · simp [hm]
      · by_cases hn : m = n
        · subst hn
          simp [hm, removeVariable, getAttributes]
        · simp [hm, hn, removeVariable, getAttributes]

theorem removeDims_ok : ∀ (l : List String) (c : Ds A), ∃ c', removeDims c l = .ok c' ∧ c'.vars = c.vars ∧
    c'.attrs = c.attrs ∧ (Inv c → Inv c') ∧
    c'.dims = c.dims.filter fun d => (c.vars.any fun v => v.shape.contains d.name) || !l.contains d.name
  | [], c => ⟨c, rfl, rfl, rfl, id, by simp⟩
  | n :: l, c => by
    simp only [removeDims]
    by_cases hu : testDimensionInUse c n = true
    · rw [if_pos hu]
      obtain ⟨c', h1, h2, h3, h4, h5⟩ := removeDims_ok l c
      refine ⟨c', h1, h2, h3, h4, ?_⟩
      rw [h5]
      apply List.filter_congr
      intro d _
      obtain ⟨-, v, hv, hs⟩ := (testDimensionInUse_iff c n).1 hu
      simp only [List.contains_cons]
      by_cases hd : d.name = n
      · have : (c.vars.any fun v => v.shape.contains d.name) = true := by
          rw [List.any_eq_true]
          exact ⟨v, hv, by rw [hd]; simpa using hs⟩
        rw [this]
        rfl
      · have : (d.name == n) = false := by simpa using hd
        rw [this, Bool.false_or]
    · rw [if_neg hu]
      have hu' : testDimensionInUse c n = false := by simpa using hu
      have hrem : ∃ b : Bool × Bool, removeDimension c n false =
          ({ c with dims := c.dims.filter (fun d => !(d.name == n)), coordsInitialized := b.1 }, .ok b.2) := by
        unfold removeDimension
        rw [hu']
        by_cases hh : hasDimension c n = true
        · exact ⟨(false, true), by simp [hh]⟩
        · refine ⟨(c.coordsInitialized, false), ?_⟩
          have hh' : hasDimension c n = false := by simpa using hh
          simp only [hh', Bool.not_false, Bool.true_and, Bool.false_eq_true, if_false, filter_ne_self c n hh']
      obtain ⟨b, hb⟩ := hrem
      rw [hb]
      obtain ⟨c', h1, h2, h3, h4, h5⟩ := removeDims_ok l
        { c with dims := c.dims.filter (fun d => !(d.name == n)), coordsInitialized := b.1 }
      refine ⟨c', h1, h2, h3, fun hi => h4 ?_, ?_⟩
      · exact ⟨hi.vars, nodup_filter_map _ _ hi.dims, hi.attrNames, hi.owners⟩
      · rw [h5]
        simp only [List.filter_filter]
        apply List.filter_congr
        intro d hd
        simp only [List.contains_cons]
        by_cases hdn : d.name = n
        · have : (c.vars.any fun v => v.shape.contains d.name) = false := by
            rw [List.any_eq_false]
            intro v hv hs
            apply hu
            rw [testDimensionInUse_iff]
            refine ⟨?_, v, hv, by rw [← hdn]; simpa using hs⟩
            rw [hasDimension_iff, ← hdn]
            exact List.mem_map_of_mem hd
          simp only [this, Bool.false_or]
          simp [hdn]
        · have : (d.name == n) = false := by simpa using hdn
          simp [this]

/-- C89: after the removals the named variables are gone, so are the named attributes and, unless it is
switched off, exactly those dimensions that no variable has.  A dimension in use is never removed. -/
theorem C89_removed (cfg : Config) (c : Ds A) : ∃ c', initRemove cfg c = .ok c' ∧
    c'.vars = keptVars cfg c ∧ c'.dims = keptDims cfg c ∧ (∀ n, getAttributes c' n = keptAtts cfg c n) ∧
    (Inv c → Inv c') := by
  obtain ⟨a1, a2, a3, a4⟩ := removeAtts_ok globalNS cfg.removeAtts c
  generalize hca : cfg.removeAtts.foldl (fun c a => removeAttribute c globalNS a) c = ca at a1 a2 a3 a4
  obtain ⟨b1, b2, b3, b4⟩ := removeVarAtts_ok cfg.removeVarAtts ca
  generalize hcb : cfg.removeVarAtts.foldl (fun c p => removeAttribute c p.1 p.2) ca = cb at b1 b2 b3 b4
  obtain ⟨e1, e2, e3, e4⟩ := removeVars_ok cfg.removeVars cb
  generalize hce : cfg.removeVars.foldl removeVariable cb = ce at e1 e2 e3 e4
  obtain ⟨cd, d0, d1, d2, d3, d4⟩ := removeDims_ok cfg.removeDims ce
  have hvars : ce.vars = keptVars cfg c := by rw [e1, b1, a1]; rfl
  have hatts : ∀ n, getAttributes ce n = keptAtts cfg c n := by
    intro n
    rw [e4, b4, a4, List.filter_filter]
    unfold keptAtts
    split
    · rfl
    · apply List.filter_congr
      intro b _
      rw [Bool.and_comm]
  have hdims : cd.dims = c.dims.filter fun d => needed cfg c d || !cfg.removeDims.contains d.name := by
    rw [d4, e2, b2, a2, hvars]
    rfl
  have hstart : initRemove cfg c = (if cfg.keepDims then .ok cd else removeDims cd (cd.dims.map (·.name))) := by
    simp only [initRemove, hca, hcb, hce, d0, Res.ok_bind]
  rw [hstart]
  have hcdatts : ∀ n, getAttributes cd n = keptAtts cfg c n := by
    intro n
    rw [← hatts n]
    unfold getAttributes
    rw [d2]
  cases hk : cfg.keepDims with
  | true =>
    refine ⟨cd, rfl, by rw [d1, hvars], ?_, hcdatts, fun hi => d3 (e3 (b3 (a3 hi)))⟩
    rw [hdims]
    unfold keptDims
    rw [hk]
    simp only [Bool.true_and]
  | false =>
    obtain ⟨ck, k0, k1, k2, k3, k4⟩ := removeDims_ok (cd.dims.map (·.name)) cd
    refine ⟨ck, k0, by rw [k1, d1, hvars], ?_, ?_, fun hi => k3 (d3 (e3 (b3 (a3 hi))))⟩
    · have hcd : ck.dims = cd.dims.filter (fun d => needed cfg c d) := by
        rw [k4, d1, hvars]
        apply List.filter_congr
        intro d hd
        have : (cd.dims.map (·.name)).contains d.name = true := by
          rw [List.contains_eq_mem]
          simp only [decide_eq_true_eq]
          exact List.mem_map_of_mem hd
        rw [this]
        simp [needed]
      rw [hcd, hdims, List.filter_filter]
      unfold keptDims
      rw [hk]
      apply List.filter_congr
      intro d _
      cases needed cfg c d <;> simp
    · intro n
      rw [← hcdatts n]
      unfold getAttributes
      rw [k2]

/-- C89: shapes stay within the dimensions. -/
theorem C89_still_closed {cfg : Config} {c c' : Ds A} (h : initRemove cfg c = .ok c')
    (hc : ∀ v ∈ c.vars, ∀ n ∈ v.shape, hasDimension c n = true) :
    ∀ v ∈ c'.vars, ∀ n ∈ v.shape, hasDimension c' n = true := by
  obtain ⟨c2, h2, hv, hd, -, -⟩ := C89_removed cfg c
  rw [h] at h2
  injection h2 with h2
  subst h2
  intro v hvm n hn
  rw [hasDimension_iff, hd]
  rw [hv] at hvm
  have hvc : v ∈ c.vars := (List.mem_filter.1 hvm).1
  have := hc v hvc n hn
  rw [hasDimension_iff] at this
  obtain ⟨d, hdm, rfl⟩ := List.mem_map.1 this
  refine List.mem_map_of_mem (List.mem_filter.2 ⟨hdm, ?_⟩)
  have hnd : needed cfg c d = true := by
    unfold needed
    rw [List.any_eq_true]
    exact ⟨v, hvm, by simpa using hn⟩
  rw [hnd]
  rfl

/-! ## Names, types and compression -/

theorem lastOf_cons {α : Type} (p : String × α) (l : List (String × α)) (n : String) :
    lastOf (p :: l) n = (lastOf l n).or (if p.1 = n then some p.2 else none) := by
  unfold lastOf
  rw [List.filter_cons]
  by_cases h : p.1 = n
  · have hb : (p.1 == n) = true := by simpa using h
    rw [if_pos hb, if_pos h, List.getLast?_cons]
    cases (l.filter fun p => p.1 == n).getLast? <;> simp
  · have hb : (p.1 == n) = false := by simpa using h
    rw [hb, if_neg h]
    simp

theorem foldl_put {α β : Type} (f : β → String × α) (n : String) : ∀ (l : List β) (m : Map α),
    l.foldl (fun m p => Map.put m (f p).1 (f p).2) m n = (lastOf (l.map f) n).or (m n)
  | [], m => by simp [lastOf]
  | p :: l, m => by
    rw [List.foldl_cons, foldl_put f n l, List.map_cons, lastOf_cons, Option.or_assoc]
    congr 1
    unfold Map.put
    by_cases h : n = (f p).1
    · rw [if_pos h, if_pos h.symm]
      rfl
    · rw [if_neg h, if_neg (fun hc => h hc.symm)]
      rfl

theorem renameVars_ok : ∀ {l : List (String × String)} {w w' : Writer A}, renameVars w l = .ok w' →
    (∀ p ∈ l, hasVariable w.cdm p.1 = true) ∧ w' = { w with varNames := w'.varNames } ∧
      ∀ n, w'.varNames n = (lastOf l n).or (w.varNames n)
  | [], w, w', h => by
    simp only [renameVars] at h
    injection h with h
    subst h
    simp [lastOf]
  | (a, b) :: l, w, w', h => by
    simp only [renameVars] at h
    obtain ⟨v, hv, h⟩ := Res.bind_eq_ok.1 h
    obtain ⟨h1, h2, h3⟩ := renameVars_ok h
    refine ⟨?_, ?_, ?_⟩
    · intro p hp
      rcases List.mem_cons.1 hp with rfl | hp
      · unfold getVariable at hv
        split at hv
        · rename_i x hx
          rw [hasVariable_iff]
          have := List.find?_some hx
          exact List.mem_map.2 ⟨x, List.mem_of_find?_eq_some hx, by simpa using this⟩
        · cases hv
      · exact h1 p hp
    · rw [h2]
    · intro n
      rw [h3 n, lastOf_cons, Option.or_assoc]
      congr 1
      simp only [Map.put]
      by_cases hn : n = a
      · rw [if_pos hn, if_pos hn.symm]
        rfl
      · rw [if_neg hn, if_neg (fun hc => hn hc.symm)]
        rfl

theorem renameVars_exists : ∀ (l : List (String × String)) (w : Writer A), (∀ p ∈ l, hasVariable w.cdm p.1 = true) →
    ∃ w', renameVars w l = .ok w'
  | [], w, _ => ⟨w, rfl⟩
  | (a, b) :: l, w, h => by
    have := h (a, b) List.mem_cons_self
    obtain ⟨v, hv⟩ : ∃ v, getVariable w.cdm a = .ok v := by
      unfold getVariable
      rw [hasVariable, List.any_eq_true] at this
      obtain ⟨x, hx, hxa⟩ := this
      cases hf : w.cdm.vars.find? fun v => v.name == a with
      | some v => exact ⟨v, rfl⟩
      | none =>
        rw [List.find?_eq_none] at hf
        exact absurd hxa (hf x hx)
    obtain ⟨w', hw⟩ := renameVars_exists l { w with varNames := w.varNames.put a b }
      fun p hp => h p (List.mem_cons_of_mem _ hp)
    exact ⟨w', by simp only [renameVars, hv, Res.ok_bind, hw]⟩

theorem setFirstType_eq (n : String) (ty : DataType) : ∀ (l : List (Var (Payload A))), (l.map (·.name)).Nodup →
    setFirstType n ty l = l.map fun v => if v.name = n then { v with payload := { v.payload with ty := ty } } else v
  | [], _ => rfl
  | v :: l, h => by
    rw [List.map_cons, List.nodup_cons] at h
    simp only [setFirstType, List.map_cons]
    by_cases hv : v.name = n
    · have : (v.name == n) = true := by simpa using hv
      rw [if_pos this, if_pos hv]
      congr 1
      rw [List.map_congr_left (g := id), List.map_id]
      intro x hx
      rw [if_neg]
      · rfl
      · intro hc
        apply h.1
        rw [hv, ← hc]
        exact List.mem_map_of_mem hx
    · have : ¬(v.name == n) = true := by simpa using hv
      rw [if_neg this, if_neg hv, setFirstType_eq n ty l h.2]

/-- The variables with new types. -/
def typed (l : List (String × String)) (v : Var (Payload A)) : Var (Payload A) :=
  match lastOf l v.name with
  | some t => { v with payload := { v.payload with ty := Tables.string2datatype t.toList } }
  | none => v

theorem typed_name (l : List (String × String)) (v : Var (Payload A)) : (typed l v).name = v.name := by
  unfold typed
  split <;> rfl

theorem retypeVars_ok : ∀ {l : List (String × String)} {w w' : Writer A}, (w.cdm.vars.map (·.name)).Nodup →
    retypeVars w l = .ok w' →
    w' = { w with cdm := { w.cdm with vars := w.cdm.vars.map (typed l) }, varTypes := w'.varTypes } ∧
      ∀ n, w'.varTypes n = ((lastOf l n).map fun t => Tables.string2datatype t.toList).or (w.varTypes n)
  | [], w, w', _, h => by
    simp only [retypeVars] at h
    injection h with h
    subst h
    have : (typed [] : Var (Payload A) → Var (Payload A)) = id := by
      funext v
      simp [typed, lastOf]
    simp [lastOf, this]
  | (a, b) :: l, w, w', hnd, h => by
    simp only [retypeVars] at h
    obtain ⟨v, hv, h⟩ := Res.bind_eq_ok.1 h
    rw [setFirstType_eq _ _ _ hnd] at h
    obtain ⟨h1, h2⟩ := retypeVars_ok (by
      have : ((w.cdm.vars.map fun v => if v.name = a then
          { v with payload := { v.payload with ty := Tables.string2datatype b.toList } } else v).map (·.name)) =
          w.cdm.vars.map (·.name) := by
        rw [List.map_map]
        apply List.map_congr_left
        intro v _
        simp only [Function.comp]
        split <;> rfl
      rw [this]
      exact hnd) h
    refine ⟨?_, ?_⟩
    · rw [h1]
      simp only [List.map_map]
      congr 2
      apply List.map_congr_left
      intro x _
      simp only [Function.comp, typed, lastOf_cons]
      by_cases hx : x.name = a
      · subst hx
        simp only [if_true]
        cases lastOf l x.name <;> rfl
      · have hx' : ¬a = x.name := fun hc => hx hc.symm
        simp only [if_neg hx, if_neg hx', Option.or_none]
    · intro n
      rw [h2 n, lastOf_cons]
      unfold Map.put
      by_cases hn : n = a
      · subst hn
        simp only [if_true]
        cases lastOf l n <;> rfl
      · have hn' : ¬a = n := fun hc => hn hc.symm
        simp only [if_neg hn, if_neg hn', Option.or_none]

theorem initFillRenameDimension_ok : ∀ {l : List (String × String)} {w w' : Writer A},
    initFillRenameDimension w l = .ok w' →
    (∀ p ∈ l, hasDimension w.cdm p.1 = true) ∧
      w' = { w with varNames := w'.varNames, dimNames := w'.dimNames } ∧
      (∀ n, w'.dimNames n = (lastOf l n).or (w.dimNames n)) ∧
      ∀ n, w'.varNames n = (w.varNames n).or (firstOf l n)
  | [], w, w', h => by
    simp only [initFillRenameDimension] at h
    injection h with h
    subst h
    simp [lastOf, firstOf]
  | (a, b) :: l, w, w', h => by
    simp only [initFillRenameDimension] at h
    obtain ⟨d, hd, h⟩ := Res.bind_eq_ok.1 h
    obtain ⟨h1, h2, h3, h4⟩ := initFillRenameDimension_ok h
    refine ⟨?_, by rw [h2], ?_, ?_⟩
    · intro p hp
      rcases List.mem_cons.1 hp with rfl | hp
      · unfold getDimension at hd
        split at hd
        · rename_i x hx
          rw [hasDimension_iff]
          have := List.find?_some hx
          exact List.mem_map.2 ⟨x, List.mem_of_find?_eq_some hx, by simpa using this⟩
        · cases hd
      · exact h1 p hp
    · intro n
      rw [h3 n, lastOf_cons, Option.or_assoc]
      congr 1
      simp only [Map.put]
      by_cases hn : n = a
      · rw [if_pos hn, if_pos hn.symm]
        rfl
      · rw [if_neg hn, if_neg (fun hc => hn hc.symm)]
        rfl
    · intro n
      rw [h4 n]
      unfold firstOf
      rw [List.find?_cons]
      by_cases hn : n = a
      · subst hn
        simp only [beq_self_eq_true]
        cases hw : w.varNames n with
        | none => simp [Map.put]
        | some x => simp [hw]
      · have hb : (a == n) = false := by simpa using fun hc => hn hc.symm
        simp only [hb]
        congr 1
        split
        · simp [Map.put, hn]
        · rfl

/-! ## Attributes -/

/-- An `attribute` element changes the attributes of its owner: the attribute goes, the new one comes last.
The value is the old one unless there is a type. -/
structure Edit (O : Ops A F U) (isVar : String → Bool) (e : AttEdit) (before after : String → List (Attr (Data A))) : Prop where
  change : ∃ n d, (e.parent = .root ∧ n = globalNS ∨ e.parent = .var n ∧ isVar n = true) ∧
    (e.type ≠ "" ∧ O.parse (Tables.string2datatype e.type.toList) e.value = .ok d ∨
      e.type = "" ∧ ∃ a ∈ before n, a.name = e.name ∧ a.value = d) ∧
    (∀ a ∈ before n, a.name ≠ e.name → a.name ≠ if e.newname = "" then e.name else e.newname) ∧
    ∀ m, after m = if m = n then
      (before n).filter (fun a => !(a.name == e.name)) ++ [⟨if e.newname = "" then e.name else e.newname, d⟩]
      else before m

/-- All elements one after the other. -/
inductive Edits (O : Ops A F U) (isVar : String → Bool) :
    List AttEdit → (String → List (Attr (Data A))) → (String → List (Attr (Data A))) → Prop
  | nil {x} : Edits O isVar [] x x
  | cons {e l x y z} : Edit O isVar e x y → Edits O isVar l y z → Edits O isVar (e :: l) x z

theorem getAttribute_iff {c : Ds A} (hi : Inv c) {n a : String} {x : Attr (Data A)} :
    getAttribute c n a = .ok x ↔ x ∈ getAttributes c n ∧ x.name = a := by
  have hnd := nodup_getAttributes c hi n
  unfold getAttribute getAttributes at *
  cases hc : c.attrs n with
  | none => simp
  | some l =>
    rw [hc] at hnd
    simp only [Option.getD_some] at hnd ⊢
    constructor
    · intro h
      split at h
      · rename_i b hb
        injection h with h
        subst h
        exact ⟨List.mem_of_find?_eq_some hb, by simpa using List.find?_some hb⟩
      · cases h
    · rintro ⟨hx, hn⟩
      cases hf : l.find? fun b => b.name == a with
      | none =>
        rw [List.find?_eq_none] at hf
        exact absurd (by simpa using hn) (hf x hx)
      | some b =>
        have h1 := List.mem_of_find?_eq_some hf
        have h2 := List.find?_some hf
        simp only [Res.ok.injEq]
        exact List.inj_on_of_nodup_map hnd h1 hx (by rw [hn]; simpa using h2)

theorem removeAttribute_inv {c : Ds A} (hi : Inv c) (n a : String) : Inv (removeAttribute c n a) := by
  have := (removeAtts_ok n [a] c).2.2.1 hi
  simpa using this

theorem removeAttribute_atts (c : Ds A) (n a m : String) : getAttributes (removeAttribute c n a) m =
    if m = n then (getAttributes c n).filter (fun b => !(b.name == a)) else getAttributes c m := by
  have := (removeAtts_ok n [a] c).2.2.2 m
  simp only [List.foldl_cons, List.foldl_nil] at this
  rw [this]
  by_cases hm : m = n
  · subst hm
    rw [if_pos rfl]
    apply List.filter_congr
    intro b _
    rw [Bool.eq_iff_iff]
    simp
  · simp [hm]

theorem addAttribute_inv {c c' : Ds A} {n : String} {a : Attr (Data A)} (hi : Inv c) (h : addAttribute c n a = (c', .ok ())) :
    Inv c' ∧ c'.vars = c.vars ∧ c'.dims = c.dims ∧ (n = globalNS ∨ hasVariable c n = true) ∧
      a.name ∉ (getAttributes c n).map (·.name) ∧
      ∀ m, getAttributes c' m = if m = n then getAttributes c n ++ [a] else getAttributes c m := by
  rcases addAttribute_cases c n a with ⟨-, h2⟩ | ⟨-, -, h2⟩ | ⟨h0, h1, h2⟩
  · rw [h] at h2
    injection h2 with _ h2
    cases h2
  · rw [h] at h2
    injection h2 with _ h2
    cases h2
  · rw [h] at h2
    injection h2 with h2 _
    subst h2
    refine ⟨?_, rfl, rfl, h0, h1, ?_⟩
    · apply inv_setAttrs c hi n _ false (fun _ => h0)
      intro x hx
      injection hx with hx
      rw [← hx, List.map_append, List.nodup_append]
      refine ⟨nodup_getAttributes c hi n, by simp, ?_⟩
      rintro y hy z hz rfl
      simp only [List.map_cons, List.map_nil, List.mem_singleton] at hz
      exact h1 (hz ▸ hy)
    · intro m
      unfold getAttributes
      by_cases hm : m = n
      · subst hm
        simp
      · simp [hm]

theorem editOwner_iff {c : Ds A} {p : Parent} {n : String} : editOwner c p = .ok n ↔
    (p = .root ∧ n = globalNS ∨ p = .var n ∧ hasVariable c n = true) := by
  cases p with
  | root =>
    simp only [editOwner, Res.ok.injEq, true_and, reduceCtorEq, false_and, or_false]
    exact eq_comm
  | other => simp [editOwner]
  | var v =>
    simp only [editOwner, reduceCtorEq, false_and, false_or, Parent.var.injEq]
    unfold getVariable hasVariable
    cases hf : c.vars.find? fun x => x.name == v with
    | none =>
      simp only [Res.throws_bind, reduceCtorEq, false_iff, not_and]
      rintro rfl hany
      rw [List.any_eq_true] at hany
      rw [List.find?_eq_none] at hf
      obtain ⟨x, hx, hxv⟩ := hany
      exact hf x hx hxv
    | some x =>
      simp only [Res.ok_bind, Res.ok.injEq]
      constructor
      · rintro rfl
        refine ⟨rfl, ?_⟩
        rw [List.any_eq_true]
        exact ⟨x, List.mem_of_find?_eq_some hf, by simpa using List.find?_some hf⟩
      · exact fun h => h.1

theorem editedAtt_iff {O : Ops A F U} {c : Ds A} (hi : Inv c) {n : String} {e : AttEdit} {a : Attr (Data A)} :
    editedAtt O c n e = .ok a ↔ (a.name = if e.newname = "" then e.name else e.newname) ∧
      (e.type ≠ "" ∧ O.parse (Tables.string2datatype e.type.toList) e.value = .ok a.value ∨
      e.type = "" ∧ ∃ b ∈ getAttributes c n, b.name = e.name ∧ b.value = a.value) := by
  have hname : (if e.newname ≠ "" then e.newname else e.name) = if e.newname = "" then e.name else e.newname := by
    by_cases h : e.newname = "" <;> simp [h]
  unfold editedAtt
  simp only [hname]
  by_cases ht : e.type = ""
  · simp only [ht, ne_eq, not_true_eq_false, if_false, false_and, true_and, false_or]
    rw [Res.bind_eq_ok]
    constructor
    · rintro ⟨b, hb, h⟩
      injection h with h
      subst h
      obtain ⟨h1, h2⟩ := (getAttribute_iff hi).1 hb
      exact ⟨rfl, b, h1, h2, rfl⟩
    · rintro ⟨hn, b, hb, hbn, hbv⟩
      refine ⟨b, (getAttribute_iff hi).2 ⟨hb, hbn⟩, ?_⟩
      obtain ⟨a1, a2⟩ := a
      simp only at hn hbv
      rw [hbv, hn]
  · simp only [ht, ne_eq, not_false_eq_true, if_true, true_and, false_and, or_false]
    rw [Res.bind_eq_ok]
    constructor
    · rintro ⟨d, hd, h⟩
      injection h with h
      subst h
      exact ⟨rfl, hd⟩
    · rintro ⟨hn, hd⟩
      refine ⟨_, hd, ?_⟩
      obtain ⟨a1, a2⟩ := a
      simp only at hn
      rw [hn]

/-- C89: the attribute elements are applied in the order of the document, to the attributes of their owners
only, and fail exactly when the owner or the attribute does not exist, the value cannot be read, or
the owner has another attribute of the new name. -/
theorem C89_attributes {O : Ops A F U} : ∀ {l : List AttEdit} {c : Ds A}, Inv c →
    ((∀ c', initFillRenameAttribute O c l = .ok c' → Inv c' ∧ c'.vars = c.vars ∧ c'.dims = c.dims ∧
      Edits O (hasVariable c) l (getAttributes c) (getAttributes c')) ∧
    ∀ after, Edits O (hasVariable c) l (getAttributes c) after → ∃ c', initFillRenameAttribute O c l = .ok c' ∧
      getAttributes c' = after)
  | [], c, hi => by
    constructor
    · intro c' h
      simp only [initFillRenameAttribute] at h
      injection h with h
      subst h
      exact ⟨hi, rfl, rfl, .nil⟩
    · intro after h
      cases h
      exact ⟨c, rfl, rfl⟩
  | e :: l, c, hi => by
    constructor
    · intro c' h
      simp only [initFillRenameAttribute] at h
      obtain ⟨n, hn, h⟩ := Res.bind_eq_ok.1 h
      obtain ⟨a, ha, h⟩ := Res.bind_eq_ok.1 h
      rw [editOwner_iff] at hn
      rw [editedAtt_iff hi] at ha
      split at h
      · rename_i c1 hadd
        obtain ⟨i1, i2, i3, i4, i5, i6⟩ := addAttribute_inv (removeAttribute_inv hi n e.name) hadd
        obtain ⟨j1, j2, j3, j4⟩ := (C89_attributes i1).1 c' h
        have hv : c1.vars = c.vars := by rw [i2]; rfl
        have hhv : hasVariable c1 = hasVariable c := by funext m; unfold hasVariable; rw [hv]
        refine ⟨j1, by rw [j2, hv], by rw [j3, i3]; rfl, .cons ⟨⟨n, a.value, hn, ha.2, ?_, ?_⟩⟩ (hhv ▸ j4)⟩
        · intro b hb hbe hc
          apply i5
          rw [removeAttribute_atts, if_pos rfl, ha.1, ← hc]
          exact List.mem_map_of_mem (List.mem_filter.2 ⟨hb, by simpa using hbe⟩)
        · intro m
          rw [i6 m]
          by_cases hm : m = n
          · rw [if_pos hm, if_pos hm, removeAttribute_atts, if_pos rfl, ← ha.1]
          · rw [if_neg hm, if_neg hm, removeAttribute_atts, if_neg hm]
      · cases h
      · cases h
    · intro after h
      cases h with
      | @cons _ _ _ y _ h1 h2 =>
        obtain ⟨n, d, hn, hd, hother, hm⟩ := h1.change
        have hown : editOwner c e.parent = .ok n := editOwner_iff.2 hn
        have hatt : editedAtt O c n e = .ok ⟨if e.newname = "" then e.name else e.newname, d⟩ :=
          (editedAtt_iff hi).2 ⟨rfl, hd⟩
        have hadd : ∃ c1, addAttribute (removeAttribute c n e.name) n
            ⟨if e.newname = "" then e.name else e.newname, d⟩ = (c1, .ok ()) := by
          rcases addAttribute_cases (removeAttribute c n e.name) n
            ⟨if e.newname = "" then e.name else e.newname, d⟩ with ⟨h0, -⟩ | ⟨-, h0, -⟩ | ⟨-, -, h0⟩
          · rcases hn with hn | hn
            · exact absurd hn.2 h0.1
            · have : hasVariable (removeAttribute c n e.name) n = hasVariable c n := rfl
              rw [this, hn.2] at h0
              cases h0.2
          · rw [removeAttribute_atts, if_pos rfl] at h0
            obtain ⟨b, hb, hbn⟩ := List.mem_map.1 h0
            obtain ⟨hb1, hb2⟩ := List.mem_filter.1 hb
            exact absurd hbn (hother b hb1 (by simpa using hb2))
          · exact ⟨_, h0⟩
        obtain ⟨c1, hc1⟩ := hadd
        obtain ⟨i1, i2, i3, i4, i5, i6⟩ := addAttribute_inv (removeAttribute_inv hi n e.name) hc1
        have hv : c1.vars = c.vars := by rw [i2]; rfl
        have hhv : hasVariable c1 = hasVariable c := by funext m; unfold hasVariable; rw [hv]
        have hga : getAttributes c1 = y := by
          funext m
          rw [i6 m, removeAttribute_atts, if_pos rfl, removeAttribute_atts]
          have := hm m
          by_cases hmn : m = n
          · rw [if_pos hmn] at this ⊢
            exact this.symm
          · rw [if_neg hmn] at this ⊢
            rw [if_neg hmn]
            exact this.symm
        rw [← hga, ← hhv] at h2
        obtain ⟨c', hc', he⟩ := (C89_attributes i1).2 after h2
        refine ⟨c', ?_, he⟩
        simp only [initFillRenameAttribute, hown, Res.ok_bind, hatt, hc1]
        exact hc'

/-- C89: a new value counts only together with a type; without one it is ignored. -/
theorem C89_value_needs_type {O : Ops A F U} (c : Ds A) (e : AttEdit) (l : List AttEdit) (value : String) (h : e.type = "") :
    initFillRenameAttribute O c ({ e with value := value } :: l) = initFillRenameAttribute O c (e :: l) := by
  simp only [initFillRenameAttribute, editedAtt, h, ne_eq, not_true_eq_false, if_false]

/-! ## The writer -/

/-- C89: the dataset and the names, types and levels the file is written from. -/
theorem C89_configured {O : Ops A F U} {cfg : Config} {c : Ds A} {w : Writer A} (hi : Inv c)
    (h : configure O cfg c = .ok w) :
    Inv w.cdm ∧ w.cdm.vars = (keptVars cfg c).map (retyped cfg) ∧ w.cdm.dims = keptDims cfg c ∧
    (∀ n, w.varNames n = (lastOf cfg.varNames n).or (firstOf cfg.dimNames n)) ∧
    (∀ n, w.dimNames n = lastOf cfg.dimNames n) ∧
    (∀ n, w.varTypes n = (lastOf cfg.varTypes n).map fun t => Tables.string2datatype t.toList) ∧
    (∀ n, w.compression n = (lastOf cfg.varCompression n).or
      (if n ∈ (keptVars cfg c).map (·.name) then some (cfg.compression.getD 13) else none)) ∧
    (∀ n, w.chunkSizes n = (lastOf cfg.chunkSizes n).map (· % 2 ^ 32)) ∧
    (∀ p ∈ cfg.varNames, p.1 ∈ (keptVars cfg c).map (·.name)) ∧
    (∀ p ∈ cfg.dimNames, p.1 ∈ (keptDims cfg c).map (·.name)) ∧
    Edits O (fun n => ((keptVars cfg c).map (·.name)).contains n) cfg.attEdits (keptAtts cfg c) (getAttributes w.cdm) := by
  obtain ⟨c1, h1, v1, d1, a1, i1⟩ := C89_removed cfg c
  simp only [configure, h1, Res.ok_bind] at h
  obtain ⟨w1, hw1, h⟩ := Res.bind_eq_ok.1 h
  obtain ⟨w2, hw2, h⟩ := Res.bind_eq_ok.1 h
  obtain ⟨c3, hc3, h⟩ := Res.bind_eq_ok.1 h
  injection h with h
  subst h
  unfold initFillRenameVariable at hw1
  obtain ⟨wa, hwa, hw1⟩ := Res.bind_eq_ok.1 hw1
  obtain ⟨wb, hwb, hw1⟩ := Res.bind_eq_ok.1 hw1
  injection hw1 with hw1
  obtain ⟨ra, rb, rc⟩ := renameVars_ok hwa
  have hwacdm : wa.cdm = c1 := by rw [rb]
  obtain ⟨ta, tb⟩ := retypeVars_ok (by rw [hwacdm]; exact (i1 hi).vars) hwb
  obtain ⟨da, db, dc, dd⟩ := initFillRenameDimension_ok hw2
  have hcdm : w2.cdm = { c1 with vars := c1.vars.map (typed cfg.varTypes) } := by
    rw [db, ← hw1]
    simp only
    rw [ta, hwacdm]
  have hnames : (c1.vars.map (typed cfg.varTypes)).map (·.name) = c1.vars.map (·.name) := by
    rw [List.map_map]
    apply List.map_congr_left
    intro v _
    exact typed_name _ v
  have hhas : ∀ n, hasVariable w2.cdm n = ((keptVars cfg c).map (·.name)).contains n := by
    intro n
    rw [Bool.eq_iff_iff, hasVariable_iff, hcdm]
    simp only
    rw [hnames, v1, List.contains_eq_mem]
    simp
  have hinv2 : Inv w2.cdm := by
    rw [hcdm]
    refine ⟨by rw [hnames]; exact (i1 hi).vars, (i1 hi).dims, (i1 hi).attrNames, ?_⟩
    intro n hn
    rcases (i1 hi).owners n hn with h' | h'
    · exact .inl h'
    · right
      rw [hasVariable_iff] at h' ⊢
      simp only
      rw [hnames]
      exact h'
  obtain ⟨e1, e2, e3, e4⟩ := (C89_attributes hinv2).1 c3 hc3
  refine ⟨e1, ?_, ?_, ?_, ?_, ?_, ?_, ?_, ?_, ?_, ?_⟩
  · show c3.vars = _
    rw [e2, hcdm]
    simp only
    rw [v1]
    rfl
  · show c3.dims = _
    rw [e3, hcdm]
    exact d1
  · intro n
    show w2.varNames n = _
    rw [dd n, ← hw1]
    simp only
    rw [ta]
    simp only
    rw [rc n]
    simp
  · intro n
    show w2.dimNames n = _
    rw [dc n, ← hw1]
    simp only
    rw [ta]
    simp only
    rw [rb]
    simp
  · intro n
    show w2.varTypes n = _
    rw [db, ← hw1]
    simp only
    rw [tb n, rb]
    simp
  · intro n
    show w2.compression n = _
    rw [db, ← hw1]
    simp only
    have e1 := foldl_put (fun p : String × Nat => p) n cfg.varCompression
      (wb.cdm.vars.foldl (fun m v => Map.put m v.name (cfg.compression.getD 13)) wb.compression)
    have e2 := foldl_put (fun v : Var (Payload A) => (v.name, cfg.compression.getD 13)) n wb.cdm.vars wb.compression
    rw [e1, List.map_id', e2]
    congr 1
    have hwbc : wb.compression n = none := by rw [ta, rb]
    rw [hwbc, Option.or_none]
    have hwbv : wb.cdm.vars = c1.vars.map (typed cfg.varTypes) := by rw [ta, hwacdm]
    have hkey : ∀ (l : List (Var (Payload A))), lastOf (l.map fun v => (v.name, cfg.compression.getD 13)) n =
        if n ∈ l.map (·.name) then some (cfg.compression.getD 13) else none := by
      intro l
      induction l with
      | nil => rfl
      | cons x l ih =>
        rw [List.map_cons, lastOf_cons, ih]
        by_cases hx : x.name = n
        · have hmem : n ∈ x.name :: l.map (·.name) := by rw [hx]; exact List.mem_cons_self
          rw [if_pos hx, List.map_cons]
          simp only [hmem, if_true]
          by_cases hl : n ∈ l.map (·.name)
          · rw [if_pos hl]
            rfl
          · rw [if_neg hl]
            rfl
        · have hx' : ¬n = x.name := fun hc => hx hc.symm
          simp [hx, hx']
    rw [hkey, hwbv, hnames, v1]
  · intro n
    show w2.chunkSizes n = _
    rw [db, ← hw1]
    simp only
    have e1 := foldl_put (fun p : String × Nat => (p.1, p.2 % 2 ^ 32)) n cfg.chunkSizes wb.chunkSizes
    rw [e1]
    have hwbc : wb.chunkSizes n = none := by rw [ta, rb]
    rw [hwbc, Option.or_none]
    generalize cfg.chunkSizes = l
    induction l with
    | nil => rfl
    | cons x l ih =>
      rw [List.map_cons, lastOf_cons, lastOf_cons, ih]
      simp only
      cases lastOf l n <;> by_cases hx : x.1 = n <;> simp [hx]
  · intro p hp
    have := ra p hp
    rw [hasVariable_iff] at this
    rw [← v1]
    exact this
  · intro p hp
    have := da p hp
    rw [hasDimension_iff] at this
    rw [← d1]
    rw [← hw1] at this
    simp only at this
    rw [ta, hwacdm] at this
    exact this
  · have h1 : hasVariable w2.cdm = fun n => ((keptVars cfg c).map (·.name)).contains n := by
      funext n
      exact hhas n
    have h2 : getAttributes w2.cdm = keptAtts cfg c := by
      funext n
      rw [hcdm, ← a1 n]
      rfl
    rw [h1, h2] at e4
    exact e4

/-- A dataset with a variable of time and height and a dimension nothing has. -/
def configDs : Ds Int where
  attrs := fun n =>
    if n = "t" then some [⟨"units", ⟨.string, [1]⟩⟩, ⟨"note", ⟨.string, [2]⟩⟩]
    else if n = globalNS then some [⟨"title", ⟨.string, [3]⟩⟩] else none
  vars := [⟨"t", ["x", "time"], ⟨.double, none⟩⟩, ⟨"time", ["time"], ⟨.int, none⟩⟩, ⟨"h", ["k"], ⟨.int, none⟩⟩]
  dims := [⟨"x", 2, false⟩, ⟨"time", 2, true⟩, ⟨"k", 1, false⟩, ⟨"z", 4, false⟩]
  coordsInitialized := false
  coordSystems := ()

/-- Integers as values; texts are read as their length. -/
def configOps : Ops Int Int Unit where
  asType := fun _ d => .ok d.vals
  num := id
  differs := fun a b => a != b
  one := 1
  zero := 0
  text := fun _ => .ok ""
  castFill := fun _ x => .ok x
  defaultFill := fun _ => -1
  getConverter := fun _ _ => .throws
  convert := fun _ _ _ _ _ _ _ _ _ => .throws
  parse := fun t s => .ok ⟨t, [s.length]⟩

/-- Remove `h` and the attribute `note`, rename the dimension `time`, change the title and rename the units. -/
def configCfg : Config :=
  { removeVars := ["h"]
    removeVarAtts := [("t", "note")]
    dimNames := [("time", "valid")]
    varTypes := [("t", "float")]
    varCompression := [("t", 5)]
    attEdits := [⟨.root, "title", "fimex", "string", ""⟩, ⟨.var "t", "units", "", "", "unit"⟩] }

theorem configInv : Inv configDs where
  vars := by decide +kernel
  dims := by decide +kernel
  attrNames := by
    intro n l h
    simp only [configDs] at h
    split at h
    · injection h with h
      subst h
      decide +kernel
    · split at h
      · injection h with h
        subst h
        decide +kernel
      · cases h
  owners := by
    intro n h
    simp only [configDs] at h
    split at h
    · rename_i hn
      subst hn
      exact .inr (by decide +kernel)
    · split at h
      · rename_i hn
        exact .inl hn
      · exact absurd rfl h

example : ∃ w, configure configOps configCfg configDs = .ok w ∧
    w.cdm.vars.map (·.name) = ["t", "time"] ∧ w.cdm.vars.map (·.payload.ty) = [.float, .int] ∧
    w.cdm.dims = [⟨"x", 2, false⟩, ⟨"time", 2, true⟩] ∧ w.varNames "time" = some "valid" ∧
    w.dimNames "time" = some "valid" ∧ w.compression "t" = some 5 ∧ w.compression "time" = some 13 ∧
    (getAttributes w.cdm "t").map (fun a => (a.name, a.value.vals)) = [("unit", [1])] ∧
    (getAttributes w.cdm globalNS).map (fun a => (a.name, a.value.vals)) = [("title", [5])] := by
  refine ⟨_, rfl, ?_, ?_, ?_, ?_, ?_, ?_, ?_, ?_, ?_⟩ <;> decide +kernel

end Fimex.Netcdf
