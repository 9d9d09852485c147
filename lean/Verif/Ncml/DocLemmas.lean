import Verif.Ncml.DocModel
import Mathlib.Data.List.Nodup

/-!
# Lemmas about the passes over an NcML document
-/

namespace Fimex.NcmlDoc

open Cdm Ncml Tables

variable {D V CS : Type}

/-! ## Passes -/

theorem fold_keep {S α : Type} {f : S → α → Res S} {P : S → Prop} :
    ∀ {l : List α}, (∀ e ∈ l, ∀ s s', P s → f s e = .ok s' → P s') → ∀ {s s' : S}, l.foldlM f s = .ok s' → P s → P s'
  | [], _, s, s', h, hs => by cases h; exact hs
  | a :: l, hf, s, s', h, hs => by
    rw [List.foldlM_cons] at h
    obtain ⟨t, h1, h2⟩ := Res.bind_eq_ok.1 h
    exact fold_keep (fun e he => hf e (List.mem_cons_of_mem _ he)) h2 (hf a List.mem_cons_self _ _ hs h1)

theorem fold_split {S α : Type} {f : S → α → Res S} {pre post : List α} {e : α} {s s' : S} (h : (pre ++ e :: post).foldlM f s = .ok s') :
    ∃ t u, pre.foldlM f s = .ok t ∧ f t e = .ok u ∧ post.foldlM f u = .ok s' := by
  rw [List.foldlM_append] at h
  obtain ⟨t, h1, h2⟩ := Res.bind_eq_ok.1 h
  rw [List.foldlM_cons] at h2
  obtain ⟨u, h3, h4⟩ := Res.bind_eq_ok.1 h2
  exact ⟨t, u, h1, h3, h4⟩

theorem res_bind {α β : Type} {x : Res α} {f : α → Res β} {b : β} (h : x.bind f = .ok b) : ∃ a, x = .ok a ∧ f a = .ok b := by
  cases x with
  | ok a => exact ⟨a, rfl, h⟩
  | throws => cases h
  | ub => cases h

/-- The states between the passes. -/
theorem construct_ok {env : Env D V} {id : String} {doc : Option Xml} {reader blank : CDM (Payload D) V CS} {s : St D V CS}
    (h : construct env id doc reader blank = .ok s) :
    ∃ d, doc = some d ∧ d.tag = "netcdf" ∧ ∃ s1 s2 s3 s4 s5 s6 s7 s8 s9, initRemove d ⟨reader, [], [], []⟩ = .ok s1 ∧ initDims env d s1 = .ok s2 ∧
      initUnlimited env d s2 = .ok s3 ∧ initShapes env d s3 = .ok s4 ∧ initNames env d s4 = .ok s5 ∧ initTypes env d s5 = .ok s6 ∧
      initValues env d s6 = .ok s7 ∧ initVectors d s7 = .ok s8 ∧ initAttrNames d s8 = .ok s9 ∧ initAttrs env d s9 = .ok s := by
  unfold construct at h
  cases doc with
  | none => cases h
  | some d =>
    dsimp only at h
    by_cases hid : id = ""
    · rw [if_pos hid] at h; cases h
    · rw [if_neg hid] at h
      by_cases ht : d.tag = "netcdf"
      · have ha : (absolute d "netcdf").length = 1 := by unfold absolute; rw [if_pos ht]; rfl
        rw [if_neg (by rw [ha]; simp)] at h
        unfold init at h
        rw [if_neg (by rw [ha]; decide)] at h
        obtain ⟨s1, h1, h⟩ := Res.bind_eq_ok.1 h
        obtain ⟨s2, h2, h⟩ := Res.bind_eq_ok.1 h
        obtain ⟨s3, h3, h⟩ := Res.bind_eq_ok.1 h
        obtain ⟨s4, h4, h⟩ := Res.bind_eq_ok.1 h
        obtain ⟨s5, h5, h⟩ := Res.bind_eq_ok.1 h
        obtain ⟨s6, h6, h⟩ := Res.bind_eq_ok.1 h
        obtain ⟨s7, h7, h⟩ := Res.bind_eq_ok.1 h
        obtain ⟨s8, h8, h⟩ := Res.bind_eq_ok.1 h
        obtain ⟨s9, h9, h⟩ := Res.bind_eq_ok.1 h
        exact ⟨d, rfl, ht, s1, s2, s3, s4, s5, s6, s7, s8, s9, h1, h2, h3, h4, h5, h6, h7, h8, h9, h⟩
      · have ha : (absolute d "netcdf").length = 0 := by unfold absolute; rw [if_neg ht]; rfl
        rw [if_pos (by rw [ha]; decide)] at h
        cases h

/-! ## Variables and dimensions by name -/

/-- The variable of a name. -/
def varAt (c : CDM (Payload D) V CS) (n : String) : Option (Var (Payload D)) := c.vars.find? fun v => v.name = n

/-- The dimension of a name. -/
def dimAt (c : CDM (Payload D) V CS) (n : String) : Option Dim := c.dims.find? fun d => d.name = n

theorem getVariable_eq (c : CDM (Payload D) V CS) (n : String) :
    getVariable c n = match varAt c n with | some v => .ok v | none => .throws := by
  unfold getVariable varAt
  simp only [beq_eq_decide]
  cases c.vars.find? fun v => decide (v.name = n) <;> rfl

theorem getVariable_ok {c : CDM (Payload D) V CS} {n : String} {v : Var (Payload D)} : getVariable c n = .ok v ↔ varAt c n = some v := by
  rw [getVariable_eq]
  cases varAt c n <;> simp

theorem getDimension_eq (c : CDM (Payload D) V CS) (n : String) :
    getDimension c n = match dimAt c n with | some v => .ok v | none => .throws := by
  unfold getDimension dimAt
  simp only [beq_eq_decide]
  cases c.dims.find? fun v => decide (v.name = n) <;> rfl

theorem getDimension_ok {c : CDM (Payload D) V CS} {n : String} {d : Dim} : getDimension c n = .ok d ↔ dimAt c n = some d := by
  rw [getDimension_eq]
  cases dimAt c n <;> simp

theorem varAt_name {c : CDM (Payload D) V CS} {n : String} {v : Var (Payload D)} (h : varAt c n = some v) : v.name = n := by
  simpa using List.find?_some h

theorem dimAt_name {c : CDM (Payload D) V CS} {n : String} {d : Dim} (h : dimAt c n = some d) : d.name = n := by
  simpa using List.find?_some h

theorem hasVariable_at (c : CDM (Payload D) V CS) (n : String) : hasVariable c n = (varAt c n).isSome := by
  unfold hasVariable varAt
  rw [Bool.eq_iff_iff, List.any_eq_true, List.find?_isSome]
  simp

theorem hasDimension_at (c : CDM (Payload D) V CS) (n : String) : hasDimension c n = (dimAt c n).isSome := by
  unfold hasDimension dimAt
  rw [Bool.eq_iff_iff, List.any_eq_true, List.find?_isSome]
  simp

theorem varAt_onVar (c : CDM (Payload D) V CS) (n m : String) (f : Var (Payload D) → Var (Payload D)) (hf : ∀ v, (f v).name = v.name) :
    varAt (onVar c m f) n = (varAt c n).map fun v => if n = m then f v else v := by
  unfold varAt onVar
  dsimp only
  induction c.vars with
  | nil => rfl
  | cons v l ih =>
    rw [List.map_cons, List.find?_cons, List.find?_cons]
    have hn : (if v.name = m then f v else v).name = v.name := by split <;> simp [hf]
    rw [hn]
    by_cases h : v.name = n
    · simp [h]
    · simp [h, ih]

theorem onVar_none {c : CDM (Payload D) V CS} {n m : String} {f : Var (Payload D) → Var (Payload D)} (hf : ∀ v, (f v).name = v.name)
    (h : varAt c n = none) : varAt (onVar c m f) n = none := by rw [varAt_onVar c n m f hf, h]; rfl

theorem onVar_some {c : CDM (Payload D) V CS} {n m : String} {f : Var (Payload D) → Var (Payload D)} {v : Var (Payload D)}
    (hf : ∀ v, (f v).name = v.name) (h : varAt c n = some v) : varAt (onVar c m f) n = some (if n = m then f v else v) := by
  rw [varAt_onVar c n m f hf, h]; rfl

theorem onVar_ne {c : CDM (Payload D) V CS} {n m : String} {f : Var (Payload D) → Var (Payload D)} (hf : ∀ v, (f v).name = v.name) (h : n ≠ m) :
    varAt (onVar c m f) n = varAt c n := by
  rw [varAt_onVar c n m f hf]
  simp [h]

theorem dimAt_onDim (c : CDM (Payload D) V CS) (n m : String) (f : Dim → Dim) (hf : ∀ v, (f v).name = v.name) :
    dimAt (onDim c m f) n = (dimAt c n).map fun v => if n = m then f v else v := by
  unfold dimAt onDim
  dsimp only
  induction c.dims with
  | nil => rfl
  | cons v l ih =>
    rw [List.map_cons, List.find?_cons, List.find?_cons]
    have hn : (if v.name = m then f v else v).name = v.name := by split <;> simp [hf]
    rw [hn]
    by_cases h : v.name = n
    · simp [h]
    · simp [h, ih]

theorem names_onVar (c : CDM (Payload D) V CS) (m : String) (f : Var (Payload D) → Var (Payload D)) (hf : ∀ v, (f v).name = v.name) :
    (onVar c m f).vars.map (·.name) = c.vars.map (·.name) := by
  simp only [onVar, List.map_map]
  apply List.map_congr_left
  intro v _
  simp only [Function.comp]
  split <;> simp [hf]

theorem inv_onVar {c : CDM (Payload D) V CS} (h : Inv c) (m : String) (f : Var (Payload D) → Var (Payload D)) (hf : ∀ v, (f v).name = v.name) :
    Inv (onVar c m f) := by
  have hn := names_onVar c m f hf
  refine ⟨by rw [hn]; exact h.vars, h.dims, h.attrNames, ?_⟩
  intro n hne
  rcases h.owners n hne with h' | h'
  · exact .inl h'
  · right; rw [hasVariable_iff] at h' ⊢; rwa [hn]

theorem inv_onDim {c : CDM (Payload D) V CS} (h : Inv c) (m : String) (f : Dim → Dim) (hf : ∀ v, (f v).name = v.name) :
    Inv (onDim c m f) := by
  have hn : (onDim c m f).dims.map (·.name) = c.dims.map (·.name) := by
    simp only [onDim, List.map_map]
    apply List.map_congr_left
    intro v _
    simp only [Function.comp]
    split <;> simp [hf]
  exact ⟨h.vars, by rw [hn]; exact h.dims, h.attrNames, h.owners⟩

/-! ## Single elements -/

theorem setData_ok {env : Env D V} {s s' : St D V CS} {n : String} {v : Var (Payload D)} {d : D} (h : setData env s n v d = .ok s') :
    v.payload.dtype = env.typeOf d ∧ s' = { s with cdm := onVar s.cdm n fun v => { v with payload := { v.payload with data := some d } } } := by
  unfold setData at h
  by_cases ht : v.payload.dtype ≠ env.typeOf d
  · rw [if_pos ht] at h; cases h
  · rw [if_neg ht] at h; cases h; exact ⟨not_not.1 ht, rfl⟩

theorem removeOne_ok {s s' : St D V CS} {e : Xml} (h : removeOne s e = .ok s') :
    e.prop "name" ≠ "" ∧
      ((e.prop "type" = "variable" ∧ s' = { s with cdm := removeVariable s.cdm (e.prop "name") }) ∨
       (e.prop "type" = "dimension" ∧ ∃ b, removeDimension s.cdm (e.prop "name") false = (s'.cdm, .ok b) ∧ s' = { s with cdm := s'.cdm }) ∨
       (e.prop "type" = "attribute" ∧ s' = { s with cdm := removeAttribute s.cdm globalNS (e.prop "name") }) ∨
       (e.prop "type" = "group" ∧ s' = s)) := by
  unfold removeOne at h
  dsimp only at h
  by_cases h1 : e.prop "name" = ""
  · rw [if_pos h1] at h; cases h
  rw [if_neg h1] at h
  by_cases h2 : e.prop "type" = ""
  · rw [if_pos h2] at h; cases h
  rw [if_neg h2] at h
  refine ⟨h1, ?_⟩
  by_cases h3 : e.prop "type" = "variable"
  · rw [if_pos h3] at h; cases h; exact .inl ⟨h3, rfl⟩
  rw [if_neg h3] at h
  by_cases h4 : e.prop "type" = "dimension"
  · rw [if_pos h4] at h
    cases hr : removeDimension s.cdm (e.prop "name") false with
    | mk c r =>
      rw [hr] at h
      cases r with
      | ok b => cases h; exact .inr (.inl ⟨h4, b, rfl, rfl⟩)
      | throws => cases h
      | ub => cases h
  rw [if_neg h4] at h
  by_cases h5 : e.prop "type" = "attribute"
  · rw [if_pos h5] at h; cases h; exact .inr (.inr (.inl ⟨h5, rfl⟩))
  rw [if_neg h5] at h
  by_cases h6 : e.prop "type" = "group"
  · rw [if_pos h6] at h; cases h; exact .inr (.inr (.inr ⟨h6, rfl⟩))
  · rw [if_neg h6] at h; cases h

/-- The variable whose attributes an element `remove` in a variable takes away. -/
def ownerOf (e : Xml) : String := if e.prop "orgName" = "" then e.prop "name" else e.prop "orgName"

theorem removeIn_ok {s s' : St D V CS} {p : Xml × Xml} (h : removeIn s p = .ok s') :
    s' = { s with cdm := removeAttribute s.cdm (ownerOf p.1) (p.2.prop "name") } := by
  unfold removeIn at h
  dsimp only at h
  by_cases h1 : p.2.prop "name" = ""
  · rw [if_pos h1] at h; cases h
  rw [if_neg h1] at h
  by_cases h2 : p.2.prop "type" ≠ "attribute"
  · rw [if_pos h2] at h; cases h
  rw [if_neg h2] at h
  change (if ownerOf p.1 = "" then Res.throws else .ok { s with cdm := removeAttribute s.cdm (ownerOf p.1) (p.2.prop "name") }) = _ at h
  by_cases h3 : ownerOf p.1 = ""
  · rw [if_pos h3] at h; cases h
  · rw [if_neg h3] at h; cases h; rfl

/-- The renamings of dimensions. -/
def dimRenamings (doc : Xml) : List (String × String × Bool) :=
  ((under doc "dimension").filter fun e => e.has "orgName").map fun e => (e.prop "orgName", e.prop "name", decide (e.prop "overwriteName" = "true"))

theorem renameDims_ok {doc : Xml} {s s' : St D V CS} (h : renameDims doc s = .ok s') :
    ∃ u, renameDimensions (dimRenamings doc) (s.cdm, s.dimNames) = ((s'.cdm, s'.dimNames), .ok u) ∧
      s' = { s with cdm := s'.cdm, dimNames := s'.dimNames } := by
  unfold renameDims at h
  change (match renameDimensions (dimRenamings doc) (s.cdm, s.dimNames) with
    | ((c, m), .ok _) => Res.ok { s with cdm := c, dimNames := m }
    | (_, .throws) => .throws
    | (_, .ub) => .ub) = _ at h
  rcases hr : renameDimensions (dimRenamings doc) (s.cdm, s.dimNames) with ⟨⟨c, m⟩, r⟩
  rw [hr] at h
  cases r with
  | ok u => cases h; exact ⟨u, rfl, rfl⟩
  | throws => cases h
  | ub => cases h

theorem lengthOf_ok {env : Env D V} {s s' : St D V CS} {e : Xml} (h : lengthOf env s e = .ok s') :
    ∃ k, env.int (e.prop "length") = .ok k ∧
      ((hasDimension s.cdm (e.prop "name") = false ∧
        s' = { s with cdm := { s.cdm with coordsInitialized := false, dims := s.cdm.dims ++ [⟨e.prop "name", Extractor.toSizeT k, false⟩] } }) ∨
       (hasDimension s.cdm (e.prop "name") = true ∧
        s' = { s with cdm := onDim s.cdm (e.prop "name") fun d => { d with length := Extractor.toSizeT k } })) := by
  unfold lengthOf at h
  obtain ⟨k, hk, h⟩ := res_bind h
  refine ⟨k, hk, ?_⟩
  cases hd : hasDimension s.cdm (e.prop "name") with
  | true =>
    rw [hd] at h
    cases h
    exact .inr ⟨rfl, rfl⟩
  | false =>
    rw [hd] at h
    have hd' : hasDimension { s.cdm with coordsInitialized := false } (e.prop "name") = false := hd
    simp only [Bool.not_false, if_true, addDimension, hd'] at h
    cases h
    exact .inl ⟨rfl, rfl⟩

theorem prefetch_ok {env : Env D V} {n org : String} {s s' : St D V CS} (h : prefetch env n org s = .ok s') :
    s' = s ∨ ∃ d v, varAt s.cdm n = some v ∧ v.payload.data = none ∧ env.read org = .ok d ∧ v.payload.dtype = env.typeOf d ∧
      s' = { s with cdm := onVar s.cdm n fun v => { v with payload := { v.payload with data := some d } } } := by
  unfold prefetch at h
  rw [getVariable_eq] at h
  cases hv : varAt s.cdm n with
  | none => rw [hv] at h; cases h; exact .inl rfl
  | some v =>
    rw [hv] at h
    dsimp only at h
    cases hd : v.payload.data with
    | some d => rw [hd] at h; cases h; exact .inl rfl
    | none =>
      rw [hd] at h
      simp only [Option.isSome_none, Bool.false_eq_true, if_false] at h
      obtain ⟨d, h1, h2⟩ := res_bind h
      obtain ⟨h3, h4⟩ := setData_ok h2
      exact .inr ⟨d, v, rfl, hd, h1, h3, h4⟩

/-- The variable whose data are fetched for an element of a dimension. -/
def sourceOf (e : Xml) : String := if e.prop "orgName" = "" then e.prop "name" else e.prop "orgName"

theorem unlimitedOf_ok {env : Env D V} {s s' : St D V CS} {e : Xml} (h : unlimitedOf env s e = .ok s') :
    (dimAt s.cdm (e.prop "name") = none ∧ s' = s) ∨
      ∃ d, dimAt s.cdm (e.prop "name") = some d ∧
        ((e.prop "isUnlimited" = "true" ∧ d.unlimited = true ∧ s' = s) ∨
         (e.prop "isUnlimited" = "true" ∧ d.unlimited = false ∧
          prefetch env (e.prop "name") (sourceOf e) { s with cdm := onDim s.cdm (e.prop "name") fun d => { d with unlimited := true } } = .ok s') ∨
         (e.prop "isUnlimited" = "false" ∧ s' = { s with cdm := onDim s.cdm (e.prop "name") fun d => { d with unlimited := false } })) := by
  unfold unlimitedOf at h
  dsimp only at h
  rw [getDimension_eq] at h
  cases hd : dimAt s.cdm (e.prop "name") with
  | none => rw [hd] at h; cases h; exact .inl ⟨rfl, rfl⟩
  | some d =>
    rw [hd] at h
    dsimp only at h
    right
    refine ⟨d, rfl, ?_⟩
    by_cases h1 : e.prop "isUnlimited" = "true"
    · rw [if_pos h1] at h
      cases hu : d.unlimited with
      | true => rw [hu] at h; cases h; exact .inl ⟨h1, rfl, rfl⟩
      | false =>
        rw [hu] at h
        exact .inr (.inl ⟨h1, rfl, h⟩)
    · rw [if_neg h1] at h
      by_cases h2 : e.prop "isUnlimited" = "false"
      · rw [if_pos h2] at h; cases h; exact .inr (.inr ⟨h2, rfl⟩)
      · rw [if_neg h2] at h; cases h

theorem shapeOf_ok {env : Env D V} {s s' : St D V CS} {e : Xml} (h : shapeOf env s e = .ok s') :
    ownerOf e ≠ "" ∧ ((varAt s.cdm (ownerOf e) = none ∧ s' = s) ∨
      ∃ sh, (varAt s.cdm (ownerOf e)).isSome = true ∧ env.shape (e.prop "shape") = .ok sh ∧
        s' = { s with cdm := onVar s.cdm (ownerOf e) fun v => { v with shape := sh } }) := by
  unfold shapeOf at h
  change (if ownerOf e = "" then Res.throws else if hasVariable s.cdm (ownerOf e) then
    (env.shape (e.prop "shape")).bind fun sh => .ok { s with cdm := onVar s.cdm (ownerOf e) fun v => { v with shape := sh } } else .ok s) = _ at h
  by_cases h1 : ownerOf e = ""
  · rw [if_pos h1] at h; cases h
  rw [if_neg h1, hasVariable_at] at h
  refine ⟨h1, ?_⟩
  cases hv : varAt s.cdm (ownerOf e) with
  | none => rw [hv] at h; cases h; exact .inl ⟨rfl, rfl⟩
  | some v =>
    rw [hv] at h
    simp only [Option.isSome_some, if_true] at h
    obtain ⟨sh, h2, h3⟩ := res_bind h
    cases h3
    exact .inr ⟨sh, rfl, h2, rfl⟩

/-- The renamings of variables. -/
def varRenamings (doc : Xml) : List (String × String) :=
  ((under doc "variable").filter fun e => e.has "orgName").map fun e => (e.prop "orgName", e.prop "name")

theorem renameVars_ok {doc : Xml} {s s' : St D V CS} (h : renameVars doc s = .ok s') :
    ∃ u, renameVariables (varRenamings doc) (s.cdm, s.varNames) = ((s'.cdm, s'.varNames), .ok u) ∧
      s' = { s with cdm := s'.cdm, varNames := s'.varNames } := by
  unfold renameVars at h
  change (match renameVariables (varRenamings doc) (s.cdm, s.varNames) with
    | ((c, m), .ok _) => Res.ok { s with cdm := c, varNames := m }
    | (_, .throws) => .throws
    | (_, .ub) => .ub) = _ at h
  rcases hr : renameVariables (varRenamings doc) (s.cdm, s.varNames) with ⟨⟨c, m⟩, r⟩
  rw [hr] at h
  cases r with
  | ok u => cases h; exact ⟨u, rfl, rfl⟩
  | throws => cases h
  | ub => cases h

theorem addOne_ok {env : Env D V} {s s' : St D V CS} {e : Xml} (h : addOne env s e = .ok s') :
    ((e.prop "type" = "" ∨ (varAt s.cdm (e.prop "name")).isSome = true) ∧ s' = s) ∨
      (e.prop "type" ≠ "" ∧ varAt s.cdm (e.prop "name") = none ∧ ∃ sh d, env.shape (e.prop "shape") = .ok sh ∧
        env.blank (string2datatype (e.prop "type").toList) = .ok d ∧ env.typeOf d = string2datatype (e.prop "type").toList ∧
        s' = { s with cdm := { s.cdm with coordsInitialized := false, vars := s.cdm.vars ++ [⟨e.prop "name", sh, ⟨string2datatype (e.prop "type").toList, some d, "", .none⟩⟩] } }) := by
  unfold addOne at h
  dsimp only at h
  by_cases hc : e.prop "type" ≠ "" ∧ hasVariable s.cdm (e.prop "name") = false
  · rw [if_pos hc] at h
    obtain ⟨sh, h1, h⟩ := res_bind h
    obtain ⟨d, h2, h⟩ := res_bind h
    by_cases ht : string2datatype (e.prop "type").toList ≠ env.typeOf d
    · rw [if_pos ht] at h; cases h
    · rw [if_neg ht] at h
      have hv : hasVariable { s.cdm with coordsInitialized := false } (e.prop "name") = false := hc.2
      simp only [addVariable, hv, Bool.not_false, if_true] at h
      cases h
      refine .inr ⟨hc.1, ?_, sh, d, h1, h2, (not_not.1 ht).symm, rfl⟩
      have := hc.2
      rw [hasVariable_at] at this
      simpa using this
  · rw [if_neg hc] at h
    cases h
    refine .inl ⟨?_, rfl⟩
    rw [hasVariable_at] at hc
    by_cases ht : e.prop "type" = ""
    · exact .inl ht
    · right
      cases hv : (varAt s.cdm (e.prop "name")).isSome with
      | true => rfl
      | false => exact absurd ⟨ht, hv⟩ hc

/-- The attribute that says that a type is unsigned is never found. -/
theorem unsigned_eq {doc : Xml} (h : doc.tag = "netcdf") : unsigned doc = .ok false := by
  unfold unsigned absolute
  rw [h, if_neg (by decide)]
  rfl

theorem typeOne_ok {env : Env D V} {doc : Xml} (hd : doc.tag = "netcdf") {s s' : St D V CS} {e : Xml} (h : typeOne env doc s e = .ok s') :
    e.prop "name" ≠ "" ∧ ((varAt s.cdm (e.prop "name") = none ∧ s' = s) ∨
      ∃ v, varAt s.cdm (e.prop "name") = some v ∧ ncmlName2cdm (e.prop "type").toList false ≠ .nat ∧
        ((v.payload.dtype = ncmlName2cdm (e.prop "type").toList false ∧ s' = s) ∨
         (v.payload.dtype ≠ ncmlName2cdm (e.prop "type").toList false ∧
          s' = { s with
            types := (e.prop "name", ncmlName2cdm (e.prop "type").toList false) :: s.types
            cdm := onVar s.cdm (e.prop "name") fun v => { v with payload := setType env (ncmlName2cdm (e.prop "type").toList false) v.payload } }))) := by
  unfold typeOne at h
  dsimp only at h
  by_cases h1 : e.prop "name" = ""
  · rw [if_pos h1] at h; cases h
  rw [if_neg h1, unsigned_eq hd] at h
  refine ⟨h1, ?_⟩
  simp only [Res.bind] at h
  rw [getVariable_eq] at h
  cases hv : varAt s.cdm (e.prop "name") with
  | none => rw [hv] at h; cases h; exact .inl ⟨rfl, rfl⟩
  | some v =>
    rw [hv] at h
    dsimp only at h
    right
    refine ⟨v, rfl, ?_⟩
    by_cases h2 : ncmlName2cdm (e.prop "type").toList false = .nat
    · rw [if_pos h2] at h; cases h
    rw [if_neg h2] at h
    refine ⟨h2, ?_⟩
    by_cases h3 : ncmlName2cdm (e.prop "type").toList false ≠ v.payload.dtype
    · rw [if_pos h3] at h; cases h; exact .inr ⟨fun x => h3 x.symm, rfl⟩
    · rw [if_neg h3] at h; cases h; exact .inl ⟨(not_not.1 h3).symm, rfl⟩

theorem valuesOf_ok {env : Env D V} {s s' : St D V CS} {p : Xml × Xml} (h : valuesOf env s p = .ok s') :
    p.1.prop "name" ≠ "" ∧ ((varAt s.cdm (p.1.prop "name") = none ∧ s' = s) ∨
      ∃ v lens d, varAt s.cdm (p.1.prop "name") = some v ∧ lengths s.cdm v.shape = .ok lens ∧
        env.fill v.payload.dtype lens (p.2.prop "start") (p.2.prop "increment") p.2.content (p.2.prop "separator") = .ok d ∧
        v.payload.dtype = env.typeOf d ∧
        s' = { s with cdm := onVar s.cdm (p.1.prop "name") fun v => { v with payload := { v.payload with data := some d } } }) := by
  unfold valuesOf at h
  dsimp only at h
  by_cases h1 : p.1.prop "name" = ""
  · rw [if_pos h1] at h; cases h
  rw [if_neg h1, getVariable_eq] at h
  refine ⟨h1, ?_⟩
  cases hv : varAt s.cdm (p.1.prop "name") with
  | none => rw [hv] at h; cases h; exact .inl ⟨rfl, rfl⟩
  | some v =>
    rw [hv] at h
    dsimp only at h
    obtain ⟨lens, h2, h⟩ := res_bind h
    obtain ⟨d, h3, h⟩ := res_bind h
    obtain ⟨h4, h5⟩ := setData_ok h
    exact .inr ⟨v, lens, d, rfl, h2, h3, h4, h5⟩

/-- The direction an element says. -/
def directionIn (e : Xml) : Direction := directionOf fun t => contains (e.prop "direction").toList t.toList

theorem vectorOf_ok {s s' : St D V CS} {p : Xml × Xml} (h : vectorOf s p = .ok s') :
    p.1.prop "name" ≠ "" ∧ ((varAt s.cdm (p.1.prop "name") = none ∧ s' = s) ∨
      (s' = { s with cdm := onVar s.cdm (p.1.prop "name") fun v => { v with payload := { v.payload with vector := (p.2.prop "counterpart", directionIn p.2) } } })) := by
  unfold vectorOf at h
  dsimp only at h
  by_cases h1 : p.1.prop "name" = ""
  · rw [if_pos h1] at h; cases h
  rw [if_neg h1, hasVariable_at] at h
  refine ⟨h1, ?_⟩
  cases hv : varAt s.cdm (p.1.prop "name") with
  | none => rw [hv] at h; cases h; exact .inl ⟨rfl, rfl⟩
  | some v => rw [hv] at h; cases h; exact .inr rfl

theorem renameAttr_ok {owner : String} {s s' : St D V CS} {e : Xml} (h : renameAttr owner s e = .ok s') :
    s' = s ∨ ∃ l l', s.cdm.attrs owner = some l ∧ renameAttribute l (e.prop "orgName") (e.prop "name") = .ok l' ∧
      s' = { s with cdm := { s.cdm with coordsInitialized := false, attrs := fun m => if m = owner then some l' else s.cdm.attrs m } } := by
  unfold renameAttr at h
  by_cases h1 : e.prop "name" = ""
  · rw [if_pos h1] at h; cases h
  rw [if_neg h1] at h
  cases ha : s.cdm.attrs owner with
  | none => rw [ha] at h; cases h; exact .inl rfl
  | some l =>
    rw [ha] at h
    dsimp only at h
    obtain ⟨l', h2, h3⟩ := res_bind h
    cases h3
    exact .inr ⟨l, l', rfl, h2, rfl⟩

theorem createAttr_name {env : Env D V} {e : Xml} {t : String} {a : Attr V} (h : createAttr env e t = .ok a) : a.name = e.prop "name" := by
  unfold createAttr at h
  dsimp only at h
  generalize (if e.prop "type" = "" then "string" else e.prop "type") = type at h
  by_cases h1 : ncmlName2cdm type.toList false = .nat
  · rw [if_pos h1] at h; cases h
  · rw [if_neg h1] at h
    obtain ⟨l, -, h⟩ := res_bind h
    obtain ⟨v, -, h⟩ := res_bind h
    cases h
    rfl

theorem assignAttr_ok {env : Env D V} {owner : String} {s s' : St D V CS} {e : Xml} (h : assignAttr env owner s e = .ok s') :
    (textOf e = "" ∧ s' = s) ∨
      (textOf e ≠ "" ∧ (owner = globalNS ∨ hasVariable s.cdm owner = true) ∧ ∃ a, createAttr env e (textOf e) = .ok a ∧
        s' = { s with cdm := { s.cdm with coordsInitialized := false, attrs := fun m => if m = owner then some ((getAttributes s.cdm owner).filter (fun b => !(b.name == a.name)) ++ [a]) else s.cdm.attrs m } }) := by
  unfold assignAttr at h
  by_cases h1 : textOf e = ""
  · rw [if_pos h1] at h; cases h; exact .inl ⟨h1, rfl⟩
  rw [if_neg h1] at h
  obtain ⟨a, h2, h⟩ := res_bind h
  have hh : hasVariable (removeAttribute s.cdm owner a.name) owner = hasVariable s.cdm owner := rfl
  have hg : getAttributes (removeAttribute s.cdm owner a.name) owner = (getAttributes s.cdm owner).filter fun b => !(b.name == a.name) := by
    simp only [getAttributes, removeAttribute, if_true]
    cases s.cdm.attrs owner <;> rfl
  rcases addAttribute_cases (removeAttribute s.cdm owner a.name) owner a with ⟨-, e1⟩ | ⟨-, -, e1⟩ | ⟨ho, -, e1⟩
  · rw [e1] at h; cases h
  · rw [e1] at h; cases h
  · rw [e1] at h
    cases h
    refine .inr ⟨h1, ?_, a, h2, ?_⟩
    · rwa [hh] at ho
    · rw [hg]
      simp only [removeAttribute]
      congr 2
      funext m
      by_cases hm : m = owner <;> simp [hm]

/-! ## Unique names -/

theorem inv_removeOne {s s' : St D V CS} {e : Xml} (hi : Inv s.cdm) (h : removeOne s e = .ok s') : Inv s'.cdm := by
  obtain ⟨-, ⟨-, rfl⟩ | ⟨-, b, hr, -⟩ | ⟨-, rfl⟩ | ⟨-, rfl⟩⟩ := removeOne_ok h
  · exact inv_removeVariable _ hi _
  · have := inv_step (fun _ => s.cdm.coordSystems) s.cdm hi (.rmDim (e.prop "name") false)
    simp only [step, hr] at this
    exact this
  · exact inv_step (fun _ => s.cdm.coordSystems) s.cdm hi (.rmAttr globalNS (e.prop "name"))
  · exact hi

theorem inv_renameDimensions : ∀ (l : List (String × String × Bool)) (c c' : CDM (Payload D) V CS) (m m' : Names) (u : Unit), Inv c →
    renameDimensions l (c, m) = ((c', m'), .ok u) → Inv c'
  | [], _, _, _, _, _, hi, h => by cases h; exact hi
  | (org, new, ow) :: l, c, c', m, m', u, hi, h => by
    unfold renameDimensions at h
    cases ho : hasDimension c org with
    | false =>
      rw [ho] at h
      simp only [Bool.false_eq_true, if_false] at h
      exact inv_renameDimensions l c c' m m' u hi h
    | true =>
      rw [ho, if_pos rfl] at h
      by_cases hn : new = ""
      · rw [if_pos hn] at h; cases h
      · rw [if_neg hn] at h
        have hs := inv_step (fun _ => c.coordSystems) c hi (.renDim org new ow)
        simp only [step] at hs
        rcases hr : renameDimension c org new ow with ⟨c2, r⟩
        rw [hr] at h hs
        cases r with
        | ok b => exact inv_renameDimensions l c2 c' _ m' u hs h
        | throws => cases h
        | ub => cases h

theorem inv_renameVariables : ∀ (l : List (String × String)) (c c' : CDM (Payload D) V CS) (m m' : Names) (u : Unit), Inv c →
    renameVariables l (c, m) = ((c', m'), .ok u) → Inv c'
  | [], _, _, _, _, _, hi, h => by cases h; exact hi
  | (org, new) :: l, c, c', m, m', u, hi, h => by
    unfold renameVariables at h
    cases ho : hasVariable c org with
    | false =>
      rw [ho] at h
      simp only [Bool.false_eq_true, if_false] at h
      exact inv_renameVariables l c c' m m' u hi h
    | true =>
      rw [ho, if_pos rfl] at h
      by_cases hn : new = ""
      · rw [if_pos hn] at h; cases h
      · rw [if_neg hn] at h
        have hs := inv_step (fun _ => c.coordSystems) c hi (.renVar org new)
        simp only [step] at hs
        rcases hr : renameVariable c org new with ⟨c2, r⟩
        rw [hr] at h hs
        cases r with
        | ok b => exact inv_renameVariables l c2 c' _ m' u hs h
        | throws => cases h
        | ub => cases h

/-- The names after an attribute has been renamed, whichever that was. -/
theorem nodup_renameAttribute {l l' : List (Attr V)} {org name : String} (hn : (l.map (·.name)).Nodup) (h : renameAttribute l org name = .ok l') :
    (l'.map (·.name)).Nodup := by
  unfold renameAttribute at h
  cases hi : l.findIdx? fun a => a.name = org with
  | none => rw [hi] at h; cases h; exact hn
  | some i =>
    rw [hi] at h
    dsimp only at h
    unfold setNameAt at h
    cases hg : (l.filter fun a => !(a.name == name))[i]? with
    | none => rw [hg] at h; cases h
    | some a =>
      rw [hg] at h
      cases h
      have h1 : ((l.filter fun a => !(a.name == name)).map (·.name)).Nodup := nodup_filter_map _ _ hn
      rw [List.map_set]
      refine List.Nodup.set h1 ?_
      intro hm
      obtain ⟨b, hb, hbn⟩ := List.mem_map.1 hm
      have := (List.mem_filter.1 hb).2
      simp [hbn] at this

theorem inv_renameAttr {owner : String} {s s' : St D V CS} {e : Xml} (hi : Inv s.cdm) (h : renameAttr owner s e = .ok s') : Inv s'.cdm := by
  rcases renameAttr_ok h with rfl | ⟨l, l', ha, hr, rfl⟩
  · exact hi
  · refine inv_setAttrs s.cdm hi owner (some l') false (fun _ => hi.owners owner (by rw [ha]; simp)) ?_
    rintro x ⟨⟩
    exact nodup_renameAttribute (hi.attrNames _ _ ha) hr

theorem inv_assignAttr {env : Env D V} {owner : String} {s s' : St D V CS} {e : Xml} (hi : Inv s.cdm) (h : assignAttr env owner s e = .ok s') :
    Inv s'.cdm := by
  rcases assignAttr_ok h with ⟨-, rfl⟩ | ⟨-, ho, a, -, rfl⟩
  · exact hi
  · have := inv_step (fun _ => s.cdm.coordSystems) s.cdm hi (.setAttr owner a)
    simp only [step] at this
    rcases addOrReplaceAttribute_cases s.cdm owner a with ⟨⟨h1, h2⟩, -⟩ | ⟨-, e1⟩
    · rcases ho with ho | ho
      · exact absurd ho h1
      · rw [ho] at h2; cases h2
    · rw [e1] at this; exact this

theorem inv_unlimitedOf {env : Env D V} {s s' : St D V CS} {e : Xml} (hi : Inv s.cdm) (h : unlimitedOf env s e = .ok s') : Inv s'.cdm := by
  rcases unlimitedOf_ok h with ⟨-, rfl⟩ | ⟨d, -, ⟨-, -, rfl⟩ | ⟨-, -, hp⟩ | ⟨-, rfl⟩⟩
  · exact hi
  · exact hi
  · have h1 : Inv (onDim s.cdm (e.prop "name") fun d => { d with unlimited := true }) := inv_onDim hi _ _ fun _ => rfl
    rcases prefetch_ok hp with rfl | ⟨d, v, -, -, -, -, rfl⟩
    · exact h1
    · exact inv_onVar h1 _ _ fun _ => rfl
  · exact inv_onDim hi _ _ fun _ => rfl

theorem inv_lengthOf {env : Env D V} {s s' : St D V CS} {e : Xml} (hi : Inv s.cdm) (h : lengthOf env s e = .ok s') : Inv s'.cdm := by
  obtain ⟨k, -, ⟨hd, rfl⟩ | ⟨-, rfl⟩⟩ := lengthOf_ok h
  · have := inv_step (fun _ => s.cdm.coordSystems) s.cdm hi (.addDim ⟨e.prop "name", Extractor.toSizeT k, false⟩)
    have hd' : hasDimension { s.cdm with coordsInitialized := false } (e.prop "name") = false := hd
    simp only [step, addDimension, hd', Bool.not_false, if_true] at this
    exact this
  · exact inv_onDim hi _ _ fun _ => rfl

theorem inv_shapeOf {env : Env D V} {s s' : St D V CS} {e : Xml} (hi : Inv s.cdm) (h : shapeOf env s e = .ok s') : Inv s'.cdm := by
  obtain ⟨-, ⟨-, rfl⟩ | ⟨sh, -, -, rfl⟩⟩ := shapeOf_ok h
  · exact hi
  · exact inv_onVar hi _ _ fun _ => rfl

theorem inv_addOne {env : Env D V} {s s' : St D V CS} {e : Xml} (hi : Inv s.cdm) (h : addOne env s e = .ok s') : Inv s'.cdm := by
  rcases addOne_ok h with ⟨-, rfl⟩ | ⟨-, hv, sh, d, -, -, -, rfl⟩
  · exact hi
  · have := inv_step (fun _ => s.cdm.coordSystems) s.cdm hi (.addVar ⟨e.prop "name", sh, ⟨string2datatype (e.prop "type").toList, some d, "", .none⟩⟩)
    have hv' : hasVariable { s.cdm with coordsInitialized := false } (e.prop "name") = false := by
      show hasVariable s.cdm (e.prop "name") = false
      rw [hasVariable_at, hv]; rfl
    simp only [step, addVariable, hv', Bool.not_false, if_true] at this
    exact this

theorem inv_typeOne {env : Env D V} {doc : Xml} (hd : doc.tag = "netcdf") {s s' : St D V CS} {e : Xml} (hi : Inv s.cdm) (h : typeOne env doc s e = .ok s') :
    Inv s'.cdm := by
  obtain ⟨-, ⟨-, rfl⟩ | ⟨v, -, -, ⟨-, rfl⟩ | ⟨-, rfl⟩⟩⟩ := typeOne_ok hd h
  · exact hi
  · exact hi
  · exact inv_onVar hi _ _ fun _ => rfl

theorem inv_valuesOf {env : Env D V} {s s' : St D V CS} {p : Xml × Xml} (hi : Inv s.cdm) (h : valuesOf env s p = .ok s') : Inv s'.cdm := by
  obtain ⟨-, ⟨-, rfl⟩ | ⟨v, lens, d, -, -, -, -, rfl⟩⟩ := valuesOf_ok h
  · exact hi
  · exact inv_onVar hi _ _ fun _ => rfl

theorem inv_vectorOf {s s' : St D V CS} {p : Xml × Xml} (hi : Inv s.cdm) (h : vectorOf s p = .ok s') : Inv s'.cdm := by
  obtain ⟨-, ⟨-, rfl⟩ | rfl⟩ := vectorOf_ok h
  · exact hi
  · exact inv_onVar hi _ _ fun _ => rfl

theorem inv_removeIn {s s' : St D V CS} {p : Xml × Xml} (hi : Inv s.cdm) (h : removeIn s p = .ok s') : Inv s'.cdm := by
  rw [removeIn_ok h]
  exact inv_step (fun _ => s.cdm.coordSystems) s.cdm hi (.rmAttr _ _)

theorem inv_initRemove {doc : Xml} {s s' : St D V CS} (hi : Inv s.cdm) (h : initRemove doc s = .ok s') : Inv s'.cdm := by
  obtain ⟨t, h1, h2⟩ := Res.bind_eq_ok.1 h
  have ht : Inv t.cdm := fold_keep (P := fun s => Inv s.cdm) (fun _ _ _ _ hp hf => inv_removeOne hp hf) h1 hi
  exact fold_keep (P := fun s => Inv s.cdm) (fun _ _ _ _ hp hf => inv_removeIn hp hf) h2 ht

theorem inv_renameDims {doc : Xml} {s s' : St D V CS} (hi : Inv s.cdm) (h : renameDims doc s = .ok s') : Inv s'.cdm := by
  obtain ⟨u, h1, -⟩ := renameDims_ok h
  exact inv_renameDimensions _ _ _ _ _ u hi h1

theorem inv_initDims {env : Env D V} {doc : Xml} {s s' : St D V CS} (hi : Inv s.cdm) (h : initDims env doc s = .ok s') : Inv s'.cdm := by
  obtain ⟨t, h1, h2⟩ := Res.bind_eq_ok.1 h
  exact fold_keep (P := fun s => Inv s.cdm) (fun _ _ _ _ hp hf => inv_lengthOf hp hf) h2 (inv_renameDims hi h1)

theorem inv_initUnlimited {env : Env D V} {doc : Xml} {s s' : St D V CS} (hi : Inv s.cdm) (h : initUnlimited env doc s = .ok s') : Inv s'.cdm :=
  fold_keep (P := fun s => Inv s.cdm) (fun _ _ _ _ hp hf => inv_unlimitedOf hp hf) h hi

theorem inv_initShapes {env : Env D V} {doc : Xml} {s s' : St D V CS} (hi : Inv s.cdm) (h : initShapes env doc s = .ok s') : Inv s'.cdm :=
  fold_keep (P := fun s => Inv s.cdm) (fun _ _ _ _ hp hf => inv_shapeOf hp hf) h hi

theorem inv_renameVars {doc : Xml} {s s' : St D V CS} (hi : Inv s.cdm) (h : renameVars doc s = .ok s') : Inv s'.cdm := by
  obtain ⟨u, h1, -⟩ := renameVars_ok h
  exact inv_renameVariables _ _ _ _ _ u hi h1

theorem inv_initNames {env : Env D V} {doc : Xml} {s s' : St D V CS} (hi : Inv s.cdm) (h : initNames env doc s = .ok s') : Inv s'.cdm := by
  obtain ⟨t, h1, h2⟩ := Res.bind_eq_ok.1 h
  exact fold_keep (P := fun s => Inv s.cdm) (fun _ _ _ _ hp hf => inv_addOne hp hf) h2 (inv_renameVars hi h1)

theorem inv_initTypes {env : Env D V} {doc : Xml} (hd : doc.tag = "netcdf") {s s' : St D V CS} (hi : Inv s.cdm) (h : initTypes env doc s = .ok s') :
    Inv s'.cdm :=
  fold_keep (P := fun s => Inv s.cdm) (fun _ _ _ _ hp hf => inv_typeOne hd hp hf) h hi

theorem inv_initValues {env : Env D V} {doc : Xml} {s s' : St D V CS} (hi : Inv s.cdm) (h : initValues env doc s = .ok s') : Inv s'.cdm :=
  fold_keep (P := fun s => Inv s.cdm) (fun _ _ _ _ hp hf => inv_valuesOf hp hf) h hi

theorem inv_initVectors {doc : Xml} {s s' : St D V CS} (hi : Inv s.cdm) (h : initVectors doc s = .ok s') : Inv s'.cdm :=
  fold_keep (P := fun s => Inv s.cdm) (fun _ _ _ _ hp hf => inv_vectorOf hp hf) h hi

theorem inv_initAttrNames {doc : Xml} {s s' : St D V CS} (hi : Inv s.cdm) (h : initAttrNames doc s = .ok s') : Inv s'.cdm := by
  obtain ⟨t, h1, h2⟩ := Res.bind_eq_ok.1 h
  have ht : Inv t.cdm := fold_keep (P := fun s => Inv s.cdm) (fun _ _ _ _ hp hf => inv_renameAttr hp hf) h1 hi
  exact fold_keep (P := fun s => Inv s.cdm) (fun _ _ _ _ hp hf => inv_renameAttr hp hf) h2 ht

theorem inv_initAttrs {env : Env D V} {doc : Xml} {s s' : St D V CS} (hi : Inv s.cdm) (h : initAttrs env doc s = .ok s') : Inv s'.cdm := by
  obtain ⟨t, h1, h2⟩ := Res.bind_eq_ok.1 h
  have ht : Inv t.cdm := fold_keep (P := fun s => Inv s.cdm) (fun _ _ _ _ hp hf => inv_assignAttr hp hf) h1 hi
  exact fold_keep (P := fun s => Inv s.cdm) (fun _ _ _ _ hp hf => inv_assignAttr hp hf) h2 ht

end Fimex.NcmlDoc
