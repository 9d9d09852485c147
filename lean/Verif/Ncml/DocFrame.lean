import Verif.Ncml.DocLemmas

/-!
# What the passes over an NcML document leave alone
-/

namespace Fimex.NcmlDoc

open Cdm Ncml Tables

variable {D V CS : Type}

theorem varAt_remove_ne (c : CDM (Payload D) V CS) {n m : String} (h : n ≠ m) : varAt (removeVariable c m) n = varAt c n :=
  find_filter_ne _ _ _ h

theorem varAt_remove_eq (c : CDM (Payload D) V CS) (n : String) : varAt (removeVariable c n) n = none := find_filter_eq _ _

theorem attrs_remove_ne (c : CDM (Payload D) V CS) {n m : String} (h : n ≠ m) : (removeVariable c m).attrs n = c.attrs n := by
  simp [removeVariable, h]

theorem removeDimension_frame {c c' : CDM (Payload D) V CS} {n : String} {b : Bool} (h : removeDimension c n false = (c', .ok b)) :
    c'.vars = c.vars ∧ c'.attrs = c.attrs ∧ (∀ m, m ≠ n → dimAt c' m = dimAt c m) ∧ dimAt c' n = none := by
  unfold removeDimension at h
  split at h
  · cases h
  · split at h
    · cases h
      refine ⟨rfl, rfl, ?_, ?_⟩
      · intro m hm
        unfold dimAt
        rw [List.find?_filter]
        congr 1
        funext d
        by_cases hd : d.name = m
        · subst hd; simp [hm]
        · simp [hd]
      · unfold dimAt
        rw [List.find?_eq_none]
        intro d hd
        have := (List.mem_filter.1 hd).2
        simpa using this
    · rename_i hd
      cases h
      refine ⟨rfl, rfl, fun _ _ => rfl, ?_⟩
      rw [hasDimension_at] at hd
      simpa using hd

/-- A renaming of variables leaves dimensions and other variables alone. -/
theorem renameVariable_frame {c c' : CDM (Payload D) V CS} (hi : Inv c) {org new : String} {b : Bool} (ho : hasVariable c org = true)
    (h : renameVariable c org new = (c', .ok b)) :
    c'.dims = c.dims ∧ (∀ n, n ≠ org → n ≠ new → varAt c' n = varAt c n ∧ c'.attrs n = c.attrs n) ∧ varAt c' org = none ∧
      (org ≠ new → varAt c' new = (varAt c org).map fun v => { v with name := new }) := by
  by_cases hne : org = new
  · rw [renameVariable_fail c org new (Or.inr hne)] at h
    cases h
    subst hne
    exact ⟨rfl, fun n h1 _ => ⟨varAt_remove_ne c h1, attrs_remove_ne c h1⟩, varAt_remove_eq c _, fun h => absurd rfl h⟩
  · obtain ⟨c2, e, hv, hd, -, -, -, ha⟩ := renameVariable_ok c hi org new hne ho
    rw [e] at h
    cases h
    have hf : ∀ x, varAt c' x = if x = new then ((c.vars.filter fun v => !(v.name == new)).find? fun v => v.name = org).map (fun v => { v with name := new })
        else if x = org then none else (c.vars.filter fun v => !(v.name == new)).find? fun v => v.name = x := by
      intro x
      unfold varAt
      rw [hv]
      exact find_renamed _ _ _ _ hne (by intro v hv; simpa using (List.mem_filter.1 hv).2)
    refine ⟨hd, ?_, ?_, ?_⟩
    · intro n h1 h2
      refine ⟨?_, ha n h1 h2⟩
      rw [hf, if_neg h2, if_neg h1, find_filter_ne _ _ _ h2]
      rfl
    · rw [hf, if_neg hne, if_pos rfl]
    · intro _
      rw [hf, if_pos rfl, find_filter_ne _ _ _ hne]
      rfl

/-- The variables and names after the renamings, for names that no renaming has. -/
theorem renameVariables_frame : ∀ (l : List (String × String)) (c c' : CDM (Payload D) V CS) (m m' : Names) (u : Unit), Inv c →
    renameVariables l (c, m) = ((c', m'), .ok u) →
    c'.dims = c.dims ∧ (∀ n, (∀ e ∈ l, e.1 ≠ n ∧ e.2 ≠ n) → varAt c' n = varAt c n ∧ c'.attrs n = c.attrs n) ∧
      (∀ n, (∀ e ∈ l, e.2 ≠ n) → m'.get n = m.get n ∧ (varAt c n = none → varAt c' n = none))
  | [], _, _, _, _, _, _, h => by cases h; exact ⟨rfl, fun _ _ => ⟨rfl, rfl⟩, fun _ _ => ⟨rfl, id⟩⟩
  | (org, new) :: l, c, c', m, m', u, hi, h => by
    have horig := h
    unfold renameVariables at h
    cases ho : hasVariable c org with
    | false =>
      rw [ho] at h
      simp only [Bool.false_eq_true, if_false] at h
      obtain ⟨k1, k2, k3⟩ := renameVariables_frame l c c' m m' u hi h
      exact ⟨k1, fun n hn => k2 n fun e he => hn e (List.mem_cons_of_mem _ he), fun n hn => k3 n fun e he => hn e (List.mem_cons_of_mem _ he)⟩
    | true =>
      rw [ho, if_pos rfl] at h
      by_cases hn : new = ""
      · rw [if_pos hn] at h; cases h
      · rw [if_neg hn] at h
        have hs := inv_step (fun _ => c.coordSystems) c hi (.renVar org new)
        simp only [step] at hs
        rcases hr : renameVariable c org new with ⟨c2, r⟩
        rw [hr] at h hs
        cases r with
        | throws => cases h
        | ub => cases h
        | ok b =>
          obtain ⟨k1, k2, k3⟩ := renameVariables_frame l c2 c' _ m' u hs h
          obtain ⟨f1, f2, f3, -⟩ := renameVariable_frame hi ho hr
          refine ⟨k1.trans f1, ?_, ?_⟩
          · intro n hne
            have h0 := hne (org, new) List.mem_cons_self
            obtain ⟨a1, a2⟩ := k2 n fun e he => hne e (List.mem_cons_of_mem _ he)
            obtain ⟨b1, b2⟩ := f2 n (fun x => h0.1 x.symm) (fun x => h0.2 x.symm)
            exact ⟨a1.trans b1, a2.trans b2⟩
          · intro n hne
            have h0 : new ≠ n := hne (org, new) List.mem_cons_self
            obtain ⟨a1, a2⟩ := k3 n fun e he => hne e (List.mem_cons_of_mem _ he)
            refine ⟨?_, ?_⟩
            · rw [a1, get_cons, if_neg h0]
            · intro hnone
              apply a2
              by_cases hno : n = org
              · rw [hno]; exact f3
              · rw [(f2 n hno fun x => h0 x.symm).1]; exact hnone

/-- Renamings of dimensions leave the attributes alone and the variables that have none of the dimensions. -/
theorem renameDimensions_frame : ∀ (l : List (String × String × Bool)) (c c' : CDM (Payload D) V CS) (m m' : Names) (u : Unit), Inv c →
    renameDimensions l (c, m) = ((c', m'), .ok u) →
    c'.attrs = c.attrs ∧ (∀ n, varAt c n = none → varAt c' n = none) ∧
      (∀ n v, varAt c n = some v → ∃ v', varAt c' n = some v' ∧ v'.payload = v.payload) ∧
      (∀ n v, varAt c n = some v → (∀ e ∈ l, e.1 ∉ v.shape) → varAt c' n = some v) ∧
      (∀ n, (∀ e ∈ l, e.2.1 ≠ n) → dimAt c n = none → dimAt c' n = none)
  | [], _, _, _, _, _, _, h => by cases h; exact ⟨rfl, fun _ => id, fun _ v hv => ⟨v, hv, rfl⟩, fun _ _ hv _ => hv, fun _ _ => id⟩
  | (org, new, ow) :: l, c, c', m, m', u, hi, h => by
    unfold renameDimensions at h
    cases ho : hasDimension c org with
    | false =>
      rw [ho] at h
      simp only [Bool.false_eq_true, if_false] at h
      obtain ⟨k1, k2, k3, k4, k5⟩ := renameDimensions_frame l c c' m m' u hi h
      exact ⟨k1, k2, k3, fun n v hv hn => k4 n v hv fun e he => hn e (List.mem_cons_of_mem _ he),
        fun n hn => k5 n fun e he => hn e (List.mem_cons_of_mem _ he)⟩
    | true =>
      rw [ho, if_pos rfl] at h
      by_cases hn : new = ""
      · rw [if_pos hn] at h; cases h
      · rw [if_neg hn] at h
        have hs := inv_step (fun _ => c.coordSystems) c hi (.renDim org new ow)
        simp only [step] at hs
        rcases hr : renameDimension c org new ow with ⟨c2, r⟩
        rw [hr] at h hs
        cases r with
        | throws => cases h
        | ub => cases h
        | ok b =>
          obtain ⟨k1, k2, k3, k4, k5⟩ := renameDimensions_frame l c2 c' _ m' u hs h
          obtain ⟨hne, d1, d2, d3⟩ := renameDimension_done hi.dims ho hr
          have hat : ∀ n, varAt c2 n = (varAt c n).map (renameInShape org new) := by
            intro n
            unfold varAt
            rw [d1, List.find?_map]
            congr 2
            funext v
            simp only [Function.comp, renameInShape_eq]
          refine ⟨k1.trans d2, ?_, ?_, ?_, ?_⟩
          · intro n hv
            exact k2 n (by rw [hat, hv]; rfl)
          · intro n v hv
            obtain ⟨v', h1, h2⟩ := k3 n (renameInShape org new v) (by rw [hat, hv]; rfl)
            exact ⟨v', h1, by rw [h2, renameInShape_eq]⟩
          · intro n v hv hsh
            refine k4 n v ?_ fun e he => hsh e (List.mem_cons_of_mem _ he)
            have : org ∉ v.shape := hsh (org, new, ow) List.mem_cons_self
            rw [hat, hv, Option.map_some]
            unfold renameInShape checkDimension
            rw [if_neg (by simpa using this)]
          · intro n hnames hd
            refine k5 n (fun e he => hnames e (List.mem_cons_of_mem _ he)) ?_
            have h0 : new ≠ n := hnames (org, new, ow) List.mem_cons_self
            unfold dimAt at hd ⊢
            rw [List.find?_eq_none] at hd ⊢
            intro d hdm
            rw [d3, List.mem_map] at hdm
            obtain ⟨d0, hd0, rfl⟩ := hdm
            have := hd d0 (List.mem_filter.1 hd0).1
            by_cases h1 : d0.name = org
            · rw [if_pos h1]; simpa using h0
            · rw [if_neg h1]; exact this

/-! ## Passes that leave a part of the dataset alone -/

theorem dims_shapeOf {env : Env D V} {s s' : St D V CS} {e : Xml} (h : shapeOf env s e = .ok s') : s'.cdm.dims = s.cdm.dims := by
  obtain ⟨-, ⟨-, rfl⟩ | ⟨sh, -, -, rfl⟩⟩ := shapeOf_ok h <;> rfl

theorem dims_addOne {env : Env D V} {s s' : St D V CS} {e : Xml} (h : addOne env s e = .ok s') : s'.cdm.dims = s.cdm.dims := by
  rcases addOne_ok h with ⟨-, rfl⟩ | ⟨-, hv, sh, d, -, -, -, rfl⟩ <;> rfl

theorem dims_typeOne {env : Env D V} {doc : Xml} (hd : doc.tag = "netcdf") {s s' : St D V CS} {e : Xml} (h : typeOne env doc s e = .ok s') :
    s'.cdm.dims = s.cdm.dims := by
  obtain ⟨-, ⟨-, rfl⟩ | ⟨v, -, -, ⟨-, rfl⟩ | ⟨-, rfl⟩⟩⟩ := typeOne_ok hd h <;> rfl

theorem dims_valuesOf {env : Env D V} {s s' : St D V CS} {p : Xml × Xml} (h : valuesOf env s p = .ok s') : s'.cdm.dims = s.cdm.dims := by
  obtain ⟨-, ⟨-, rfl⟩ | ⟨v, lens, d, -, -, -, -, rfl⟩⟩ := valuesOf_ok h <;> rfl

theorem dims_vectorOf {s s' : St D V CS} {p : Xml × Xml} (h : vectorOf s p = .ok s') : s'.cdm.dims = s.cdm.dims := by
  obtain ⟨-, ⟨-, rfl⟩ | rfl⟩ := vectorOf_ok h <;> rfl

theorem dims_initShapes {env : Env D V} {doc : Xml} {s s' : St D V CS} (h : initShapes env doc s = .ok s') : s'.cdm.dims = s.cdm.dims :=
  fold_keep (P := fun t => t.cdm.dims = s.cdm.dims) (fun _ _ _ _ hp hf => (dims_shapeOf hf).trans hp) h rfl

theorem dims_initNames {env : Env D V} {doc : Xml} {s s' : St D V CS} (hi : Inv s.cdm) (h : initNames env doc s = .ok s') : s'.cdm.dims = s.cdm.dims := by
  obtain ⟨t, h1, h2⟩ := Res.bind_eq_ok.1 h
  obtain ⟨u, h3, -⟩ := renameVars_ok h1
  have := (renameVariables_frame _ _ _ _ _ u hi h3).1
  exact fold_keep (P := fun t => t.cdm.dims = s.cdm.dims) (fun _ _ _ _ hp hf => (dims_addOne hf).trans hp) h2 this

theorem dims_initTypes {env : Env D V} {doc : Xml} (hd : doc.tag = "netcdf") {s s' : St D V CS} (h : initTypes env doc s = .ok s') :
    s'.cdm.dims = s.cdm.dims :=
  fold_keep (P := fun t => t.cdm.dims = s.cdm.dims) (fun _ _ _ _ hp hf => (dims_typeOne hd hf).trans hp) h rfl

theorem dims_initValues {env : Env D V} {doc : Xml} {s s' : St D V CS} (h : initValues env doc s = .ok s') : s'.cdm.dims = s.cdm.dims :=
  fold_keep (P := fun t => t.cdm.dims = s.cdm.dims) (fun _ _ _ _ hp hf => (dims_valuesOf hf).trans hp) h rfl

theorem dims_initVectors {doc : Xml} {s s' : St D V CS} (h : initVectors doc s = .ok s') : s'.cdm.dims = s.cdm.dims :=
  fold_keep (P := fun t => t.cdm.dims = s.cdm.dims) (fun _ _ _ _ hp hf => (dims_vectorOf hf).trans hp) h rfl

/-- Everything but attributes. -/
def SameButAttrs (s s' : St D V CS) : Prop :=
  s'.cdm.vars = s.cdm.vars ∧ s'.cdm.dims = s.cdm.dims ∧ s'.varNames = s.varNames ∧ s'.dimNames = s.dimNames ∧ s'.types = s.types

theorem SameButAttrs.trans {s t u : St D V CS} (h : SameButAttrs s t) (k : SameButAttrs t u) : SameButAttrs s u :=
  ⟨k.1.trans h.1, k.2.1.trans h.2.1, k.2.2.1.trans h.2.2.1, k.2.2.2.1.trans h.2.2.2.1, k.2.2.2.2.trans h.2.2.2.2⟩

theorem SameButAttrs.refl (s : St D V CS) : SameButAttrs s s := ⟨rfl, rfl, rfl, rfl, rfl⟩

theorem same_renameAttr {owner : String} {s s' : St D V CS} {e : Xml} (h : renameAttr owner s e = .ok s') : SameButAttrs s s' := by
  rcases renameAttr_ok h with rfl | ⟨l, l', ha, hr, rfl⟩ <;> exact ⟨rfl, rfl, rfl, rfl, rfl⟩

theorem same_assignAttr {env : Env D V} {owner : String} {s s' : St D V CS} {e : Xml} (h : assignAttr env owner s e = .ok s') : SameButAttrs s s' := by
  rcases assignAttr_ok h with ⟨-, rfl⟩ | ⟨-, ho, a, -, rfl⟩ <;> exact ⟨rfl, rfl, rfl, rfl, rfl⟩

theorem same_initAttrNames {doc : Xml} {s s' : St D V CS} (h : initAttrNames doc s = .ok s') : SameButAttrs s s' := by
  obtain ⟨t, h1, h2⟩ := Res.bind_eq_ok.1 h
  have ht : SameButAttrs s t := fold_keep (P := SameButAttrs s) (fun _ _ _ _ hp hf => hp.trans (same_renameAttr hf)) h1 (.refl s)
  exact fold_keep (P := SameButAttrs s) (fun _ _ _ _ hp hf => hp.trans (same_renameAttr hf)) h2 ht

theorem same_initAttrs {env : Env D V} {doc : Xml} {s s' : St D V CS} (h : initAttrs env doc s = .ok s') : SameButAttrs s s' := by
  obtain ⟨t, h1, h2⟩ := Res.bind_eq_ok.1 h
  have ht : SameButAttrs s t := fold_keep (P := SameButAttrs s) (fun _ _ _ _ hp hf => hp.trans (same_assignAttr hf)) h1 (.refl s)
  exact fold_keep (P := SameButAttrs s) (fun _ _ _ _ hp hf => hp.trans (same_assignAttr hf)) h2 ht

theorem varAt_congr {c c' : CDM (Payload D) V CS} (h : c'.vars = c.vars) (n : String) : varAt c' n = varAt c n := by
  unfold varAt; rw [h]

theorem dimAt_congr {c c' : CDM (Payload D) V CS} (h : c'.dims = c.dims) (n : String) : dimAt c' n = dimAt c n := by
  unfold dimAt; rw [h]

theorem lengths_congr {c c' : CDM (Payload D) V CS} (h : c'.dims = c.dims) : ∀ l, lengths c' l = lengths c l
  | [] => rfl
  | n :: l => by
    unfold lengths
    rw [getDimension_eq, getDimension_eq, dimAt_congr h, lengths_congr h l]

/-- What the values, the vectors and the attributes leave of the variables: names, shapes and types. -/
theorem late_frame {env : Env D V} {doc : Xml} {s6 s7 s8 s9 s : St D V CS} (h7 : initValues env doc s6 = .ok s7) (h8 : initVectors doc s7 = .ok s8)
    (h9 : initAttrNames doc s8 = .ok s9) (h : initAttrs env doc s9 = .ok s) (n : String) :
    s.cdm.dims = s6.cdm.dims ∧ s.varNames = s6.varNames ∧ s.types = s6.types ∧ (varAt s6.cdm n = none → varAt s.cdm n = none) ∧
      ∀ v, varAt s6.cdm n = some v → ∃ v', varAt s.cdm n = some v' ∧ v'.shape = v.shape ∧ v'.payload.dtype = v.payload.dtype ∧
        ((∀ p ∈ inVariables doc "values", p.1.prop "name" ≠ n) → v'.payload.data = v.payload.data) ∧
        ((∀ p ∈ inVariables doc "spatial_vector", p.1.prop "name" ≠ n) → v'.payload.vector = v.payload.vector) := by
  have k7 : s7.cdm.dims = s6.cdm.dims ∧ s7.varNames = s6.varNames ∧ s7.types = s6.types ∧ (varAt s6.cdm n = none → varAt s7.cdm n = none) ∧
      ∀ v, varAt s6.cdm n = some v → ∃ v', varAt s7.cdm n = some v' ∧ v'.shape = v.shape ∧ v'.payload.dtype = v.payload.dtype ∧
        ((∀ p ∈ inVariables doc "values", p.1.prop "name" ≠ n) → v'.payload.data = v.payload.data) ∧ v'.payload.vector = v.payload.vector := by
    refine fold_keep (P := fun t => t.cdm.dims = s6.cdm.dims ∧ t.varNames = s6.varNames ∧ t.types = s6.types ∧ (varAt s6.cdm n = none → varAt t.cdm n = none) ∧
      ∀ v, varAt s6.cdm n = some v → ∃ v', varAt t.cdm n = some v' ∧ v'.shape = v.shape ∧ v'.payload.dtype = v.payload.dtype ∧
        ((∀ p ∈ inVariables doc "values", p.1.prop "name" ≠ n) → v'.payload.data = v.payload.data) ∧ v'.payload.vector = v.payload.vector) ?_ h7
        ⟨rfl, rfl, rfl, id, fun v hv => ⟨v, hv, rfl, rfl, fun _ => rfl, rfl⟩⟩
    intro p hp t t' ⟨q1, q2, q3, q4, q5⟩ hf
    obtain ⟨-, ⟨-, rfl⟩ | ⟨w, lens, d, -, -, -, -, rfl⟩⟩ := valuesOf_ok hf
    · exact ⟨q1, q2, q3, q4, q5⟩
    · refine ⟨q1, q2, q3, fun hn => onVar_none (fun _ => rfl) (q4 hn), ?_⟩
      intro v hv
      obtain ⟨v', a1, a2, a3, a4, a5⟩ := q5 v hv
      refine ⟨_, onVar_some (fun _ => rfl) a1, ?_⟩
      by_cases hn : n = p.1.prop "name"
      · simp only [hn, if_true]
        exact ⟨a2, a3, fun hno => absurd rfl (hno p hp), a5⟩
      · rw [if_neg hn]
        exact ⟨a2, a3, a4, a5⟩
  have k8 : s8.cdm.dims = s6.cdm.dims ∧ s8.varNames = s6.varNames ∧ s8.types = s6.types ∧ (varAt s6.cdm n = none → varAt s8.cdm n = none) ∧
      ∀ v, varAt s6.cdm n = some v → ∃ v', varAt s8.cdm n = some v' ∧ v'.shape = v.shape ∧ v'.payload.dtype = v.payload.dtype ∧
        ((∀ p ∈ inVariables doc "values", p.1.prop "name" ≠ n) → v'.payload.data = v.payload.data) ∧
        ((∀ p ∈ inVariables doc "spatial_vector", p.1.prop "name" ≠ n) → v'.payload.vector = v.payload.vector) := by
    refine fold_keep (P := fun t => t.cdm.dims = s6.cdm.dims ∧ t.varNames = s6.varNames ∧ t.types = s6.types ∧ (varAt s6.cdm n = none → varAt t.cdm n = none) ∧
      ∀ v, varAt s6.cdm n = some v → ∃ v', varAt t.cdm n = some v' ∧ v'.shape = v.shape ∧ v'.payload.dtype = v.payload.dtype ∧
        ((∀ p ∈ inVariables doc "values", p.1.prop "name" ≠ n) → v'.payload.data = v.payload.data) ∧
        ((∀ p ∈ inVariables doc "spatial_vector", p.1.prop "name" ≠ n) → v'.payload.vector = v.payload.vector)) ?_ h8 ?_
    · intro p hp t t' ⟨q1, q2, q3, q4, q5⟩ hf
      obtain ⟨-, ⟨-, rfl⟩ | rfl⟩ := vectorOf_ok hf
      · exact ⟨q1, q2, q3, q4, q5⟩
      · refine ⟨q1, q2, q3, fun hn => onVar_none (fun _ => rfl) (q4 hn), ?_⟩
        intro v hv
        obtain ⟨v', a1, a2, a3, a4, a5⟩ := q5 v hv
        refine ⟨_, onVar_some (fun _ => rfl) a1, ?_⟩
        by_cases hn : n = p.1.prop "name"
        · simp only [hn, if_true]
          exact ⟨a2, a3, fun hno => a4 (by rwa [← hn] at hno), fun hno => absurd rfl (hno p hp)⟩
        · rw [if_neg hn]
          exact ⟨a2, a3, a4, a5⟩
    · obtain ⟨q1, q2, q3, q4, q5⟩ := k7
      refine ⟨q1, q2, q3, q4, fun v hv => ?_⟩
      obtain ⟨v', a1, a2, a3, a4, a5⟩ := q5 v hv
      exact ⟨v', a1, a2, a3, a4, fun _ => a5⟩
  obtain ⟨e1, e2, e3, -, e5⟩ := (same_initAttrNames h9).trans (same_initAttrs h)
  obtain ⟨q1, q2, q3, q4, q5⟩ := k8
  exact ⟨e2.trans q1, e3.trans q2, e5.trans q3, fun hn => (varAt_congr e1 n).trans (q4 hn), fun v hv => by
    obtain ⟨v', a1, a⟩ := q5 v hv
    exact ⟨v', (varAt_congr e1 n).trans a1, a⟩⟩

end Fimex.NcmlDoc
