import Verif.Ncml.DocFrame

/-!
# C120: the dataset of an NcML document
-/

namespace Fimex.NcmlDoc

open Cdm Ncml Tables

variable {D V CS : Type}

namespace Spec

/-- The value that an element `attribute` gives: a text is one value, everything else is split. -/
def Given (env : Env D V) (e : Xml) (v : V) : Prop :=
  ∃ text type parts, (e.prop "value" ≠ "" ∧ text = e.prop "value" ∨ e.prop "value" = "" ∧ text = e.content) ∧
    (e.prop "type" = "" ∧ type = "string" ∨ e.prop "type" ≠ "" ∧ type = e.prop "type") ∧
    ((type = "string" ∨ type = "String") ∧ parts = [text] ∨ (type ≠ "string" ∧ type ≠ "String") ∧ env.pieces text (e.prop "separator") = .ok parts) ∧
    ncmlName2cdm type.toList false ≠ .nat ∧ env.value (ncmlName2cdm type.toList false) parts = .ok v

/-- Whether an element `attribute` has anything to say. -/
def Says (e : Xml) : Prop := e.prop "value" ≠ "" ∨ e.content ≠ ""

/-- An element takes a thing of the dataset away. -/
def Removes (doc : Xml) (type name : String) : Prop := ∃ e ∈ under doc "remove", e.prop "type" = type ∧ e.prop "name" = name

end Spec

theorem says_iff (e : Xml) : Spec.Says e ↔ textOf e ≠ "" := by
  unfold Spec.Says textOf
  by_cases h : e.prop "value" = "" <;> simp [h]

theorem given_of {env : Env D V} {e : Xml} {a : Attr V} (h : createAttr env e (textOf e) = .ok a) : a.name = e.prop "name" ∧ Spec.Given env e a.value := by
  refine ⟨createAttr_name h, ?_⟩
  unfold createAttr at h
  dsimp only at h
  generalize htype : (if e.prop "type" = "" then "string" else e.prop "type") = type at h
  by_cases h1 : ncmlName2cdm type.toList false = .nat
  · rw [if_pos h1] at h; cases h
  · rw [if_neg h1] at h
    obtain ⟨l, h2, h⟩ := res_bind h
    obtain ⟨v, h3, h⟩ := res_bind h
    cases h
    refine ⟨textOf e, type, l, ?_, ?_, ?_, h1, h3⟩
    · unfold textOf
      by_cases hv : e.prop "value" = "" <;> simp [hv]
    · by_cases ht : e.prop "type" = ""
      · rw [if_pos ht] at htype; exact .inl ⟨ht, htype.symm⟩
      · rw [if_neg ht] at htype; exact .inr ⟨ht, htype.symm⟩
    · by_cases hs : type = "string" ∨ type = "String"
      · rw [if_pos hs] at h2; cases h2; exact .inl ⟨hs, rfl⟩
      · rw [if_neg hs] at h2; exact .inr ⟨not_or.1 hs, h2⟩

/-! ## The constructor -/

/-- C120: without a document the constructor dereferences a null pointer, without a name of its source or with another root it raises. -/
theorem C120_refused (env : Env D V) (id : String) (reader blank : CDM (Payload D) V CS) :
    construct env id none reader blank = .ub ∧ (∀ d, construct env "" (some d) reader blank = .throws) ∧
      (∀ d : Xml, d.tag ≠ "netcdf" → construct env id (some d) reader blank = .throws) := by
  refine ⟨rfl, fun d => ?_, fun d hd => ?_⟩
  · unfold construct; dsimp only; rw [if_pos rfl]
  · unfold construct
    dsimp only
    by_cases hid : id = ""
    · rw [if_pos hid]
    · rw [if_neg hid, if_pos (by unfold absolute; rw [if_neg hd]; decide)]

/-- C120: the names of variables and dimensions and of the attributes of each variable stay unique, and no attributes belong to a variable that is
not there; for every document and every dataset of which this is true. -/
theorem C120_unique {env : Env D V} {id : String} {doc : Option Xml} {reader blank : CDM (Payload D) V CS} {s : St D V CS} (hi : Inv reader)
    (h : construct env id doc reader blank = .ok s) : Inv s.cdm := by
  obtain ⟨d, -, ht, s1, s2, s3, s4, s5, s6, s7, s8, s9, h1, h2, h3, h4, h5, h6, h7, h8, h9, h10⟩ := construct_ok h
  exact inv_initAttrs (inv_initAttrNames (inv_initVectors (inv_initValues (inv_initTypes ht (inv_initNames (inv_initShapes (inv_initUnlimited
    (inv_initDims (inv_initRemove hi h1) h2) h3) h4) h5) h6) h7) h8) h9) h10

/-! ## What is not mentioned -/

theorem onVar_other {c : CDM (Payload D) V CS} {n m : String} {f : Var (Payload D) → Var (Payload D)} {r : Option (Var (Payload D))}
    (h : varAt c n = r) (hne : n ≠ m) (hf : ∀ v, (f v).name = v.name) : varAt (onVar c m f) n = r :=
  (onVar_ne hf hne).trans h

theorem of_onVar_other {c : CDM (Payload D) V CS} {n m : String} {f : Var (Payload D) → Var (Payload D)} {r : Option (Var (Payload D))}
    (h : varAt (onVar c m f) n = r) (hne : n ≠ m) (hf : ∀ v, (f v).name = v.name) : varAt c n = r :=
  (onVar_ne hf hne).symm.trans h

/-- A variable with its attributes and the places from which its data come. -/
def Kept (n : String) (v : Var (Payload D)) (l : Option (List (Attr V))) (s : St D V CS) : Prop :=
  varAt s.cdm n = some v ∧ s.cdm.attrs n = l ∧ s.varNames.get n = n ∧ ∀ p ∈ s.types, p.1 ≠ n

theorem attrs_removeAttribute_ne (c : CDM (Payload D) V CS) {n m : String} (a : String) (h : n ≠ m) : (removeAttribute c m a).attrs n = c.attrs n := by
  simp [removeAttribute, h]

theorem mem_inVariables {doc : Xml} {tag : String} {p : Xml × Xml} (h : p ∈ inVariables doc tag) : p.1 ∈ under doc "variable" := by
  unfold inVariables at h
  obtain ⟨v, hv, hp⟩ := List.mem_flatMap.1 h
  obtain ⟨e, -, rfl⟩ := List.mem_map.1 hp
  exact hv

theorem ownerOf_cases (e : Xml) : ownerOf e = e.prop "name" ∨ ownerOf e = e.prop "orgName" := by
  unfold ownerOf
  by_cases h : e.prop "orgName" = "" <;> simp [h]

/-- C120: a variable that no element names, neither as `name` nor as `orgName`, and that has no dimension that is renamed, is as it was: shape, type,
data, vector and attributes, and its data are read from the variable of the same name without a change of the type. -/
theorem C120_kept {env : Env D V} {id : String} {doc : Xml} {reader blank : CDM (Payload D) V CS} {s : St D V CS} (hi : Inv reader)
    (h : construct env id (some doc) reader blank = .ok s) {n : String} {v : Var (Payload D)} (hv : getVariable reader n = .ok v) (hg : n ≠ globalNS)
    (hr : ¬ Spec.Removes doc "variable" n) (hn : ∀ e ∈ under doc "variable", e.prop "name" ≠ n ∧ e.prop "orgName" ≠ n)
    (hd : ∀ e ∈ under doc "dimension", e.has "orgName" → e.prop "orgName" ∉ v.shape)
    (hu : ∀ e ∈ under doc "dimension", e.prop "isUnlimited" = "true" → e.prop "name" ≠ n) :
    getVariable s.cdm n = .ok v ∧ s.cdm.attrs n = reader.attrs n ∧ s.varNames.get n = n ∧ ∀ p ∈ s.types, p.1 ≠ n := by
  obtain ⟨d, hdoc, ht, s1, s2, s3, s4, s5, s6, s7, s8, s9, h1, h2, h3, h4, h5, h6, h7, h8, h9, h10⟩ := construct_ok h
  cases hdoc
  have howner : ∀ e ∈ under doc "variable", ownerOf e ≠ n := fun e he => by
    rcases ownerOf_cases e with h | h <;> rw [h]
    · exact (hn e he).1
    · exact (hn e he).2
  have i1 := inv_initRemove hi h1
  have i2 := inv_initDims i1 h2
  have i3 := inv_initUnlimited i2 h3
  have i4 := inv_initShapes i3 h4
  have k0 : Kept n v (reader.attrs n) (⟨reader, [], [], []⟩ : St D V CS) := ⟨getVariable_ok.1 hv, rfl, rfl, by simp⟩
  have k1 : Kept n v (reader.attrs n) s1 := by
    obtain ⟨t, a1, a2⟩ := Res.bind_eq_ok.1 h1
    have kt : Kept n v (reader.attrs n) t := by
      refine fold_keep (P := Kept n v (reader.attrs n)) ?_ a1 k0
      intro e he u u' ⟨q1, q2, q3, q4⟩ hf
      obtain ⟨-, ⟨hty, rfl⟩ | ⟨-, b, hrd, hu'⟩ | ⟨-, rfl⟩ | ⟨-, rfl⟩⟩ := removeOne_ok hf
      · have hne : n ≠ e.prop "name" := fun x => hr ⟨e, he, hty, x.symm⟩
        exact ⟨(varAt_remove_ne _ hne).trans q1, (attrs_remove_ne _ hne).trans q2, q3, q4⟩
      · obtain ⟨b1, b2, -, -⟩ := removeDimension_frame hrd
        rw [hu']
        exact ⟨(varAt_congr b1 n).trans q1, by rw [b2]; exact q2, q3, q4⟩
      · exact ⟨q1, (attrs_removeAttribute_ne _ _ hg).trans q2, q3, q4⟩
      · exact ⟨q1, q2, q3, q4⟩
    refine fold_keep (P := Kept n v (reader.attrs n)) ?_ a2 kt
    intro p hp u u' ⟨q1, q2, q3, q4⟩ hf
    rw [removeIn_ok hf]
    exact ⟨q1, (attrs_removeAttribute_ne _ _ fun x => howner p.1 (mem_inVariables hp) x.symm).trans q2, q3, q4⟩
  have k2 : Kept n v (reader.attrs n) s2 := by
    obtain ⟨t, a1, a2⟩ := Res.bind_eq_ok.1 h2
    have kt : Kept n v (reader.attrs n) t := by
      obtain ⟨u, b1, b2⟩ := renameDims_ok a1
      obtain ⟨c1, -, -, c4, -⟩ := renameDimensions_frame _ _ _ _ _ u i1 b1
      obtain ⟨q1, q2, q3, q4⟩ := k1
      refine ⟨c4 n v q1 ?_, by rw [c1]; exact q2, by rw [b2]; exact q3, by rw [b2]; exact q4⟩
      intro e he
      unfold dimRenamings at he
      obtain ⟨x, hx, rfl⟩ := List.mem_map.1 he
      obtain ⟨hx1, hx2⟩ := List.mem_filter.1 hx
      exact hd x hx1 hx2
    refine fold_keep (P := Kept n v (reader.attrs n)) ?_ a2 kt
    intro e he u u' ⟨q1, q2, q3, q4⟩ hf
    obtain ⟨k, -, ⟨-, rfl⟩ | ⟨-, rfl⟩⟩ := lengthOf_ok hf <;> exact ⟨q1, q2, q3, q4⟩
  have k3 : Kept n v (reader.attrs n) s3 := by
    refine fold_keep (P := Kept n v (reader.attrs n)) ?_ h3 k2
    intro e he u u' ⟨q1, q2, q3, q4⟩ hf
    rcases unlimitedOf_ok hf with ⟨-, rfl⟩ | ⟨d, -, ⟨-, -, rfl⟩ | ⟨htrue, -, hp⟩ | ⟨-, rfl⟩⟩
    · exact ⟨q1, q2, q3, q4⟩
    · exact ⟨q1, q2, q3, q4⟩
    · have hne : n ≠ e.prop "name" := fun x => hu e (List.mem_filter.1 he).1 htrue x.symm
      rcases prefetch_ok hp with rfl | ⟨d, w, -, -, -, -, rfl⟩
      · exact ⟨q1, q2, q3, q4⟩
      · exact ⟨onVar_other q1 hne fun _ => rfl, q2, q3, q4⟩
    · exact ⟨q1, q2, q3, q4⟩
  have k4 : Kept n v (reader.attrs n) s4 := by
    refine fold_keep (P := Kept n v (reader.attrs n)) ?_ h4 k3
    intro e he u u' ⟨q1, q2, q3, q4⟩ hf
    have hne : n ≠ ownerOf e := fun x => howner e (List.mem_filter.1 he).1 x.symm
    obtain ⟨-, ⟨-, rfl⟩ | ⟨sh, -, -, rfl⟩⟩ := shapeOf_ok hf
    · exact ⟨q1, q2, q3, q4⟩
    · exact ⟨onVar_other q1 hne fun _ => rfl, q2, q3, q4⟩
  have k5 : Kept n v (reader.attrs n) s5 := by
    obtain ⟨t, a1, a2⟩ := Res.bind_eq_ok.1 h5
    have kt : Kept n v (reader.attrs n) t := by
      obtain ⟨u, b1, b2⟩ := renameVars_ok a1
      obtain ⟨-, c2, c3⟩ := renameVariables_frame _ _ _ _ _ u i4 b1
      obtain ⟨q1, q2, q3, q4⟩ := k4
      have hren : ∀ e ∈ varRenamings doc, e.1 ≠ n ∧ e.2 ≠ n := by
        intro e he
        unfold varRenamings at he
        obtain ⟨x, hx, rfl⟩ := List.mem_map.1 he
        exact ⟨(hn x (List.mem_filter.1 hx).1).2, (hn x (List.mem_filter.1 hx).1).1⟩
      obtain ⟨d1, d2⟩ := c2 n hren
      exact ⟨d1.trans q1, d2.trans q2, (c3 n fun e he => (hren e he).2).1.trans q3, by rw [b2]; exact q4⟩
    refine fold_keep (P := Kept n v (reader.attrs n)) ?_ a2 kt
    intro e he u u' ⟨q1, q2, q3, q4⟩ hf
    rcases addOne_ok hf with ⟨-, rfl⟩ | ⟨-, -, sh, d, -, -, -, rfl⟩
    · exact ⟨q1, q2, q3, q4⟩
    · refine ⟨?_, q2, q3, q4⟩
      unfold varAt at q1 ⊢
      dsimp only
      rw [List.find?_append, q1]
      rfl
  have k6 : Kept n v (reader.attrs n) s6 := by
    refine fold_keep (P := Kept n v (reader.attrs n)) ?_ h6 k5
    intro e he u u' ⟨q1, q2, q3, q4⟩ hf
    have hne : n ≠ e.prop "name" := fun x => (hn e (List.mem_filter.1 he).1).1 x.symm
    obtain ⟨-, ⟨-, rfl⟩ | ⟨w, -, -, ⟨-, rfl⟩ | ⟨-, rfl⟩⟩⟩ := typeOne_ok ht hf
    · exact ⟨q1, q2, q3, q4⟩
    · exact ⟨q1, q2, q3, q4⟩
    · refine ⟨onVar_other q1 hne fun _ => rfl, q2, q3, ?_⟩
      intro p hp
      rcases List.mem_cons.1 hp with rfl | hp
      · exact fun x => hne x.symm
      · exact q4 p hp
  have k7 : Kept n v (reader.attrs n) s7 := by
    refine fold_keep (P := Kept n v (reader.attrs n)) ?_ h7 k6
    intro p hp u u' ⟨q1, q2, q3, q4⟩ hf
    have hne : n ≠ p.1.prop "name" := fun x => (hn p.1 (mem_inVariables hp)).1 x.symm
    obtain ⟨-, ⟨-, rfl⟩ | ⟨w, lens, d, -, -, -, -, rfl⟩⟩ := valuesOf_ok hf
    · exact ⟨q1, q2, q3, q4⟩
    · exact ⟨onVar_other q1 hne fun _ => rfl, q2, q3, q4⟩
  have k8 : Kept n v (reader.attrs n) s8 := by
    refine fold_keep (P := Kept n v (reader.attrs n)) ?_ h8 k7
    intro p hp u u' ⟨q1, q2, q3, q4⟩ hf
    have hne : n ≠ p.1.prop "name" := fun x => (hn p.1 (mem_inVariables hp)).1 x.symm
    obtain ⟨-, ⟨-, rfl⟩ | rfl⟩ := vectorOf_ok hf
    · exact ⟨q1, q2, q3, q4⟩
    · exact ⟨onVar_other q1 hne fun _ => rfl, q2, q3, q4⟩
  have hren : ∀ (owner : String) (e : Xml) (u u' : St D V CS), owner ≠ n → Kept n v (reader.attrs n) u → renameAttr owner u e = .ok u' →
      Kept n v (reader.attrs n) u' := by
    rintro owner e u u' hne ⟨q1, q2, q3, q4⟩ hf
    rcases renameAttr_ok hf with rfl | ⟨l, l', -, -, rfl⟩
    · exact ⟨q1, q2, q3, q4⟩
    · refine ⟨q1, ?_, q3, q4⟩
      dsimp only
      rw [if_neg fun x => hne x.symm]
      exact q2
  have hass : ∀ (owner : String) (e : Xml) (u u' : St D V CS), owner ≠ n → Kept n v (reader.attrs n) u → assignAttr env owner u e = .ok u' →
      Kept n v (reader.attrs n) u' := by
    rintro owner e u u' hne ⟨q1, q2, q3, q4⟩ hf
    rcases assignAttr_ok hf with ⟨-, rfl⟩ | ⟨-, -, a, -, rfl⟩
    · exact ⟨q1, q2, q3, q4⟩
    · refine ⟨q1, ?_, q3, q4⟩
      dsimp only
      rw [if_neg fun x => hne x.symm]
      exact q2
  have k9 : Kept n v (reader.attrs n) s9 := by
    obtain ⟨t, a1, a2⟩ := Res.bind_eq_ok.1 h9
    have kt := fold_keep (P := Kept n v (reader.attrs n)) (fun e _ u u' hp hf => hren globalNS e u u' (fun x => hg x.symm) hp hf) a1 k8
    exact fold_keep (P := Kept n v (reader.attrs n)) (fun p hp u u' hq hf => hren _ p.2 u u' (hn p.1 (mem_inVariables (List.mem_filter.1 hp).1)).1 hq hf) a2 kt
  have k10 : Kept n v (reader.attrs n) s := by
    obtain ⟨t, a1, a2⟩ := Res.bind_eq_ok.1 h10
    have kt := fold_keep (P := Kept n v (reader.attrs n)) (fun e _ u u' hp hf => hass globalNS e u u' (fun x => hg x.symm) hp hf) a1 k9
    exact fold_keep (P := Kept n v (reader.attrs n)) (fun p hp u u' hq hf => hass _ p.2 u u' (hn p.1 (mem_inVariables hp)).1 hq hf) a2 kt
  obtain ⟨q1, q2, q3, q4⟩ := k10
  exact ⟨getVariable_ok.2 q1, q2, q3, q4⟩

/-! ## What is removed -/

theorem absent_addOne {env : Env D V} {s s' : St D V CS} {e : Xml} {n : String} (hne : e.prop "name" ≠ n) (hv : varAt s.cdm n = none)
    (h : addOne env s e = .ok s') : varAt s'.cdm n = none := by
  rcases addOne_ok h with ⟨-, rfl⟩ | ⟨-, -, sh, d, -, -, -, rfl⟩
  · exact hv
  · unfold varAt at hv ⊢
    dsimp only
    rw [List.find?_append, hv]
    simp [hne]

/-- Up to the new names: what is absent stays absent. -/
theorem absent_until_names {env : Env D V} {doc : Xml} {s1 s2 s3 s4 : St D V CS} (i1 : Inv s1.cdm) (h2 : initDims env doc s1 = .ok s2)
    (h3 : initUnlimited env doc s2 = .ok s3) (h4 : initShapes env doc s3 = .ok s4) {n : String} (hv : varAt s1.cdm n = none) : varAt s4.cdm n = none := by
  obtain ⟨t, a1, a2⟩ := Res.bind_eq_ok.1 h2
  obtain ⟨u, b1, -⟩ := renameDims_ok a1
  have kt : varAt t.cdm n = none := (renameDimensions_frame _ _ _ _ _ u i1 b1).2.1 n hv
  have k2 : varAt s2.cdm n = none := by
    refine fold_keep (P := fun u => varAt u.cdm n = none) ?_ a2 kt
    intro e _ u u' hq hf
    obtain ⟨k, -, ⟨-, rfl⟩ | ⟨-, rfl⟩⟩ := lengthOf_ok hf <;> exact hq
  have k3 : varAt s3.cdm n = none := by
    refine fold_keep (P := fun u => varAt u.cdm n = none) ?_ h3 k2
    intro e _ u u' hq hf
    rcases unlimitedOf_ok hf with ⟨-, rfl⟩ | ⟨d, -, ⟨-, -, rfl⟩ | ⟨-, -, hp⟩ | ⟨-, rfl⟩⟩
    · exact hq
    · exact hq
    · rcases prefetch_ok hp with rfl | ⟨d, w, -, -, -, -, rfl⟩
      · exact hq
      · exact onVar_none (fun _ => rfl) hq
    · exact hq
  refine fold_keep (P := fun u => varAt u.cdm n = none) ?_ h4 k3
  intro e _ u u' hq hf
  obtain ⟨-, ⟨-, rfl⟩ | ⟨sh, -, -, rfl⟩⟩ := shapeOf_ok hf
  · exact hq
  · exact onVar_none (fun _ => rfl) hq

/-- Removed variables are absent after the first pass. -/
theorem removed_absent {doc : Xml} {reader : CDM (Payload D) V CS} {s1 : St D V CS} (h1 : initRemove doc ⟨reader, [], [], []⟩ = .ok s1) {n : String}
    (hr : Spec.Removes doc "variable" n ∨ varAt reader n = none) : varAt s1.cdm n = none := by
  obtain ⟨t, a1, a2⟩ := Res.bind_eq_ok.1 h1
  have keep : ∀ (e : Xml) (u u' : St D V CS), varAt u.cdm n = none → removeOne u e = .ok u' → varAt u'.cdm n = none := by
    intro e u u' hq hf
    obtain ⟨-, ⟨-, rfl⟩ | ⟨-, b, hrd, -⟩ | ⟨-, rfl⟩ | ⟨-, rfl⟩⟩ := removeOne_ok hf
    · by_cases hne : n = e.prop "name"
      · rw [hne]; exact varAt_remove_eq _ _
      · exact (varAt_remove_ne _ hne).trans hq
    · exact (varAt_congr (removeDimension_frame hrd).1 n).trans hq
    · exact hq
    · exact hq
  have kt : varAt t.cdm n = none := by
    rcases hr with ⟨e, he, hty, hname⟩ | hr
    · obtain ⟨pre, post, hl⟩ := List.append_of_mem he
      rw [hl] at a1
      obtain ⟨u, w, -, b2, b3⟩ := fold_split a1
      refine fold_keep (P := fun u => varAt u.cdm n = none) (fun e _ u u' hq hf => keep e u u' hq hf) b3 ?_
      obtain ⟨-, ⟨-, rfl⟩ | ⟨hx, -⟩ | ⟨hx, -⟩ | ⟨hx, -⟩⟩ := removeOne_ok b2
      · rw [← hname]; exact varAt_remove_eq _ _
      all_goals exact absurd (hty.symm.trans hx) (by decide)
    · exact fold_keep (P := fun u => varAt u.cdm n = none) (fun e _ u u' hq hf => keep e u u' hq hf) a1 hr
  refine fold_keep (P := fun u => varAt u.cdm n = none) ?_ a2 kt
  intro p _ u u' hq hf
  rw [removeIn_ok hf]
  exact hq

theorem absent_types {env : Env D V} {doc : Xml} (ht : doc.tag = "netcdf") {s s' : St D V CS} (h : initTypes env doc s = .ok s') {n : String}
    (hv : varAt s.cdm n = none) : varAt s'.cdm n = none := by
  refine fold_keep (P := fun u => varAt u.cdm n = none) ?_ h hv
  intro e _ u u' hq hf
  obtain ⟨-, ⟨-, rfl⟩ | ⟨w, -, -, ⟨-, rfl⟩ | ⟨-, rfl⟩⟩⟩ := typeOne_ok ht hf
  · exact hq
  · exact hq
  · exact onVar_none (fun _ => rfl) hq

/-- C120: a variable that is removed, or that was not there, is not in the dataset unless an element `variable` has its name. -/
theorem C120_removed {env : Env D V} {id : String} {doc : Xml} {reader blank : CDM (Payload D) V CS} {s : St D V CS} (hi : Inv reader)
    (h : construct env id (some doc) reader blank = .ok s) {n : String} (hr : Spec.Removes doc "variable" n ∨ hasVariable reader n = false)
    (hn : ∀ e ∈ under doc "variable", e.prop "name" ≠ n) : hasVariable s.cdm n = false := by
  obtain ⟨d, hdoc, ht, s1, s2, s3, s4, s5, s6, s7, s8, s9, h1, h2, h3, h4, h5, h6, h7, h8, h9, h10⟩ := construct_ok h
  cases hdoc
  have i1 := inv_initRemove hi h1
  have i4 := inv_initShapes (inv_initUnlimited (inv_initDims i1 h2) h3) h4
  have k1 : varAt s1.cdm n = none := removed_absent h1 (hr.imp (fun y => y) fun x => by rw [hasVariable_at] at x; simpa using x)
  have k4 := absent_until_names i1 h2 h3 h4 k1
  have k5 : varAt s5.cdm n = none := by
    obtain ⟨t, a1, a2⟩ := Res.bind_eq_ok.1 h5
    obtain ⟨u, b1, -⟩ := renameVars_ok a1
    have kt : varAt t.cdm n = none := by
      refine ((renameVariables_frame _ _ _ _ _ u i4 b1).2.2 n ?_).2 k4
      intro e he
      unfold varRenamings at he
      obtain ⟨x, hx, rfl⟩ := List.mem_map.1 he
      exact hn x (List.mem_filter.1 hx).1
    exact fold_keep (P := fun u => varAt u.cdm n = none) (fun e he u u' hq hf => absent_addOne (hn e (List.mem_filter.1 he).1) hq hf) a2 kt
  have k6 := absent_types ht h6 k5
  rw [hasVariable_at, (late_frame h7 h8 h9 h10 n).2.2.2.1 k6]
  rfl

/-! ## Dimensions -/

/-- C120: the last element that gives a dimension a length: the dimension is there with that length, a number below zero taken modulo 2^64. -/
theorem C120_length {env : Env D V} {id : String} {doc : Xml} {reader blank : CDM (Payload D) V CS} {s : St D V CS} (hi : Inv reader)
    (h : construct env id (some doc) reader blank = .ok s) {pre post : List Xml} {e : Xml} (hl : under doc "dimension" = pre ++ e :: post)
    (hh : e.has "length") (hlast : ∀ x ∈ post, x.has "length" → x.prop "name" ≠ e.prop "name") :
    ∃ k d, env.int (e.prop "length") = .ok k ∧ getDimension s.cdm (e.prop "name") = .ok d ∧ d.length = Extractor.toSizeT k := by
  obtain ⟨d, hdoc, ht, s1, s2, s3, s4, s5, s6, s7, s8, s9, h1, h2, h3, h4, h5, h6, h7, h8, h9, h10⟩ := construct_ok h
  cases hdoc
  have i1 := inv_initRemove hi h1
  have i4 := inv_initShapes (inv_initUnlimited (inv_initDims i1 h2) h3) h4
  obtain ⟨t, -, a2⟩ := Res.bind_eq_ok.1 h2
  rw [hl, List.filter_append, List.filter_cons_of_pos (by simpa using hh)] at a2
  obtain ⟨u, w, -, b2, b3⟩ := fold_split a2
  obtain ⟨k, hk, hcases⟩ := lengthOf_ok b2
  have kw : ∃ d, dimAt w.cdm (e.prop "name") = some d ∧ d.length = Extractor.toSizeT k := by
    rcases hcases with ⟨hd, rfl⟩ | ⟨hd, rfl⟩
    · rw [hasDimension_at] at hd
      have hd : dimAt u.cdm (e.prop "name") = none := by simpa using hd
      refine ⟨⟨e.prop "name", Extractor.toSizeT k, false⟩, ?_, rfl⟩
      unfold dimAt at hd ⊢
      dsimp only
      rw [List.find?_append, hd]
      simp
    · rw [hasDimension_at] at hd
      obtain ⟨d, hd⟩ := Option.isSome_iff_exists.1 hd
      refine ⟨{ d with length := Extractor.toSizeT k }, ?_, rfl⟩
      · dsimp only
        rw [dimAt_onDim _ _ _ (fun d : Dim => { d with length := Extractor.toSizeT k }) (fun _ => rfl), hd]
        simp
  have k2 : ∃ d, dimAt s2.cdm (e.prop "name") = some d ∧ d.length = Extractor.toSizeT k := by
    refine fold_keep (P := fun u => ∃ d, dimAt u.cdm (e.prop "name") = some d ∧ d.length = Extractor.toSizeT k) ?_ b3 kw
    intro x hx u u' ⟨d, hd, hdl⟩ hf
    have hne : x.prop "name" ≠ e.prop "name" := hlast x (List.mem_filter.1 hx).1 (List.mem_filter.1 hx).2
    obtain ⟨k', -, ⟨-, rfl⟩ | ⟨-, rfl⟩⟩ := lengthOf_ok hf
    · refine ⟨d, ?_, hdl⟩
      unfold dimAt at hd ⊢
      dsimp only
      rw [List.find?_append, hd]
      rfl
    · refine ⟨d, ?_, hdl⟩
      dsimp only
      rw [dimAt_onDim _ _ _ (fun d : Dim => { d with length := Extractor.toSizeT k' }) (fun _ => rfl), hd]
      simp [Ne.symm hne]
  have k3 : ∃ d, dimAt s3.cdm (e.prop "name") = some d ∧ d.length = Extractor.toSizeT k := by
    refine fold_keep (P := fun u => ∃ d, dimAt u.cdm (e.prop "name") = some d ∧ d.length = Extractor.toSizeT k) ?_ h3 k2
    intro x _ u u' ⟨d, hd, hdl⟩ hf
    have hflip : ∀ b, ∃ d', dimAt (onDim u.cdm (x.prop "name") fun d => { d with unlimited := b }) (e.prop "name") = some d' ∧ d'.length = Extractor.toSizeT k := by
      intro b
      rw [dimAt_onDim _ _ _ (fun d : Dim => { d with unlimited := b }) (fun _ => rfl), hd]
      refine ⟨_, rfl, ?_⟩
      split <;> exact hdl
    rcases unlimitedOf_ok hf with ⟨-, rfl⟩ | ⟨d0, -, ⟨-, -, rfl⟩ | ⟨-, -, hp⟩ | ⟨-, rfl⟩⟩
    · exact ⟨d, hd, hdl⟩
    · exact ⟨d, hd, hdl⟩
    · rcases prefetch_ok hp with rfl | ⟨d, w, -, -, -, -, rfl⟩ <;> exact hflip true
    · exact hflip false
  obtain ⟨dd, e1, e2⟩ := k3
  refine ⟨k, dd, hk, getDimension_ok.2 ?_, e2⟩
  have hdims : s.cdm.dims = s3.cdm.dims := by
    rw [(late_frame h7 h8 h9 h10 "").1, dims_initTypes ht h6, dims_initNames i4 h5, dims_initShapes h4]
  exact (dimAt_congr hdims _).trans e1

/-- C120: the last element that says whether a dimension is unlimited is obeyed; another word than `true` or `false` raises. -/
theorem C120_unlimited {env : Env D V} {id : String} {doc : Xml} {reader blank : CDM (Payload D) V CS} {s : St D V CS} (hi : Inv reader)
    (h : construct env id (some doc) reader blank = .ok s) {pre post : List Xml} {e : Xml} (hl : under doc "dimension" = pre ++ e :: post)
    (hh : e.has "isUnlimited") (hlast : ∀ x ∈ post, x.has "isUnlimited" → x.prop "name" ≠ e.prop "name") {d : Dim}
    (hd : getDimension s.cdm (e.prop "name") = .ok d) :
    (e.prop "isUnlimited" = "true" ∧ d.unlimited = true) ∨ (e.prop "isUnlimited" = "false" ∧ d.unlimited = false) := by
  obtain ⟨d0, hdoc, ht, s1, s2, s3, s4, s5, s6, s7, s8, s9, h1, h2, h3, h4, h5, h6, h7, h8, h9, h10⟩ := construct_ok h
  cases hdoc
  have i1 := inv_initRemove hi h1
  have i4 := inv_initShapes (inv_initUnlimited (inv_initDims i1 h2) h3) h4
  have hdims : s.cdm.dims = s3.cdm.dims := by
    rw [(late_frame h7 h8 h9 h10 "").1, dims_initTypes ht h6, dims_initNames i4 h5, dims_initShapes h4]
  have hd3 : dimAt s3.cdm (e.prop "name") = some d := (dimAt_congr hdims _).symm.trans (getDimension_ok.1 hd)
  unfold initUnlimited at h3
  rw [hl, List.filter_append, List.filter_cons_of_pos (by simpa using hh)] at h3
  obtain ⟨u, w, -, b2, b3⟩ := fold_split h3
  have kw : ∀ d, dimAt w.cdm (e.prop "name") = some d →
      (e.prop "isUnlimited" = "true" ∧ d.unlimited = true) ∨ (e.prop "isUnlimited" = "false" ∧ d.unlimited = false) := by
    intro d hd
    have hflip : ∀ b, dimAt (onDim u.cdm (e.prop "name") fun d => { d with unlimited := b }) (e.prop "name") = some d → d.unlimited = b := by
      intro b hb
      rw [dimAt_onDim _ _ _ (fun d : Dim => { d with unlimited := b }) (fun _ => rfl)] at hb
      simp only [if_true, Option.map_eq_some_iff] at hb
      obtain ⟨x, -, rfl⟩ := hb
      rfl
    rcases unlimitedOf_ok b2 with ⟨hn, rfl⟩ | ⟨d0, hd0, ⟨htr, hu, rfl⟩ | ⟨htr, -, hp⟩ | ⟨hfa, rfl⟩⟩
    · rw [hn] at hd; cases hd
    · rw [hd0] at hd; cases hd; exact .inl ⟨htr, hu⟩
    · left
      refine ⟨htr, ?_⟩
      rcases prefetch_ok hp with rfl | ⟨d, w, -, -, -, -, rfl⟩ <;> exact hflip true hd
    · exact .inr ⟨hfa, hflip false hd⟩
  refine fold_keep (P := fun u => ∀ d, dimAt u.cdm (e.prop "name") = some d →
      (e.prop "isUnlimited" = "true" ∧ d.unlimited = true) ∨ (e.prop "isUnlimited" = "false" ∧ d.unlimited = false)) ?_ b3 kw d hd3
  intro x hx u u' hq hf d hd
  have hne : x.prop "name" ≠ e.prop "name" := hlast x (List.mem_filter.1 hx).1 (List.mem_filter.1 hx).2
  have hflip : ∀ b, dimAt (onDim u.cdm (x.prop "name") fun d => { d with unlimited := b }) (e.prop "name") = some d → dimAt u.cdm (e.prop "name") = some d := by
    intro b hb
    rw [dimAt_onDim _ _ _ (fun d : Dim => { d with unlimited := b }) (fun _ => rfl)] at hb
    simpa [Ne.symm hne] using hb
  rcases unlimitedOf_ok hf with ⟨-, rfl⟩ | ⟨d0, -, ⟨-, -, rfl⟩ | ⟨-, -, hp⟩ | ⟨-, rfl⟩⟩
  · exact hq d hd
  · exact hq d hd
  · rcases prefetch_ok hp with rfl | ⟨d', w, -, -, -, -, rfl⟩ <;> exact hq d (hflip true hd)
  · exact hq d (hflip false hd)

/-! ## Types -/

/-- C120: the last element `variable` with a name and a type decides the type of the variable of that name, if there is one. -/
theorem C120_type {env : Env D V} {id : String} {doc : Xml} {reader blank : CDM (Payload D) V CS} {s : St D V CS}
    (h : construct env id (some doc) reader blank = .ok s) {pre post : List Xml} {e : Xml} (hl : under doc "variable" = pre ++ e :: post)
    (hh : e.has "type") (hlast : ∀ x ∈ post, x.has "type" → x.prop "name" ≠ e.prop "name") {v : Var (Payload D)}
    (hv : getVariable s.cdm (e.prop "name") = .ok v) :
    v.payload.dtype = ncmlName2cdm (e.prop "type").toList false ∧ v.payload.dtype ≠ .nat := by
  obtain ⟨d0, hdoc, ht, s1, s2, s3, s4, s5, s6, s7, s8, s9, h1, h2, h3, h4, h5, h6, h7, h8, h9, h10⟩ := construct_ok h
  cases hdoc
  have hf := late_frame h7 h8 h9 h10 (e.prop "name")
  have k6 : ∀ v, varAt s6.cdm (e.prop "name") = some v → v.payload.dtype = ncmlName2cdm (e.prop "type").toList false ∧ v.payload.dtype ≠ .nat := by
    unfold initTypes at h6
    rw [hl, List.filter_append, List.filter_cons_of_pos (by simpa using hh)] at h6
    obtain ⟨u, w, -, b2, b3⟩ := fold_split h6
    refine fold_keep (P := fun u => ∀ v, varAt u.cdm (e.prop "name") = some v → v.payload.dtype = ncmlName2cdm (e.prop "type").toList false ∧ v.payload.dtype ≠ .nat) ?_ b3 ?_
    · intro x hx u u' hq hf v hv
      have hne : e.prop "name" ≠ x.prop "name" := fun y => hlast x (List.mem_filter.1 hx).1 (List.mem_filter.1 hx).2 y.symm
      obtain ⟨-, ⟨-, rfl⟩ | ⟨w, -, -, ⟨-, rfl⟩ | ⟨-, rfl⟩⟩⟩ := typeOne_ok ht hf
      · exact hq v hv
      · exact hq v hv
      · exact hq v (of_onVar_other hv hne fun _ => rfl)
    · intro v hv
      obtain ⟨-, ⟨hn, rfl⟩ | ⟨x, hx, hnat, ⟨hty, rfl⟩ | ⟨-, rfl⟩⟩⟩ := typeOne_ok ht b2
      · rw [hn] at hv; cases hv
      · rw [hx] at hv; cases hv; exact ⟨hty, hty ▸ hnat⟩
      · have := (onVar_some (f := fun v => { v with payload := setType env (ncmlName2cdm (e.prop "type").toList false) v.payload }) (m := e.prop "name") (fun _ => rfl) hx).symm.trans hv
        simp only [if_true, Option.some.injEq] at this
        rw [← this]
        exact ⟨rfl, hnat⟩
  cases hv6 : varAt s6.cdm (e.prop "name") with
  | none => rw [getVariable_ok, hf.2.2.2.1 hv6] at hv; cases hv
  | some w =>
    obtain ⟨v', a1, -, a3, -⟩ := hf.2.2.2.2 w hv6
    rw [getVariable_ok, a1] at hv
    cases hv
    rw [a3]
    exact k6 w hv6

/-- The types without sign. -/
theorem never_unsigned (t : List Char) :
    ncmlName2cdm t false ≠ .uchar ∧ ncmlName2cdm t false ≠ .ushort ∧ ncmlName2cdm t false ≠ .uint ∧ ncmlName2cdm t false ≠ .uint64 := by
  unfold ncmlName2cdm
  cases hf : ncmlTypes.find? fun f => f = ⟨t, false⟩ with
  | none => decide
  | some f =>
    have h1 := List.mem_of_find?_eq_some hf
    have h2 : f = ⟨t, false⟩ := by simpa using List.find?_some hf
    dsimp only
    subst h2
    simp only [ncmlTypes, List.mem_cons, List.not_mem_nil, or_false, Ncml.mk.injEq, Bool.false_eq_true, and_false, and_true, false_or] at h1
    rcases h1 with rfl | rfl | rfl | rfl | rfl | rfl | rfl | rfl | rfl | rfl <;> decide

/-- C120: no document gives a variable a type without sign: the attribute `_Unsigned` is looked for at the root of the document and never found. -/
theorem C120_unsigned_ignored {env : Env D V} {id : String} {doc : Xml} {reader blank : CDM (Payload D) V CS} {s : St D V CS}
    (h : construct env id (some doc) reader blank = .ok s) {e : Xml} (he : e ∈ under doc "variable") (hh : e.has "type") {v : Var (Payload D)}
    (hv : getVariable s.cdm (e.prop "name") = .ok v) :
    v.payload.dtype ≠ .uchar ∧ v.payload.dtype ≠ .ushort ∧ v.payload.dtype ≠ .uint ∧ v.payload.dtype ≠ .uint64 := by
  have : ∃ pre x post, under doc "variable" = pre ++ x :: post ∧ x.has "type" ∧ x.prop "name" = e.prop "name" ∧
      ∀ y ∈ post, y.has "type" → y.prop "name" ≠ x.prop "name" := by
    generalize under doc "variable" = l at he
    induction l with
    | nil => cases he
    | cons a l ih =>
      by_cases hex : ∃ y ∈ l, y.has "type" ∧ y.prop "name" = e.prop "name"
      · have ih' : ∀ l : List Xml, (∃ y ∈ l, y.has "type" ∧ y.prop "name" = e.prop "name") → ∃ pre x post, l = pre ++ x :: post ∧ x.has "type" ∧
            x.prop "name" = e.prop "name" ∧ ∀ y ∈ post, y.has "type" → y.prop "name" ≠ x.prop "name" := by
          intro l
          induction l with
          | nil => rintro ⟨y, hy, -⟩; cases hy
          | cons b l ih =>
            intro hb
            by_cases hl : ∃ y ∈ l, y.has "type" ∧ y.prop "name" = e.prop "name"
            · obtain ⟨pre, x, post, r1, r2, r3, r4⟩ := ih hl
              exact ⟨b :: pre, x, post, by rw [r1]; rfl, r2, r3, r4⟩
            · obtain ⟨y, hy, hy1, hy2⟩ := hb
              rcases List.mem_cons.1 hy with rfl | hy
              · exact ⟨[], y, l, rfl, hy1, hy2, fun z hz hz1 hz2 => hl ⟨z, hz, hz1, hz2.trans hy2⟩⟩
              · exact absurd ⟨y, hy, hy1, hy2⟩ hl
        obtain ⟨pre, x, post, r1, r2, r3, r4⟩ := ih' l hex
        exact ⟨a :: pre, x, post, by rw [r1]; rfl, r2, r3, r4⟩
      · rcases List.mem_cons.1 he with rfl | he
        · exact ⟨[], e, l, rfl, hh, rfl, fun y hy h1 h2 => hex ⟨y, hy, h1, h2⟩⟩
        · exact absurd ⟨e, he, hh, rfl⟩ hex
  obtain ⟨pre, x, post, r1, r2, r3, r4⟩ := this
  have := (C120_type h r1 r2 r4 (by rw [r3]; exact hv)).1
  rw [this]
  exact never_unsigned _

/-! ## Values and vectors -/

/-- C120: the last element `values` of a variable: the data are those it says, for the type the variable has and for the lengths of its dimensions in
the dataset that results. -/
theorem C120_values {env : Env D V} {id : String} {doc : Xml} {reader blank : CDM (Payload D) V CS} {s : St D V CS}
    (h : construct env id (some doc) reader blank = .ok s) {pre post : List (Xml × Xml)} {p : Xml × Xml} (hl : inVariables doc "values" = pre ++ p :: post)
    (hlast : ∀ q ∈ post, q.1.prop "name" ≠ p.1.prop "name") {v : Var (Payload D)} (hv : getVariable s.cdm (p.1.prop "name") = .ok v) :
    ∃ lens d, lengths s.cdm v.shape = .ok lens ∧
      env.fill v.payload.dtype lens (p.2.prop "start") (p.2.prop "increment") p.2.content (p.2.prop "separator") = .ok d ∧
      env.typeOf d = v.payload.dtype ∧ v.payload.data = some d := by
  obtain ⟨d0, hdoc, ht, s1, s2, s3, s4, s5, s6, s7, s8, s9, h1, h2, h3, h4, h5, h6, h7, h8, h9, h10⟩ := construct_ok h
  cases hdoc
  let Good : St D V CS → Prop := fun u => ∀ v, varAt u.cdm (p.1.prop "name") = some v → ∃ lens d, lengths u.cdm v.shape = .ok lens ∧
      env.fill v.payload.dtype lens (p.2.prop "start") (p.2.prop "increment") p.2.content (p.2.prop "separator") = .ok d ∧
      env.typeOf d = v.payload.dtype ∧ v.payload.data = some d
  have k7 : Good s7 := by
    unfold initValues at h7
    rw [hl] at h7
    obtain ⟨u, w, -, b2, b3⟩ := fold_split h7
    refine fold_keep (P := Good) ?_ b3 ?_
    · intro q hq u u' hg hf v hv
      have hne : p.1.prop "name" ≠ q.1.prop "name" := fun y => hlast q hq y.symm
      obtain ⟨-, ⟨-, rfl⟩ | ⟨w, lens, d, -, -, -, -, rfl⟩⟩ := valuesOf_ok hf
      · exact hg v hv
      · obtain ⟨lens', d', e1, e2⟩ := hg v (of_onVar_other hv hne fun _ => rfl)
        refine ⟨lens', d', ?_, e2⟩
        rw [← e1]
        apply lengths_congr; rfl
    · intro v hv
      obtain ⟨-, ⟨hn, rfl⟩ | ⟨x, lens, d, hx, e1, e2, e3, rfl⟩⟩ := valuesOf_ok b2
      · rw [hn] at hv; cases hv
      · have hv' := (onVar_some (f := fun v => { v with payload := { v.payload with data := some d } }) (m := p.1.prop "name") (fun _ => rfl) hx).symm.trans hv
        simp only [if_true, Option.some.injEq] at hv'
        subst hv'
        refine ⟨lens, d, ?_, e2, e3.symm, rfl⟩
        rw [← e1]
        apply lengths_congr; rfl
  have k8 : Good s8 := by
    refine fold_keep (P := Good) ?_ h8 k7
    intro q _ u u' hg hf v hv
    obtain ⟨-, ⟨-, rfl⟩ | rfl⟩ := vectorOf_ok hf
    · exact hg v hv
    · dsimp only at hv
      rw [varAt_onVar _ _ _ (fun v => { v with payload := { v.payload with vector := (q.2.prop "counterpart", directionIn q.2) } }) (fun _ => rfl)] at hv
      obtain ⟨x, hx, hxv⟩ := Option.map_eq_some_iff.1 hv
      obtain ⟨lens, d, e1, e2, e3, e4⟩ := hg x hx
      have hsame : v.shape = x.shape ∧ v.payload.dtype = x.payload.dtype ∧ v.payload.data = x.payload.data := by
        by_cases hc : p.1.prop "name" = q.1.prop "name"
        · rw [if_pos hc] at hxv; subst hxv; exact ⟨rfl, rfl, rfl⟩
        · rw [if_neg hc] at hxv; subst hxv; exact ⟨rfl, rfl, rfl⟩
      rw [hsame.1, hsame.2.1, hsame.2.2]
      refine ⟨lens, d, ?_, e2, e3, e4⟩
      rw [← e1]
      apply lengths_congr; rfl
  obtain ⟨c1, c2, -⟩ := (same_initAttrNames h9).trans (same_initAttrs h10)
  obtain ⟨lens, d, e1, e2⟩ := k8 v ((varAt_congr c1 _).symm.trans (getVariable_ok.1 hv))
  exact ⟨lens, d, (lengths_congr c2 _).trans e1, e2⟩

/-- C120: the last element `spatial_vector` of a variable gives its counterpart and its direction. -/
theorem C120_vector {env : Env D V} {id : String} {doc : Xml} {reader blank : CDM (Payload D) V CS} {s : St D V CS}
    (h : construct env id (some doc) reader blank = .ok s) {pre post : List (Xml × Xml)} {p : Xml × Xml} (hl : inVariables doc "spatial_vector" = pre ++ p :: post)
    (hlast : ∀ q ∈ post, q.1.prop "name" ≠ p.1.prop "name") {v : Var (Payload D)} (hv : getVariable s.cdm (p.1.prop "name") = .ok v) :
    v.payload.vector = (p.2.prop "counterpart", directionIn p.2) := by
  obtain ⟨d0, hdoc, ht, s1, s2, s3, s4, s5, s6, s7, s8, s9, h1, h2, h3, h4, h5, h6, h7, h8, h9, h10⟩ := construct_ok h
  cases hdoc
  have k8 : ∀ v, varAt s8.cdm (p.1.prop "name") = some v → v.payload.vector = (p.2.prop "counterpart", directionIn p.2) := by
    unfold initVectors at h8
    rw [hl] at h8
    obtain ⟨u, w, -, b2, b3⟩ := fold_split h8
    refine fold_keep (P := fun u => ∀ v, varAt u.cdm (p.1.prop "name") = some v → v.payload.vector = (p.2.prop "counterpart", directionIn p.2)) ?_ b3 ?_
    · intro q hq u u' hg hf v hv
      have hne : p.1.prop "name" ≠ q.1.prop "name" := fun y => hlast q hq y.symm
      obtain ⟨-, ⟨-, rfl⟩ | rfl⟩ := vectorOf_ok hf
      · exact hg v hv
      · exact hg v (of_onVar_other hv hne fun _ => rfl)
    · intro v hv
      obtain ⟨-, ⟨hn, rfl⟩ | rfl⟩ := vectorOf_ok b2
      · rw [hn] at hv; cases hv
      · dsimp only at hv
        rw [varAt_onVar _ _ _ (fun v => { v with payload := { v.payload with vector := (p.2.prop "counterpart", directionIn p.2) } }) (fun _ => rfl)] at hv
        obtain ⟨x, -, hxv⟩ := Option.map_eq_some_iff.1 hv
        rw [if_pos rfl] at hxv
        subst hxv
        rfl
  obtain ⟨c1, -⟩ := (same_initAttrNames h9).trans (same_initAttrs h10)
  exact k8 v ((varAt_congr c1 _).symm.trans (getVariable_ok.1 hv))

/-! ## Attributes -/

/-- Looking up what is at the end of a list. -/
theorem getAttribute_set {c : CDM (Payload D) V CS} {n : String} {l : List (Attr V)} {a : Attr V} (h : c.attrs n = some (l.filter (fun b => !(b.name == a.name)) ++ [a])) :
    getAttribute c n a.name = .ok a := by
  unfold getAttribute
  rw [h]
  dsimp only
  have : (l.filter fun b => !(b.name == a.name)).find? (fun b => b.name == a.name) = none := by
    rw [List.find?_eq_none]
    intro b hb
    have := (List.mem_filter.1 hb).2
    simpa using this
  rw [List.find?_append, this]
  simp

theorem getAttribute_other {c c' : CDM (Payload D) V CS} {n owner : String} {a b : Attr V} (h : getAttribute c n a.name = .ok a)
    (hne : ¬ (owner = n ∧ b.name = a.name))
    (hc : c'.attrs = fun m => if m = owner then some ((getAttributes c owner).filter (fun x => !(x.name == b.name)) ++ [b]) else c.attrs m) :
    getAttribute c' n a.name = .ok a := by
  unfold getAttribute at h ⊢
  rw [hc]
  dsimp only
  by_cases ho : n = owner
  · rw [if_pos ho]
    dsimp only
    subst ho
    have hb : b.name ≠ a.name := fun x => hne ⟨rfl, x⟩
    cases ha : c.attrs n with
    | none => rw [ha] at h; cases h
    | some l =>
      rw [ha] at h
      dsimp only at h
      have hl : getAttributes c n = l := by unfold getAttributes; rw [ha]; rfl
      rw [hl, List.find?_append, List.find?_filter]
      have : (fun x : Attr V => decide ((!(x.name == b.name)) = true ∧ (x.name == a.name) = true)) = fun x => x.name == a.name := by
        funext x
        by_cases hx : x.name = a.name
        · simp [hx, Ne.symm hb]
        · simp [hx]
      rw [this]
      cases hf : l.find? fun x => x.name == a.name with
      | none => rw [hf] at h; cases h
      | some y => rw [hf] at h; cases h; rfl
  · rw [if_neg ho]
    exact h

/-- C120: an element `attribute` in a variable that says something, the last one of its name there: the variable is there and has the attribute with the
value the element gives; with no such variable the document is refused. -/
theorem C120_attribute {env : Env D V} {id : String} {doc : Xml} {reader blank : CDM (Payload D) V CS} {s : St D V CS}
    (h : construct env id (some doc) reader blank = .ok s) {pre post : List (Xml × Xml)} {p : Xml × Xml} (hl : inVariables doc "attribute" = pre ++ p :: post)
    (hsays : Spec.Says p.2)
    (hlast : ∀ q ∈ post, Spec.Says q.2 → ¬ (q.1.prop "name" = p.1.prop "name" ∧ q.2.prop "name" = p.2.prop "name")) :
    (p.1.prop "name" = globalNS ∨ hasVariable s.cdm (p.1.prop "name") = true) ∧
      ∃ val, Spec.Given env p.2 val ∧ getAttribute s.cdm (p.1.prop "name") (p.2.prop "name") = .ok ⟨p.2.prop "name", val⟩ := by
  obtain ⟨d0, hdoc, ht, s1, s2, s3, s4, s5, s6, s7, s8, s9, h1, h2, h3, h4, h5, h6, h7, h8, h9, h10⟩ := construct_ok h
  obtain ⟨t, -, a2⟩ := Res.bind_eq_ok.1 h10
  cases hdoc
  rw [hl] at a2
  obtain ⟨u, w, -, b2, b3⟩ := fold_split a2
  rcases assignAttr_ok b2 with ⟨hno, -⟩ | ⟨-, hown, a, ha, hw⟩
  · exact absurd hno ((says_iff _).1 hsays)
  · obtain ⟨g1, g2⟩ := given_of ha
    have kw : (p.1.prop "name" = globalNS ∨ hasVariable w.cdm (p.1.prop "name") = true) ∧ getAttribute w.cdm (p.1.prop "name") a.name = .ok a := by
      refine ⟨by rw [hw]; exact hown, ?_⟩
      apply getAttribute_set (l := getAttributes u.cdm (p.1.prop "name"))
      rw [hw]
      simp
    have ks := fold_keep (P := fun w => (p.1.prop "name" = globalNS ∨ hasVariable w.cdm (p.1.prop "name") = true) ∧ getAttribute w.cdm (p.1.prop "name") a.name = .ok a)
      (s' := s) ?_ b3 kw
    · refine ⟨ks.1, a.value, g2, ?_⟩
      rw [← g1]
      exact ks.2
    · rintro q hq x x' ⟨q1, q2⟩ hf
      rcases assignAttr_ok hf with ⟨-, rfl⟩ | ⟨hqs, -, b, hb, rfl⟩
      · exact ⟨q1, q2⟩
      · refine ⟨q1, getAttribute_other q2 ?_ rfl⟩
        rintro ⟨o1, o2⟩
        exact hlast q hq ((says_iff _).2 hqs) ⟨o1, by rw [← createAttr_name hb, ← g1]; exact o2⟩

/-- C120: the same for the attributes of the dataset, if no variable has the name that stands for the dataset. -/
theorem C120_global {env : Env D V} {id : String} {doc : Xml} {reader blank : CDM (Payload D) V CS} {s : St D V CS}
    (h : construct env id (some doc) reader blank = .ok s) {pre post : List Xml} {e : Xml} (hl : under doc "attribute" = pre ++ e :: post)
    (hsays : Spec.Says e) (hlast : ∀ x ∈ post, Spec.Says x → x.prop "name" ≠ e.prop "name")
    (hnames : ∀ x ∈ under doc "variable", x.prop "name" ≠ globalNS) :
    ∃ val, Spec.Given env e val ∧ getAttribute s.cdm globalNS (e.prop "name") = .ok ⟨e.prop "name", val⟩ := by
  obtain ⟨d0, hdoc, ht, s1, s2, s3, s4, s5, s6, s7, s8, s9, h1, h2, h3, h4, h5, h6, h7, h8, h9, h10⟩ := construct_ok h
  obtain ⟨t, a1, a2⟩ := Res.bind_eq_ok.1 h10
  cases hdoc
  rw [hl] at a1
  obtain ⟨u, w, -, b2, b3⟩ := fold_split a1
  rcases assignAttr_ok b2 with ⟨hno, -⟩ | ⟨-, hown, a, ha, hw⟩
  · exact absurd hno ((says_iff _).1 hsays)
  · obtain ⟨g1, g2⟩ := given_of ha
    have kw : getAttribute w.cdm globalNS a.name = .ok a := by
      apply getAttribute_set (l := getAttributes u.cdm globalNS)
      rw [hw]
      simp
    have kt := fold_keep (P := fun w => getAttribute w.cdm globalNS a.name = .ok a) (s' := t) (fun x hx y y' q2 hf => by
      rcases assignAttr_ok hf with ⟨-, rfl⟩ | ⟨hqs, -, b, hb, rfl⟩
      · exact q2
      · refine getAttribute_other q2 ?_ rfl
        rintro ⟨-, o2⟩
        exact hlast x hx ((says_iff _).2 hqs) (by rw [← createAttr_name hb, ← g1]; exact o2)) b3 kw
    have ks := fold_keep (P := fun w => getAttribute w.cdm globalNS a.name = .ok a) (s' := s) (fun x hx y y' q2 hf => by
      rcases assignAttr_ok hf with ⟨-, rfl⟩ | ⟨hqs, -, b, hb, rfl⟩
      · exact q2
      · refine getAttribute_other q2 ?_ rfl
        rintro ⟨o1, -⟩
        exact hnames x.1 (mem_inVariables hx) o1) a2 kt
    refine ⟨a.value, g2, ?_⟩
    rw [← g1]
    exact ks

/-! ## Shapes and new variables -/

/-- Up to the new names: what is present and not removed stays present. -/
theorem present_until_shapes {env : Env D V} {doc : Xml} {reader : CDM (Payload D) V CS} {s1 s2 s3 : St D V CS} (hi : Inv reader)
    (h1 : initRemove doc ⟨reader, [], [], []⟩ = .ok s1) (h2 : initDims env doc s1 = .ok s2) (h3 : initUnlimited env doc s2 = .ok s3) {n : String}
    (hv : (varAt reader n).isSome = true) (hr : ¬ Spec.Removes doc "variable" n) : (varAt s3.cdm n).isSome = true := by
  have i1 := inv_initRemove hi h1
  have k1 : (varAt s1.cdm n).isSome = true := by
    obtain ⟨t, a1, a2⟩ := Res.bind_eq_ok.1 h1
    have kt : (varAt t.cdm n).isSome = true := by
      refine fold_keep (P := fun u : St D V CS => (varAt u.cdm n).isSome = true) ?_ a1 hv
      intro e he u u' hq hf
      obtain ⟨-, ⟨hty, rfl⟩ | ⟨-, b, hrd, hu'⟩ | ⟨-, rfl⟩ | ⟨-, rfl⟩⟩ := removeOne_ok hf
      · have hne : n ≠ e.prop "name" := fun x => hr ⟨e, he, hty, x.symm⟩
        dsimp only
        rw [varAt_remove_ne _ hne]
        exact hq
      · rw [varAt_congr (removeDimension_frame hrd).1 n]
        exact hq
      · exact hq
      · exact hq
    refine fold_keep (P := fun u : St D V CS => (varAt u.cdm n).isSome = true) ?_ a2 kt
    intro p hp u u' hq hf
    rw [removeIn_ok hf]
    exact hq
  have k2 : (varAt s2.cdm n).isSome = true := by
    obtain ⟨t, a1, a2⟩ := Res.bind_eq_ok.1 h2
    obtain ⟨u, b1, b2⟩ := renameDims_ok a1
    obtain ⟨w, hw⟩ := Option.isSome_iff_exists.1 k1
    obtain ⟨w', hw', -⟩ := (renameDimensions_frame _ _ _ _ _ u i1 b1).2.2.1 n w hw
    refine fold_keep (P := fun u : St D V CS => (varAt u.cdm n).isSome = true) ?_ a2 (by rw [hw']; rfl)
    intro e _ u u' hq hf
    obtain ⟨k, -, ⟨-, rfl⟩ | ⟨-, rfl⟩⟩ := lengthOf_ok hf <;> exact hq
  refine fold_keep (P := fun u : St D V CS => (varAt u.cdm n).isSome = true) ?_ h3 k2
  intro e _ u u' hq hf
  rcases unlimitedOf_ok hf with ⟨-, rfl⟩ | ⟨d, -, ⟨-, -, rfl⟩ | ⟨-, -, hp⟩ | ⟨-, rfl⟩⟩
  · exact hq
  · exact hq
  · rcases prefetch_ok hp with rfl | ⟨d, w, -, -, -, -, rfl⟩
    · exact hq
    · dsimp only
      rw [varAt_onVar _ _ _ (fun v => { v with payload := { v.payload with data := some d } }) (fun _ => rfl)]
      simpa [varAt, onDim] using hq
  · exact hq

theorem has_of_prop {e : Xml} {k : String} (h : e.prop k ≠ "") : e.has k = true := by
  unfold Xml.prop at h
  unfold Xml.has
  cases hf : e.props.find? fun p => p.1 = k with
  | none => rw [hf] at h; exact absurd rfl h
  | some p => exact List.any_eq_true.2 ⟨p, List.mem_of_find?_eq_some hf, by simpa using List.find?_some hf⟩

/-- Types do not touch the shapes. -/
theorem shape_types {env : Env D V} {doc : Xml} (ht : doc.tag = "netcdf") {s s' : St D V CS} (h : initTypes env doc s = .ok s') {n : String} {sh : List String}
    (hv : ∃ v, varAt s.cdm n = some v ∧ v.shape = sh) : ∃ v, varAt s'.cdm n = some v ∧ v.shape = sh := by
  refine fold_keep (P := fun u : St D V CS => ∃ v, varAt u.cdm n = some v ∧ v.shape = sh) ?_ h hv
  rintro e _ u u' ⟨v, q1, q2⟩ hf
  obtain ⟨-, ⟨-, rfl⟩ | ⟨w, -, -, ⟨-, rfl⟩ | ⟨-, rfl⟩⟩⟩ := typeOne_ok ht hf
  · exact ⟨v, q1, q2⟩
  · exact ⟨v, q1, q2⟩
  · dsimp only
    rw [varAt_onVar _ _ _ (fun v => { v with payload := setType env (ncmlName2cdm (e.prop "type").toList false) v.payload }) (fun _ => rfl), q1]
    refine ⟨_, rfl, ?_⟩
    split <;> exact q2

/-- C120: the last element that gives a variable of the other reader a shape decides it, if the variable is neither removed nor renamed and no
other variable gets its name. -/
theorem C120_shape {env : Env D V} {id : String} {doc : Xml} {reader blank : CDM (Payload D) V CS} {s : St D V CS} (hi : Inv reader)
    (h : construct env id (some doc) reader blank = .ok s) {pre post : List Xml} {e : Xml} (hl : under doc "variable" = pre ++ e :: post)
    (hh : e.has "shape") (hown : e.prop "orgName" = "") (hlast : ∀ x ∈ post, x.has "shape" → x.prop "name" ≠ e.prop "name" ∧ x.prop "orgName" ≠ e.prop "name")
    (hv : hasVariable reader (e.prop "name") = true) (hr : ¬ Spec.Removes doc "variable" (e.prop "name"))
    (hren : ∀ x ∈ under doc "variable", x.has "orgName" → x.prop "orgName" ≠ e.prop "name" ∧ x.prop "name" ≠ e.prop "name") :
    ∃ v, getVariable s.cdm (e.prop "name") = .ok v ∧ env.shape (e.prop "shape") = .ok v.shape := by
  obtain ⟨d0, hdoc, ht, s1, s2, s3, s4, s5, s6, s7, s8, s9, h1, h2, h3, h4, h5, h6, h7, h8, h9, h10⟩ := construct_ok h
  cases hdoc
  have i1 := inv_initRemove hi h1
  have i4 := inv_initShapes (inv_initUnlimited (inv_initDims i1 h2) h3) h4
  have k3 := present_until_shapes hi h1 h2 h3 (by rw [← hasVariable_at]; exact hv) hr
  have hoe : ownerOf e = e.prop "name" := by unfold ownerOf; rw [if_pos hown]
  have k4 : ∃ v sh, (varAt s4.cdm (e.prop "name") = some v ∧ v.shape = sh) ∧ env.shape (e.prop "shape") = .ok sh := by
    unfold initShapes at h4
    rw [hl, List.filter_append, List.filter_cons_of_pos (by simpa using hh)] at h4
    obtain ⟨u, w, b1, b2, b3⟩ := fold_split h4
    have ku : (varAt u.cdm (e.prop "name")).isSome = true := by
      refine fold_keep (P := fun u : St D V CS => (varAt u.cdm (e.prop "name")).isSome = true) ?_ b1 k3
      intro x _ y y' hq hf
      obtain ⟨-, ⟨-, rfl⟩ | ⟨sh, -, -, rfl⟩⟩ := shapeOf_ok hf
      · exact hq
      · dsimp only
        rw [varAt_onVar _ _ _ (fun v => { v with shape := sh }) (fun _ => rfl)]
        simpa using hq
    have kw : ∃ v sh, (varAt w.cdm (e.prop "name") = some v ∧ v.shape = sh) ∧ env.shape (e.prop "shape") = .ok sh := by
      obtain ⟨-, ⟨hn, -⟩ | ⟨sh, -, hsh, rfl⟩⟩ := shapeOf_ok b2
      · rw [hoe] at hn; rw [hn] at ku; cases ku
      · obtain ⟨v, hv⟩ := Option.isSome_iff_exists.1 ku
        refine ⟨{ v with shape := sh }, sh, ⟨?_, rfl⟩, hsh⟩
        dsimp only
        rw [varAt_onVar _ _ _ (fun v => { v with shape := sh }) (fun _ => rfl), hv, hoe]
        simp
    refine fold_keep (P := fun w : St D V CS => ∃ v sh, (varAt w.cdm (e.prop "name") = some v ∧ v.shape = sh) ∧ env.shape (e.prop "shape") = .ok sh) ?_ b3 kw
    rintro x hx y y' ⟨v, sh, ⟨q1, q2⟩, q3⟩ hf
    have hne : e.prop "name" ≠ ownerOf x := by
      have := hlast x (List.mem_filter.1 hx).1 (List.mem_filter.1 hx).2
      rcases ownerOf_cases x with ho | ho <;> rw [ho]
      · exact fun z => this.1 z.symm
      · exact fun z => this.2 z.symm
    obtain ⟨-, ⟨-, rfl⟩ | ⟨sh', -, -, rfl⟩⟩ := shapeOf_ok hf
    · exact ⟨v, sh, ⟨q1, q2⟩, q3⟩
    · exact ⟨v, sh, ⟨onVar_other q1 hne fun _ => rfl, q2⟩, q3⟩
  obtain ⟨v4, sh, ⟨q1, q2⟩, q3⟩ := k4
  have k5 : ∃ v, varAt s5.cdm (e.prop "name") = some v ∧ v.shape = sh := by
    obtain ⟨t, a1, a2⟩ := Res.bind_eq_ok.1 h5
    obtain ⟨u, b1, b2⟩ := renameVars_ok a1
    have kt : ∃ v, varAt t.cdm (e.prop "name") = some v ∧ v.shape = sh := by
      refine ⟨v4, (((renameVariables_frame _ _ _ _ _ u i4 b1).2.1 (e.prop "name") ?_).1).trans q1, q2⟩
      intro x hx
      unfold varRenamings at hx
      obtain ⟨y, hy, rfl⟩ := List.mem_map.1 hx
      exact hren y (List.mem_filter.1 hy).1 (List.mem_filter.1 hy).2
    refine fold_keep (P := fun u : St D V CS => ∃ v, varAt u.cdm (e.prop "name") = some v ∧ v.shape = sh) ?_ a2 kt
    rintro x _ y y' ⟨v, q1, q2⟩ hf
    rcases addOne_ok hf with ⟨-, rfl⟩ | ⟨-, -, sh', d, -, -, -, rfl⟩
    · exact ⟨v, q1, q2⟩
    · refine ⟨v, ?_, q2⟩
      unfold varAt at q1 ⊢
      dsimp only
      rw [List.find?_append, q1]
      rfl
  obtain ⟨v6, r1, r2⟩ := shape_types ht h6 k5
  obtain ⟨v, a1, a2, -⟩ := (late_frame h7 h8 h9 h10 (e.prop "name")).2.2.2.2 v6 r1
  exact ⟨v, getVariable_ok.2 a1, by rw [a2, r2]; exact q3⟩

/-- The two readings of a type: by the one that makes variables and by the one that changes them. -/
theorem two_readings (t : String) (h : ncmlName2cdm t.toList false ≠ .nat) :
    string2datatype t.toList = ncmlName2cdm t.toList false ↔ t ≠ "long" := by
  unfold ncmlName2cdm at h ⊢
  cases hf : ncmlTypes.find? fun f => f = ⟨t.toList, false⟩ with
  | none => rw [hf] at h; exact absurd rfl h
  | some f =>
    have h1 := List.mem_of_find?_eq_some hf
    have h2 : f = ⟨t.toList, false⟩ := by simpa using List.find?_some hf
    rw [hf] at h
    dsimp only at h ⊢
    subst h2
    have hlong : t ≠ "long" ↔ t.toList ≠ "long".toList := by rw [Ne, Ne, String.toList_inj]
    rw [hlong]
    clear hf hlong
    generalize t.toList = l at h1 h ⊢
    simp only [ncmlTypes, List.mem_cons, List.not_mem_nil, or_false, Ncml.mk.injEq, Bool.false_eq_true, and_false, and_true, false_or] at h1
    rcases h1 with rfl | rfl | rfl | rfl | rfl | rfl | rfl | rfl | rfl | rfl
    all_goals first | exact absurd (by decide) h | decide

/-- C120: a variable that the document adds has the shape and the type of its element and is read without data of the other reader — except for the type
`long`: the variable is made with data of 32 bits, becomes one of 64 bits without data, and reading it raises. -/
theorem C120_added_partial {env : Env D V} {id : String} {doc : Xml} {reader blank : CDM (Payload D) V CS} {s : St D V CS} (hi : Inv reader)
    (h : construct env id (some doc) reader blank = .ok s) {pre post : List Xml} {e : Xml} (hl : under doc "variable" = pre ++ e :: post)
    (horg : e.has "orgName" = false) (htype : e.prop "type" ≠ "") (hone : ∀ x ∈ pre ++ post, x.prop "name" ≠ e.prop "name")
    (habs : hasVariable reader (e.prop "name") = false) (hval : ∀ p ∈ inVariables doc "values", p.1.prop "name" ≠ e.prop "name") :
    ∃ v, getVariable s.cdm (e.prop "name") = .ok v ∧ env.shape (e.prop "shape") = .ok v.shape ∧
      v.payload.dtype = ncmlName2cdm (e.prop "type").toList false ∧
      (e.prop "type" ≠ "long" → ∃ d, env.blank v.payload.dtype = .ok d ∧ source reader s (e.prop "name") = .ok (.memory d)) ∧
      (e.prop "type" = "long" → source reader s (e.prop "name") = .throws) := by
  obtain ⟨d0, hdoc, ht, s1, s2, s3, s4, s5, s6, s7, s8, s9, h1, h2, h3, h4, h5, h6, h7, h8, h9, h10⟩ := construct_ok h
  cases hdoc
  have hmem : ∀ x ∈ under doc "variable", x ≠ e → x.prop "name" ≠ e.prop "name" := by
    intro x hx hxe
    rw [hl] at hx
    rcases List.mem_append.1 hx with hx | hx
    · exact hone x (List.mem_append_left _ hx)
    · rcases List.mem_cons.1 hx with rfl | hx
      · exact absurd rfl hxe
      · exact hone x (List.mem_append_right _ hx)
  have i1 := inv_initRemove hi h1
  have i4 := inv_initShapes (inv_initUnlimited (inv_initDims i1 h2) h3) h4
  have k0 : varAt reader (e.prop "name") = none := by rw [hasVariable_at] at habs; simpa using habs
  have k4 := absent_until_names i1 h2 h3 h4 (removed_absent h1 (.inr k0))
  have k5 : ∃ sh d, varAt s5.cdm (e.prop "name") = some ⟨e.prop "name", sh, ⟨string2datatype (e.prop "type").toList, some d, "", .none⟩⟩ ∧
      env.shape (e.prop "shape") = .ok sh ∧ env.blank (string2datatype (e.prop "type").toList) = .ok d ∧
      env.typeOf d = string2datatype (e.prop "type").toList ∧ s5.varNames.get (e.prop "name") = e.prop "name" := by
    obtain ⟨t, a1, a2⟩ := Res.bind_eq_ok.1 h5
    obtain ⟨u, b1, b2⟩ := renameVars_ok a1
    have hnew : ∀ x ∈ varRenamings doc, x.2 ≠ e.prop "name" := by
      intro x hx
      unfold varRenamings at hx
      obtain ⟨y, hy, rfl⟩ := List.mem_map.1 hx
      refine hmem y (List.mem_filter.1 hy).1 ?_
      rintro rfl
      have := (List.mem_filter.1 hy).2
      rw [horg] at this
      cases this
    obtain ⟨c1, c2⟩ := (renameVariables_frame _ _ _ _ _ u i4 b1).2.2 (e.prop "name") hnew
    have kt := c2 k4
    have hnm : s4.varNames = [] := by
      have n1 : s1.varNames = [] := by
        obtain ⟨t, a1, a2⟩ := Res.bind_eq_ok.1 h1
        have kt : t.varNames = [] := by
          refine fold_keep (P := fun u : St D V CS => u.varNames = []) ?_ a1 rfl
          intro e he u u' hq hf
          obtain ⟨-, ⟨-, rfl⟩ | ⟨-, b, hrd, hu'⟩ | ⟨-, rfl⟩ | ⟨-, rfl⟩⟩ := removeOne_ok hf
          · exact hq
          · rw [hu']; exact hq
          · exact hq
          · exact hq
        refine fold_keep (P := fun u : St D V CS => u.varNames = []) ?_ a2 kt
        intro p hp u u' hq hf
        rw [removeIn_ok hf]
        exact hq
      have n2 : s2.varNames = [] := by
        obtain ⟨t, a1, a2⟩ := Res.bind_eq_ok.1 h2
        obtain ⟨u, b1, b2⟩ := renameDims_ok a1
        refine fold_keep (P := fun u : St D V CS => u.varNames = []) ?_ a2 (by rw [b2]; exact n1)
        intro e _ u u' hq hf
        obtain ⟨k, -, ⟨-, rfl⟩ | ⟨-, rfl⟩⟩ := lengthOf_ok hf <;> exact hq
      have n3 : s3.varNames = [] := by
        refine fold_keep (P := fun u : St D V CS => u.varNames = []) ?_ h3 n2
        intro e _ u u' hq hf
        rcases unlimitedOf_ok hf with ⟨-, rfl⟩ | ⟨d, -, ⟨-, -, rfl⟩ | ⟨-, -, hp⟩ | ⟨-, rfl⟩⟩
        · exact hq
        · exact hq
        · rcases prefetch_ok hp with rfl | ⟨d, w, -, -, -, -, rfl⟩ <;> exact hq
        · exact hq
      refine fold_keep (P := fun u : St D V CS => u.varNames = []) ?_ h4 n3
      intro e _ u u' hq hf
      obtain ⟨-, ⟨-, rfl⟩ | ⟨sh, -, -, rfl⟩⟩ := shapeOf_ok hf <;> exact hq
    have hgt : t.varNames.get (e.prop "name") = e.prop "name" := by rw [c1, hnm]; rfl
    rw [hl, List.filter_append, List.filter_cons_of_pos (by simpa using horg)] at a2
    obtain ⟨x, w, e1, e2, e3⟩ := fold_split a2
    have kx : varAt x.cdm (e.prop "name") = none ∧ x.varNames.get (e.prop "name") = e.prop "name" := by
      refine fold_keep (P := fun u : St D V CS => varAt u.cdm (e.prop "name") = none ∧ u.varNames.get (e.prop "name") = e.prop "name") ?_ e1 ⟨kt, hgt⟩
      rintro y hy z z' ⟨q1, q2⟩ hf
      refine ⟨absent_addOne (hone y (List.mem_append_left _ (List.mem_filter.1 hy).1)) q1 hf, ?_⟩
      rcases addOne_ok hf with ⟨-, rfl⟩ | ⟨-, -, sh', d, -, -, -, rfl⟩ <;> exact q2
    rcases addOne_ok e2 with ⟨hx | hx, -⟩ | ⟨-, -, sh, d, f1, f2, f3, rfl⟩
    · exact absurd hx htype
    · rw [kx.1] at hx; cases hx
    · refine ⟨sh, d, ?_⟩
      have := fold_keep (P := fun u : St D V CS => varAt u.cdm (e.prop "name") = some ⟨e.prop "name", sh, ⟨string2datatype (e.prop "type").toList, some d, "", .none⟩⟩ ∧
        u.varNames.get (e.prop "name") = e.prop "name") ?_ e3 ⟨?_, kx.2⟩
      · exact ⟨this.1, f1, f2, f3, this.2⟩
      · rintro y hy z z' ⟨q1, q2⟩ hf
        rcases addOne_ok hf with ⟨-, rfl⟩ | ⟨-, -, sh', d, -, -, -, rfl⟩
        · exact ⟨q1, q2⟩
        · refine ⟨?_, q2⟩
          unfold varAt at q1 ⊢
          dsimp only
          rw [List.find?_append, q1]
          rfl
      · have := kx.1
        unfold varAt at this ⊢
        dsimp only
        rw [List.find?_append, this]
        simp
  obtain ⟨sh, d, g1, g2, g3, g4, g5⟩ := k5
  have k6 : s6.varNames.get (e.prop "name") = e.prop "name" ∧ ncmlName2cdm (e.prop "type").toList false ≠ .nat ∧
      ∃ v, varAt s6.cdm (e.prop "name") = some v ∧ v.shape = sh ∧ v.payload.dtype = ncmlName2cdm (e.prop "type").toList false ∧
        v.payload.data = if string2datatype (e.prop "type").toList = ncmlName2cdm (e.prop "type").toList false then some d else none := by
    unfold initTypes at h6
    rw [hl, List.filter_append, List.filter_cons_of_pos (by simpa using has_of_prop htype)] at h6
    obtain ⟨x, w, e1, e2, e3⟩ := fold_split h6
    have hother : ∀ (y : Xml) (z z' : St D V CS), y.prop "name" ≠ e.prop "name" → typeOne env doc z y = .ok z' →
        varAt z'.cdm (e.prop "name") = varAt z.cdm (e.prop "name") ∧ z'.varNames = z.varNames := by
      intro y z z' hne hf
      obtain ⟨-, ⟨-, rfl⟩ | ⟨w, -, -, ⟨-, rfl⟩ | ⟨-, rfl⟩⟩⟩ := typeOne_ok ht hf
      · exact ⟨rfl, rfl⟩
      · exact ⟨rfl, rfl⟩
      · exact ⟨onVar_other rfl (Ne.symm hne) fun _ => rfl, rfl⟩
    have kx := fold_keep (P := fun u : St D V CS => varAt u.cdm (e.prop "name") = varAt s5.cdm (e.prop "name") ∧ u.varNames = s5.varNames) (fun y hy z z' hq hf => by
      obtain ⟨r1, r2⟩ := hother y z z' (hone y (List.mem_append_left _ (List.mem_filter.1 hy).1)) hf
      exact ⟨r1.trans hq.1, r2.trans hq.2⟩) e1 ⟨rfl, rfl⟩
    have ks := fold_keep (P := fun u : St D V CS => varAt u.cdm (e.prop "name") = varAt w.cdm (e.prop "name") ∧ u.varNames = w.varNames) (fun y hy z z' hq hf => by
      obtain ⟨r1, r2⟩ := hother y z z' (hone y (List.mem_append_right _ (List.mem_filter.1 hy).1)) hf
      exact ⟨r1.trans hq.1, r2.trans hq.2⟩) e3 ⟨rfl, rfl⟩
    rw [ks.1, ks.2]
    obtain ⟨-, ⟨hn, -⟩ | ⟨y, hy, hnat, ⟨hty, rfl⟩ | ⟨hty, rfl⟩⟩⟩ := typeOne_ok ht e2
    · rw [kx.1, g1] at hn; cases hn
    · rw [kx.1, g1] at hy
      cases hy
      refine ⟨by rw [kx.2]; exact g5, hnat, _, kx.1.trans g1, rfl, hty, ?_⟩
      rw [if_pos hty]
    · have hx := kx.1.trans g1
      rw [hx] at hy
      cases hy
      refine ⟨by dsimp only; rw [kx.2]; exact g5, hnat, ?_⟩
      dsimp only
      rw [varAt_onVar _ _ _ (fun v => { v with payload := setType env (ncmlName2cdm (e.prop "type").toList false) v.payload }) (fun _ => rfl), hx]
      refine ⟨_, rfl, ?_, ?_, ?_⟩
      · simp
      · simp [setType]
      · dsimp only
        rw [if_pos rfl, if_neg hty]
        simp only [setType, Option.filter, g4]
        rw [if_neg (by simpa using hty)]
  obtain ⟨p1, p2, v6, p3, p4, p5, p6⟩ := k6
  have hlf := late_frame h7 h8 h9 h10 (e.prop "name")
  obtain ⟨v, a1, a2, a3, a4, -⟩ := hlf.2.2.2.2 v6 p3
  have a4 := a4 hval
  refine ⟨v, getVariable_ok.2 a1, by rw [a2, p4]; exact g2, a3.trans p5, ?_, ?_⟩
  · intro hnl
    have heq := (two_readings _ p2).2 hnl
    refine ⟨d, by rw [a3, p5, ← heq]; exact g3, ?_⟩
    unfold source
    rw [getVariable_ok.2 a1]
    simp only [Res.bind]
    rw [a4, p6, if_pos heq]
  · intro hlong
    have hneq : string2datatype (e.prop "type").toList ≠ ncmlName2cdm (e.prop "type").toList false := fun x => (two_readings _ p2).1 x hlong
    unfold source
    rw [getVariable_ok.2 a1]
    simp only [Res.bind]
    rw [a4, p6, if_neg hneq]
    dsimp only
    rw [hlf.2.1, p1, getVariable_eq, k0]

/-! ## Examples and violations -/

namespace Example

/-- Data are a type and a word. -/
def env : Env (DataType × String) (DataType × List String) where
  typeOf := fun d => d.1
  read := fun n => .ok (.double, n)
  blank := fun t => .ok (t, "blank")
  shape := fun s => .ok (if s = "" then [] else [s])
  fill := fun t _ _ _ c _ => .ok (t, c)
  pieces := fun s _ => .ok [s]
  value := fun t l => .ok (t, l)
  int := fun s => if s = "5" then .ok 5 else if s = "-1" then .ok (-1) else .throws

abbrev Data := CDM (Payload (DataType × String)) (DataType × List String) Unit

def var (n : String) (sh : List String) (t : DataType) : Var (Payload (DataType × String)) := ⟨n, sh, ⟨t, none, "", .none⟩⟩

def dataset : Data where
  attrs := fun n => if n = "temp" then some [⟨"units", .string, ["K"]⟩] else if n = globalNS then some [⟨"title", .string, ["old"]⟩] else none
  vars := [var "temp" ["t", "x"] .short, var "t" ["t"] .double, var "x" ["x"] .float, var "time" [] .double]
  dims := [⟨"t", 3, false⟩, ⟨"x", 4, false⟩]
  coordsInitialized := true
  coordSystems := ()

def blank : Data := ⟨fun _ => none, [], [], false, ()⟩

theorem dataset_inv : Inv dataset where
  vars := by decide
  dims := by decide
  attrNames := by
    intro n l h
    unfold dataset at h
    dsimp only at h
    by_cases h1 : n = "temp"
    · rw [if_pos h1] at h; cases h; decide
    · rw [if_neg h1] at h
      by_cases h2 : n = globalNS
      · rw [if_pos h2] at h; cases h; decide
      · rw [if_neg h2] at h; cases h
  owners := by
    intro n h
    unfold dataset at h
    dsimp only at h
    by_cases h1 : n = "temp"
    · right; rw [h1]; decide
    · rw [if_neg h1] at h
      by_cases h2 : n = globalNS
      · exact .inl h2
      · rw [if_neg h2] at h; exact absurd rfl h

/-- An element. -/
def el (tag : String) (props : List (String × String)) (kids : List Xml := []) (content : String := "") : Xml := .node tag props content kids

/-- A document with something of everything. -/
def doc : Xml := el "netcdf" []
  [el "remove" [("type", "variable"), ("name", "time")],
   el "dimension" [("name", "x"), ("length", "5")],
   el "dimension" [("name", "n"), ("length", "-1")],
   el "dimension" [("name", "t"), ("isUnlimited", "true")],
   el "attribute" [("name", "title"), ("value", "new")],
   el "variable" [("name", "temp"), ("type", "int"), ("shape", "t")]
     [el "attribute" [("name", "units"), ("value", "degC")], el "spatial_vector" [("counterpart", "v"), ("direction", "x")]],
   el "variable" [("name", "extra"), ("type", "float"), ("shape", "x")],
   el "variable" [("name", "big"), ("type", "long")],
   el "variable" [("name", "x")] [el "values" [] [] "1 2 3 4 5"]]

/-- What can be seen of a result: variables, dimensions, the attributes of `temp` and of the dataset, and whether the coordinate systems are taken to be known. -/
structure View where
  vars : List (String × List String × DataType × Option (DataType × String))
  dims : List (String × Nat × Bool)
  attrs : List (Option (List (String × DataType × List String)))
  coords : Bool
deriving DecidableEq

def view (r : Res (St (DataType × String) (DataType × List String) Unit)) : Res View :=
  r.bind fun s => .ok ⟨s.cdm.vars.map fun v => (v.name, v.shape, v.payload.dtype, v.payload.data), s.cdm.dims.map fun d => (d.name, d.length, d.unlimited),
    ["temp", globalNS].map (fun n => (s.cdm.attrs n).map fun l => l.map fun a => (a.name, a.value)), s.cdm.coordsInitialized⟩

/-- What a reading gives. -/
def reads (r : Res (St (DataType × String) (DataType × List String) Unit)) (n : String) : Res (Option (DataType × String) × String × Option DataType) :=
  r.bind fun s => (source dataset s n).bind fun x => .ok (match x with | .memory d => (some d, "", none) | .reader m t => (none, m, t))

def result : Res (St (DataType × String) (DataType × List String) Unit) := construct env "file" (some doc) dataset blank

end Example

open Example in
/-- The hypotheses of C120_unique, C120_kept, C120_length, C120_unlimited, C120_type, C120_values, C120_attribute, C120_global, C120_shape and C120_added_partial
are met together by this document: the result. -/
example : view result = .ok
    ⟨[("temp", ["t"], .int, none), ("t", ["t"], .double, some (.double, "t")), ("x", ["x"], .float, some (.float, "1 2 3 4 5")),
      ("extra", ["x"], .float, some (.float, "blank")), ("big", [], .int64, none)],
     [("t", 3, true), ("x", 5, false), ("n", 18446744073709551615, false)],
     [some [("units", .string, ["degC"])], some [("title", .string, ["new"])]], false⟩ ∧
    reads result "temp" = .ok (none, "temp", some .int) ∧ reads result "extra" = .ok (some (.float, "blank"), "", none) := by
  decide +kernel

open Example in
/-- C120: the full claim about added variables is false: the document above adds a variable `big` of the type `long`, and reading it raises. -/
theorem C120_long_unreadable : (result.bind fun s => .ok (hasVariable s.cdm "big")) = .ok true ∧ reads result "big" = .throws := by
  decide +kernel

open Example in
/-- C120: the attribute `_Unsigned` of a variable has no effect: `byte` stays a type with sign. -/
theorem C120_unsigned_witness :
    view (construct env "file" (some (el "netcdf" [] [el "variable" [("name", "temp"), ("type", "byte")] [el "attribute" [("name", "_Unsigned"), ("value", "true")]]])) dataset blank) =
      .ok ⟨[("temp", ["t", "x"], .char, none), ("t", ["t"], .double, none), ("x", ["x"], .float, none), ("time", [], .double, none)],
        [("t", 3, false), ("x", 4, false)], [some [("units", .string, ["K"]), ("_Unsigned", .string, ["true"])], some [("title", .string, ["old"])]], false⟩ := by
  decide +kernel

open Example in
/-- C120: a dimension `t` that is renamed to `time` and made unlimited, where there is another variable `time`: that one gets the data of `t`. -/
theorem C120_prefetch_wrong :
    view (construct env "file" (some (el "netcdf" [] [el "dimension" [("name", "time"), ("orgName", "t"), ("isUnlimited", "true")]])) dataset blank) =
      .ok ⟨[("temp", ["time", "x"], .short, none), ("t", ["time"], .double, none), ("x", ["x"], .float, none), ("time", [], .double, some (.double, "t"))],
        [("time", 3, true), ("x", 4, false)], [some [("units", .string, ["K"])], some [("title", .string, ["old"])]], false⟩ := by
  decide +kernel

open Example in
/-- C120: a dimension and its variable are both renamed, and the dimension becomes unlimited: the data are not fetched, although they are without the new name. -/
theorem C120_prefetch_missed :
    (let r := construct env "file" (some (el "netcdf" [] [el "dimension" [("name", "t"), ("isUnlimited", "true")]])) dataset blank
     (r.bind fun s => .ok (s.cdm.vars.map fun v => (v.name, v.payload.data.isSome))) = .ok [("temp", false), ("t", true), ("x", false), ("time", false)]) ∧
    (let r := construct env "file" (some (el "netcdf" []
        [el "dimension" [("name", "tt"), ("orgName", "t"), ("isUnlimited", "true")], el "variable" [("name", "tt"), ("orgName", "t")]])) dataset blank
     (r.bind fun s => .ok (s.cdm.vars.map fun v => (v.name, v.payload.data.isSome))) = .ok [("temp", false), ("tt", false), ("x", false), ("time", false)]) := by
  decide +kernel

open Example in
/-- C120: a document that only changes a shape: the coordinate systems of the other reader are still taken to be those of the dataset. -/
theorem C120_stale_systems :
    view (construct env "file" (some (el "netcdf" [] [el "variable" [("name", "temp"), ("shape", "x")]])) dataset blank) =
      .ok ⟨[("temp", ["x"], .short, none), ("t", ["t"], .double, none), ("x", ["x"], .float, none), ("time", [], .double, none)],
        [("t", 3, false), ("x", 4, false)], [some [("units", .string, ["K"])], some [("title", .string, ["old"])]], true⟩ := by
  decide +kernel

open Example in
/-- C120: an attribute with a text in a variable that is not there raises, one without text does not. -/
theorem C120_attribute_absent :
    construct env "file" (some (el "netcdf" [] [el "variable" [("name", "nix")] [el "attribute" [("name", "a"), ("value", "b")]]])) dataset blank = .throws ∧
    (view (construct env "file" (some (el "netcdf" [] [el "variable" [("name", "nix")] [el "attribute" [("name", "a")]]])) dataset blank)) ≠ .throws := by
  constructor
  · rfl
  · decide +kernel

end Fimex.NcmlDoc
