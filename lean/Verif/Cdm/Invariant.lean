import Verif.Cdm.Lemmas

/-! # The name invariant is kept by every call -/

namespace Fimex.Cdm

variable {P V CS : Type}

theorem filter_ne_self (c : CDM P V CS) (n : String) (h : hasDimension c n = false) :
    c.dims.filter (fun d => !(d.name == n)) = c.dims := by
  rw [List.filter_eq_self]
  intro d hd
  simp only [hasDimension, List.any_eq_false] at h
  simpa using h d hd

/-- `renameDimension` of an existing dimension to a different name that is free, unused or to be
overwritten: explicit result. -/
theorem renameDimension_ok (c : CDM P V CS) (h : (c.dims.map (·.name)).Nodup) (old new : String)
    (ig : Bool) (hne : old ≠ new) (ho : hasDimension c old = true)
    (hf : ig = true ∨ testDimensionInUse c new = false) :
    renameDimension c old new ig =
      ({ c with
          coordsInitialized := false
          dims := (c.dims.filter fun d => !(d.name == new)).map
            fun d => if d.name = old then { d with name := new } else d
          vars := c.vars.map (renameInShape old new) }, .ok true) := by
  have hnd := nodup_filter_map (·.name) (fun v : Dim => !(v.name == new)) h
  obtain ⟨d, hd, hdn⟩ : ∃ v ∈ c.dims, v.name = old := by simpa [hasDimension] using ho
  have hget : ∀ c2 : CDM P V CS, c2.dims = c.dims.filter (fun d => !(d.name == new)) →
      ∃ w, getDimension c2 old = .ok w := by
    intro c2 e
    unfold getDimension
    have : (c2.dims.find? fun v => v.name == old).isSome := by
      rw [e, List.find?_isSome]
      exact ⟨d, by simp [hd, hdn, hne], by simp [hdn]⟩
    obtain ⟨w, hw⟩ := Option.isSome_iff_exists.1 this
    exact ⟨w, by rw [hw]⟩
  unfold renameDimension
  have ho' : hasDimension { c with coordsInitialized := false } old = true := ho
  have hf' : (!ig && testDimensionInUse { c with coordsInitialized := false } new) = false := by
    rcases hf with rfl | hf
    · rfl
    · have : testDimensionInUse { c with coordsInitialized := false } new = false := hf
      simp [this]
  simp only [ho', Bool.not_true, Bool.false_eq_true, if_false]
  cases hn : hasDimension c new with
  | true =>
    have hn' : hasDimension { c with coordsInitialized := false } new = true := hn
    simp only [hn', if_true, hf', Bool.false_eq_true, if_false, removeDimension]
    obtain ⟨w, hw⟩ := hget { c with coordsInitialized := false, dims := c.dims.filter (fun d => !(d.name == new)) } rfl
    simp only [hw]
    rw [setFirstDimName_eq _ _ _ hnd]
  | false =>
    have hn' : hasDimension { c with coordsInitialized := false } new = false := hn
    simp only [hn', Bool.false_eq_true, if_false]
    obtain ⟨w, hw⟩ := hget { c with coordsInitialized := false } (filter_ne_self c new hn).symm
    simp only [hw]
    rw [setFirstDimName_eq _ _ _ h, filter_ne_self c new hn]

/-- `renameDimension` in all other cases. -/
theorem renameDimension_other (c : CDM P V CS) (old new : String) (ig : Bool) :
    (hasDimension c old = false →
      renameDimension c old new ig = ({ c with coordsInitialized := false }, .ok false)) ∧
    (hasDimension c old = true → ig = false → testDimensionInUse c new = true →
      renameDimension c old new ig = ({ c with coordsInitialized := false }, .throws)) ∧
    (hasDimension c old = true → old = new → (ig = true ∨ testDimensionInUse c new = false) →
      renameDimension c old new ig =
        ({ c with coordsInitialized := false, dims := c.dims.filter fun d => !(d.name == new) }, .throws)) := by
  refine ⟨fun h => ?_, fun h hi hu => ?_, fun h he hu => ?_⟩
  · have h' : hasDimension { c with coordsInitialized := false } old = false := h
    simp [renameDimension, h']
  · have h' : hasDimension { c with coordsInitialized := false } old = true := h
    have hu' : testDimensionInUse { c with coordsInitialized := false } new = true := hu
    have hn : hasDimension { c with coordsInitialized := false } new = true :=
      ((testDimensionInUse_iff _ _).1 hu').1
    simp [renameDimension, h', hn, hi, hu']
  · subst he
    have h' : hasDimension { c with coordsInitialized := false } old = true := h
    have hf' : (!ig && testDimensionInUse { c with coordsInitialized := false } old) = false := by
      rcases hu with rfl | hf
      · rfl
      · have : testDimensionInUse { c with coordsInitialized := false } old = false := hf
        simp [this]
    simp only [renameDimension, h', Bool.not_true, Bool.false_eq_true, if_false, if_true, hf', removeDimension]
    have : getDimension { c with coordsInitialized := false, dims := c.dims.filter (fun d => !(d.name == old)) } old
        = .throws := by
      unfold getDimension
      have : ((c.dims.filter (fun d => !(d.name == old))).find? fun v => v.name == old) = none := by
        rw [List.find?_eq_none]
        intro v hv
        simpa using (List.mem_filter.1 hv).2
      simp only [this]
    simp only [this]

theorem names_renameInShape (l : List (Var P)) (o n : String) :
    (l.map (renameInShape o n)).map (·.name) = l.map (·.name) := by
  rw [List.map_map]
  apply List.map_congr_left
  intro v _
  simp only [Function.comp, renameInShape]; split <;> rfl

theorem inv_removeVariable (c : CDM P V CS) (h : Inv c) (n : String) : Inv (removeVariable c n) := by
  refine ⟨nodup_filter_map _ _ h.vars, h.dims, ?_, ?_⟩
  · intro m l hm
    simp only [removeVariable] at hm
    split at hm
    · cases hm
    · exact h.attrNames m l hm
  · intro m hm
    simp only [removeVariable] at hm
    split at hm
    · exact absurd rfl hm
    · rename_i hne
      rcases h.owners m hm with h' | h'
      · exact .inl h'
      · right
        rw [hasVariable_iff] at h' ⊢
        simp only [List.mem_map, removeVariable, List.mem_filter] at h' ⊢
        obtain ⟨v, hv, rfl⟩ := h'
        exact ⟨v, ⟨hv, by simpa using hne⟩, rfl⟩

/-- Changing only attributes of `n`, to a list with unique names, keeps the invariant when `n` may own
attributes. -/
theorem inv_setAttrs (c : CDM P V CS) (h : Inv c) (n : String) (l : Option (List (Attr V))) (b : Bool)
    (hn : l ≠ none → n = globalNS ∨ hasVariable c n = true)
    (hl : ∀ x, l = some x → (x.map (·.name)).Nodup) :
    Inv { c with coordsInitialized := b, attrs := fun m => if m = n then l else c.attrs m } where
  vars := h.vars
  dims := h.dims
  attrNames := by
    intro m x hm
    dsimp only at hm
    split at hm
    · exact hl x hm
    · exact h.attrNames m x hm
  owners := by
    intro m hm
    dsimp only at hm
    split at hm
    · rename_i e; subst e; exact hn hm
    · exact h.owners m hm

theorem nodup_getAttributes (c : CDM P V CS) (h : Inv c) (n : String) :
    ((getAttributes c n).map (·.name)).Nodup := by
  unfold getAttributes
  cases e : c.attrs n with
  | none => simp
  | some l => exact h.attrNames n l e

theorem addAttribute_cases (c : CDM P V CS) (n : String) (a : Attr V) :
    ((n ≠ globalNS ∧ hasVariable c n = false) ∧
      addAttribute c n a = ({ c with coordsInitialized := false }, .throws)) ∨
    ((n = globalNS ∨ hasVariable c n = true) ∧ a.name ∈ (getAttributes c n).map (·.name) ∧
      addAttribute c n a = ({ c with coordsInitialized := false, attrs := fun m => if m = n then some (getAttributes c n) else c.attrs m }, .throws)) ∨
    ((n = globalNS ∨ hasVariable c n = true) ∧ a.name ∉ (getAttributes c n).map (·.name) ∧
      addAttribute c n a = ({ c with coordsInitialized := false, attrs := fun m => if m = n then some (getAttributes c n ++ [a]) else c.attrs m }, .ok ())) := by
  unfold addAttribute
  have hh : hasVariable { c with coordsInitialized := false } n = hasVariable c n := rfl
  simp only [hh]
  by_cases h1 : n ≠ globalNS ∧ (!hasVariable c n) = true
  · left; exact ⟨by simpa using h1, by rw [if_pos h1]⟩
  · right
    have h1' : n = globalNS ∨ hasVariable c n = true := by
      by_cases hg : n = globalNS
      · exact .inl hg
      · right; simpa [hg] using h1
    rw [if_neg h1]
    have hga : getAttributes { c with coordsInitialized := false, attrs := fun m => if m = n then some (getAttributes { c with coordsInitialized := false } n) else c.attrs m } n = getAttributes c n := by
      simp [getAttributes]
    rw [hga]
    by_cases h2 : a.name ∈ (getAttributes c n).map (·.name)
    · left
      refine ⟨h1', h2, ?_⟩
      have : ((getAttributes c n).any fun b => b.name == a.name) = true := by
        simpa using h2
      rw [if_pos this]; rfl
    · right
      refine ⟨h1', h2, ?_⟩
      have : ¬((getAttributes c n).any fun b => b.name == a.name) = true := by
        simpa using h2
      rw [if_neg this]
      congr 2
      funext m; by_cases hm : m = n <;> simp [hm]

theorem addOrReplaceAttribute_cases (c : CDM P V CS) (n : String) (a : Attr V) :
    ((n ≠ globalNS ∧ hasVariable c n = false) ∧
      addOrReplaceAttribute c n a = ({ c with coordsInitialized := false }, .throws)) ∨
    ((n = globalNS ∨ hasVariable c n = true) ∧
      addOrReplaceAttribute c n a = ({ c with coordsInitialized := false, attrs := fun m => if m = n then some ((getAttributes c n).filter (fun b => !(b.name == a.name)) ++ [a]) else c.attrs m }, .ok ())) := by
  unfold addOrReplaceAttribute
  have hh : hasVariable { c with coordsInitialized := false } n = hasVariable c n := rfl
  simp only [hh]
  by_cases h1 : n ≠ globalNS ∧ (!hasVariable c n) = true
  · left; exact ⟨by simpa using h1, by rw [if_pos h1]⟩
  · right
    have h1' : n = globalNS ∨ hasVariable c n = true := by
      by_cases hg : n = globalNS
      · exact .inl hg
      · right; simpa [hg] using h1
    refine ⟨h1', ?_⟩
    rw [if_neg h1]
    congr 2
    funext m
    by_cases hm : m = n
    · simp only [hm, removeAttribute, getAttributes, if_true]
      cases c.attrs n <;> simp
    · simp [hm, removeAttribute]

theorem inv_step (listCS : Content P V → CS) (c : CDM P V CS) (h : Inv c) (op : Op P V) :
    Inv (step listCS c op) := by
  cases op with
  | addVar v =>
    have hh : hasVariable { c with coordsInitialized := false } v.name = hasVariable c v.name := rfl
    simp only [step, addVariable, hh]
    split
    · rename_i hv
      refine ⟨?_, h.dims, h.attrNames, ?_⟩
      · simp only [List.map_append, List.map_cons, List.map_nil, List.nodup_append]
        refine ⟨h.vars, by simp, ?_⟩
        intro a ha b hb
        simp only [List.mem_singleton] at hb
        subst hb
        rintro rfl
        rw [← hasVariable_iff] at ha
        simp [ha] at hv
      · intro n hn
        rcases h.owners n hn with h' | h'
        · exact .inl h'
        · right; simp only [hasVariable, List.any_append] at h' ⊢; rw [h']; rfl
    · exact ⟨h.vars, h.dims, h.attrNames, h.owners⟩
  | rmVar n => exact inv_removeVariable c h n
  | renVar o n =>
    by_cases hf : hasVariable c o = false ∨ o = n
    · simp only [step, renameVariable_fail c o n hf]; exact inv_removeVariable c h n
    · obtain ⟨hv, hne⟩ := not_or.1 hf
      obtain ⟨c', e, v1, v2, _, v4, v5, v6⟩ := renameVariable_ok c h o n hne (by simpa using hv)
      simp only [step, e]
      have hown : ∀ m, hasVariable c m = true → m ≠ o → m ≠ n → hasVariable c' m = true := by
        intro m hm hmo hmn
        rw [hasVariable_iff] at hm ⊢
        simp only [List.mem_map] at hm
        obtain ⟨v, hv, rfl⟩ := hm
        rw [v1]
        simp only [List.map_map, List.mem_map, List.mem_filter, Function.comp]
        exact ⟨v, ⟨hv, by simpa using hmn⟩, by simp [hmo]⟩
      have hnew : hasVariable c' n = true := by
        rw [hasVariable_iff, v1]
        have : hasVariable c o = true := by simpa using hv
        rw [hasVariable_iff] at this
        simp only [List.mem_map] at this
        obtain ⟨v, hv, hvo⟩ := this
        simp only [List.map_map, List.mem_map, List.mem_filter, Function.comp]
        exact ⟨v, ⟨hv, by simpa [hvo] using hne⟩, by simp [hvo]⟩
      refine ⟨?_, by rw [v2]; exact h.dims, ?_, ?_⟩
      · rw [v1, map_name_replace]
        apply nodup_replace (nodup_filter_map _ _ h.vars)
        simp
      · intro m l hm
        by_cases hmo : m = o
        · rw [hmo, v5] at hm; cases hm
        · by_cases hmn : m = n
          · subst hmn
            have : getAttributes c' m = l := by simp [getAttributes, hm]
            rw [← this, v4]
            exact nodup_getAttributes c h o
          · rw [v6 m hmo hmn] at hm; exact h.attrNames m l hm
      · intro m hm
        by_cases hmo : m = o
        · rw [hmo, v5] at hm; exact absurd rfl hm
        · by_cases hmn : m = n
          · subst hmn; exact .inr hnew
          · rw [v6 m hmo hmn] at hm
            rcases h.owners m hm with h' | h'
            · exact .inl h'
            · exact .inr (hown m h' hmo hmn)
  | addDim d =>
    have hh : hasDimension { c with coordsInitialized := false } d.name = hasDimension c d.name := rfl
    simp only [step, addDimension, hh]
    split
    · rename_i hv
      refine ⟨h.vars, ?_, h.attrNames, h.owners⟩
      simp only [List.map_append, List.map_cons, List.map_nil, List.nodup_append]
      refine ⟨h.dims, by simp, ?_⟩
      intro a ha b hb
      simp only [List.mem_singleton] at hb
      subst hb
      rintro rfl
      rw [← hasDimension_iff] at ha
      simp [ha] at hv
    · exact ⟨h.vars, h.dims, h.attrNames, h.owners⟩
  | rmDim n b =>
    simp only [step, removeDimension]
    split
    · exact h
    · split
      · exact ⟨h.vars, nodup_filter_map _ _ h.dims, h.attrNames, h.owners⟩
      · exact h
  | renDim o n b =>
    obtain ⟨k1, k2, k3⟩ := renameDimension_other c o n b
    simp only [step]
    cases ho : hasDimension c o with
    | false => rw [k1 ho]; exact ⟨h.vars, h.dims, h.attrNames, h.owners⟩
    | true =>
      by_cases hf : b = true ∨ testDimensionInUse c n = false
      · by_cases hne : o = n
        · rw [k3 ho hne hf]
          exact ⟨h.vars, nodup_filter_map _ _ h.dims, h.attrNames, h.owners⟩
        · rw [renameDimension_ok c h.dims o n b hne ho hf]
          refine ⟨?_, ?_, h.attrNames, ?_⟩
          · rw [names_renameInShape]; exact h.vars
          · rw [map_dim_replace]
            apply nodup_replace (nodup_filter_map _ _ h.dims)
            simp
          · intro m hm
            rcases h.owners m hm with h' | h'
            · exact .inl h'
            · right; rw [hasVariable_iff] at h' ⊢; rwa [names_renameInShape]
      · rw [k2 ho (by simpa using (not_or.1 hf).1) (by simpa using (not_or.1 hf).2)]
        exact ⟨h.vars, h.dims, h.attrNames, h.owners⟩
  | addAttr n a =>
    simp only [step]
    rcases addAttribute_cases c n a with ⟨_, e⟩ | ⟨hn, _, e⟩ | ⟨hn, hm, e⟩ <;> rw [e]
    · exact ⟨h.vars, h.dims, h.attrNames, h.owners⟩
    · exact inv_setAttrs c h n _ _ (fun _ => hn) (by
        rintro x ⟨⟩; exact nodup_getAttributes c h n)
    · exact inv_setAttrs c h n _ _ (fun _ => hn) (by
        rintro x ⟨⟩
        simp only [List.map_append, List.map_cons, List.map_nil, List.nodup_append]
        refine ⟨nodup_getAttributes c h n, by simp, ?_⟩
        intro y hy z hz
        simp only [List.mem_singleton] at hz
        subst hz; rintro rfl; exact hm hy)
  | setAttr n a =>
    simp only [step]
    rcases addOrReplaceAttribute_cases c n a with ⟨_, e⟩ | ⟨hn, e⟩ <;> rw [e]
    · exact ⟨h.vars, h.dims, h.attrNames, h.owners⟩
    · exact inv_setAttrs c h n _ _ (fun _ => hn) (by
        rintro x ⟨⟩
        simp only [List.map_append, List.map_cons, List.map_nil, List.nodup_append]
        refine ⟨nodup_filter_map _ _ (nodup_getAttributes c h n), by simp, ?_⟩
        intro y hy z hz
        simp only [List.mem_singleton] at hz
        subst hz; rintro rfl
        simp only [List.mem_map, List.mem_filter] at hy
        obtain ⟨w, hw, hwn⟩ := hy
        simp [hwn] at hw)
  | rmAttr n a =>
    refine inv_setAttrs c h n _ _ ?_ ?_
    · intro hne
      exact h.owners n fun e => hne (by simp [e])
    · intro x hx
      cases e : c.attrs n with
      | none => rw [e] at hx; cases hx
      | some l =>
        rw [e] at hx; cases hx
        exact nodup_filter_map _ _ (h.attrNames n l e)
  | query =>
    simp only [step, enhance]
    split
    · exact ⟨h.vars, h.dims, h.attrNames, h.owners⟩
    · exact h

theorem inv_run (listCS : Content P V → CS) (ops : List (Op P V)) :
    ∀ c : CDM P V CS, Inv c → Inv (run listCS c ops) := by
  induction ops with
  | nil => exact fun _ h => h
  | cons op ops ih => exact fun c h => ih _ (inv_step listCS c h op)

theorem inv_empty (cs : CS) : Inv (emptyCDM cs : CDM P V CS) :=
  ⟨by simp [emptyCDM], by simp [emptyCDM], by simp [emptyCDM], by simp [emptyCDM]⟩

end Fimex.Cdm
