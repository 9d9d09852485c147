import Verif.Cdm.Model

/-! # Editing histories and basic lemmas -/

namespace Fimex.Cdm

variable {P V CS : Type}

/-- One call of the editing or query interface. -/
inductive Op (P V : Type) where
  | addVar (v : Var P)
  | rmVar (n : String)
  | renVar (old new : String)
  | addDim (d : Dim)
  | rmDim (n : String) (ignoreInUse : Bool)
  | renDim (old new : String) (ignoreInUse : Bool)
  | addAttr (n : String) (a : Attr V)
  | setAttr (n : String) (a : Attr V)
  | rmAttr (n a : String)
  | query

/-- The state after one call, whether it returned or raised. -/
def step (listCS : Content P V → CS) (c : CDM P V CS) : Op P V → CDM P V CS
  | .addVar v => (addVariable c v).1
  | .rmVar n => removeVariable c n
  | .renVar o n => (renameVariable c o n).1
  | .addDim d => (addDimension c d).1
  | .rmDim n b => (removeDimension c n b).1
  | .renDim o n b => (renameDimension c o n b).1
  | .addAttr n a => (addAttribute c n a).1
  | .setAttr n a => (addOrReplaceAttribute c n a).1
  | .rmAttr n a => removeAttribute c n a
  | .query => (enhance listCS c).1

/-- The state after a history of calls. -/
def run (listCS : Content P V → CS) (c : CDM P V CS) (ops : List (Op P V)) : CDM P V CS :=
  ops.foldl (step listCS) c

/-- A new dataset description (src/CDM.cc:106-110, 124-127). -/
def emptyCDM (cs : CS) : CDM P V CS := ⟨fun _ => none, [], [], false, cs⟩

/-- What is shown to hold after every history: unique names and no attributes of absent variables. -/
structure Inv (c : CDM P V CS) : Prop where
  vars : (c.vars.map (·.name)).Nodup
  dims : (c.dims.map (·.name)).Nodup
  attrNames : ∀ n l, c.attrs n = some l → (l.map (·.name)).Nodup
  owners : ∀ n, c.attrs n ≠ none → n = globalNS ∨ hasVariable c n

theorem hasVariable_iff (c : CDM P V CS) (n : String) :
    hasVariable c n = true ↔ n ∈ c.vars.map (·.name) := by
  simp [hasVariable]

theorem hasDimension_iff (c : CDM P V CS) (n : String) :
    hasDimension c n = true ↔ n ∈ c.dims.map (·.name) := by
  simp [hasDimension]

theorem setFirstName_eq (old new : String) : ∀ (l : List (Var P)), (l.map (·.name)).Nodup →
    setFirstName old new l = l.map fun v => if v.name = old then { v with name := new } else v
  | [], _ => rfl
  | v :: l, h => by
    simp only [List.map_cons, List.nodup_cons] at h
    by_cases hv : v.name = old
    · simp only [setFirstName, hv, beq_self_eq_true, if_true, List.map_cons, List.cons.injEq, true_and]
      conv => lhs; rw [← List.map_id l]
      apply List.map_congr_left
      intro w hw
      rw [if_neg]; · rfl
      rintro rfl
      exact h.1 (hv ▸ List.mem_map_of_mem hw)
    · simp [setFirstName, hv, setFirstName_eq old new l h.2]

theorem setFirstDimName_eq (old new : String) : ∀ (l : List Dim), (l.map (·.name)).Nodup →
    setFirstDimName old new l = l.map fun v => if v.name = old then { v with name := new } else v
  | [], _ => rfl
  | v :: l, h => by
    simp only [List.map_cons, List.nodup_cons] at h
    by_cases hv : v.name = old
    · simp only [setFirstDimName, hv, beq_self_eq_true, if_true, List.map_cons, List.cons.injEq, true_and]
      conv => lhs; rw [← List.map_id l]
      apply List.map_congr_left
      intro w hw
      rw [if_neg]; · rfl
      rintro rfl
      exact h.1 (hv ▸ List.mem_map_of_mem hw)
    · simp [setFirstDimName, hv, setFirstDimName_eq old new l h.2]

/-- Replacing one name by a fresh one keeps names unique. -/
theorem nodup_replace {l : List String} {old new : String} (h : l.Nodup) (hn : new ∉ l) :
    (l.map fun s => if s = old then new else s).Nodup := by
  induction l with
  | nil => simp
  | cons a l ih =>
    simp only [List.nodup_cons, List.mem_cons, not_or] at h hn
    simp only [List.map_cons, List.nodup_cons]
    refine ⟨?_, ih h.2 hn.2⟩
    simp only [List.mem_map, not_exists, not_and]
    intro x hx
    by_cases ha : a = old <;> by_cases hxo : x = old <;> simp only [ha, hxo, if_true, if_false]
    · subst ha; subst hxo; exact absurd hx h.1
    · rintro rfl; exact hn.2 hx
    · exact fun e => hn.1 e
    · rintro rfl; exact h.1 hx

theorem map_name_replace (l : List (Var P)) (old new : String) :
    (l.map fun v => if v.name = old then { v with name := new } else v).map (·.name) =
      (l.map (·.name)).map fun s => if s = old then new else s := by
  simp only [List.map_map]
  apply List.map_congr_left
  intro v _
  simp only [Function.comp]; split <;> rfl

theorem map_dim_replace (l : List Dim) (old new : String) :
    (l.map fun v => if v.name = old then { v with name := new } else v).map (·.name) =
      (l.map (·.name)).map fun s => if s = old then new else s := by
  simp only [List.map_map]
  apply List.map_congr_left
  intro v _
  simp only [Function.comp]; split <;> rfl

theorem nodup_filter_map {α : Type} (f : α → String) (p : α → Bool) {l : List α}
    (h : (l.map f).Nodup) : ((l.filter p).map f).Nodup :=
  List.Nodup.sublist (List.Sublist.map f List.filter_sublist) h

theorem inUse_foldl (n : String) : ∀ (l : List (Var P)) (b : Bool),
    l.foldl (fun inUse v => if checkDimension v n then true else inUse) b =
      (b || l.any fun v => v.shape.contains n)
  | [], b => by simp
  | v :: l, b => by
    rw [List.foldl_cons, inUse_foldl n l]
    simp only [checkDimension, List.any_cons]
    by_cases h : v.shape.contains n = true
    · simp only [h, if_true]; cases b <;> simp
    · simp only [h]; cases b <;> simp

theorem testDimensionInUse_iff (c : CDM P V CS) (n : String) :
    testDimensionInUse c n = true ↔ hasDimension c n = true ∧ ∃ v ∈ c.vars, n ∈ v.shape := by
  unfold testDimensionInUse
  rw [inUse_foldl]
  cases h : hasDimension c n <;> simp

/-- Adding a list of attributes with new, different names to an existing variable appends them. -/
theorem addAttributes_ok (n : String) : ∀ (l : List (Attr V)) (c : CDM P V CS),
    (n = globalNS ∨ hasVariable c n = true) →
    ((getAttributes c n ++ l).map (·.name)).Nodup →
    ∃ c', addAttributes c n l = (c', .ok ()) ∧ c'.vars = c.vars ∧ c'.dims = c.dims ∧
      (c.coordsInitialized = false → c'.coordsInitialized = false) ∧
      getAttributes c' n = getAttributes c n ++ l ∧ (∀ m, m ≠ n → c'.attrs m = c.attrs m) ∧
      (l = [] → c'.attrs n = c.attrs n)
  | [], c, _, _ => ⟨c, rfl, rfl, rfl, id, by simp, fun _ _ => rfl, fun _ => rfl⟩
  | a :: l, c, hv, hn => by
    have h1 : addAttribute c n a = ({ c with coordsInitialized := false, attrs := fun m => if m = n then some (getAttributes c n ++ [a]) else c.attrs m }, .ok ()) := by
      have h2 : ¬(n ≠ globalNS ∧ (!hasVariable { c with coordsInitialized := false } n) = true) := by
        rintro ⟨h, h'⟩
        rcases hv with rfl | hv
        · exact h rfl
        · simp only [hasVariable] at h' hv; rw [hv] at h'; simp at h'
      simp only [addAttribute, if_neg h2]
      rw [if_neg]
      · congr 2
        funext m
        by_cases hm : m = n <;> simp [hm, getAttributes]
      · simp only [getAttributes, if_true, Option.getD_some, List.any_eq_true, not_exists, not_and, Bool.not_eq_true]
        intro b hb
        simp only [beq_eq_false_iff_ne]
        intro e
        rw [List.map_append, List.nodup_append] at hn
        exact hn.2.2 b.name (List.mem_map_of_mem hb) a.name (by simp) e
    obtain ⟨c', e, v1, v2, v3, v4, v5, _⟩ := addAttributes_ok n l { c with coordsInitialized := false, attrs := fun m => if m = n then some (getAttributes c n ++ [a]) else c.attrs m }
      (by rcases hv with h | h; · exact .inl h
          · exact .inr h)
      (by simpa [getAttributes] using hn)
    refine ⟨c', by simp only [addAttributes, h1, e], v1, v2, fun _ => v3 rfl, ?_, ?_, by simp⟩
    · rw [v4]; simp [getAttributes]
    · intro m hm; rw [v5 m hm]; simp [hm]

/-- `renameVariable` on a dataset with unique names, for two different names: explicit result. -/
theorem renameVariable_ok (c : CDM P V CS) (h : Inv c) (old new : String) (hne : old ≠ new)
    (ho : hasVariable c old = true) :
    ∃ c', renameVariable c old new = (c', .ok true) ∧
      c'.vars = (c.vars.filter fun v => !(v.name == new)).map
        (fun v => if v.name = old then { v with name := new } else v) ∧
      c'.dims = c.dims ∧ c'.coordsInitialized = false ∧
      getAttributes c' new = getAttributes c old ∧
      c'.attrs old = none ∧ (∀ m, m ≠ old → m ≠ new → c'.attrs m = c.attrs m) := by
  have hnd := nodup_filter_map (·.name) (fun v : Var P => !(v.name == new)) h.vars
  obtain ⟨v, hv, hvn⟩ : ∃ v ∈ c.vars, v.name = old := by
    simpa [hasVariable] using ho
  unfold renameVariable
  have hget : ∃ w, getVariable (removeVariable { c with coordsInitialized := false } new) old = .ok w := by
    unfold getVariable
    have : ((removeVariable { c with coordsInitialized := false } new).vars.find? fun v => v.name == old).isSome := by
      rw [List.find?_isSome]
      exact ⟨v, by simp [removeVariable, hv, hvn, hne], by simp [hvn]⟩
    obtain ⟨w, hw⟩ := Option.isSome_iff_exists.1 this
    exact ⟨w, by rw [hw]⟩
  obtain ⟨w, hw⟩ := hget
  simp only [hw]
  obtain ⟨c2, e, v1, v2, v3, v4, v5, _⟩ := addAttributes_ok new
    (getAttributes { removeVariable { c with coordsInitialized := false } new with
      vars := setFirstName old new (removeVariable { c with coordsInitialized := false } new).vars } old)
    { removeVariable { c with coordsInitialized := false } new with
      vars := setFirstName old new (removeVariable { c with coordsInitialized := false } new).vars }
    (by
      right
      simp only [hasVariable, removeVariable]
      rw [setFirstName_eq _ _ _ hnd]
      simp only [List.any_map, List.any_eq_true, Function.comp]
      exact ⟨v, by simp [hv, hvn, hne], by simp [hvn]⟩)
    (by
      simp only [getAttributes, removeVariable, if_true, if_neg hne, Option.getD_none, List.nil_append]
      cases ha : c.attrs old with
      | none => simp
      | some l => simpa using h.attrNames old l ha)
  rw [e]
  refine ⟨_, rfl, ?_, by simp [removeVariable, v2], rfl, ?_, by simp [removeVariable], ?_⟩
  · simp only [removeVariable, v1]
    rw [setFirstName_eq _ _ _ hnd, List.filter_eq_self]
    intro u hu
    simp only [List.mem_map] at hu
    obtain ⟨u', hu', rfl⟩ := hu
    simp only [List.mem_filter] at hu'
    by_cases hx : u'.name = old
    · simp [hx, Ne.symm hne]
    · simp [hx]
  · simp only [getAttributes, removeVariable, if_neg (Ne.symm hne)]
    have := v4
    simp only [getAttributes, removeVariable, if_true, if_neg hne, Option.getD_none, List.nil_append] at this
    exact this
  · intro m hm hm'
    simp only [removeVariable, if_neg hm]
    rw [v5 m hm']
    simp [removeVariable, hm']

/-- `renameVariable` when the old name is missing, or both names are equal. -/
theorem renameVariable_fail (c : CDM P V CS) (old new : String)
    (ho : hasVariable c old = false ∨ old = new) :
    renameVariable c old new = (removeVariable c new, .ok false) := by
  unfold renameVariable
  have : getVariable (removeVariable { c with coordsInitialized := false } new) old = .throws := by
    unfold getVariable
    have : ((removeVariable { c with coordsInitialized := false } new).vars.find? fun v => v.name == old) = none := by
      rw [List.find?_eq_none]
      intro v hv
      simp only [removeVariable, List.mem_filter] at hv
      rcases ho with ho | rfl
      · simp only [hasVariable, List.any_eq_false] at ho
        exact ho v hv.1
      · simpa using hv.2
    rw [this]
  simp only [this]
  rfl

end Fimex.Cdm
