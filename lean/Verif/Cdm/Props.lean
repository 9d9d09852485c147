import Verif.Cdm.Invariant

/-!
# Properties C11 - C15, C63, C64: editing a dataset description
-/

namespace Fimex.Cdm

variable {P V CS : Type}

/-- **C11.** After any history of calls on a new dataset, variable names are pairwise different and so
are dimension names (and, per variable, attribute names); no attributes of absent variables are left. -/
theorem C11_names_unique_after_any_history (listCS : Content P V → CS) (cs : CS) (ops : List (Op P V)) :
    let c := run listCS (emptyCDM cs) ops
    (c.vars.map (·.name)).Nodup ∧ (c.dims.map (·.name)).Nodup ∧
    (∀ n l, c.attrs n = some l → (l.map (·.name)).Nodup) ∧
    (∀ n l, c.attrs n = some l → n = "_GLOBAL" ∨ ∃ v ∈ c.vars, v.name = n) := by
  have h := inv_run listCS ops _ (inv_empty (P := P) (V := V) cs)
  refine ⟨h.vars, h.dims, h.attrNames, fun n l e => ?_⟩
  rcases h.owners n (by rw [e]; simp) with h' | h'
  · exact .inl h'
  · right; simpa [hasVariable] using h'

/-- **C11.** Adding an existing name raises and changes no content; adding a new name appends it. -/
theorem C11_adding_existing_name_raises (c : CDM P V CS) (v : Var P) (d : Dim) :
    ((∃ w ∈ c.vars, w.name = v.name) →
      (addVariable c v).2 = .throws ∧ (addVariable c v).1.content = c.content) ∧
    ((∀ w ∈ c.vars, w.name ≠ v.name) →
      (addVariable c v).2 = .ok () ∧ (addVariable c v).1.content = ⟨c.attrs, c.vars ++ [v], c.dims⟩) ∧
    ((∃ w ∈ c.dims, w.name = d.name) →
      (addDimension c d).2 = .throws ∧ (addDimension c d).1.content = c.content) ∧
    ((∀ w ∈ c.dims, w.name ≠ d.name) →
      (addDimension c d).2 = .ok () ∧ (addDimension c d).1.content = ⟨c.attrs, c.vars, c.dims ++ [d]⟩) := by
  refine ⟨?_, ?_, ?_, ?_⟩
  · intro h
    have : hasVariable { c with coordsInitialized := false } v.name = true := by
      simpa [hasVariable] using h
    simp [addVariable, this, CDM.content]
  · intro h
    have : hasVariable { c with coordsInitialized := false } v.name = false := by
      simpa [hasVariable] using h
    simp [addVariable, this, CDM.content]
  · intro h
    have : hasDimension { c with coordsInitialized := false } d.name = true := by
      simpa [hasDimension] using h
    simp [addDimension, this, CDM.content]
  · intro h
    have : hasDimension { c with coordsInitialized := false } d.name = false := by
      simpa [hasDimension] using h
    simp [addDimension, this, CDM.content]

/-- A small dataset used in the examples below. -/
def sample : CDM Nat String Unit :=
  run (fun _ => ()) (emptyCDM ())
    [.addDim ⟨"x", 3, false⟩, .addDim ⟨"t", 2, true⟩, .addVar ⟨"a", ["x", "t"], 0⟩, .addVar ⟨"b", ["x"], 1⟩,
     .addAttr "a" ⟨"units", "m"⟩, .addAttr "b" ⟨"units", "s"⟩, .addAttr "_GLOBAL" ⟨"title", "t"⟩,
     .addVar ⟨"a", [], 7⟩]

/-- Non-vacuity: a history with a refused addition. -/
example : sample.vars = [⟨"a", ["x", "t"], 0⟩, ⟨"b", ["x"], 1⟩] ∧
    sample.dims = [⟨"x", 3, false⟩, ⟨"t", 2, true⟩] ∧ sample.attrs "a" = some [⟨"units", "m"⟩] := by
  decide

/-- **C12**, for two different names and an existing variable: renaming reports success, the renamed
variable keeps its place among the remaining ones, its payload, shape and attributes; a former variable
of the new name is gone; all other variables, all other attributes and the dimensions are as before.
The full property does not hold, see `C12_rename_missing_destroys` and `C12_rename_to_itself_destroys`. -/
theorem C12_rename_keeps_everything_else_partial (c : CDM P V CS) (h : Inv c) (old new : String)
    (hne : old ≠ new) (ho : ∃ v ∈ c.vars, v.name = old) :
    ∃ c', renameVariable c old new = (c', .ok true) ∧
      c'.vars = (c.vars.filter fun v => v.name ≠ new).map
        (fun v => if v.name = old then ⟨new, v.shape, v.payload⟩ else v) ∧
      c'.dims = c.dims ∧
      (∀ a, getAttribute c' new a = getAttribute c old a) ∧
      (∀ a, getAttribute c' old a = .throws) ∧
      (∀ m, m ≠ old → m ≠ new → ∀ a, getAttribute c' m a = getAttribute c m a) := by
  have key : ∀ (c1 c2 : CDM P V CS) (n m a : String), getAttributes c1 n = getAttributes c2 m →
      getAttribute c1 n a = getAttribute c2 m a := by
    intro c1 c2 n m a e
    unfold getAttribute
    unfold getAttributes at e
    cases e1 : c1.attrs n <;> cases e2 : c2.attrs m <;> simp_all
  obtain ⟨c', e, v1, v2, _, v4, v5, v6⟩ := renameVariable_ok c h old new hne
    (by simpa [hasVariable] using ho)
  refine ⟨c', e, ?_, v2, fun a => key _ _ _ _ _ v4, fun a => by simp [getAttribute, v5], ?_⟩
  · rw [v1]
    congr 1
    apply List.filter_congr
    intro v _
    by_cases hv : v.name = new <;> simp [hv]
  · intro m h1 h2 a
    exact key _ _ _ _ _ (by simp [getAttributes, v6 m h1 h2])

/-- Non-vacuity: the sample dataset meets the hypotheses; the old variable `b` is replaced. -/
example : Inv sample ∧ (∃ v ∈ sample.vars, v.name = "a") ∧
    (renameVariable sample "a" "b").1.vars = [⟨"b", ["x", "t"], 0⟩] ∧
    (renameVariable sample "a" "b").1.attrs "b" = some [⟨"units", "m"⟩] :=
  ⟨inv_run _ _ _ (inv_empty ()), by decide, by decide, by decide⟩

/-- **C12**, remaining cases: renaming a missing variable, or a variable to its own name, reports
failure; it removes the variable of the new name with its attributes and changes nothing else. So nothing
changes exactly when no such variable or attributes exist. -/
theorem C12_rename_failure (c : CDM P V CS) (old new : String)
    (ho : (∀ v ∈ c.vars, v.name ≠ old) ∨ old = new) :
    (renameVariable c old new).2 = .ok false ∧
    (renameVariable c old new).1.vars = c.vars.filter (fun v => v.name ≠ new) ∧
    (renameVariable c old new).1.dims = c.dims ∧
    (∀ m, (renameVariable c old new).1.attrs m = if m = new then none else c.attrs m) := by
  rw [renameVariable_fail c old new (by
    rcases ho with ho | ho
    · left; simpa [hasVariable] using ho
    · exact .inr ho)]
  refine ⟨rfl, ?_, rfl, fun m => rfl⟩
  simp only [removeVariable]
  apply List.filter_congr
  intro v _
  by_cases hv : v.name = new <;> simp [hv]

/-- The code violates C12: a failed rename of a missing variable deletes the variable that has the
new name. -/
theorem C12_rename_missing_destroys :
    (renameVariable sample "nosuch" "b").2 = .ok false ∧
    (renameVariable sample "nosuch" "b").1.vars = [⟨"a", ["x", "t"], 0⟩] ∧
    (renameVariable sample "nosuch" "b").1.attrs "b" = none := by decide

/-- The code violates C12: renaming a variable to its own name deletes it. -/
theorem C12_rename_to_itself_destroys :
    (renameVariable sample "b" "b").2 = .ok false ∧
    (renameVariable sample "b" "b").1.vars = [⟨"a", ["x", "t"], 0⟩] := by decide

/-- Every variable's shape names existing dimensions only. -/
def ShapesExist (c : CDM P V CS) : Prop := ∀ v ∈ c.vars, ∀ s ∈ v.shape, ∃ d ∈ c.dims, d.name = s

/-- The length a dimension name stands for. -/
def lengthOf (c : CDM P V CS) (s : String) : Option Nat := (c.dims.find? fun d => d.name = s).map (·.length)

/-- The dimension name is used by a variable. -/
def Used (c : CDM P V CS) (s : String) : Prop := ∃ v ∈ c.vars, s ∈ v.shape

theorem inUse_false (c : CDM P V CS) (n : String) (h : ¬Used c n) : testDimensionInUse c n = false := by
  cases e : testDimensionInUse c n with
  | false => rfl
  | true => exact absurd ((testDimensionInUse_iff c n).1 e).2 h

theorem find_rename (old new : String) (hne : old ≠ new) : ∀ (l : List Dim) (s : String), s ≠ new →
    (((l.filter fun d => !(d.name == new)).map fun d => if d.name = old then { d with name := new } else d).find?
      fun d => d.name = if s = old then new else s).map (·.length) =
    (l.find? fun d => d.name = s).map (·.length)
  | [], _, _ => rfl
  | d :: l, s, hs => by
    have ih := find_rename old new hne l s hs
    by_cases h1 : d.name = new
    · have : (d.name == new) = true := by simp [h1]
      rw [List.filter_cons]
      simp only [this, Bool.not_true, Bool.false_eq_true, if_false, ih]
      rw [List.find?_cons_of_neg]
      simp [h1, Ne.symm hs]
    · have : (d.name == new) = false := by simp [h1]
      rw [List.filter_cons]
      simp only [this, Bool.not_false, if_true, List.map_cons]
      by_cases h2 : d.name = s
      · conv => rhs; rw [List.find?_cons_of_pos (by simp [h2])]
        rw [List.find?_cons_of_pos (by
          by_cases hso : s = old
          · simp only [hso, h2.trans hso, if_true, decide_true]
          · simp only [hso, h2, if_false, decide_true])]
        by_cases hso : s = old <;> simp [h2, hso]
      · conv => rhs; rw [List.find?_cons_of_neg (by simp [h2])]
        rw [List.find?_cons_of_neg, ih]
        by_cases h3 : d.name = old
        · by_cases hso : s = old
          · exact absurd (h3.trans hso.symm) h2
          · simp [h3, hso, Ne.symm hs]
        · by_cases hso : s = old
          · simp [h3, hso, h1]
          · simp [h3, hso, h2]

/-- **C13.** Renaming an existing dimension to a different name that no variable uses succeeds; each
variable keeps name, payload and rank, its shape has the new name exactly where the old one was; every
shape entry stands for the same length as before; no variable refers to the old name; shapes still name
existing dimensions; attributes are unchanged. -/
theorem C13_rename_dimension_consistent (c : CDM P V CS) (h : Inv c) (hw : ShapesExist c)
    (old new : String) (ig : Bool) (hne : old ≠ new) (ho : ∃ d ∈ c.dims, d.name = old)
    (hu : ¬Used c new) :
    ∃ c', renameDimension c old new ig = (c', .ok true) ∧
      c'.vars = c.vars.map (fun v => ⟨v.name, v.shape.map (fun s => if s = old then new else s), v.payload⟩) ∧
      c'.attrs = c.attrs ∧
      (∀ v ∈ c.vars, ∀ s ∈ v.shape, lengthOf c' (if s = old then new else s) = lengthOf c s) ∧
      ¬Used c' old ∧ ShapesExist c' := by
  have hvars : c.vars.map (renameInShape old new) =
      c.vars.map (fun v => ⟨v.name, v.shape.map (fun s => if s = old then new else s), v.payload⟩) := by
    apply List.map_congr_left
    intro v _
    unfold renameInShape
    by_cases hv : checkDimension v old = true
    · rw [if_pos hv]
    · rw [if_neg hv]
      have : v.shape.map (fun s => if s = old then new else s) = v.shape := by
        conv => rhs; rw [← List.map_id v.shape]
        apply List.map_congr_left
        intro s hs
        rw [if_neg]; · rfl
        rintro rfl; exact hv (by simpa [checkDimension] using hs)
      rw [this]
  refine ⟨_, renameDimension_ok c h.dims old new ig hne (by simpa [hasDimension] using ho)
    (.inr (inUse_false c new hu)), hvars, rfl, ?_, ?_, ?_⟩
  · intro v hv s hs
    exact find_rename old new hne c.dims s (by rintro rfl; exact hu ⟨v, hv, hs⟩)
  · rintro ⟨v, hv, hs⟩
    simp only [hvars, List.mem_map] at hv
    obtain ⟨v', _, rfl⟩ := hv
    simp only [List.mem_map] at hs
    obtain ⟨s, _, hs⟩ := hs
    by_cases e : s = old
    · rw [if_pos e] at hs; exact hne hs.symm
    · rw [if_neg e] at hs; exact e hs
  · intro v hv s hs
    simp only [hvars, List.mem_map] at hv
    obtain ⟨v', hv', rfl⟩ := hv
    simp only [List.mem_map] at hs
    obtain ⟨s', hs', rfl⟩ := hs
    obtain ⟨d, hd, hds⟩ := hw v' hv' s' hs'
    simp only [List.mem_map, List.mem_filter]
    refine ⟨_, ⟨d, ⟨hd, ?_⟩, rfl⟩, ?_⟩
    · simp only [Bool.not_eq_true', beq_eq_false_iff_ne]
      rw [hds]; rintro rfl; exact hu ⟨v', hv', hs'⟩
    · by_cases e : s' = old
      · simp [hds, e]
      · simp [hds, e]

/-- Non-vacuity. -/
example : (renameDimension sample "x" "y" false).2 = .ok true ∧
    (renameDimension sample "x" "y" false).1.vars = [⟨"a", ["y", "t"], 0⟩, ⟨"b", ["y"], 1⟩] ∧
    (renameDimension sample "x" "y" false).1.dims = [⟨"y", 3, false⟩, ⟨"t", 2, true⟩] := by decide
example : ShapesExist sample := by unfold ShapesExist; decide

/-- **C13**, refusals: a missing dimension is reported, a new name in use by a variable raises, and
neither changes the content. -/
theorem C13_refused_rename_changes_nothing (c : CDM P V CS) (old new : String) (ig : Bool) :
    ((∀ d ∈ c.dims, d.name ≠ old) →
      (renameDimension c old new ig).2 = .ok false ∧ (renameDimension c old new ig).1.content = c.content) ∧
    ((∃ d ∈ c.dims, d.name = old) → (∃ d ∈ c.dims, d.name = new) → Used c new →
      (renameDimension c old new false).2 = .throws ∧
      (renameDimension c old new false).1.content = c.content) := by
  refine ⟨fun h => ?_, fun h1 h2 h3 => ?_⟩
  · rw [(renameDimension_other c old new ig).1 (by simpa [hasDimension] using h)]
    exact ⟨rfl, rfl⟩
  · rw [(renameDimension_other c old new false).2.1 (by simpa [hasDimension] using h1) rfl
      ((testDimensionInUse_iff c new).2 ⟨by simpa [hasDimension] using h2, h3⟩)]
    exact ⟨rfl, rfl⟩

/-- The code violates C13 for equal names: renaming an unused dimension to its own name raises after
deleting it. -/
theorem C13_rename_to_itself_destroys :
    let c : CDM Nat String Unit := run (fun _ => ()) (emptyCDM ()) [.addDim ⟨"x", 3, false⟩]
    (renameDimension c "x" "x" false).2 = .throws ∧ (renameDimension c "x" "x" false).1.dims = [] := by
  decide

/-- Overwriting a name that is in use (`ignoreInUse`) gives the variables using it another length. -/
theorem C13_overwrite_changes_length :
    (renameDimension sample "t" "x" true).2 = .ok true ∧
    (renameDimension sample "t" "x" true).1.vars = [⟨"a", ["x", "x"], 0⟩, ⟨"b", ["x"], 1⟩] ∧
    (renameDimension sample "t" "x" true).1.dims = [⟨"x", 2, true⟩] := by decide

/-- **C14.** Removing a dimension: if a variable uses it the call raises and nothing changes; otherwise
exactly that dimension goes, the result says whether it existed, and shapes still name existing
dimensions. -/
theorem C14_remove_dimension (c : CDM P V CS) (hw : ShapesExist c) (n : String) :
    (Used c n → removeDimension c n false = (c, .throws)) ∧
    (¬Used c n → ∃ c', removeDimension c n false = (c', .ok (c.dims.any fun d => d.name = n)) ∧
      c'.content = ⟨c.attrs, c.vars, c.dims.filter fun d => d.name ≠ n⟩ ∧ ShapesExist c') := by
  constructor
  · rintro ⟨v, hv, hs⟩
    have : hasDimension c n = true := by simpa [hasDimension] using hw v hv n hs
    have : testDimensionInUse c n = true := (testDimensionInUse_iff c n).2 ⟨this, v, hv, hs⟩
    simp [removeDimension, this]
  · intro hu
    have ha : (c.dims.any fun d => d.name = n) = hasDimension c n := by
      unfold hasDimension
      rfl
    have hfil : (c.dims.filter fun d => !(d.name == n)) = c.dims.filter fun d => d.name ≠ n := by
      apply List.filter_congr
      intro d _
      by_cases e : d.name = n <;> simp [e]
    rw [ha]
    unfold removeDimension
    simp only [inUse_false c n hu, Bool.and_false, Bool.false_eq_true, if_false]
    cases hd : hasDimension c n with
    | true =>
      refine ⟨_, rfl, by simp only [if_true, CDM.content, hfil], ?_⟩
      intro v hv s hs
      obtain ⟨d, hd, hds⟩ := hw v hv s hs
      refine ⟨d, ?_, hds⟩
      simp only [List.mem_filter, Bool.not_eq_true', beq_eq_false_iff_ne]
      refine ⟨hd, ?_⟩
      rw [hds]; rintro rfl; exact hu ⟨v, hv, hs⟩
    | false =>
      refine ⟨_, rfl, ?_, hw⟩
      rw [← hfil, filter_ne_self c n hd]; rfl

/-- Non-vacuity. -/
example : ShapesExist sample ∧ Used sample "x" ∧ removeDimension sample "x" false = (sample, .throws) :=
  have h : ShapesExist sample := by unfold ShapesExist; decide
  have u : Used sample "x" := by unfold Used; decide
  ⟨h, u, (C14_remove_dimension sample h "x").1 u⟩

/-- **C14**, over histories: if every added variable names dimensions that exist at that moment, and
nobody asks to ignore uses (nor removes by renaming a dimension to itself), shapes always name existing
dimensions. -/
theorem C14_shapes_exist_after_any_history (listCS : Content P V → CS) (ops : List (Op P V)) :
    ∀ (c : CDM P V CS), Inv c → ShapesExist c →
      (∀ (pre : List (Op P V)) (op : Op P V) (post : List (Op P V)), ops = pre ++ op :: post →
        match op with
        | .addVar v => ∀ s ∈ v.shape, ∃ d ∈ (run listCS c pre).dims, d.name = s
        | .rmDim _ ig => ig = false
        | .renDim o n ig => ig = false ∧ ((∃ d ∈ (run listCS c pre).dims, d.name = n) ∨ ¬Used (run listCS c pre) n)
        | _ => True) →
      ShapesExist (run listCS c ops) := by
  induction ops with
  | nil => exact fun c _ h _ => h
  | cons op ops ih =>
    intro c hi hw hops
    have h0 := hops [] op ops rfl
    refine ih (step listCS c op) (inv_step listCS c hi op) ?_ ?_
    · cases op with
      | addVar v =>
        simp only [step, addVariable]
        split
        · intro w hw' s hs
          simp only [List.mem_append, List.mem_singleton] at hw'
          rcases hw' with h | rfl
          · exact hw w h s hs
          · exact h0 s hs
        · exact hw
      | rmVar n =>
        intro v hv s hs
        simp only [step, removeVariable, List.mem_filter] at hv
        exact hw v hv.1 s hs
      | renVar o n =>
        by_cases hf : hasVariable c o = false ∨ o = n
        · simp only [step, renameVariable_fail c o n hf]
          intro v hv s hs
          simp only [removeVariable, List.mem_filter] at hv
          exact hw v hv.1 s hs
        · obtain ⟨hv, hne⟩ := not_or.1 hf
          obtain ⟨c', e, v1, v2, _⟩ := renameVariable_ok c hi o n hne (by simpa using hv)
          simp only [step, e]
          intro v hv s hs
          rw [v1] at hv
          simp only [List.mem_map, List.mem_filter] at hv
          obtain ⟨v', ⟨hv', _⟩, rfl⟩ := hv
          rw [v2]
          refine hw v' hv' s ?_
          by_cases e : v'.name = o <;> simpa [e] using hs
      | addDim d =>
        simp only [step, addDimension]
        split
        · intro v hv s hs
          obtain ⟨d', hd', e⟩ := hw v hv s hs
          exact ⟨d', by simp [hd'], e⟩
        · exact hw
      | rmDim n ig =>
        simp only at h0
        subst h0
        by_cases hu : Used c n
        · simp only [step, (C14_remove_dimension c hw n).1 hu]; exact hw
        · obtain ⟨c', e, _, h⟩ := (C14_remove_dimension c hw n).2 hu
          simp only [step, e]; exact h
      | renDim o n ig =>
        obtain ⟨rfl, hn⟩ := h0
        obtain ⟨k1, k2, k3⟩ := renameDimension_other c o n false
        simp only [step]
        cases ho : hasDimension c o with
        | false => rw [k1 ho]; exact hw
        | true =>
          cases hu : testDimensionInUse c n with
          | true => rw [k2 ho rfl hu]; exact hw
          | false =>
            have hnu : ¬Used c n := by
              intro hU
              rcases hn with hn | hn
              · rw [(testDimensionInUse_iff c n).2 ⟨by simpa [hasDimension, run] using hn, hU⟩] at hu
                cases hu
              · exact hn hU
            by_cases hne : o = n
            · rw [k3 ho hne (.inr hu)]
              intro v hv s hs
              obtain ⟨d, hd, hds⟩ := hw v hv s hs
              refine ⟨d, ?_, hds⟩
              simp only [List.mem_filter, Bool.not_eq_true', beq_eq_false_iff_ne]
              refine ⟨hd, ?_⟩
              rw [hds]; rintro rfl; exact hnu ⟨v, hv, hs⟩
            · obtain ⟨c', e, _, _, _, _, h⟩ := C13_rename_dimension_consistent c hi hw o n false hne
                (by simpa [hasDimension] using ho) hnu
              rw [e]; exact h
      | addAttr n a =>
        simp only [step]
        rcases addAttribute_cases c n a with ⟨_, e⟩ | ⟨_, _, e⟩ | ⟨_, _, e⟩ <;> (rw [e]; exact hw)
      | setAttr n a =>
        simp only [step]
        rcases addOrReplaceAttribute_cases c n a with ⟨_, e⟩ | ⟨_, e⟩ <;> (rw [e]; exact hw)
      | rmAttr n a => exact hw
      | query =>
        simp only [step, enhance]
        split <;> exact hw
    · intro pre op' post e
      have := hops (op :: pre) op' post (by rw [e]; rfl)
      exact this

/-- **C14.** The dimensions of a dataset: the unlimited dimension asked for is an unlimited dimension of the dataset, and
there is none only if every dimension is limited; when there is at most one, a variable has the unlimited dimension
exactly if its shape names an unlimited dimension. -/
theorem C14_unlimited_dimension (c : CDM P V CS) :
    (∀ d, getUnlimitedDim c = some d → d ∈ c.dims ∧ d.unlimited = true) ∧
    (getUnlimitedDim c = none ↔ ∀ d ∈ c.dims, d.unlimited = false) ∧
    ((∀ d ∈ c.dims, ∀ e ∈ c.dims, d.unlimited = true → e.unlimited = true → d = e) →
      ∀ v : Var P, hasUnlimitedDim c v = true ↔ ∃ d ∈ c.dims, d.unlimited = true ∧ d.name ∈ v.shape) := by
  have h1 : ∀ d, getUnlimitedDim c = some d → d ∈ c.dims ∧ d.unlimited = true := fun d h =>
    ⟨List.mem_of_find?_eq_some h, List.find?_some h⟩
  have h2 : getUnlimitedDim c = none ↔ ∀ d ∈ c.dims, d.unlimited = false := by
    unfold getUnlimitedDim
    rw [List.find?_eq_none]
    simp
  refine ⟨h1, h2, fun hu v => ?_⟩
  unfold hasUnlimitedDim
  cases h : getUnlimitedDim c with
  | none =>
    rw [h2] at h
    simp only [Bool.false_eq_true, false_iff, not_exists, not_and]
    intro d hd hud
    rw [h d hd] at hud; cases hud
  | some d =>
    obtain ⟨hd, hud⟩ := h1 d h
    simp only [List.contains_iff_mem]
    exact ⟨fun hm => ⟨d, hd, hud, hm⟩, fun ⟨e, he, hue, hm⟩ => by rw [hu d hd e he hud hue]; exact hm⟩

/-- With two unlimited dimensions only the first one counts. -/
theorem C14_second_unlimited_ignored :
    hasUnlimitedDim (⟨fun _ => none, [], [⟨"t", 1, true⟩, ⟨"r", 1, true⟩], false, 0⟩ : CDM Nat String Nat) ⟨"a", ["r"], 0⟩ = false := by
  decide

/-! ## C15: attributes as a map -/

/-- Specification: the attribute store as a partial map from (variable, attribute name). -/
def look (c : CDM P V CS) (n a : String) : Option V :=
  match getAttribute c n a with
  | .ok b => some b.value
  | _ => none

theorem look_eq (c : CDM P V CS) (n a : String) :
    look c n a = ((getAttributes c n).find? fun b => b.name == a).map (·.value) := by
  unfold look getAttribute getAttributes
  cases c.attrs n with
  | none => rfl
  | some l =>
    simp only [Option.getD_some]
    cases l.find? fun b => b.name == a <;> rfl

theorem look_mem (c : CDM P V CS) (n a : String) :
    (∃ v, look c n a = some v) ↔ a ∈ (getAttributes c n).map (·.name) := by
  rw [look_eq]
  cases h : (getAttributes c n).find? fun b => b.name == a with
  | none =>
    rw [List.find?_eq_none] at h
    simp only [Option.map_none, reduceCtorEq, exists_false, List.mem_map, false_iff, not_exists, not_and]
    intro b hb e
    exact h b hb (by simpa using e)
  | some b =>
    have h1 := List.mem_of_find?_eq_some h
    have h2 := List.find?_some h
    simp only [Option.map_some, Option.some.injEq, exists_eq', List.mem_map, true_iff]
    exact ⟨b, h1, by simpa using h2⟩

/-- Who may own attributes: variables of the dataset and the dataset itself. -/
def MayOwn (c : CDM P V CS) (n : String) : Prop := n = "_GLOBAL" ∨ ∃ v ∈ c.vars, v.name = n

theorem mayOwn_iff (c : CDM P V CS) (n : String) : MayOwn c n ↔ (n = globalNS ∨ hasVariable c n = true) := by
  simp [MayOwn, hasVariable, globalNS]

/-- **C15**, set: setting an attribute of an owner succeeds, afterwards that attribute has the value and
every other attribute of every variable is unchanged; for others the call raises and changes nothing. -/
theorem C15_set_attribute (c : CDM P V CS) (n : String) (a : Attr V) :
    (MayOwn c n → (addOrReplaceAttribute c n a).2 = .ok () ∧
      ∀ m b, look (addOrReplaceAttribute c n a).1 m b =
        if m = n ∧ b = a.name then some a.value else look c m b) ∧
    (¬MayOwn c n → (addOrReplaceAttribute c n a).2 = .throws ∧
      (addOrReplaceAttribute c n a).1.content = c.content) := by
  rw [mayOwn_iff]
  rcases addOrReplaceAttribute_cases c n a with ⟨⟨h1, h2⟩, e⟩ | ⟨h, e⟩
  · refine ⟨fun h => ?_, fun _ => by rw [e]; exact ⟨rfl, rfl⟩⟩
    rcases h with h | h
    · exact absurd h h1
    · rw [h2] at h; cases h
  · refine ⟨fun _ => ?_, fun h' => absurd h h'⟩
    rw [e]
    refine ⟨rfl, fun m b => ?_⟩
    rw [look_eq, look_eq]
    by_cases hm : m = n
    · subst hm
      simp only [getAttributes, if_true, Option.getD_some, List.find?_append, List.find?_filter, true_and]
      by_cases hb : b = a.name
      · subst hb
        have : ((c.attrs m).getD []).find? (fun b => decide ((!(b.name == a.name)) = true ∧ (b.name == a.name) = true)) = none := by
          rw [List.find?_eq_none]; intro x _; simp
        rw [this]; simp
      · have : ((c.attrs m).getD []).find? (fun x => decide ((!(x.name == a.name)) = true ∧ (x.name == b) = true)) =
            ((c.attrs m).getD []).find? (fun x => x.name == b) := by
          congr 1; funext x
          by_cases hx : x.name = b
          · simp [hx, hb]
          · simp [hx]
        rw [this]
        simp only [hb, if_false]
        cases ((c.attrs m).getD []).find? (fun x => x.name == b) with
        | some x => rfl
        | none => simp [Ne.symm hb]
    · simp [getAttributes, hm]

/-- **C15**, add: adding an absent attribute to an owner sets it and nothing else; adding a present one, or
to something that may not own attributes, raises and changes no attribute. -/
theorem C15_add_attribute (c : CDM P V CS) (n : String) (a : Attr V) :
    (MayOwn c n → look c n a.name = none → (addAttribute c n a).2 = .ok () ∧
      ∀ m b, look (addAttribute c n a).1 m b =
        if m = n ∧ b = a.name then some a.value else look c m b) ∧
    (¬MayOwn c n ∨ look c n a.name ≠ none → (addAttribute c n a).2 = .throws ∧
      ∀ m b, look (addAttribute c n a).1 m b = look c m b) := by
  rw [mayOwn_iff]
  have hlk : look c n a.name = none ↔ a.name ∉ (getAttributes c n).map (·.name) := by
    rw [← look_mem]
    cases look c n a.name <;> simp
  rw [Ne, hlk]
  rcases addAttribute_cases c n a with ⟨⟨h1, h2⟩, e⟩ | ⟨h, hm, e⟩ | ⟨h, hm, e⟩
  · refine ⟨fun h => ?_, fun _ => by rw [e]; exact ⟨rfl, fun _ _ => rfl⟩⟩
    rcases h with h | h
    · exact absurd h h1
    · rw [h2] at h; cases h
  · refine ⟨fun _ h' => absurd hm h', fun _ => ?_⟩
    rw [e]
    refine ⟨rfl, fun m b => ?_⟩
    rw [look_eq, look_eq]
    by_cases hmn : m = n <;> simp [getAttributes, hmn]
  · refine ⟨fun _ _ => ?_, fun h' => ?_⟩
    · rw [e]
      refine ⟨rfl, fun m b => ?_⟩
      rw [look_eq, look_eq]
      by_cases hmn : m = n
      · subst hmn
        simp only [getAttributes, if_true, Option.getD_some, List.find?_append, true_and]
        by_cases hb : b = a.name
        · subst hb
          have : ((c.attrs m).getD []).find? (fun x => x.name == a.name) = none := by
            rw [List.find?_eq_none]
            intro x hx hx'
            exact hm (List.mem_map.2 ⟨x, hx, by simpa using hx'⟩)
          simp [this]
        · simp only [hb, if_false]
          cases ((c.attrs m).getD []).find? (fun x => x.name == b) with
          | some x => rfl
          | none => simp [Ne.symm hb]
      · simp [getAttributes, hmn]
    · rcases h' with h' | h'
      · exact absurd h h'
      · exact absurd hm h'

/-- **C15**, remove: afterwards the attribute is absent and all others are unchanged; removing a variable
removes all its attributes and no others. -/
theorem C15_remove_attribute (c : CDM P V CS) (n a : String) :
    (∀ m b, look (removeAttribute c n a) m b = if m = n ∧ b = a then none else look c m b) ∧
    (∀ m b, look (removeVariable c n) m b = if m = n then none else look c m b) := by
  constructor
  · intro m b
    rw [look_eq, look_eq]
    by_cases hm : m = n
    · subst hm
      simp only [getAttributes, removeAttribute, if_true, true_and]
      cases c.attrs m with
      | none => simp
      | some l =>
        simp only [Option.map_some, Option.getD_some, List.find?_filter]
        by_cases hb : b = a
        · subst hb
          have : l.find? (fun x => decide ((!(x.name == b)) = true ∧ (x.name == b) = true)) = none := by
            rw [List.find?_eq_none]; intro x _; simp
          simp [this]
        · have : l.find? (fun x => decide ((!(x.name == a)) = true ∧ (x.name == b) = true)) =
              l.find? (fun x => x.name == b) := by
            congr 1; funext x
            by_cases hx : x.name = b
            · simp [hx, hb]
            · simp [hx]
          rw [this]; simp [hb]
    · simp [getAttributes, removeAttribute, hm]
  · intro m b
    rw [look_eq, look_eq]
    by_cases hm : m = n <;> simp [getAttributes, removeVariable, hm]

/-- Specification state of attribute edits: who may own attributes, and the map. -/
structure AMap (V : Type) where
  owners : String → Prop
  val : String → String → Option V

/-- Attribute edits. -/
inductive AOp (V : Type) where
  | add (n : String) (a : Attr V)
  | set (n : String) (a : Attr V)
  | remove (n a : String)

/-- Specification: an attribute edit on the map (an edit that raises leaves the map). -/
noncomputable def AMap.step (m : AMap V) : AOp V → AMap V
  | .add n a => open Classical in
    if m.owners n ∧ m.val n a.name = none then
      ⟨m.owners, fun n' b => if n' = n ∧ b = a.name then some a.value else m.val n' b⟩ else m
  | .set n a => open Classical in
    if m.owners n then ⟨m.owners, fun n' b => if n' = n ∧ b = a.name then some a.value else m.val n' b⟩ else m
  | .remove n a => ⟨m.owners, fun n' b => if n' = n ∧ b = a then none else m.val n' b⟩

/-- The corresponding calls. -/
def AOp.toOp : AOp V → Op P V
  | .add n a => .addAttr n a
  | .set n a => .setAttr n a
  | .remove n a => .rmAttr n a

/-- The abstraction of a dataset. -/
def absA (c : CDM P V CS) : AMap V := ⟨MayOwn c, look c⟩

/-- **C15**, histories: after any sequence of attribute edits the readable attributes are those of the
map edited the same way. -/
theorem C15_attribute_history (listCS : Content P V → CS) (ops : List (AOp V)) :
    ∀ c : CDM P V CS, absA (run listCS c (ops.map AOp.toOp)) = ops.foldl AMap.step (absA c) := by
  induction ops with
  | nil => intro c; rfl
  | cons op ops ih =>
    intro c
    rw [List.map_cons, List.foldl_cons, show run listCS c (AOp.toOp op :: ops.map AOp.toOp) =
      run listCS (step listCS c (AOp.toOp op)) (ops.map AOp.toOp) from rfl, ih]
    congr 1
    cases op with
    | add n a =>
      have hs := C15_add_attribute c n a
      have ho : MayOwn (addAttribute c n a).1 = MayOwn c := by
        funext m
        rcases addAttribute_cases c n a with ⟨_, e⟩ | ⟨_, _, e⟩ | ⟨_, _, e⟩ <;> (rw [e]; rfl)
      have e : absA (step listCS c (AOp.toOp (.add n a))) = ⟨MayOwn c, look (addAttribute c n a).1⟩ := by
        simp only [AOp.toOp, step, absA, ho]
      rw [e]
      by_cases h : MayOwn c n ∧ look c n a.name = none
      · have e2 : (absA c).step (.add n a) =
            ⟨MayOwn c, fun n' b => if n' = n ∧ b = a.name then some a.value else look c n' b⟩ := if_pos h
        rw [e2]; congr 1; funext m b; exact (hs.1 h.1 h.2).2 m b
      · have e2 : (absA c).step (.add n a) = absA c := if_neg h
        rw [e2]
        unfold absA
        congr 1; funext m b
        refine (hs.2 ?_).2 m b
        by_cases h1 : MayOwn c n
        · exact .inr fun h2 => h ⟨h1, h2⟩
        · exact .inl h1
    | set n a =>
      have hs := C15_set_attribute c n a
      have ho : MayOwn (addOrReplaceAttribute c n a).1 = MayOwn c := by
        funext m
        rcases addOrReplaceAttribute_cases c n a with ⟨_, e⟩ | ⟨_, e⟩ <;> (rw [e]; rfl)
      have e : absA (step listCS c (AOp.toOp (.set n a))) = ⟨MayOwn c, look (addOrReplaceAttribute c n a).1⟩ := by
        simp only [AOp.toOp, step, absA, ho]
      rw [e]
      by_cases h : MayOwn c n
      · have e2 : (absA c).step (.set n a) =
            ⟨MayOwn c, fun n' b => if n' = n ∧ b = a.name then some a.value else look c n' b⟩ := if_pos h
        rw [e2]; congr 1; funext m b; exact (hs.1 h).2 m b
      · have e2 : (absA c).step (.set n a) = absA c := if_neg h
        rw [e2]
        unfold absA
        congr 1; funext m b
        have := congrArg Content.attrs (hs.2 h).2
        simp only [CDM.content] at this
        simp only [look, getAttribute, this]
    | remove n a =>
      simp only [AOp.toOp, step, AMap.step, absA]
      congr 1
      funext m b; exact (C15_remove_attribute c n a).1 m b

/-- Non-vacuity. -/
example : look sample "a" "units" = some "m" ∧ look sample "a" "title" = none ∧
    look (step (fun _ => ()) sample (.setAttr "a" ⟨"units", "km"⟩)) "a" "units" = some "km" ∧
    look (step (fun _ => ()) sample (.setAttr "a" ⟨"units", "km"⟩)) "b" "units" = some "s" := by decide

/-! ## C63: coordinate queries are never stale -/

/-- **C63.** After any history of calls, a coordinate query works with the coordinate systems of the
current content, no matter how often coordinates were queried before. -/
theorem C63_queries_never_stale (listCS : Content P V → CS) (cs : CS) (ops : List (Op P V)) :
    let c := run listCS (emptyCDM cs) ops
    (enhance listCS c).2 = listCS c.content ∧ (enhance listCS c).1.content = c.content := by
  have key : ∀ (ops : List (Op P V)) (c : CDM P V CS), Inv c →
      (c.coordsInitialized = true → c.coordSystems = listCS c.content) →
      ((run listCS c ops).coordsInitialized = true →
        (run listCS c ops).coordSystems = listCS (run listCS c ops).content) := by
    intro ops
    induction ops with
    | nil => exact fun _ _ h => h
    | cons op ops ih =>
      intro c hi h
      refine ih _ (inv_step listCS c hi op) ?_
      cases op with
      | addVar v => simp only [step, addVariable]; split <;> simp
      | rmVar n => simp [step, removeVariable]
      | renVar o n =>
        by_cases hf : hasVariable c o = false ∨ o = n
        · simp [step, renameVariable_fail c o n hf, removeVariable]
        · obtain ⟨hv, hne⟩ := not_or.1 hf
          obtain ⟨c', e, _, _, v3, _⟩ := renameVariable_ok c hi o n hne (by simpa using hv)
          simp [step, e, v3]
      | addDim d => simp only [step, addDimension]; split <;> simp
      | rmDim n b =>
        simp only [step, removeDimension]
        split
        · exact h
        · split
          · simp
          · exact h
      | renDim o n b =>
        obtain ⟨k1, k2, k3⟩ := renameDimension_other c o n b
        simp only [step]
        cases ho : hasDimension c o with
        | false => rw [k1 ho]; simp
        | true =>
          by_cases hf : b = true ∨ testDimensionInUse c n = false
          · by_cases hne : o = n
            · rw [k3 ho hne hf]; simp
            · rw [renameDimension_ok c hi.dims o n b hne ho hf]; simp
          · rw [k2 ho (by simpa using (not_or.1 hf).1) (by simpa using (not_or.1 hf).2)]; simp
      | addAttr n a =>
        simp only [step]
        rcases addAttribute_cases c n a with ⟨_, e⟩ | ⟨_, _, e⟩ | ⟨_, _, e⟩ <;> (rw [e]; simp)
      | setAttr n a =>
        simp only [step]
        rcases addOrReplaceAttribute_cases c n a with ⟨_, e⟩ | ⟨_, e⟩ <;> (rw [e]; simp)
      | rmAttr n a => simp [step, removeAttribute]
      | query =>
        simp only [step, enhance]
        split
        · intro _; rfl
        · exact h
  intro c
  have hk := key ops (emptyCDM cs) (inv_empty cs) (by simp [emptyCDM])
  unfold enhance
  split
  · exact ⟨rfl, rfl⟩
  · rename_i h
    exact ⟨hk (by simpa using h), rfl⟩

/-- Non-vacuity: with the number of variables as "coordinate systems", a query, an edit, a query. -/
example : (enhance (fun c : Content Nat String => c.vars.length)
    (run (fun c => c.vars.length) (emptyCDM 0)
      [.addVar ⟨"a", [], 0⟩, .query, .addVar ⟨"b", [], 0⟩])).2 = 2 := by decide

/-- Edits through references (`getVariable(name).setShape(...)`, src/CDM.cc:169-175) do not reset the
flag: after a query the next query still works with the old content. -/
theorem C63_edit_by_reference_is_stale :
    let listCS : Content Nat String → List (List String) := fun c => c.vars.map (·.shape)
    let c := run listCS (emptyCDM []) [.addVar ⟨"a", ["x"], 0⟩, .query]
    let c' := { c with vars := c.vars.map fun v => { v with shape := ["y"] } }
    (enhance listCS c').2 = [["x"]] ∧ listCS c'.content = [["y"]] := by decide

/-! ## C64: searching variables -/

/-- **C64.** The search by attributes and dimensions returns exactly the names of the variables that
have every requested dimension and, for every requested attribute, an attribute of that name whose value
matches; in the order of the dataset. -/
theorem C64_find_variables (c : CDM P V CS) (attrs : List (String × (V → Bool))) (dims : List String) :
    ∃ p : Var P → Bool, findVariables c attrs dims = (c.vars.filter p).map (·.name) ∧
      ∀ v, p v = true ↔ (∀ d ∈ dims, d ∈ v.shape) ∧
        (∀ ar ∈ attrs, ∃ x, look c v.name ar.1 = some x ∧ ar.2 x = true) := by
  refine ⟨fun v => (dims.all fun d => v.shape.contains d) &&
    attrs.all fun ar => checkVariableAttribute c v.name ar.1 ar.2, ?_, ?_⟩
  · unfold findVariables
    induction c.vars with
    | nil => rfl
    | cons v l ih =>
      rw [List.filterMap_cons, List.filter_cons, ih]
      cases h1 : attrs.find? fun ar => !checkVariableAttribute c v.name ar.1 ar.2 with
      | some ar =>
        have hm := List.mem_of_find?_eq_some h1
        have hp := List.find?_some h1
        have : (attrs.all fun ar => checkVariableAttribute c v.name ar.1 ar.2) = false := by
          rw [List.all_eq_false]; exact ⟨ar, hm, by simpa using hp⟩
        simp [this]
      | none =>
        rw [List.find?_eq_none] at h1
        have : (attrs.all fun ar => checkVariableAttribute c v.name ar.1 ar.2) = true := by
          rw [List.all_eq_true]; intro ar har; simpa using h1 ar har
        simp only [this, Bool.and_true]
        cases h2 : dims.find? fun d => !checkDimension v d with
        | some d =>
          have hm := List.mem_of_find?_eq_some h2
          have hp := List.find?_some h2
          have : (dims.all fun d => v.shape.contains d) = false := by
            rw [List.all_eq_false]; exact ⟨d, hm, by simpa [checkDimension] using hp⟩
          rw [this]; rfl
        | none =>
          rw [List.find?_eq_none] at h2
          have : (dims.all fun d => v.shape.contains d) = true := by
            rw [List.all_eq_true]; intro d hd; simpa [checkDimension] using h2 d hd
          rw [this]; rfl
  · intro v
    simp only [Bool.and_eq_true, List.all_eq_true, List.contains_iff_mem]
    refine and_congr_right fun _ => forall_congr' fun ar => forall_congr' fun _ => ?_
    rw [look_eq]
    unfold checkVariableAttribute getAttributes
    cases c.attrs v.name with
    | none => simp
    | some l =>
      simp only [Option.getD_some]
      cases l.find? fun b => b.name == ar.1 <;> simp

/-- Non-vacuity. -/
example : findVariables sample [("units", fun s => s == "s")] ["x"] = ["b"] ∧
    findVariables sample [] ["x"] = ["a", "b"] ∧ findVariables sample [("nosuch", fun _ => true)] [] = [] := by
  decide

end Fimex.Cdm
