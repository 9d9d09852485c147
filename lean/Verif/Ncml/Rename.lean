import Verif.Cdm.Props
import Verif.SliceBuilder.CoordSys

/-!
# Renaming by NcML

Model of the renaming of variables, dimensions and attributes by `NcmlCDMReader` (`src/NcmlCDMReader.cc`), and of the request it makes to the
wrapped reader, with C70.  The elements of the document are lists in document order; an absent attribute is the empty text (`getXmlProp`).
The dataset and its editing functions are those of `Verif.Cdm`, the slice builder that of `Verif.SliceBuilder`.
-/

namespace Fimex.Ncml

open Fimex.Cdm Fimex.SB

variable {P V CS : Type}

/-! ## Model -/

/-- A `std::map<string, string>` that is only written by `m[k] = v`: the newest entry first. -/
abbrev Names := List (String × String)

/-- `find`, and the name itself when there is no entry (src/NcmlCDMReader.cc:547-548, 556-557). -/
def Names.get (m : Names) (n : String) : String :=
  match m.find? fun e => e.1 = n with
  | some e => e.2
  | none => n

/-- src/NcmlCDMReader.cc:402-411, the first loop of `initVariableNameChange`; an element is (`orgName`, `name`). -/
def renameVariables : List (String × String) → CDM P V CS × Names → (CDM P V CS × Names) × Res Unit
  | [], s => (s, .ok ())
  | (org, new) :: l, (c, m) =>
    if hasVariable c org then
      if new = "" then ((c, m), .throws)
      else
        match renameVariable c org new with
        | (c, .ok _) => renameVariables l (c, (new, org) :: m)
        | (c, .throws) => ((c, m), .throws)
        | (c, .ub) => ((c, m), .ub)
    else renameVariables l (c, m)

/-- src/NcmlCDMReader.cc:429-439, the first loop of `initDimensionNameChange`; an element is (`orgName`, `name`, `overwriteName`). -/
def renameDimensions : List (String × String × Bool) → CDM P V CS × Names → (CDM P V CS × Names) × Res Unit
  | [], s => (s, .ok ())
  | (org, new, overwrite) :: l, (c, m) =>
    if hasDimension c org then
      if new = "" then ((c, m), .throws)
      else
        match renameDimension c org new overwrite with
        | (c, .ok _) => renameDimensions l (c, (org, new) :: m)
        | (c, .throws) => ((c, m), .throws)
        | (c, .ub) => ((c, m), .ub)
    else renameDimensions l (c, m)

/-- A reference into the attribute vector, used after `removeAttribute` of the same vector: it denotes whatever is now at its place, or no object any more. -/
def setNameAt (l : List (Attr V)) (i : Nat) (name : String) : Res (List (Attr V)) :=
  match l[i]? with
  | some a => .ok (l.set i { a with name := name })
  | none => .ub

/-- src/NcmlCDMReader.cc:493-499 and 510-517: the attribute is looked up, others of the new name are removed, then the name is set through the reference. -/
def renameAttribute (l : List (Attr V)) (org name : String) : Res (List (Attr V)) :=
  match l.findIdx? fun a => a.name = org with
  | none => .ok l
  | some i => setNameAt (l.filter fun a => !(a.name == name)) i name

/-- src/NcmlCDMReader.cc:555-566: the loop over the dimensions of the variable in the wrapped reader; `none`: the request is answered with empty data. -/
def mapRegions (ren : String → String) (shape : List String) (sb : Builder) : List (String × Nat) → Builder → Res (Option Builder)
  | [], b => .ok (some b)
  | (d, len) :: ds, b =>
    if ren d ∈ shape then do
      let (st, sz) ← getStartAndSize sb (ren d)
      if wadd st sz > len then .ok none
      else
        match setStartAndSize b d st sz with
        | (b, .ok ()) => mapRegions ren shape sb ds b
        | (_, .throws) => .throws
        | (_, .ub) => .ub
    else mapRegions ren shape sb ds b

/-- src/NcmlCDMReader.cc:568-572: all other dimensions. -/
def makeMinimal : List String → Builder → Res Builder
  | [], b => .ok b
  | d :: ds, b =>
    match setStartAndSize b d 0 1 with
    | (b, .ok ()) => makeMinimal ds b
    | (_, .throws) => .throws
    | (_, .ub) => .ub

/-- src/NcmlCDMReader.cc:550-573: the request to the wrapped reader. The dimensions `org` of the variable there with their lengths; `ren`: `dimensionNameChanges`;
`shape`: the dimension names of the request `sb`. -/
def request (ren : String → String) (shape : List String) (sb : Builder) (org : List (String × Nat)) : Res (Option Builder) := do
  let b ← init (org.map (·.1)) (org.map (·.2)) ((org.map (·.1)).map fun _ => false)
  match ← mapRegions ren shape sb org b with
  | none => .ok none
  | some b => do
    let b ← makeMinimal (getUnsetDimensionNames b.setDims b.dimPos) b
    .ok (some b)

/-! ## Specification -/

/-- What a variable is, apart from its name: shape, data, attributes. -/
abbrev Thing (P V : Type) := List String × P × (String → Option V)

/-- The variables of a dataset by name. -/
def things (c : CDM P V CS) (n : String) : Option (Thing P V) :=
  match c.vars.find? fun v => v.name = n with
  | some v => some (v.shape, v.payload, look c n)
  | none => none

/-- One renaming: the thing moves to the new name, what had that name is lost. -/
def move (f : String → Option (Thing P V)) (e : String × String) : String → Option (Thing P V) :=
  if f e.1 = none then f
  else fun x => if x = e.2 then (if e.1 = e.2 then none else f e.1) else if x = e.1 then none else f x

/-- No element refers to a name given by an earlier element. -/
def NoChain (l : List (String × String)) : Prop := l.Pairwise fun a b => b.1 ≠ a.2

/-! ## Lemmas -/

theorem things_none (c : CDM P V CS) (n : String) : things c n = none ↔ hasVariable c n = false := by
  unfold things hasVariable
  cases hf : c.vars.find? fun v => v.name = n with
  | none =>
    rw [List.find?_eq_none] at hf
    simp only [true_iff, List.any_eq_false]
    simpa using hf
  | some v =>
    have h1 := List.mem_of_find?_eq_some hf
    have h2 := List.find?_some hf
    simp only [reduceCtorEq, false_iff, Bool.not_eq_false, List.any_eq_true]
    exact ⟨v, h1, by simpa using h2⟩

theorem find_filter_ne (l : List (Var P)) (n x : String) (h : x ≠ n) :
    (l.filter fun v => !(v.name == n)).find? (fun v => v.name = x) = l.find? fun v => v.name = x := by
  rw [List.find?_filter]
  congr 1
  funext v
  by_cases hv : v.name = x
  · subst hv; simp [h]
  · simp [hv]

theorem find_filter_eq (l : List (Var P)) (n : String) :
    (l.filter fun v => !(v.name == n)).find? (fun v => v.name = n) = none := by
  rw [List.find?_eq_none]
  intro v hv
  have := (List.mem_filter.1 hv).2
  simpa using this

theorem look_congr {c c' : CDM P V CS} {n m : String} (h : getAttributes c' n = getAttributes c m) : look c' n = look c m := by
  funext a
  rw [look_eq, look_eq, h]

theorem things_remove (c : CDM P V CS) (n : String) : things (removeVariable c n) = fun x => if x = n then none else things c x := by
  funext x
  unfold things
  by_cases hx : x = n
  · subst hx
    simp only [removeVariable, find_filter_eq, if_true]
  · simp only [removeVariable, find_filter_ne _ _ _ hx, if_neg hx]
    cases c.vars.find? fun v => v.name = x with
    | none => rfl
    | some v =>
      dsimp only
      rw [look_congr (c := c) (m := x)]
      simp [getAttributes, hx]

theorem find_renamed (l : List (Var P)) (old new x : String) (hne : old ≠ new) (hn : ∀ v ∈ l, v.name ≠ new) :
    (l.map fun v => if v.name = old then { v with name := new } else v).find? (fun v => v.name = x) =
      if x = new then (l.find? fun v => v.name = old).map (fun v => { v with name := new }) else if x = old then none else l.find? fun v => v.name = x := by
  induction l with
  | nil => simp
  | cons v l ih =>
    have ih := ih fun w hw => hn w (List.mem_cons_of_mem _ hw)
    have hv := hn v List.mem_cons_self
    rw [List.map_cons, List.find?_cons]
    by_cases hvo : v.name = old
    · simp only [hvo, if_true]
      by_cases hx : x = new
      · subst hx; simp [hvo]
      · have : ¬ new = x := fun h => hx h.symm
        simp only [this, decide_false, ih, if_neg hx]
        by_cases hxo : x = old
        · simp [hxo]
        · have : ¬ old = x := fun h => hxo h.symm
          simp [hxo, hvo, this]
    · simp only [if_neg hvo]
      by_cases hx : x = new
      · subst hx
        simp only [hv, decide_false, ih, if_true]
        rw [List.find?_cons]
        simp [hvo]
      · by_cases hvx : v.name = x
        · subst hvx
          simp [hvo, hv]
        · simp only [hvx, decide_false, ih, if_neg hx]
          rw [List.find?_cons]
          simp [hvx]

/-- One renaming of a variable that exists. -/
theorem rename_step (c : CDM P V CS) (hi : Inv c) (org new : String) (ho : hasVariable c org = true) :
    ∃ c' b, renameVariable c org new = (c', .ok b) ∧ Inv c' ∧ things c' = move (things c) (org, new) := by
  have hnn : things c org ≠ none := fun h => by rw [things_none, ho] at h; cases h
  have hinv : Inv (renameVariable c org new).1 := by
    have := inv_step (fun _ => c.coordSystems) c hi (.renVar org new)
    exact this
  by_cases hne : org = new
  · have e := renameVariable_fail c org new (Or.inr hne)
    rw [e] at hinv
    refine ⟨_, _, e, hinv, ?_⟩
    rw [things_remove]
    unfold move
    dsimp only
    rw [if_neg hnn]
    subst hne
    funext x
    by_cases hx : x = org <;> simp [hx]
  · obtain ⟨c', e, hv, -, -, ha1, ha2, ha3⟩ := renameVariable_ok c hi org new hne ho
    rw [e] at hinv
    refine ⟨c', true, e, hinv, ?_⟩
    unfold move
    dsimp only
    rw [if_neg hnn]
    funext x
    unfold things
    rw [hv, find_renamed _ _ _ _ hne (by intro v hv; simpa using (List.mem_filter.1 hv).2)]
    by_cases hx : x = new
    · subst hx
      rw [if_pos rfl, if_pos rfl, if_neg hne, find_filter_ne _ _ _ hne]
      cases c.vars.find? fun v => v.name = org with
      | none => rfl
      | some v =>
        simp only [Option.map_some]
        rw [look_congr ha1]
    · rw [if_neg hx, if_neg hx]
      by_cases hxo : x = org
      · rw [if_pos hxo, if_pos hxo]
      · rw [if_neg hxo, if_neg hxo, find_filter_ne _ _ _ hx]
        cases c.vars.find? fun v => v.name = x with
        | none => rfl
        | some v =>
          dsimp only
          rw [look_congr (c := c) (m := x)]
          unfold getAttributes
          rw [ha3 x hxo hx]

theorem get_cons (m : Names) (k v n : String) : Names.get ((k, v) :: m) n = if k = n then v else m.get n := by
  unfold Names.get
  rw [List.find?_cons]
  by_cases h : k = n <;> simp [h]

/-! ## Properties -/

/-- C70: renaming variables by NcML: with names for all elements nothing raises, every variable keeps its shape, data and attributes under its new name, elements for
absent variables are ignored, and what had the new name before is lost. For every dataset with unique names and every list of elements. -/
theorem C70_variables_move (l : List (String × String)) (hl : ∀ e ∈ l, e.2 ≠ "") (c : CDM P V CS) (hi : Inv c) (m : Names) :
    ∃ c' m', renameVariables l (c, m) = ((c', m'), .ok ()) ∧ Inv c' ∧ things c' = l.foldl move (things c) := by
  induction l generalizing c m with
  | nil => exact ⟨c, m, rfl, hi, rfl⟩
  | cons e l ih =>
    obtain ⟨org, new⟩ := e
    unfold renameVariables
    have hl' := fun e he => hl e (List.mem_cons_of_mem _ he)
    cases ho : hasVariable c org with
    | false =>
      simp only [Bool.false_eq_true, if_false]
      obtain ⟨c', m', h1, h2, h3⟩ := ih hl' c hi m
      refine ⟨c', m', h1, h2, ?_⟩
      rw [h3, List.foldl_cons]
      have : move (things c) (org, new) = things c := by
        unfold move
        rw [if_pos ((things_none c org).2 ho)]
      rw [this]
    | true =>
      have hn : new ≠ "" := hl (org, new) List.mem_cons_self
      simp only [if_true, if_neg hn]
      obtain ⟨c1, b, e1, e2, e3⟩ := rename_step c hi org new ho
      rw [e1]
      obtain ⟨c', m', h1, h2, h3⟩ := ih hl' c1 e2 ((new, org) :: m)
      exact ⟨c', m', h1, h2, by rw [h3, e3, List.foldl_cons]⟩

/-- C70: an element without a new name for an existing variable raises. -/
theorem C70_missing_name_raises (l : List (String × String)) (org : String) (c : CDM P V CS) (m : Names) (ho : hasVariable c org = true) :
    renameVariables ((org, "") :: l) (c, m) = ((c, m), .throws) := by
  unfold renameVariables
  simp [ho]

/-- C70, for elements none of which refers to a name given by an earlier one: the variable found in the wrapped reader under the original name that is used for reading
is the one this variable was made of. -/
theorem C70_read_from_original_partial (l : List (String × String)) (hl : ∀ e ∈ l, e.2 ≠ "") (hc : NoChain l) (c : CDM P V CS) (hi : Inv c) :
    ∃ c' m', renameVariables l (c, []) = ((c', m'), .ok ()) ∧
      ∀ n t, things c' n = some t → things c (m'.get n) = some t := by
  -- with the names still to come different from those given
  have key : ∀ (l : List (String × String)) (c1 : CDM P V CS) (m : Names), (∀ e ∈ l, e.2 ≠ "") → NoChain l → Inv c1 →
      (∀ n t, things c1 n = some t → things c (m.get n) = some t) → (∀ e ∈ l, ∀ k ∈ m, e.1 ≠ k.1) →
      ∃ c' m', renameVariables l (c1, m) = ((c', m'), .ok ()) ∧ ∀ n t, things c' n = some t → things c (m'.get n) = some t := by
    intro l
    induction l with
    | nil => intro c1 m _ _ _ h _; exact ⟨c1, m, rfl, h⟩
    | cons e l ih =>
      obtain ⟨org, new⟩ := e
      intro c1 m hl hch hinv h hk
      have hl' := fun e he => hl e (List.mem_cons_of_mem _ he)
      have hch' := List.pairwise_cons.1 hch
      unfold renameVariables
      cases ho : hasVariable c1 org with
      | false =>
        simp only [Bool.false_eq_true, if_false]
        exact ih c1 m hl' hch'.2 hinv h fun e he => hk e (List.mem_cons_of_mem _ he)
      | true =>
        have hn : new ≠ "" := hl (org, new) List.mem_cons_self
        simp only [if_true, if_neg hn]
        obtain ⟨c2, b, e1, e2, e3⟩ := rename_step c1 hinv org new ho
        rw [e1]
        refine ih c2 ((new, org) :: m) hl' hch'.2 e2 ?_ ?_
        · intro n t hnt
          rw [e3] at hnt
          rw [get_cons]
          have hnn : things c1 org ≠ none := fun h => by rw [things_none, ho] at h; cases h
          unfold move at hnt
          dsimp only at hnt
          rw [if_neg hnn] at hnt
          by_cases hx : n = new
          · rw [if_pos hx] at hnt
            rw [if_pos hx.symm]
            by_cases hon : org = new
            · rw [if_pos hon] at hnt; cases hnt
            · rw [if_neg hon] at hnt
              have := h org t hnt
              have hg : m.get org = org := by
                unfold Names.get
                have : m.find? (fun e => e.1 = org) = none := by
                  rw [List.find?_eq_none]
                  intro k hk'
                  have := hk (org, new) List.mem_cons_self k hk'
                  simpa using fun h : k.1 = org => this h.symm
                rw [this]
              rwa [hg] at this
          · rw [if_neg hx] at hnt
            rw [if_neg fun h => hx h.symm]
            by_cases hxo : n = org
            · rw [if_pos hxo] at hnt; cases hnt
            · rw [if_neg hxo] at hnt
              exact h n t hnt
        · intro e he k hk'
          rcases List.mem_cons.1 hk' with rfl | hk'
          · exact hch'.1 e he
          · exact hk e (List.mem_cons_of_mem _ he) k hk'
  exact key l c [] hl hc hi (fun n t h => h) (by simp)

/-- A dataset with variables `a`, `b` and an attribute of `a`; the data are represented by the original name. -/
def sample : CDM String String Unit :=
  run (fun _ => ()) (emptyCDM ()) [.addDim ⟨"x", 3, false⟩, .addDim ⟨"t", 2, false⟩, .addVar ⟨"a", ["x", "t"], "a"⟩, .addVar ⟨"b", ["x"], "b"⟩, .addAttr "a" ⟨"units", "K"⟩]

/-- The hypotheses hold, and a variable takes the place of another: `a` becomes `b` with its attribute, and is read from `a`. -/
example : Inv sample ∧ NoChain [("a", "b"), ("z", "c")] ∧
    (let r := (renameVariables [("a", "b"), ("z", "c")] (sample, [])).1
     r.1.vars = [⟨"b", ["x", "t"], "a"⟩] ∧ look r.1 "b" "units" = some "K" ∧ r.2.get "b" = "a") :=
  ⟨inv_run _ _ _ (inv_empty ()), by unfold NoChain; decide, by decide, by decide, by decide⟩

/-- The code violates the full claim: with the elements `a` to `c` and `c` to `d` the data of `d`, which are those of `a`, are sought in a variable `c`,
which the wrapped reader does not have; with `b` in place of `c`, the data of `b` are taken. -/
theorem C70_chain_reads_wrong_variable :
    (let r := (renameVariables [("a", "c"), ("c", "d")] (sample, [])).1
     r.1.vars = [⟨"d", ["x", "t"], "a"⟩, ⟨"b", ["x"], "b"⟩] ∧ r.2.get "d" = "c" ∧ hasVariable sample "c" = false) ∧
    (let r := (renameVariables [("a", "b"), ("b", "d")] (sample, [])).1
     r.1.vars = [⟨"d", ["x", "t"], "a"⟩] ∧ r.2.get "d" = "b" ∧ getVariable sample "b" = .ok ⟨"b", ["x"], "b"⟩) := by decide

/-- An element giving a variable its own name as `orgName` removes the variable. -/
theorem C70_own_name_removes :
    (renameVariables [("a", "a")] (sample, [])).1.1.vars = [⟨"b", ["x"], "b"⟩] ∧ (renameVariables [("a", "a")] (sample, [])).2 = .ok () := by decide

/-! ### Dimensions -/

theorem map_same {α : Type} (l : List α) (f : α → α) (h : ∀ a ∈ l, f a = a) : l.map f = l := by
  induction l with
  | nil => rfl
  | cons a l ih => rw [List.map_cons, h a List.mem_cons_self, ih fun b hb => h b (List.mem_cons_of_mem _ hb)]

theorem renameInShape_eq (old new : String) (v : Var P) :
    renameInShape old new v = ⟨v.name, v.shape.map (fun s => if s = old then new else s), v.payload⟩ := by
  unfold renameInShape
  by_cases h : checkDimension v old = true
  · rw [if_pos h]
  · rw [if_neg h]
    have : v.shape.map (fun s => if s = old then new else s) = v.shape := by
      have hn : old ∉ v.shape := by simpa [checkDimension] using h
      apply map_same
      intro s hs
      have : s ≠ old := fun e => hn (e ▸ hs)
      simp [this]
    rw [this]

/-- What a renaming of a dimension that does not raise has done. -/
theorem renameDimension_done {c c' : CDM P V CS} (h : (c.dims.map (·.name)).Nodup) {old new : String} {ig b : Bool} (ho : hasDimension c old = true)
    (he : renameDimension c old new ig = (c', .ok b)) :
    old ≠ new ∧ c'.vars = c.vars.map (renameInShape old new) ∧ c'.attrs = c.attrs ∧
      c'.dims = (c.dims.filter fun d => !(d.name == new)).map (fun d => if d.name = old then { d with name := new } else d) := by
  obtain ⟨-, k2, k3⟩ := renameDimension_other c old new ig
  by_cases hu : ig = true ∨ testDimensionInUse c new = false
  · by_cases hne : old = new
    · rw [k3 ho hne hu] at he; cases he
    · rw [renameDimension_ok c h old new ig hne ho hu] at he
      cases he
      exact ⟨hne, rfl, rfl, rfl⟩
  · rw [not_or] at hu
    have h1 : ig = false := by simpa using hu.1
    have h2 : testDimensionInUse c new = true := by simpa using hu.2
    rw [k2 ho h1 h2] at he
    cases he

/-- C70, for elements none of which refers to a name given by an earlier one: if renaming the dimensions does not raise, the shape of each variable is its original shape
with every dimension replaced by the name recorded for it. -/
theorem C70_dimensions_partial (l : List (String × String × Bool)) (hc : NoChain (l.map fun e => (e.1, e.2.1))) (c : CDM P V CS)
    (h : (c.dims.map (·.name)).Nodup) (c' : CDM P V CS) (m' : Names) (hr : renameDimensions l (c, []) = ((c', m'), .ok ())) :
    c'.vars = c.vars.map (fun v => ⟨v.name, v.shape.map m'.get, v.payload⟩) ∧ c'.attrs = c.attrs := by
  have key : ∀ (l : List (String × String × Bool)) (c1 : CDM P V CS) (m : Names) (given : List String), NoChain (l.map fun e => (e.1, e.2.1)) →
      (c1.dims.map (·.name)).Nodup → c1.vars = c.vars.map (fun v => ⟨v.name, v.shape.map m.get, v.payload⟩) → c1.attrs = c.attrs →
      (∀ e ∈ l, e.1 ∉ given) → (∀ k ∈ m, k.2 ∈ given) → (∀ k ∈ m, hasDimension c1 k.1 = true → k.1 ∈ given) →
      renameDimensions l (c1, m) = ((c', m'), .ok ()) →
      c'.vars = c.vars.map (fun v => ⟨v.name, v.shape.map m'.get, v.payload⟩) ∧ c'.attrs = c.attrs := by
    intro l
    induction l with
    | nil =>
      intro c1 m _ _ _ hv ha _ _ _ hr
      unfold renameDimensions at hr
      cases hr
      exact ⟨hv, ha⟩
    | cons e l ih =>
      obtain ⟨org, new, ow⟩ := e
      intro c1 m given hch hnd hv ha hk1 hk2 hk3 hr
      rw [List.map_cons] at hch
      have hch' := List.pairwise_cons.1 hch
      unfold renameDimensions at hr
      cases ho : hasDimension c1 org with
      | false =>
        rw [ho] at hr
        simp only [Bool.false_eq_true, if_false] at hr
        exact ih c1 m given hch'.2 hnd hv ha (fun e he => hk1 e (List.mem_cons_of_mem _ he)) hk2 hk3 hr
      | true =>
        rw [ho, if_pos rfl] at hr
        by_cases hn : new = ""
        · rw [if_pos hn] at hr; cases hr
        · rw [if_neg hn] at hr
          cases hren : renameDimension c1 org new ow with
          | mk c2 res =>
            rw [hren] at hr
            cases res with
            | throws => cases hr
            | ub => cases hr
            | ok b =>
              dsimp only at hr
              obtain ⟨hne, d1, d2, d3⟩ := renameDimension_done hnd ho hren
              have horg : org ∉ given := hk1 (org, new, ow) List.mem_cons_self
              refine ih c2 ((org, new) :: m) (new :: given) hch'.2 ?_ ?_ (d2.trans ha) ?_ ?_ ?_ hr
              · rw [d3, map_dim_replace]
                refine nodup_replace (nodup_filter_map (fun d : Dim => d.name) _ hnd) ?_
                intro hmem
                obtain ⟨d, hd, hdn⟩ := List.mem_map.1 hmem
                have := (List.mem_filter.1 hd).2
                simp [hdn] at this
              · rw [d1, hv, List.map_map]
                apply List.map_congr_left
                intro v _
                simp only [Function.comp, renameInShape_eq, List.map_map]
                congr 1
                apply List.map_congr_left
                intro s _
                simp only [Function.comp, get_cons]
                by_cases hso : org = s
                · subst hso
                  have hg : m.get org = org := by
                    unfold Names.get
                    have : m.find? (fun e => e.1 = org) = none := by
                      rw [List.find?_eq_none]
                      intro k hk' he
                      have he : k.1 = org := by simpa using he
                      exact horg (he ▸ hk3 k hk' (he ▸ ho))
                    rw [this]
                  simp [hg]
                · have hg : m.get s ≠ org := by
                    unfold Names.get
                    cases hf : m.find? fun e => e.1 = s with
                    | none => exact fun h => hso h.symm
                    | some e =>
                      dsimp only
                      intro he
                      exact horg (he ▸ hk2 e (List.mem_of_find?_eq_some hf))
                  simp [hg, hso]
              · intro e he
                rw [List.mem_cons, not_or]
                exact ⟨hch'.1 (e.1, e.2.1) (List.mem_map.2 ⟨e, he, rfl⟩), hk1 e (List.mem_cons_of_mem _ he)⟩
              · intro k hk
                rcases List.mem_cons.1 hk with rfl | hk
                · exact List.mem_cons_self
                · exact List.mem_cons_of_mem _ (hk2 k hk)
              · intro k hk hd
                have hd' : k.1 = new ∨ (k.1 ≠ org ∧ hasDimension c1 k.1 = true) := by
                  rw [hasDimension, List.any_eq_true] at hd
                  obtain ⟨d, hdm, hdn⟩ := hd
                  rw [d3, List.mem_map] at hdm
                  obtain ⟨d0, hd0, rfl⟩ := hdm
                  have hd0' := (List.mem_filter.1 hd0).1
                  by_cases hdo : d0.name = org
                  · left
                    rw [if_pos hdo] at hdn
                    simpa using (beq_iff_eq.1 hdn).symm
                  · right
                    rw [if_neg hdo] at hdn
                    have := beq_iff_eq.1 hdn
                    refine ⟨this ▸ hdo, ?_⟩
                    rw [hasDimension, List.any_eq_true]
                    exact ⟨d0, hd0', hdn⟩
                rcases List.mem_cons.1 hk with rfl | hk
                · rcases hd' with h | ⟨h, -⟩
                  · exact absurd h hne
                  · exact absurd rfl h
                · rcases hd' with h | ⟨-, h⟩
                  · rw [h]; exact List.mem_cons_self
                  · exact List.mem_cons_of_mem _ (hk3 k hk h)
  have hid : c.vars = c.vars.map (fun v => ⟨v.name, v.shape.map (Names.get []), v.payload⟩) := by
    symm
    apply map_same
    intro v _
    have : v.shape.map (Names.get []) = v.shape := map_same _ _ fun _ _ => rfl
    rw [this]
  exact key l c [] [] hc h hid rfl (by simp) (by simp) (by simp) hr

/-- Two dimensions shift their names; the shapes follow. -/
example : NoChain ([("t", "time", false), ("x", "t", false)].map fun e => (e.1, e.2.1)) ∧
    (let r := renameDimensions [("t", "time", false), ("x", "t", false)] (sample, [])
     r.2 = .ok () ∧ r.1.1.vars = [⟨"a", ["t", "time"], "a"⟩, ⟨"b", ["t"], "b"⟩] ∧ r.1.2.get "x" = "t" ∧ r.1.2.get "t" = "time") := by
  refine ⟨by unfold NoChain; decide, by decide⟩

/-- The code violates the full claim: after `x` to `y` and `y` to `z` the shapes have `z`, the name recorded for `x` is `y`. -/
theorem C70_chain_of_dimensions :
    let r := renameDimensions [("x", "y", false), ("y", "z", false)] (sample, [])
    r.2 = .ok () ∧ r.1.1.vars = [⟨"a", ["z", "t"], "a"⟩, ⟨"b", ["z"], "b"⟩] ∧ r.1.2.get "x" = "y" := by decide

/-! ### Attributes -/

/-- C70: with unique attribute names and none of the new name before the attribute renamed, exactly that attribute gets the new name and its other owner goes. -/
theorem C70_attribute_partial (l : List (Attr V)) (hn : (l.map (·.name)).Nodup) (pre post : List (Attr V)) (v : V) (org name : String)
    (hl : l = pre ++ ⟨org, v⟩ :: post) (hpre : ∀ a ∈ pre, a.name ≠ name) (hne : org ≠ name) :
    renameAttribute l org name = .ok (pre ++ ⟨name, v⟩ :: post.filter fun a => a.name ≠ name) := by
  subst hl
  have hpo : ∀ a ∈ pre, a.name ≠ org := by
    intro a ha he
    rw [List.map_append, List.map_cons, List.nodup_append] at hn
    exact hn.2.2 a.name (List.mem_map_of_mem ha) org List.mem_cons_self he
  have hidx : (pre ++ ⟨org, v⟩ :: post).findIdx? (fun a => a.name = org) = some pre.length := by
    rw [List.findIdx?_append]
    have : pre.findIdx? (fun a => a.name = org) = none := by
      rw [List.findIdx?_eq_none_iff]
      intro a ha
      simpa using hpo a ha
    rw [this]
    simp [List.findIdx?_cons]
  have hf : pre.filter (fun a => !(a.name == name)) = pre := by
    rw [List.filter_eq_self]
    intro a ha
    simpa using hpre a ha
  have hfp : post.filter (fun a => !(a.name == name)) = post.filter fun a => a.name ≠ name := by
    apply List.filter_congr
    intro a _
    by_cases h : a.name = name <;> simp [h]
  unfold renameAttribute
  rw [hidx]
  dsimp only
  rw [List.filter_append, hf, List.filter_cons_of_pos (by simpa using hne), hfp]
  unfold setNameAt
  rw [List.getElem?_append_right (Nat.le_refl _)]
  simp

/-- C70: an absent attribute: nothing changes. -/
theorem C70_attribute_absent (l : List (Attr V)) (org name : String) (h : ∀ a ∈ l, a.name ≠ org) : renameAttribute l org name = .ok l := by
  unfold renameAttribute
  have : l.findIdx? (fun a => a.name = org) = none := by
    rw [List.findIdx?_eq_none_iff]
    intro a ha
    simpa using h a ha
  rw [this]

/-- The code violates the full claim whenever an attribute of the new name stands before the one to be renamed: that one keeps its old name, or the behaviour is undefined. -/
theorem C70_attribute_not_renamed (l : List (Attr V)) (hn : (l.map (·.name)).Nodup) (pre post : List (Attr V)) (v w : V) (org name : String)
    (hl : l = pre ++ ⟨org, v⟩ :: post) (hpre : ⟨name, w⟩ ∈ pre) :
    (post = [] ∧ renameAttribute l org name = .ub) ∨ ∃ l', renameAttribute l org name = .ok l' ∧ (⟨org, v⟩ : Attr V) ∈ l' := by
  obtain ⟨p1, p2, rfl⟩ := List.append_of_mem hpre
  subst hl
  have hnames := hn
  simp only [List.map_append, List.map_cons, List.append_assoc, List.cons_append] at hnames
  rw [List.nodup_append] at hnames
  obtain ⟨n1, n2, n3⟩ := hnames
  rw [List.nodup_cons] at n2
  obtain ⟨n4, n5⟩ := n2
  have hne : org ≠ name := by
    rintro rfl
    exact n4 (by simp)
  have hd1 : ∀ a ∈ p1, a.name ≠ name := fun a ha h => n3 a.name (List.mem_map_of_mem ha) name (by simp) h
  have hd2 : ∀ a ∈ p2, a.name ≠ name := fun a ha h => n4 (by rw [← h]; simp [List.mem_map_of_mem ha])
  have hd3 : ∀ a ∈ post, a.name ≠ name := fun a ha h => n4 (by rw [← h]; simp [List.mem_map_of_mem ha])
  have ho1 : ∀ a ∈ p1, a.name ≠ org := fun a ha h => n3 a.name (List.mem_map_of_mem ha) org (by simp) h
  rw [List.nodup_append] at n5
  have ho2 : ∀ a ∈ p2, a.name ≠ org := fun a ha h => n5.2.2 a.name (List.mem_map_of_mem ha) org (by simp) h
  have hidx : ((p1 ++ ⟨name, w⟩ :: p2) ++ ⟨org, v⟩ :: post).findIdx? (fun a => a.name = org) = some (p1.length + (p2.length + 1)) := by
    rw [List.findIdx?_append]
    have : (p1 ++ ⟨name, w⟩ :: p2).findIdx? (fun a => a.name = org) = none := by
      rw [List.findIdx?_eq_none_iff]
      intro a ha
      rcases List.mem_append.1 ha with ha | ha
      · simpa using ho1 a ha
      · rcases List.mem_cons.1 ha with rfl | ha
        · simpa using fun h : name = org => hne h.symm
        · simpa using ho2 a ha
    rw [this]
    simp [List.findIdx?_cons]
  have keep : ∀ q : List (Attr V), (∀ a ∈ q, a.name ≠ name) → q.filter (fun a => !(a.name == name)) = q := by
    intro q hq
    rw [List.filter_eq_self]
    intro a ha
    simpa using hq a ha
  have hfil : ((p1 ++ ⟨name, w⟩ :: p2) ++ ⟨org, v⟩ :: post).filter (fun a => !(a.name == name)) = (p1 ++ p2 ++ [⟨org, v⟩]) ++ post := by
    rw [List.filter_append, List.filter_append, keep p1 hd1, List.filter_cons_of_neg (by simp), keep p2 hd2,
      List.filter_cons_of_pos (by simpa using hne), keep post hd3]
    simp
  unfold renameAttribute
  rw [hidx]
  dsimp only
  rw [hfil]
  unfold setNameAt
  have hlen : p1.length + (p2.length + 1) = (p1 ++ p2 ++ [(⟨org, v⟩ : Attr V)]).length := by simp
  rw [hlen, List.getElem?_append_right (Nat.le_refl _), Nat.sub_self]
  cases post with
  | nil => exact Or.inl ⟨rfl, rfl⟩
  | cons a post =>
    refine Or.inr ⟨_, rfl, ?_⟩
    rw [List.set_append_right _ _ (Nat.le_refl _)]
    simp

/-- Two cases: renaming `standard_name` to an existing `long_name` gives that name to the units; renaming the last attribute is undefined. -/
theorem C70_attribute_wrong_one_renamed :
    renameAttribute [⟨"long_name", 1⟩, ⟨"standard_name", 2⟩, ⟨"units", 3⟩] "standard_name" "long_name" = .ok [⟨"standard_name", 2⟩, ⟨"long_name", 3⟩] ∧
    renameAttribute [⟨"long_name", 1⟩, ⟨"title", 2⟩] "title" "long_name" = .ub ∧
    renameAttribute [⟨"title", 1⟩, ⟨"units", 2⟩] "title" "title" = .ok [⟨"title", 2⟩] := by decide

/-! ### Requests to the wrapped reader -/

theorem set_dims {names : List String} {sizes : List Nat} {b b' : Builder} (h : SB.CS.Good names sizes b) {n : String} {st sz : Nat}
    (he : setStartAndSize b n st sz = (b', .ok ())) : ∀ m, m ∈ b'.setDims ↔ m = n ∨ m ∈ b.setDims := by
  rcases h.set_cases n st sz with e | ⟨p, -, -, -, e⟩
  · rw [e] at he; cases he
  · rw [e] at he
    cases he
    intro m
    dsimp only
    split
    · next hm => exact ⟨Or.inr, fun h => h.elim (fun h => h ▸ hm) id⟩
    · exact List.mem_cons

theorem set_all {names : List String} (hn : names.Nodup) {sizes : List Nat} {b : Builder} (h : SB.CS.Good names sizes b) {i : Nat} {n : String}
    (hi : names[i]? = some n) {mx : Nat} (hm : sizes[i]? = some mx) {st sz : Nat} (hs : wadd st sz ≤ mx) :
    ∃ b', setStartAndSize b n st sz = (b', .ok ()) ∧ SB.CS.Good names sizes b' ∧ getStartAndSize b' n = .ok (st, sz) ∧
      (∀ m, m ≠ n → getStartAndSize b' m = getStartAndSize b m) ∧ ∀ m, m ∈ b'.setDims ↔ m = n ∨ m ∈ b.setDims := by
  have hok := SB.CS.set_ok hn h hi hm hs
  obtain ⟨⟨g1, g2, -, g4⟩, -⟩ := SB.CS.set_frame h n st sz
  have hd : ∀ b', setStartAndSize b n st sz = (b', .ok ()) → ∀ m, m ∈ b'.setDims ↔ m = n ∨ m ∈ b.setDims := fun b' => set_dims h
  generalize setStartAndSize b n st sz = r at hok g1 g2 g4 hd
  obtain ⟨b', res⟩ := r
  dsimp only at hok g1 g2 g4
  subst hok
  exact ⟨b', rfl, g1.1, (g4.resolve_right (by intro h; cases h)).2 n (by simp), fun m hm => g2 m (by simpa using hm), hd b' rfl⟩

/-- The region asked for a dimension of the original variable goes beyond it. -/
def Beyond (ren : String → String) (shape : List String) (sb : Builder) (e : String × Nat) : Prop :=
  ren e.1 ∈ shape ∧ ∃ st sz, getStartAndSize sb (ren e.1) = .ok (st, sz) ∧ e.2 < wadd st sz

theorem mapRegions_spec (ren : String → String) (shape : List String) (sb : Builder) (hs : ∀ n ∈ shape, ∃ x, getStartAndSize sb n = .ok x)
    (org : List (String × Nat)) (ho : (org.map (·.1)).Nodup) :
    ∀ (ds : List (String × Nat)), (∀ e ∈ ds, e ∈ org) → (ds.map (·.1)).Nodup → ∀ b, SB.CS.Good (org.map (·.1)) (org.map (·.2)) b →
    ((∃ e ∈ ds, Beyond ren shape sb e) → mapRegions ren shape sb ds b = .ok none) ∧
    ((∀ e ∈ ds, ¬ Beyond ren shape sb e) → ∃ b', mapRegions ren shape sb ds b = .ok (some b') ∧ SB.CS.Good (org.map (·.1)) (org.map (·.2)) b' ∧
      (∀ m, m ∈ b'.setDims ↔ m ∈ b.setDims ∨ (m ∈ ds.map (·.1) ∧ ren m ∈ shape)) ∧
      (∀ m, m ∈ ds.map (·.1) → ren m ∈ shape → getStartAndSize b' m = getStartAndSize sb (ren m)) ∧
      (∀ m, ¬ (m ∈ ds.map (·.1) ∧ ren m ∈ shape) → getStartAndSize b' m = getStartAndSize b m)) := by
  intro ds
  induction ds with
  | nil => intro _ _ b hg; exact ⟨by simp, fun _ => ⟨b, rfl, hg, by simp, by simp, by simp⟩⟩
  | cons e ds ih =>
    obtain ⟨d, len⟩ := e
    intro hsub hnd b hg
    have hsub' := fun e he => hsub e (List.mem_cons_of_mem _ he)
    rw [List.map_cons, List.nodup_cons] at hnd
    unfold mapRegions
    by_cases hr : ren d ∈ shape
    · rw [if_pos hr]
      obtain ⟨⟨st, sz⟩, hreg⟩ := hs _ hr
      rw [hreg, Res.ok_bind]
      dsimp only
      by_cases hb : len < wadd st sz
      · rw [if_pos hb]
        exact ⟨fun _ => rfl, fun h => absurd ⟨hr, st, sz, hreg, hb⟩ (h (d, len) List.mem_cons_self)⟩
      · rw [if_neg hb]
        obtain ⟨i, hi⟩ := List.getElem?_of_mem (hsub (d, len) List.mem_cons_self)
        obtain ⟨b1, e1, e2, e3, e4, e5⟩ := set_all ho hg (i := i) (n := d) (by simp [hi]) (mx := len) (by simp [hi]) (Nat.le_of_not_lt hb)
        rw [e1]
        dsimp only
        obtain ⟨i1, i2⟩ := ih hsub' hnd.2 b1 e2
        have hnot : ¬ Beyond ren shape sb (d, len) := by
          rintro ⟨-, st', sz', h1, h2⟩
          rw [hreg] at h1
          cases h1
          exact hb h2
        constructor
        · rintro ⟨e, he, hbe⟩
          rcases List.mem_cons.1 he with rfl | he
          · exact absurd hbe hnot
          · exact i1 ⟨e, he, hbe⟩
        · intro h
          obtain ⟨b', f1, f2, f3, f4, f5⟩ := i2 fun e he => h e (List.mem_cons_of_mem _ he)
          refine ⟨b', f1, f2, fun m => ?_, fun m hm hms => ?_, fun m hm => ?_⟩
          · rw [f3, e5, List.map_cons, List.mem_cons]
            constructor
            · rintro ((rfl | h) | ⟨h1, h2⟩)
              · exact Or.inr ⟨Or.inl rfl, hr⟩
              · exact Or.inl h
              · exact Or.inr ⟨Or.inr h1, h2⟩
            · rintro (h | ⟨rfl | h1, h2⟩)
              · exact Or.inl (Or.inr h)
              · exact Or.inl (Or.inl rfl)
              · exact Or.inr ⟨h1, h2⟩
          · rw [List.map_cons, List.mem_cons] at hm
            by_cases hmd : m ∈ ds.map (·.1)
            · exact f4 m hmd hms
            · have := hm.resolve_right hmd
              dsimp only at this
              subst this
              rw [f5 m fun h => hmd h.1, e3, hreg]
          · rw [List.map_cons, List.mem_cons] at hm
            rw [f5 m fun h => hm ⟨Or.inr h.1, h.2⟩, e4 m]
            rintro rfl
            exact hm ⟨Or.inl rfl, hr⟩
    · rw [if_neg hr]
      obtain ⟨i1, i2⟩ := ih hsub' hnd.2 b hg
      constructor
      · rintro ⟨e, he, hbe⟩
        rcases List.mem_cons.1 he with rfl | he
        · exact absurd hbe.1 hr
        · exact i1 ⟨e, he, hbe⟩
      · intro h
        obtain ⟨b', f1, f2, f3, f4, f5⟩ := i2 fun e he => h e (List.mem_cons_of_mem _ he)
        have hiff : ∀ m, (m ∈ (d :: ds.map (·.1)) ∧ ren m ∈ shape) ↔ (m ∈ ds.map (·.1) ∧ ren m ∈ shape) := by
          intro m
          rw [List.mem_cons]
          constructor
          · rintro ⟨rfl | h, h2⟩
            · exact absurd h2 hr
            · exact ⟨h, h2⟩
          · exact fun h => ⟨Or.inr h.1, h.2⟩
        refine ⟨b', f1, f2, fun m => ?_, fun m hm hms => ?_, fun m hm => ?_⟩
        · rw [f3, List.map_cons, hiff]
        · rw [List.map_cons] at hm
          exact f4 m ((hiff m).1 ⟨hm, hms⟩).1 hms
        · rw [List.map_cons, hiff] at hm
          exact f5 m hm

theorem makeMinimal_spec (org : List (String × Nat)) (ho : (org.map (·.1)).Nodup) :
    ∀ (ds : List String), (∀ d ∈ ds, d ∈ org.map (·.1)) → ∀ b, SB.CS.Good (org.map (·.1)) (org.map (·.2)) b →
    ((∃ d ∈ ds, (d, 0) ∈ org) → makeMinimal ds b = .throws) ∧
    ((∀ d ∈ ds, (d, 0) ∉ org) → ∃ b', makeMinimal ds b = .ok b' ∧ SB.CS.Good (org.map (·.1)) (org.map (·.2)) b' ∧
      ∀ m, getStartAndSize b' m = if m ∈ ds then .ok (0, 1) else getStartAndSize b m) := by
  intro ds
  induction ds with
  | nil => intro _ b hg; exact ⟨by simp, fun _ => ⟨b, rfl, hg, by simp⟩⟩
  | cons d ds ih =>
    intro hsub b hg
    obtain ⟨e, he, rfl⟩ := List.mem_map.1 (hsub d List.mem_cons_self)
    obtain ⟨i, hi⟩ := List.getElem?_of_mem he
    unfold makeMinimal
    have hlen : ∀ l, (e.1, l) ∈ org → l = e.2 := by
      intro l hl
      obtain ⟨j, hj⟩ := List.getElem?_of_mem hl
      have h1 := mapGet_zipIdx _ 0 ho i e.1 (by simp [hi])
      have h2 := mapGet_zipIdx _ 0 ho j e.1 (by simp [hj])
      rw [h1] at h2
      have : i = j := by have := Option.some.inj h2; omega
      subst this
      rw [hi] at hj
      have := Option.some.inj hj
      rw [this]
    by_cases hz : e.2 = 0
    · have hth : setStartAndSize b e.1 0 1 = (b, .throws) := by
        rcases hg.set_cases e.1 0 1 with h | ⟨p, hp, hpl, hc, -⟩
        · exact h
        · exfalso
          have h1 := mapGet_zipIdx _ 0 ho i e.1 (by simp [hi])
          rw [hp] at h1
          have : p = i := by have := Option.some.inj h1; omega
          subst this
          apply hc
          constructor
          · rw [List.getD_eq_getElem?_getD, List.getElem?_map, List.getElem?_map, hi]; rfl
          · rw [List.getD_eq_getElem?_getD, List.getElem?_map, hi]
            simp only [Option.map_some, Option.getD_some, hz]
            decide
      rw [hth]
      refine ⟨fun _ => rfl, fun h => absurd ?_ (h e.1 List.mem_cons_self)⟩
      rw [← hz]
      exact he
    · obtain ⟨b1, e1, e2, e3, e4, -⟩ := set_all ho hg (i := i) (n := e.1) (by simp [hi]) (mx := e.2) (by simp [hi]) (st := 0) (sz := 1)
        (by have : wadd 0 1 = 1 := by decide
            omega)
      rw [e1]
      dsimp only
      obtain ⟨i1, i2⟩ := ih (fun d hd => hsub d (List.mem_cons_of_mem _ hd)) b1 e2
      constructor
      · rintro ⟨d, hd, hdo⟩
        rcases List.mem_cons.1 hd with rfl | hd
        · exact absurd (hlen 0 hdo).symm hz
        · exact i1 ⟨d, hd, hdo⟩
      · intro h
        obtain ⟨b', f1, f2, f3⟩ := i2 fun d hd => h d (List.mem_cons_of_mem _ hd)
        refine ⟨b', f1, f2, fun m => ?_⟩
        rw [f3]
        by_cases hm : m ∈ ds
        · rw [if_pos hm, if_pos (List.mem_cons_of_mem _ hm)]
        · rw [if_neg hm]
          by_cases hme : m = e.1
          · subst hme
            rw [if_pos List.mem_cons_self, e3]
          · rw [if_neg (by simp [hme, hm]), e4 m hme]

/-- C70: the request made to the wrapped reader. If the region in some dimension goes beyond the original one the answer is empty; otherwise every original dimension that the
variable still has, under its new name, has exactly the region asked for, and every other dimension is cut to its first place (which raises when it has none). -/
theorem C70_request (ren : String → String) (shape : List String) (sb : Builder) (hs : ∀ n ∈ shape, ∃ x, getStartAndSize sb n = .ok x)
    (org : List (String × Nat)) (ho : (org.map (·.1)).Nodup) :
    ((∃ e ∈ org, Beyond ren shape sb e) → request ren shape sb org = .ok none) ∧
    ((∀ e ∈ org, ¬ Beyond ren shape sb e) → (∃ d, (d, 0) ∈ org ∧ ren d ∉ shape) → request ren shape sb org = .throws) ∧
    ((∀ e ∈ org, ¬ Beyond ren shape sb e) → (∀ d, (d, 0) ∈ org → ren d ∈ shape) → ∃ b, request ren shape sb org = .ok (some b) ∧
      b.dimPos = (org.map (·.1)).zipIdx 0 ∧
      ∀ e ∈ org, getStartAndSize b e.1 = if ren e.1 ∈ shape then getStartAndSize sb (ren e.1) else .ok (0, 1)) := by
  unfold request
  cases hinit : init (org.map (·.1)) (org.map (·.2)) ((org.map (·.1)).map fun _ => false) with
  | throws => simp [init] at hinit
  | ub => simp [init] at hinit
  | ok b0 =>
    rw [Res.ok_bind]
    obtain ⟨hg, -⟩ := SB.CS.init_good ho hinit
    have hsd : b0.setDims = [] := (init_shape hinit).2.1
    obtain ⟨i1, i2⟩ := mapRegions_spec ren shape sb hs org ho org (fun _ h => h) ho b0 hg
    refine ⟨fun h => by rw [i1 h]; rfl, fun h hz => ?_, fun h hz => ?_⟩
    all_goals
      obtain ⟨b1, f1, f2, f3, f4, f5⟩ := i2 h
      rw [f1, Res.ok_bind]
      dsimp only
      have hun : ∀ m, m ∈ getUnsetDimensionNames b1.setDims b1.dimPos ↔ m ∈ org.map (·.1) ∧ ren m ∉ shape := by
        intro m
        have hmem : m ∈ getUnsetDimensionNames b1.setDims b1.dimPos ↔ m ∈ org.map (·.1) ∧ m ∉ b1.setDims := by
          unfold getUnsetDimensionNames
          rw [f2.dp, List.mem_filterMap]
          constructor
          · rintro ⟨e, he, hh⟩
            split at hh
            · cases hh
            · cases hh
              refine ⟨?_, by assumption⟩
              rw [List.mem_zipIdx_iff_getElem?] at he
              exact List.mem_of_getElem? he
          · rintro ⟨hm, hns⟩
            obtain ⟨i, hi⟩ := List.getElem?_of_mem hm
            refine ⟨(m, i), ?_, by rw [if_neg hns]⟩
            rw [List.mem_zipIdx_iff_getElem?]
            exact hi
        rw [hmem, f3, hsd]
        constructor
        · rintro ⟨h1, h2⟩
          exact ⟨h1, fun h3 => h2 (Or.inr ⟨h1, h3⟩)⟩
        · rintro ⟨h1, h2⟩
          refine ⟨h1, ?_⟩
          rintro (h3 | h3)
          · cases h3
          · exact h2 h3.2
      obtain ⟨m1, m2⟩ := makeMinimal_spec org ho (getUnsetDimensionNames b1.setDims b1.dimPos) (fun d hd => ((hun d).1 hd).1) b1 f2
    · obtain ⟨d, hd, hds⟩ := hz
      rw [m1 ⟨d, (hun d).2 ⟨List.mem_map.2 ⟨(d, 0), hd, rfl⟩, hds⟩, hd⟩]
      rfl
    · obtain ⟨b', k1, k2, k3⟩ := m2 fun d hd hdo => ((hun d).1 hd).2 (hz d hdo)
      rw [k1]
      refine ⟨b', rfl, k2.dp, fun e he => ?_⟩
      rw [k3]
      have hem : e.1 ∈ org.map (·.1) := List.mem_map.2 ⟨e, he, rfl⟩
      by_cases hr : ren e.1 ∈ shape
      · rw [if_pos hr, if_neg fun h => ((hun _).1 h).2 hr]
        exact f4 e.1 hem hr
      · rw [if_neg hr, if_pos ((hun _).2 ⟨hem, hr⟩)]

/-- A case with a renamed dimension, one that the variable no longer has, and the three outcomes. -/
theorem C70_request_case :
    ∃ sb, init ["x", "time"] [3, 4] [false, false] = .ok sb ∧
      (∀ n ∈ ["x", "time"], ∃ x, getStartAndSize sb n = .ok x) ∧
      (∃ b, request (Names.get [("t", "time")]) ["x", "time"] (setStartAndSize sb "time" 2 1).1 [("x", 3), ("h", 1), ("t", 4)] = .ok (some b) ∧
        b.start = [0, 0, 2] ∧ b.size = [3, 1, 1]) ∧
      request (Names.get [("t", "time")]) ["x", "time"] (setStartAndSize sb "time" 2 1).1 [("x", 3), ("h", 0), ("t", 4)] = .throws ∧
      request (Names.get [("t", "time")]) ["x", "time"] (setStartAndSize sb "time" 2 1).1 [("x", 3), ("h", 1), ("t", 2)] = .ok none := by
  refine ⟨_, rfl, ?_, ⟨_, rfl, by decide, by decide⟩, by decide, by decide⟩
  intro n hn
  rcases List.mem_cons.1 hn with rfl | hn
  · exact ⟨(0, 3), by decide⟩
  · rw [List.mem_singleton] at hn
    subst hn
    exact ⟨(0, 4), by decide⟩

/-- The consequence of a chain of dimension names: a variable on `x`, renamed to `y` and then to `z`, is asked for its first value only, whatever the request. -/
theorem C70_chain_cuts_dimension :
    ∃ sb b, init ["z"] [3] [false] = .ok sb ∧ request (Names.get [("y", "z"), ("x", "y")]) ["z"] sb [("x", 3)] = .ok (some b) ∧
      sb.size = [3] ∧ b.start = [0] ∧ b.size = [1] := ⟨_, _, rfl, rfl, by decide, by decide, by decide⟩

end Fimex.Ncml
