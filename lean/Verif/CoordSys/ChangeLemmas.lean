import Verif.CoordSys.ChangeModel
import Verif.CoordSys.BestProps
import Verif.Cdm.Invariant

/-! # The dataset after a change of the grid: effect of the calls -/

namespace Fimex.Change

open Cdm CoordSys Cf

variable {V CS Pr T α O P : Type}

/-! ## Single calls -/

theorem after_ok {β : Type} {r : CDM P V CS × Res β} {c : CDM P V CS} (h : after r = .ok c) : ∃ b, r = (c, .ok b) := by
  obtain ⟨d, b⟩ := r
  cases b with
  | ok b =>
    cases h
    exact ⟨b, rfl⟩
  | throws => cases h
  | ub => cases h

theorem modifyFirst_eq (n : String) (f : Var P → Var P) : ∀ (l : List (Var P)), (l.map fun v : Var P => v.name).Nodup →
    modifyFirst n f l = l.map fun v => if v.name = n then f v else v
  | [], _ => rfl
  | v :: l, h => by
    have hc := List.nodup_cons.1 h
    unfold modifyFirst
    by_cases hv : v.name = n
    · rw [if_pos (by simpa using hv), List.map_cons, if_pos hv]
      congr 1
      symm
      rw [List.map_congr_left (g := id), List.map_id]
      intro w hw
      rw [if_neg, id]
      rintro rfl
      exact hc.1 (List.mem_map.2 ⟨w, hw, hv.symm⟩)
    · rw [if_neg (by simpa using hv), List.map_cons, if_neg hv, modifyFirst_eq n f l hc.2]

theorem setFirstLength_eq (n : String) (k : Nat) : ∀ (l : List Dim), (l.map fun d : Dim => d.name).Nodup →
    setFirstLength n k l = l.map fun d => if d.name = n then { d with length := k } else d
  | [], _ => rfl
  | v :: l, h => by
    have hc := List.nodup_cons.1 h
    unfold setFirstLength
    by_cases hv : v.name = n
    · rw [if_pos (by simpa using hv), List.map_cons, if_pos hv]
      congr 1
      symm
      rw [List.map_congr_left (g := id), List.map_id]
      intro w hw
      rw [if_neg, id]
      rintro rfl
      exact hc.1 (List.mem_map.2 ⟨w, hw, hv.symm⟩)
    · rw [if_neg (by simpa using hv), List.map_cons, if_neg hv, setFirstLength_eq n k l hc.2]

theorem getVariable_some {c : CDM P V CS} {n : String} {v : Var P} (h : getVariable c n = .ok v) : v ∈ c.vars ∧ v.name = n := by
  unfold getVariable at h
  cases hf : c.vars.find? fun v => v.name == n with
  | none => rw [hf] at h; cases h
  | some w =>
    rw [hf] at h
    cases h
    exact ⟨List.mem_of_find?_eq_some hf, by simpa using List.find?_some hf⟩

theorem getVariable_no_ub {c : CDM P V CS} {n : String} : getVariable c n ≠ .ub := by
  unfold getVariable
  split <;> simp

theorem getDimension_some {c : CDM P V CS} {n : String} {d : Dim} (h : getDimension c n = .ok d) : d ∈ c.dims ∧ d.name = n := by
  unfold getDimension at h
  cases hf : c.dims.find? fun v => v.name == n with
  | none => rw [hf] at h; cases h
  | some w =>
    rw [hf] at h
    cases h
    exact ⟨List.mem_of_find?_eq_some hf, by simpa using List.find?_some hf⟩

/-- A call changes variables, dimensions and attributes in a known way. -/
structure Is (c : CDM P V CS) (vars : List (Var P)) (dims : List Dim) (attrs : String → Option (List (Attr V))) : Prop where
  vars : c.vars = vars
  dims : c.dims = dims
  attrs : ∀ n, c.attrs n = attrs n

theorem modifyVar_is {c c' : CDM P V CS} {n : String} {f : Var P → Var P} (hnd : (c.vars.map fun v : Var P => v.name).Nodup)
    (h : modifyVar c n f = .ok c') :
    (∃ v ∈ c.vars, v.name = n) ∧ Is c' (c.vars.map fun v => if v.name = n then f v else v) c.dims c.attrs := by
  unfold modifyVar at h
  cases hv : getVariable c n with
  | ok v =>
    rw [hv] at h
    cases h
    exact ⟨⟨v, getVariable_some hv⟩, modifyFirst_eq n f _ hnd, rfl, fun _ => rfl⟩
  | throws => rw [hv] at h; cases h
  | ub => rw [hv] at h; cases h

theorem setLength_is {c c' : CDM P V CS} {n : String} {k : Nat} (hnd : (c.dims.map fun d : Dim => d.name).Nodup)
    (h : setLength n k c = .ok c') :
    (∃ d ∈ c.dims, d.name = n) ∧ Is c' c.vars (c.dims.map fun d => if d.name = n then { d with length := k } else d) c.attrs := by
  unfold setLength at h
  cases hv : getDimension c n with
  | ok v =>
    rw [hv] at h
    cases h
    exact ⟨⟨v, getDimension_some hv⟩, rfl, setFirstLength_eq n k _ hnd, fun _ => rfl⟩
  | throws => rw [hv] at h; cases h
  | ub => rw [hv] at h; cases h

theorem hasVariable_false {c : CDM P V CS} {n : String} : hasVariable c n = false ↔ ∀ v ∈ c.vars, v.name ≠ n := by
  unfold hasVariable
  rw [List.any_eq_false]
  simp

theorem hasVariable_true {c : CDM P V CS} {n : String} : hasVariable c n = true ↔ ∃ v ∈ c.vars, v.name = n := by
  unfold hasVariable
  rw [List.any_eq_true]
  simp

theorem addVariable_is {c c' : CDM P V CS} {v : Var P} (h : after (addVariable c v) = .ok c') :
    (∀ w ∈ c.vars, w.name ≠ v.name) ∧ Is c' (c.vars ++ [v]) c.dims c.attrs := by
  obtain ⟨b, hb⟩ := after_ok h
  unfold addVariable at hb
  dsimp only at hb
  have hsame : hasVariable { c with coordsInitialized := false } v.name = hasVariable c v.name := rfl
  rw [hsame] at hb
  cases hv : hasVariable c v.name with
  | true => rw [hv] at hb; simp at hb
  | false =>
    rw [hv] at hb
    simp only [Bool.not_false, if_true, Prod.mk.injEq] at hb
    rw [← hb.1]
    exact ⟨hasVariable_false.1 hv, rfl, rfl, fun _ => rfl⟩

/-- The attributes with one of them replaced by a last one. -/
def replaced (l : List (Attr V)) (a : Attr V) : List (Attr V) := (l.filter fun b => !(b.name == a.name)) ++ [a]

theorem addOrReplace_is {c c' : CDM P V CS} {n : String} {a : Attr V} (h : after (addOrReplaceAttribute c n a) = .ok c') :
    (n = globalNS ∨ ∃ v ∈ c.vars, v.name = n) ∧
    Is c' c.vars c.dims fun m => if m = n then some (replaced (getAttributes c n) a) else c.attrs m := by
  obtain ⟨b, hb⟩ := after_ok h
  unfold addOrReplaceAttribute at hb
  dsimp only at hb
  by_cases hg : n ≠ globalNS ∧ (!hasVariable { c with coordsInitialized := false } n) = true
  · rw [if_pos hg] at hb
    simp at hb
  · rw [if_neg hg] at hb
    simp only [Prod.mk.injEq] at hb
    rw [← hb.1]
    refine ⟨?_, rfl, rfl, fun m => ?_⟩
    · by_cases h1 : n = globalNS
      · exact .inl h1
      · refine .inr (hasVariable_true.1 ?_)
        have h2 : ¬ (!hasVariable { c with coordsInitialized := false } n) = true := fun h2 => hg ⟨h1, h2⟩
        have hsame : hasVariable { c with coordsInitialized := false } n = hasVariable c n := rfl
        rw [hsame] at h2
        simpa using h2
    · dsimp only
      by_cases hm : m = n
      · subst hm
        simp only [if_true, removeAttribute, getAttributes, replaced]
        cases c.attrs m <;> simp
      · simp [hm, removeAttribute]

theorem addAttribute_is {c c' : CDM P V CS} {n : String} {a : Attr V} {b : Unit} (h : addAttribute c n a = (c', .ok b)) :
    (n = globalNS ∨ ∃ v ∈ c.vars, v.name = n) ∧ (∀ b ∈ getAttributes c n, b.name ≠ a.name) ∧
    Is c' c.vars c.dims fun m => if m = n then some (getAttributes c n ++ [a]) else c.attrs m := by
  unfold addAttribute at h
  dsimp only at h
  by_cases hg : n ≠ globalNS ∧ (!hasVariable { c with coordsInitialized := false } n) = true
  · rw [if_pos hg] at h
    simp at h
  · rw [if_neg hg] at h
    have h0 : n = globalNS ∨ ∃ v ∈ c.vars, v.name = n := by
      by_cases h1 : n = globalNS
      · exact .inl h1
      · refine .inr (hasVariable_true.1 ?_)
        have h2 : ¬ (!hasVariable { c with coordsInitialized := false } n) = true := fun h2 => hg ⟨h1, h2⟩
        have hsame : hasVariable { c with coordsInitialized := false } n = hasVariable c n := rfl
        rw [hsame] at h2
        simpa using h2
    have e1 : ∀ (d : CDM P V CS), getAttributes { d with attrs := fun m => if m = n then some (getAttributes c n) else c.attrs m } n = getAttributes c n := by
      intro d
      simp [getAttributes]
    split at h
    · simp at h
    · rename_i hany
      simp only [Prod.mk.injEq] at h
      rw [← h.1]
      refine ⟨h0, ?_, rfl, rfl, fun m => ?_⟩
      · intro b hb e
        apply hany
        rw [List.any_eq_true]
        refine ⟨b, ?_, by simpa using e⟩
        simpa [getAttributes] using hb
      · dsimp only
        by_cases hm : m = n
        · simp [hm, getAttributes]
        · simp [hm]

theorem addAttributes_is {n : String} : ∀ {l : List (Attr V)} {c c' : CDM P V CS} {b : Unit}, addAttributes c n l = (c', .ok b) →
    (l ≠ [] → n = globalNS ∨ ∃ v ∈ c.vars, v.name = n) ∧ c'.vars = c.vars ∧ c'.dims = c.dims ∧ getAttributes c' n = getAttributes c n ++ l ∧
    (∀ m, m ≠ n → c'.attrs m = c.attrs m)
  | [], c, c', b, h => by
    unfold addAttributes at h
    simp only [Prod.mk.injEq] at h
    rw [← h.1]
    simp
  | a :: l, c, c', b, h => by
    unfold addAttributes at h
    split at h
    · rename_i c1 he
      obtain ⟨h1, -, h2⟩ := addAttribute_is he
      obtain ⟨-, i1, i2, i3, i4⟩ := addAttributes_is h
      refine ⟨fun _ => h1, i1.trans h2.vars, i2.trans h2.dims, ?_, fun m hm => ?_⟩
      · rw [i3]
        have : getAttributes c1 n = getAttributes c n ++ [a] := by
          unfold getAttributes
          rw [h2.attrs]
          simp [getAttributes]
        rw [this, List.append_assoc]
        rfl
      · rw [i4 m hm, h2.attrs, if_neg hm]
    · rename_i r hr hne
      simp only [Prod.mk.injEq] at h
      exact absurd h.2 (by
        rintro rfl
        exact hr rfl)

theorem addAttributes_after {n : String} {l : List (Attr V)} {c c' : CDM P V CS} (h : after (addAttributes c n l) = .ok c') :
    (l ≠ [] → n = globalNS ∨ ∃ v ∈ c.vars, v.name = n) ∧ c'.vars = c.vars ∧ c'.dims = c.dims ∧ getAttributes c' n = getAttributes c n ++ l ∧
    (∀ m, m ≠ n → c'.attrs m = c.attrs m) := by
  obtain ⟨b, hb⟩ := after_ok h
  exact addAttributes_is hb

theorem removeDimension_is {c c' : CDM P V CS} {n : String} (h : after (removeDimension c n false) = .ok c') :
    ((∃ d ∈ c.dims, d.name = n) → ∀ v ∈ c.vars, n ∉ v.shape) ∧ Is c' c.vars (c.dims.filter fun d => !(d.name == n)) c.attrs := by
  obtain ⟨b, hb⟩ := after_ok h
  unfold removeDimension at hb
  by_cases hu : testDimensionInUse c n = true
  · rw [if_pos (by simpa using hu)] at hb
    simp at hb
  · rw [if_neg (by simpa using hu)] at hb
    constructor
    · rintro ⟨d, hd, he⟩ v hv hn
      apply hu
      rw [testDimensionInUse_iff]
      refine ⟨?_, ?_⟩
      · rw [hasDimension_iff]
        exact he ▸ List.mem_map_of_mem (f := fun d : Dim => d.name) hd
      · exact ⟨v, hv, hn⟩
    · by_cases hd : hasDimension c n = true
      · rw [if_pos hd] at hb
        simp only [Prod.mk.injEq] at hb
        rw [← hb.1]
        exact ⟨rfl, rfl, fun _ => rfl⟩
      · rw [if_neg hd] at hb
        simp only [Prod.mk.injEq] at hb
        rw [← hb.1]
        refine ⟨rfl, (filter_ne_self c n (by simpa using hd)).symm, fun _ => rfl⟩

/-! ## Loop over the systems -/

/-- A variable with the dimensions renamed, if it is to be interpolated. -/
def adapt (m0 : List (String × String)) (σ : String → String) (v : Var P) : Var P :=
  if m0.any fun p => p.1 == v.name then { v with shape := v.shape.map σ } else v

theorem adapt_name (m0 : List (String × String)) (σ : String → String) (v : Var P) : (adapt m0 σ v).name = v.name := by
  unfold adapt
  split <;> rfl

theorem adapt_length (m0 : List (String × String)) (σ : String → String) (v : Var P) : (adapt m0 σ v).shape.length = v.shape.length := by
  unfold adapt
  split <;> simp

/-- The state of the loop in terms of the state before. -/
structure Rep (c0 : CDM P V CS) (m0 : List (String × String)) (gone : String → Bool) (σ : String → String) (lost : String → Bool)
    (c : CDM P V CS) (m : List (String × String)) : Prop where
  vars : c.vars = (c0.vars.filter fun v => !gone v.name).map (adapt m0 σ)
  attrs : ∀ n, c.attrs n = if gone n then none else c0.attrs n
  dims : c.dims = c0.dims.filter fun d => !lost d.name
  mapped : m = m0.filter fun p => !gone p.1

variable {c0 c c' : CDM P V CS} {m0 m m' : List (String × String)} {gone lost : String → Bool} {σ : String → String}

theorem adapt_id (m0 : List (String × String)) (v : Var P) : adapt m0 id v = v := by
  unfold adapt
  split
  · simp
  · rfl

theorem rep_start (c0 : CDM P V CS) (m0 : List (String × String)) : Rep c0 m0 (fun _ => false) id (fun _ => false) c0 m0 where
  vars := by
    rw [List.filter_eq_self.2 (by simp), List.map_congr_left (g := id) (fun v _ => adapt_id m0 v), List.map_id]
  attrs n := by simp
  dims := by rw [List.filter_eq_self.2 (by simp)]
  mapped := by rw [List.filter_eq_self.2 (by simp)]

theorem Rep.mem (h : Rep c0 m0 gone σ lost c m) {v : Var P} : v ∈ c.vars ↔ ∃ w ∈ c0.vars, gone w.name = false ∧ v = adapt m0 σ w := by
  rw [h.vars, List.mem_map]
  simp only [List.mem_filter, Bool.not_eq_true']
  constructor
  · rintro ⟨w, ⟨h1, h2⟩, rfl⟩
    exact ⟨w, h1, h2, rfl⟩
  · rintro ⟨w, h1, h2, rfl⟩
    exact ⟨w, ⟨h1, h2⟩, rfl⟩

theorem Rep.names (h : Rep c0 m0 gone σ lost c m) : (c.vars.map fun v : Var P => v.name) = (c0.vars.filter fun v => !gone v.name).map fun v : Var P => v.name := by
  rw [h.vars, List.map_map]
  exact List.map_congr_left fun v _ => adapt_name m0 σ v

theorem Rep.nodup (h : Rep c0 m0 gone σ lost c m) (h0 : (c0.vars.map fun v : Var P => v.name).Nodup) : (c.vars.map fun v : Var P => v.name).Nodup := by
  rw [h.names]
  exact h0.sublist (List.filter_sublist.map _)

theorem Rep.drop (h : Rep c0 m0 gone σ lost c m) (k : String) :
    Rep c0 m0 (fun n => gone n || n == k) σ lost (Change.drop (c, m) k).1 (Change.drop (c, m) k).2 where
  vars := by
    show (c.vars.filter fun v => !(v.name == k)) = _
    rw [h.vars, List.filter_map, List.filter_filter]
    congr 1
    refine List.filter_congr fun v _ => ?_
    simp only [Function.comp_apply, adapt_name, Bool.not_or]
    rw [Bool.and_comm]
  attrs n := by
    show (if n = k then none else c.attrs n) = _
    rw [h.attrs]
    by_cases hn : n = k <;> simp [hn]
  dims := h.dims
  mapped := by
    show (m.filter fun p => p.1 ≠ k) = _
    rw [h.mapped, List.filter_filter]
    refine List.filter_congr fun v _ => ?_
    rw [Bool.and_comm, Bool.not_or]
    congr 1
    by_cases hn : v.1 = k <;> simp [hn]

theorem Rep.congr {gone' lost' : String → Bool} {σ' : String → String} (h : Rep c0 m0 gone σ lost c m) (hg : ∀ n, gone n = gone' n)
    (hs : ∀ n, σ n = σ' n) (hl : ∀ n, lost n = lost' n) : Rep c0 m0 gone' σ' lost' c m := by
  have e1 : gone = gone' := funext hg
  have e2 : σ = σ' := funext hs
  have e3 : lost = lost' := funext hl
  subst e1 e2 e3
  exact h

theorem Rep.dropAll : ∀ (ns : List String) {gone : String → Bool} {c : CDM P V CS} {m : List (String × String)}, Rep c0 m0 gone σ lost c m →
    Rep c0 m0 (fun n => gone n || ns.contains n) σ lost (ns.foldl Change.drop (c, m)).1 (ns.foldl Change.drop (c, m)).2
  | [], gone, c, m, h => h.congr (by simp) (fun _ => rfl) (fun _ => rfl)
  | k :: ns, gone, c, m, h => by
    rw [List.foldl_cons]
    refine (Rep.dropAll ns (h.drop k)).congr (fun n => ?_) (fun _ => rfl) (fun _ => rfl)
    rw [List.contains_cons, Bool.or_assoc]

/-- The variables with the parameters of a projection. -/
def isMapping (L : Lib V Pr) (c : CDM P V CS) (n : String) : Bool :=
  (findVariables c [("grid_mapping_name", fun v => dotStar (L.text v))] []).contains n

theorem findVariables_one (L : Lib V Pr) (c : CDM P V CS) :
    findVariables c [("grid_mapping_name", fun v => dotStar (L.text v))] [] =
      (c.vars.filter fun v => checkVariableAttribute c v.name "grid_mapping_name" fun v => dotStar (L.text v)).map fun v : Var P => v.name := by
  unfold findVariables
  induction c.vars with
  | nil => rfl
  | cons v l ih =>
    rw [List.filterMap_cons, ih]
    cases hc : checkVariableAttribute c v.name "grid_mapping_name" fun v => dotStar (L.text v) with
    | true =>
      rw [List.filter_cons, if_pos hc]
      simp [List.find?, hc]
    | false =>
      rw [List.filter_cons, if_neg (by rw [hc]; simp)]
      simp [List.find?, hc]

theorem isMapping_iff (L : Lib V Pr) (c : CDM P V CS) (n : String) :
    isMapping L c n = true ↔ (∃ v ∈ c.vars, v.name = n) ∧ checkVariableAttribute c n "grid_mapping_name" (fun v => dotStar (L.text v)) = true := by
  unfold isMapping
  rw [findVariables_one, List.contains_iff_mem, List.mem_map]
  simp only [List.mem_filter]
  constructor
  · rintro ⟨v, ⟨h1, h2⟩, rfl⟩
    exact ⟨⟨v, h1, rfl⟩, h2⟩
  · rintro ⟨⟨v, h1, rfl⟩, h2⟩
    exact ⟨v, ⟨h1, h2⟩, rfl⟩

theorem Rep.isMapping (h : Rep c0 m0 gone σ lost c m) (L : Lib V Pr) (n : String) :
    (gone n || Change.isMapping L c n) = (gone n || Change.isMapping L c0 n) := by
  cases hg : gone n with
  | true => rfl
  | false =>
    rw [Bool.false_or, Bool.false_or, Bool.eq_iff_iff, isMapping_iff, isMapping_iff]
    have e : checkVariableAttribute c n "grid_mapping_name" (fun v => dotStar (L.text v)) =
        checkVariableAttribute c0 n "grid_mapping_name" fun v => dotStar (L.text v) := by
      unfold checkVariableAttribute
      rw [h.attrs, hg]
      rfl
    rw [e]
    refine and_congr_left fun _ => ?_
    constructor
    · rintro ⟨v, hv, hn⟩
      obtain ⟨w, hw, -, rfl⟩ := h.mem.1 hv
      exact ⟨w, hw, by rwa [adapt_name] at hn⟩
    · rintro ⟨w, hw, rfl⟩
      exact ⟨_, h.mem.2 ⟨w, hw, hg, rfl⟩, adapt_name _ _ _⟩

theorem Rep.dropMappings (h : Rep c0 m0 gone σ lost c m) (L : Lib V Pr) (s : System Pr) :
    Rep c0 m0 (fun n => gone n || (s.proj.isSome && Change.isMapping L c0 n)) σ lost (Change.dropMappings L s c m).1 (Change.dropMappings L s c m).2 := by
  unfold Change.dropMappings
  cases hp : s.proj.isSome with
  | true =>
    rw [if_pos rfl]
    refine (h.dropAll _).congr (fun n => ?_) (fun _ => rfl) (fun _ => rfl)
    rw [Bool.true_and]
    exact h.isMapping L n
  | false =>
    rw [if_neg (by simp)]
    exact h.congr (by simp) (fun _ => rfl) (fun _ => rfl)

/-- Name of the latitude or of the longitude of a system that has both. -/
def isLonLat (s : System Pr) (n : String) : Bool :=
  match findAxisOfType s.axes .lat, findAxisOfType s.axes .lon with
  | some a, some b => n == a.name || n == b.name
  | _, _ => false

theorem hasAxisType_eq (s : System Pr) (t : AxisType) : hasAxisType s t = (findAxisOfType s.axes t).isSome := by
  unfold hasAxisType findAxisOfType
  cases findType t s.axes.axes <;> rfl

theorem Rep.dropLonLat (h : Rep c0 m0 gone σ lost c m) (s : System Pr) :
    Rep c0 m0 (fun n => gone n || isLonLat s n) σ lost (Change.dropLonLat s c m).1 (Change.dropLonLat s c m).2 := by
  unfold Change.dropLonLat isLonLat
  rw [hasAxisType_eq, hasAxisType_eq]
  cases findAxisOfType s.axes .lat with
  | none => exact h.congr (by simp) (fun _ => rfl) (fun _ => rfl)
  | some a =>
    cases findAxisOfType s.axes .lon with
    | none => exact h.congr (by simp) (fun _ => rfl) (fun _ => rfl)
    | some b =>
      refine ((h.drop a.name).drop b.name).congr (fun n => ?_) (fun _ => rfl) (fun _ => rfl)
      simp only [Bool.or_assoc]

theorem replace_replace (ox nx oy ny : String) (sh : List String) :
    replace oy ny (replace ox nx sh) = sh.map fun d => (fun d => if d = oy then ny else d) (if d = ox then nx else d) := by
  unfold replace
  rw [List.map_map]
  rfl

theorem reshapeAll_is (ox nx oy ny : String) : ∀ (m : List (String × String)) {c c' : CDM P V CS}, (m.map (·.1)).Nodup →
    (c.vars.map fun v : Var P => v.name).Nodup → reshapeAll ox nx oy ny m c = .ok c' →
    Is c' (c.vars.map (adapt m fun d => (fun d => if d = oy then ny else d) (if d = ox then nx else d))) c.dims c.attrs
  | [], c, c', _, _, h => by
    unfold reshapeAll at h
    cases h
    refine ⟨?_, rfl, fun _ => rfl⟩
    rw [List.map_congr_left (g := id) (fun v _ => by simp [adapt]), List.map_id]
  | p :: m, c, c', hm, hnd, h => by
    unfold reshapeAll at h
    obtain ⟨c1, h1, h2⟩ := Res.bind_eq_ok.1 h
    obtain ⟨-, i1⟩ := modifyVar_is hnd h1
    have hmc := List.nodup_cons.1 hm
    have hnd1 : (c1.vars.map fun v : Var P => v.name).Nodup := by
      rw [i1.vars, List.map_map]
      rw [List.map_congr_left (g := fun v : Var P => v.name)]
      · exact hnd
      · intro v _
        simp only [Function.comp_apply]
        split <;> rfl
    obtain ⟨j1, j2, j3⟩ := reshapeAll_is ox nx oy ny m hmc.2 hnd1 h2
    refine ⟨?_, j2.trans i1.dims, fun n => (j3 n).trans (i1.attrs n)⟩
    rw [j1, i1.vars, List.map_map]
    refine List.map_congr_left fun v _ => ?_
    simp only [Function.comp_apply, replace_replace]
    unfold adapt
    by_cases hv : v.name = p.1
    · have hn : (m.any fun q => q.1 == p.1) = false := by
        rw [List.any_eq_false]
        intro q hq e
        exact hmc.1 (List.mem_map.2 ⟨q, hq, by simpa using e⟩)
      simp [hv, hn]
    · have hv' : (p.1 == v.name) = false := by simpa using fun e => hv e.symm
      simp only [if_neg hv, List.any_cons, hv', Bool.false_or]

theorem Rep.reshape (h : Rep c0 m0 gone σ lost c m) (h0 : (c0.vars.map fun v : Var P => v.name).Nodup) (hm0 : (m0.map (·.1)).Nodup)
    {ox nx oy ny : String} (hr : reshapeAll ox nx oy ny m c = .ok c') :
    Rep c0 m0 gone (fun d => (fun d => if d = oy then ny else d) (if σ d = ox then nx else σ d)) lost c' m := by
  have hm : (m.map (·.1)).Nodup := by
    rw [h.mapped]
    exact hm0.sublist (List.filter_sublist.map _)
  obtain ⟨i1, i2, i3⟩ := reshapeAll_is ox nx oy ny m hm (h.nodup h0) hr
  refine ⟨?_, fun n => (i3 n).trans (h.attrs n), i2.trans h.dims, h.mapped⟩
  rw [i1, h.vars, List.map_map]
  refine List.map_congr_left fun v hv => ?_
  have hg : gone v.name = false := by simpa using (List.mem_filter.1 hv).2
  have e : (m.any fun p => p.1 == v.name) = m0.any fun p => p.1 == v.name := by
    rw [h.mapped, List.any_filter]
    congr 1
    funext p
    cases hp : p.1 == v.name with
    | false => simp
    | true =>
      rw [show p.1 = v.name by simpa using hp, hg]
      rfl
  simp only [Function.comp_apply]
  unfold adapt
  cases hc : m0.any fun p => p.1 == v.name with
  | true =>
    rw [hc] at e
    simp [e]
  | false =>
    rw [hc] at e
    simp [e]

theorem Rep.dropDims (h : Rep c0 m0 gone σ lost c m) {ox oy nx : String} (hne : ox ≠ nx) (hr : Change.dropDims ox oy nx c = .ok c') :
    Rep c0 m0 gone σ (fun n => lost n || n == ox || n == oy) c' m ∧
    (∀ d, (d = ox ∨ d = oy) → (∃ e ∈ c0.dims, e.name = d) → lost d = false → ∀ v ∈ c.vars, d ∉ v.shape) := by
  unfold Change.dropDims at hr
  rw [if_pos hne] at hr
  obtain ⟨c1, h1, h2⟩ := Res.bind_eq_ok.1 hr
  obtain ⟨u1, i1⟩ := removeDimension_is h1
  obtain ⟨u2, i2⟩ := removeDimension_is h2
  refine ⟨⟨i2.vars.trans (i1.vars.trans h.vars), fun n => (i2.attrs n).trans ((i1.attrs n).trans (h.attrs n)), ?_, h.mapped⟩, ?_⟩
  · rw [i2.dims, i1.dims, h.dims, List.filter_filter, List.filter_filter]
    refine List.filter_congr fun d _ => ?_
    cases lost d.name <;> cases d.name == ox <;> cases d.name == oy <;> rfl
  · rintro d hd ⟨e, he, rfl⟩ hl v hv
    by_cases hx : e.name = ox
    · rw [hx]
      refine u1 ⟨e, ?_, hx⟩ v hv
      rw [h.dims, List.mem_filter]
      exact ⟨he, by simpa using hl⟩
    · have hy : e.name = oy := hd.resolve_left hx
      rw [hy]
      refine u2 ⟨e, ?_, hy⟩ v (by rw [i1.vars]; exact hv)
      rw [i1.dims, List.mem_filter, h.dims, List.mem_filter]
      exact ⟨⟨he, by simpa using hl⟩, by simpa using hx⟩

end Fimex.Change
