import Verif.CoordSys.CfLemmas
import Verif.Cdm.Invariant

/-!
# The coordinate systems of a dataset

C95: which coordinate systems a CF dataset has and which variables they are for.
-/

namespace Fimex.Cf

open Cdm CoordSys

variable {P V CS Pr : Type}

/-! ## Specification -/

section Spec

variable (L : Lib V Pr) (c : CDM P V CS)

/-- `n` is named in the attribute `coordinates` of the variable `v`. -/
def Listed (v n : String) : Prop := ∃ t, attrText L c v "coordinates" = some t ∧ Word t n

/-- The names of the axes of a variable: its dimensions and its coordinates. -/
def AxisName (v : Var P) (n : String) : Prop := n ∈ v.shape ∨ Listed L c v.name n

/-- The axes of a dataset: the dimensions and all names in an attribute `coordinates` (on one line). -/
def IsAxis (n : String) : Prop :=
  (∃ d ∈ c.dims, d.name = n) ∨
  ∃ v ∈ c.vars, ∃ t, attrText L c v.name "coordinates" = some t ∧ ('\n' ∉ t.toList ∧ '\r' ∉ t.toList) ∧ Word t n

/-- A dimension of a variable that is an axis and not listed as coordinate. -/
def MainName (v : Var P) (n : String) : Prop := n ∈ v.shape ∧ ¬ Listed L c v.name n ∧ IsAxis L c n

/-- The type of an axis is known and it is that of the other. -/
def TypesEqual (n m : String) : Prop := axisType L c n = axisType L c m ∧ axisType L c n ≠ .undefined

/-- Two dimensions of a variable have the same type. -/
def Clash (v : Var P) : Prop := ∃ n m, n ≠ m ∧ MainName L c v n ∧ MainName L c v m ∧ TypesEqual L c n m

/-- A coordinate of a variable that is not dropped: no dimension with an earlier name has its type. -/
def AuxName (v : Var P) (n : String) : Prop :=
  Listed L c v.name n ∧ IsAxis L c n ∧ ∀ m, MainName L c v m → m < n → ¬ TypesEqual L c n m

/-- The axis of a given name. -/
structure AxisFor (a : Axis) (n : String) : Prop where
  name : a.name = n
  type : a.type = axisType L c n
  isExplicit : a.isExplicit = true ↔ ∃ d ∈ c.dims, d.name = n
  shapeVar : ∀ v ∈ c.vars, v.name = n → a.shape = v.shape
  shapeNone : (∀ v ∈ c.vars, v.name ≠ n) → a.shape = [n]

/-- The axes of a coordinate system are those of a variable. -/
structure AxesOf (s : System Pr) (v : Var P) : Prop where
  main : ∀ n, (∃ a ∈ s.axes.axes, a.name = n) ↔ MainName L c v n
  aux : ∀ n, (∃ a ∈ s.axes.aux, a.name = n) ↔ AuxName L c v n
  known : ∀ a ∈ getAxes s.axes, AxisFor L c a a.name

end Spec

/-! ## Axes -/

variable {L : Lib V Pr} {c : CDM P V CS}

theorem attrText_of_check {p : V → Bool} {n a : String} (h : checkVariableAttribute c n a p = true) :
    ∃ v, p v = true ∧ attrText L c n a = some (L.text v) := by
  unfold checkVariableAttribute at h
  unfold attrText getAttribute
  cases hc : c.attrs n with
  | none => rw [hc] at h; cases h
  | some l =>
    rw [hc] at h
    dsimp only at h ⊢
    cases hf : l.find? fun b => b.name == a with
    | none => rw [hf] at h; cases h
    | some b =>
      rw [hf] at h
      exact ⟨b.value, h, rfl⟩

theorem check_of_attrText {p : V → Bool} {n a t : String} (h : attrText L c n a = some t)
    (hp : ∀ v, L.text v = t → p v = true) : checkVariableAttribute c n a p = true := by
  unfold attrText getAttribute at h
  unfold checkVariableAttribute
  cases hc : c.attrs n with
  | none => rw [hc] at h; cases h
  | some l =>
    rw [hc] at h
    dsimp only at h ⊢
    cases hf : l.find? fun b => b.name == a with
    | none => rw [hf] at h; cases h
    | some b =>
      rw [hf] at h
      exact hp _ (Option.some.inj h)

theorem dotStar_iff {t : String} : dotStar t = true ↔ '\n' ∉ t.toList ∧ '\r' ∉ t.toList := by
  unfold dotStar
  rw [List.all_eq_true]
  constructor
  · intro h
    exact ⟨fun hm => by simpa using h _ hm, fun hm => by simpa using h _ hm⟩
  · rintro ⟨h1, h2⟩ x hx
    simp only [ne_eq, decide_eq_true_eq]
    exact ⟨fun e => h1 (e ▸ hx), fun e => h2 (e ▸ hx)⟩

theorem mem_dimNames {ds : List Dim} {s : List String} {n : String} :
    n ∈ ds.foldl (fun s d => setInsert d.name s) s ↔ (∃ d ∈ ds, d.name = n) ∨ n ∈ s := by
  induction ds generalizing s with
  | nil => simp
  | cons d ds ih =>
    rw [List.foldl_cons, ih, mem_setInsert]
    simp only [List.mem_cons, exists_eq_or_imp]
    constructor
    · rintro (h | h | h)
      · exact Or.inl (Or.inr h)
      · exact Or.inl (Or.inl h.symm)
      · exact Or.inr h
    · rintro ((h | h) | h)
      · exact Or.inr (Or.inl h.symm)
      · exact Or.inl h
      · exact Or.inr (Or.inr h)

theorem mem_findCoordinates {n : String} :
    n ∈ findVariables c [("coordinates", fun v => dotStar (L.text v))] [] ↔
      (∃ v ∈ c.vars, v.name = n) ∧ checkVariableAttribute c n "coordinates" (fun v => dotStar (L.text v)) = true := by
  unfold findVariables
  rw [List.mem_filterMap]
  constructor
  · rintro ⟨v, hv, h⟩
    cases hc : checkVariableAttribute c v.name "coordinates" fun v => dotStar (L.text v) with
    | false => simp [hc] at h
    | true =>
      simp [hc] at h
      subst h
      exact ⟨⟨v, hv, rfl⟩, hc⟩
  · rintro ⟨⟨v, hv, rfl⟩, hc⟩
    exact ⟨v, hv, by simp [hc]⟩

theorem mem_allAxesNames {n : String} : n ∈ allAxesNames L c ↔ IsAxis L c n := by
  unfold allAxesNames IsAxis
  rw [mem_insertAll, mem_dimNames, List.mem_flatMap]
  simp only [List.not_mem_nil, or_false]
  rw [or_comm]
  refine or_congr_right ⟨?_, ?_⟩
  · rintro ⟨m, hm, hn⟩
    obtain ⟨⟨v, hv, rfl⟩, hc⟩ := mem_findCoordinates.1 hm
    obtain ⟨x, hx, ht⟩ := attrText_of_check (L := L) hc
    rw [ht] at hn
    exact ⟨v, hv, _, ht, dotStar_iff.1 hx, mem_blankWords.1 hn⟩
  · rintro ⟨v, hv, t, ht, hl, hw⟩
    refine ⟨v.name, mem_findCoordinates.2 ⟨⟨v, hv, rfl⟩, check_of_attrText ht ?_⟩, ?_⟩
    · intro x hx
      rw [hx]
      exact dotStar_iff.2 hl
    · rw [ht]
      exact mem_blankWords.2 hw

theorem axisOf_isSome {n : String} : (axisOf L c n).isSome = true ↔ IsAxis L c n := by
  unfold axisOf
  by_cases h : n ∈ allAxesNames L c
  · rw [if_pos h]
    exact ⟨fun _ => mem_allAxesNames.1 h, fun _ => rfl⟩
  · rw [if_neg h]
    exact ⟨fun h => (by cases h), fun h' => absurd (mem_allAxesNames.2 h') h⟩

theorem axisOf_name {n : String} {a : Axis} (h : axisOf L c n = some a) : a.name = n := by
  unfold axisOf at h
  by_cases hm : n ∈ allAxesNames L c
  · rw [if_pos hm] at h; cases h; rfl
  · rw [if_neg hm] at h; cases h

theorem axisOf_type {n : String} {a : Axis} (h : axisOf L c n = some a) : a.type = axisType L c n := by
  unfold axisOf at h
  by_cases hm : n ∈ allAxesNames L c
  · rw [if_pos hm] at h; cases h; rfl
  · rw [if_neg hm] at h; cases h

theorem getVariable_ok (hnd : (c.vars.map fun v : Var P => v.name).Nodup) {v : Var P} (hv : v ∈ c.vars) : getVariable c v.name = .ok v := by
  unfold getVariable
  cases hf : c.vars.find? fun w => w.name == v.name with
  | none =>
    rw [List.find?_eq_none] at hf
    exact absurd (hf v hv) (by simp)
  | some w =>
    have hw := List.mem_of_find?_eq_some hf
    have hn : w.name = v.name := by simpa using List.find?_some hf
    have : w = v := List.inj_on_of_nodup_map hnd hw hv hn
    rw [this]

theorem axisOf_for (hnd : (c.vars.map fun v : Var P => v.name).Nodup) {n : String} {a : Axis} (h : axisOf L c n = some a) : AxisFor L c a n := by
  unfold axisOf at h
  by_cases hm : n ∈ allAxesNames L c
  · rw [if_pos hm] at h
    cases h
    refine ⟨rfl, rfl, by simp, ?_, ?_⟩
    · rintro v hv rfl
      simp only [getVariable_ok hnd hv]
    · intro hno
      have : getVariable c n = .throws := by
        unfold getVariable
        have : (c.vars.find? fun w => w.name == n) = none := by
          rw [List.find?_eq_none]
          intro w hw
          simpa using hno w hw
        rw [this]
      simp only [this]
  · rw [if_neg hm] at h; cases h

theorem nodup_axesNames (L : Lib V Pr) (c : CDM P V CS) (v : Var P) : (axesNames L c v).Nodup :=
  nodup_of_sorted (sorted_axesNames L c v)

theorem mem_mains {v : Var P} {a : Axis} :
    a ∈ ((axesNames L c v).filterMap (axisOf L c)).filter (fun a => a.name ∉ coordinateNames L c v.name) ↔
      MainName L c v a.name ∧ axisOf L c a.name = some a := by
  rw [List.mem_filter, List.mem_filterMap]
  simp only [decide_eq_true_eq]
  constructor
  · rintro ⟨⟨n, hn, ha⟩, hc⟩
    have hna := axisOf_name ha
    subst hna
    refine ⟨⟨?_, fun h => hc (mem_coordinateNames.2 h), ?_⟩, ha⟩
    · rcases mem_axesNames.1 hn with h | h
      · exact h
      · exact absurd (mem_coordinateNames.2 h) hc
    · rw [← axisOf_isSome, ha]; rfl
  · rintro ⟨⟨h1, h2, h3⟩, ha⟩
    exact ⟨⟨a.name, mem_axesNames.2 (Or.inl h1), ha⟩, fun h => h2 (mem_coordinateNames.1 h)⟩

theorem pairwise_iff_of_names {l : List Axis} (hnd : (l.map (·.name)).Nodup) :
    l.Pairwise (fun a b => ¬ SameType a b) ↔ ∀ a ∈ l, ∀ b ∈ l, a.name ≠ b.name → ¬ SameType a b := by
  induction l with
  | nil => simp
  | cons x l ih =>
    rw [List.map_cons, List.nodup_cons] at hnd
    rw [List.pairwise_cons, ih hnd.2]
    constructor
    · rintro ⟨h1, h2⟩ a ha b hb hne hs
      rcases List.mem_cons.1 ha with ea | ha'
      · rcases List.mem_cons.1 hb with eb | hb'
        · exact hne (by rw [ea, eb])
        · exact h1 b hb' (ea ▸ hs)
      · rcases List.mem_cons.1 hb with eb | hb'
        · exact h1 a ha' (eb ▸ ⟨hs.1.symm, hs.1 ▸ hs.2⟩)
        · exact h2 a ha' b hb' hne hs
    · intro h
      refine ⟨fun a ha hs => h x List.mem_cons_self a (List.mem_cons_of_mem _ ha) ?_ hs,
        fun a ha b hb => h a (List.mem_cons_of_mem _ ha) b (List.mem_cons_of_mem _ hb)⟩
      intro he
      exact hnd.1 (he ▸ List.mem_map_of_mem ha)

theorem nodup_filterMap_names {ns : List String} (h : ns.Nodup) (find : String → Option Axis)
    (hf : ∀ n a, find n = some a → a.name = n) : ((ns.filterMap find).map (·.name)).Nodup := by
  induction ns with
  | nil => simp
  | cons n ns ih =>
    obtain ⟨h1, h2⟩ := List.nodup_cons.1 h
    cases e : find n with
    | none => rw [List.filterMap_cons_none e]; exact ih h2
    | some a =>
      rw [List.filterMap_cons_some e, List.map_cons, List.nodup_cons]
      refine ⟨?_, ih h2⟩
      intro hm
      obtain ⟨b, hb, hbn⟩ := List.mem_map.1 hm
      obtain ⟨m, hm', hbm⟩ := List.mem_filterMap.1 hb
      rw [hf n a e, hf m b hbm] at hbn
      exact h1 (hbn ▸ hm')

/-- The axes of the system of a variable, or an exception. -/
theorem addAxes_var (hnd : (c.vars.map fun v : Var P => v.name).Nodup) (v : Var P) :
    (¬ Clash L c v → ∃ axes, addAxes (axisOf L c) (coordinateNames L c v.name) ⟨[], []⟩ (axesNames L c v) = .ok axes ∧
      ∀ s : System Pr, s.axes = axes → AxesOf L c s v) ∧
    (Clash L c v → addAxes (axisOf L c) (coordinateNames L c v.name) ⟨[], []⟩ (axesNames L c v) = .throws) := by
  obtain ⟨h1, h2⟩ := addAxes_spec (axisOf L c) (fun n a h => axisOf_name h) (coordinateNames L c v.name) (axesNames L c v)
    ⟨[], []⟩ (nodup_axesNames L c v) (by simp [getAxes]) List.Pairwise.nil
  simp only [List.nil_append] at h1 h2
  have hmn : ∀ n, MainName L c v n → ∃ a, axisOf L c n = some a := by
    intro n hn
    exact Option.isSome_iff_exists.1 (axisOf_isSome.2 hn.2.2)
  have hiff : (((axesNames L c v).filterMap (axisOf L c)).filter fun a => a.name ∉ coordinateNames L c v.name).Pairwise
      (fun a b => ¬ SameType a b) ↔ ¬ Clash L c v := by
    rw [pairwise_iff_of_names (by
      have := nodup_filterMap_names (nodup_axesNames L c v) (axisOf L c) fun n a h => axisOf_name h
      exact this.sublist (List.filter_sublist.map _))]
    constructor
    · rintro h ⟨n, m, hne, hn, hm, ht⟩
      obtain ⟨a, ha⟩ := hmn n hn
      obtain ⟨b, hb⟩ := hmn m hm
      have han := axisOf_name ha
      have hbn := axisOf_name hb
      refine h a (mem_mains.2 ⟨han ▸ hn, han.symm ▸ ha⟩) b (mem_mains.2 ⟨hbn ▸ hm, hbn.symm ▸ hb⟩) (by rw [han, hbn]; exact hne) ?_
      unfold SameType
      rw [axisOf_type ha, axisOf_type hb]
      exact ht
    · intro h a ha b hb hne hs
      obtain ⟨ha1, ha2⟩ := mem_mains.1 ha
      obtain ⟨hb1, hb2⟩ := mem_mains.1 hb
      refine h ⟨a.name, b.name, hne, ha1, hb1, ?_⟩
      unfold TypesEqual
      rw [← axisOf_type ha2, ← axisOf_type hb2]
      exact hs
  refine ⟨fun hc => ?_, fun hc => h2 (fun h => hiff.1 h hc)⟩
  obtain ⟨axes, e, hm, haux⟩ := h1 (hiff.2 hc)
  refine ⟨axes, e, ?_⟩
  rintro s rfl
  have aux' : ∀ a, a ∈ s.axes.aux ↔ AuxName L c v a.name ∧ axisOf L c a.name = some a := by
    intro a
    rw [haux a]
    simp only [List.not_mem_nil, false_or]
    constructor
    · rintro ⟨pre, post, hns, ha, hcn, hk⟩
      refine ⟨⟨mem_coordinateNames.1 hcn, by rw [← axisOf_isSome, ha]; rfl, ?_⟩, ha⟩
      rintro m hmm hlt ⟨ht, htu⟩
      rcases hk with hk | hk
      · rw [axisOf_type ha] at hk; exact htu hk
      · obtain ⟨b, hb⟩ := hmn m hmm
        have hbn := axisOf_name hb
        refine hk b ?_ (by rw [axisOf_type hb, axisOf_type ha]; exact ht.symm)
        rw [List.mem_filter, List.mem_filterMap]
        refine ⟨⟨m, ?_, hb⟩, ?_⟩
        · have hmem : m ∈ axesNames L c v := mem_axesNames.2 (Or.inl hmm.1)
          rw [hns] at hmem
          rcases List.mem_append.1 hmem with h | h
          · exact h
          · have hs := sorted_axesNames L c v
            rw [hns, List.pairwise_append] at hs
            rcases List.mem_cons.1 h with rfl | h
            · exact absurd hlt (lt_irrefl _)
            · exact absurd (lt_trans hlt ((List.pairwise_cons.1 hs.2.1).1 m h)) (lt_irrefl _)
        · simp only [decide_eq_true_eq, hbn]
          exact fun h => hmm.2.1 (mem_coordinateNames.1 h)
    · rintro ⟨⟨hl, hi, hk⟩, ha⟩
      obtain ⟨pre, post, hns⟩ := List.append_of_mem (show a.name ∈ axesNames L c v from mem_axesNames.2 (Or.inr hl))
      refine ⟨pre, post, hns, ha, mem_coordinateNames.2 hl, ?_⟩
      by_cases hu : a.type = .undefined
      · exact Or.inl hu
      · refine Or.inr fun b hb hbt => ?_
        rw [List.mem_filter, List.mem_filterMap] at hb
        obtain ⟨⟨m, hm', hbm⟩, hbc⟩ := hb
        have hbn := axisOf_name hbm
        subst hbn
        have hmem : b ∈ ((axesNames L c v).filterMap (axisOf L c)).filter (fun a => a.name ∉ coordinateNames L c v.name) := by
          rw [List.mem_filter, List.mem_filterMap]
          exact ⟨⟨b.name, by rw [hns]; exact List.mem_append_left _ hm', hbm⟩, hbc⟩
        have hs := sorted_axesNames L c v
        rw [hns, List.pairwise_append] at hs
        refine hk b.name (mem_mains.1 hmem).1 (hs.2.2 _ hm' _ List.mem_cons_self) ?_
        unfold TypesEqual
        rw [← axisOf_type ha, ← axisOf_type hbm]
        exact ⟨hbt.symm, hu⟩
  have main' : ∀ a, a ∈ s.axes.axes ↔ MainName L c v a.name ∧ axisOf L c a.name = some a := by
    intro a
    rw [hm]
    exact mem_mains
  refine ⟨fun n => ⟨?_, fun hn => ?_⟩, fun n => ⟨?_, fun hn => ?_⟩, fun a ha => ?_⟩
  · rintro ⟨a, ha, rfl⟩
    exact ((main' a).1 ha).1
  · obtain ⟨a, ha⟩ := hmn n hn
    have := axisOf_name ha
    subst this
    exact ⟨a, (main' a).2 ⟨hn, ha⟩, rfl⟩
  · rintro ⟨a, ha, rfl⟩
    exact ((aux' a).1 ha).1
  · obtain ⟨a, ha⟩ := Option.isSome_iff_exists.1 (axisOf_isSome.2 hn.2.1)
    have := axisOf_name ha
    subst this
    exact ⟨a, (aux' a).2 ⟨hn, ha⟩, rfl⟩
  · rcases List.mem_append.1 ha with ha | ha
    · exact axisOf_for hnd ((main' a).1 ha).2
    · exact axisOf_for hnd ((aux' a).1 ha).2

end Fimex.Cf
