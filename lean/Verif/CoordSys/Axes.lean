import Verif.Basic
import Mathlib.Data.List.Nodup
import Mathlib.Tactic.ByContra
import Mathlib.Tactic.Tauto

/-!
# Axes of a coordinate system

Model of `setAxis`, `setAuxiliaryAxis`, `findAxisOfType`, `getAxes` and the helpers, `src/coordSys/CoordinateSystem.cc:62-108`
and `260-345`, with C46.  The pointers given are not null (asserted in the code); an axis is its name, type and shape.
-/

namespace Fimex.CoordSys

/-! ## Model -/

/-- include/fimex/coordSys/CoordinateAxis.h:41-54 `AxisType`. -/
inductive AxisType where
  | undefined
  | geoX
  | geoY
  | geoZ
  | time
  | lon
  | lat
  | pressure
  | height
  | depth
  | referenceTime
  | realization
deriving DecidableEq, Repr

/-- include/fimex/coordSys/CoordinateAxis.h:38-99, a variable (name and shape) with a type; `isExplicit`: it is a dimension too. -/
structure Axis where
  name : String
  type : AxisType
  isExplicit : Bool := true
  shape : List String := [name]
deriving DecidableEq, Repr

/-- `axes_` and `auxiliaryAxes_`. -/
structure CS where
  axes : List Axis
  aux : List Axis
deriving DecidableEq, Repr

/-- src/coordSys/CoordinateSystem.cc:99-108 `removeAxis`: erases one by one, searching on from the erased place. -/
def removeAxis : List Axis → String → List Axis
  | [], _ => []
  | a :: as, n => if a.name = n then removeAxis as n else a :: removeAxis as n

/-- src/coordSys/CoordinateSystem.cc:90-97 `findTypeInAxes` (and 84-88 `hasTypeInAxes`). -/
def findType (t : AxisType) (axes : List Axis) : Option Axis := axes.find? fun a => a.type = t

/-- src/coordSys/CoordinateSystem.cc:305-323 `setAxis`: new state, and whether the call raises. -/
def setAxis (cs : CS) (a : Axis) : CS × Res Unit :=
  let v := removeAxis cs.axes a.name
  if a.type ≠ .undefined ∧ (findType a.type v).isSome = true then ({ cs with axes := v }, .throws)
  else ({ axes := v ++ [a], aux := removeAxis cs.aux a.name }, .ok ())

/-- src/coordSys/CoordinateSystem.cc:325-345 `setAuxiliaryAxis`. -/
def setAuxiliaryAxis (cs : CS) (a : Axis) : CS × Res Unit :=
  if (cs.axes.find? fun x => x.name = a.name).isSome = true then (cs, .ok ())
  else if a.type ≠ .undefined ∧ (findType a.type cs.axes).isSome = true then (cs, .ok ())
  else ({ cs with aux := removeAxis cs.aux a.name ++ [a] }, .ok ())

/-- src/coordSys/CoordinateSystem.cc:260-267 `findAxisOfType`. -/
def findAxisOfType (cs : CS) (t : AxisType) : Option Axis :=
  match findType t cs.axes with
  | some a => some a
  | none => findType t cs.aux

/-- src/coordSys/CoordinateSystem.cc:269-276: the first type for which there is an axis. -/
def findAxisOfTypes (cs : CS) : List AxisType → Option Axis
  | [] => none
  | t :: ts =>
    match findAxisOfType cs t with
    | some a => some a
    | none => findAxisOfTypes cs ts

/-- src/coordSys/CoordinateSystem.cc:298-303 `getAxes`. -/
def getAxes (cs : CS) : List Axis := cs.axes ++ cs.aux

/-- A call. -/
inductive Op where
  | axis (a : Axis)
  | auxiliary (a : Axis)

/-- State after a call, whether it raised or not. -/
def step (cs : CS) : Op → CS
  | .axis a => (setAxis cs a).1
  | .auxiliary a => (setAuxiliaryAxis cs a).1

/-- State after a history of calls on a new coordinate system. -/
def run (ops : List Op) : CS := ops.foldl step ⟨[], []⟩

/-! ## Specification -/

/-- All names differ, and no two main axes have the same type (other than undefined). -/
structure Consistent (cs : CS) : Prop where
  names : (getAxes cs |>.map (·.name)).Nodup
  types : ∀ a ∈ cs.axes, ∀ b ∈ cs.axes, a.type = b.type → a.type ≠ .undefined → a = b

/-! ## Theorems -/

theorem removeAxis_eq (as : List Axis) (n : String) : removeAxis as n = as.filter fun a => a.name ≠ n := by
  induction as with
  | nil => rfl
  | cons a as ih =>
    unfold removeAxis
    by_cases h : a.name = n
    · rw [if_pos h, List.filter_cons_of_neg (by simpa using h), ih]
    · rw [if_neg h, List.filter_cons_of_pos (by simpa using h), ih]

theorem mem_removeAxis {as : List Axis} {n : String} {x : Axis} : x ∈ removeAxis as n ↔ x ∈ as ∧ x.name ≠ n := by
  rw [removeAxis_eq, List.mem_filter]
  simp

theorem findType_some {t : AxisType} {as : List Axis} : (findType t as).isSome = true ↔ ∃ a ∈ as, a.type = t := by
  simp [findType, List.find?_isSome]

theorem names_nodup_iff (cs : CS) : ((getAxes cs).map (·.name)).Nodup ↔
    (cs.axes.map (·.name)).Nodup ∧ (cs.aux.map (·.name)).Nodup ∧ ∀ a ∈ cs.axes, ∀ b ∈ cs.aux, a.name ≠ b.name := by
  unfold getAxes
  rw [List.map_append, List.nodup_append']
  refine and_congr_right fun _ => and_congr_right fun _ => ?_
  constructor
  · intro h a ha b hb he
    exact h (List.mem_map_of_mem ha) (he ▸ List.mem_map_of_mem hb)
  · intro h x hx hx'
    obtain ⟨a, ha, rfl⟩ := List.mem_map.1 hx
    obtain ⟨b, hb, he⟩ := List.mem_map.1 hx'
    exact h a ha b hb he.symm

theorem nodup_filter_names (as : List Axis) (p : Axis → Bool) (h : (as.map (·.name)).Nodup) :
    ((as.filter p).map (·.name)).Nodup :=
  h.sublist (List.filter_sublist.map _)

theorem nodup_snoc (as : List Axis) (a : Axis) (h : (as.map (·.name)).Nodup) (hn : ∀ x ∈ as, x.name ≠ a.name) :
    ((as ++ [a]).map (·.name)).Nodup := by
  rw [List.map_append, List.nodup_append']
  refine ⟨h, by simp, ?_⟩
  intro x hx hx'
  obtain ⟨b, hb, rfl⟩ := List.mem_map.1 hx
  simp only [List.map_cons, List.map_nil, List.mem_singleton] at hx'
  exact hn b hb hx'

theorem step_consistent (cs : CS) (op : Op) (h : Consistent cs) : Consistent (step cs op) := by
  obtain ⟨n1, n2, n3⟩ := (names_nodup_iff cs).1 h.names
  cases op with
  | axis a =>
    unfold step setAxis
    dsimp only
    have r1 : ((removeAxis cs.axes a.name).map (·.name)).Nodup := by
      rw [removeAxis_eq]; exact nodup_filter_names _ _ n1
    have r2 : ((removeAxis cs.aux a.name).map (·.name)).Nodup := by
      rw [removeAxis_eq]; exact nodup_filter_names _ _ n2
    by_cases hc : a.type ≠ .undefined ∧ (findType a.type (removeAxis cs.axes a.name)).isSome = true
    · rw [if_pos hc]
      refine ⟨(names_nodup_iff _).2 ⟨r1, n2, fun x hx y hy => n3 x (mem_removeAxis.1 hx).1 y hy⟩, ?_⟩
      intro x hx y hy
      exact h.types x (mem_removeAxis.1 hx).1 y (mem_removeAxis.1 hy).1
    · rw [if_neg hc]
      refine ⟨(names_nodup_iff _).2 ⟨nodup_snoc _ a r1 fun x hx => (mem_removeAxis.1 hx).2, r2, ?_⟩, ?_⟩
      · intro x hx y hy
        obtain ⟨hy1, hy2⟩ := mem_removeAxis.1 hy
        rcases List.mem_append.1 hx with hx | hx
        · exact n3 x (mem_removeAxis.1 hx).1 y hy1
        · rw [List.mem_singleton.1 hx]; exact fun he => hy2 he.symm
      · have hno : ∀ x ∈ removeAxis cs.axes a.name, a.type ≠ .undefined → x.type ≠ a.type := by
          intro x hx ht he
          exact hc ⟨ht, findType_some.2 ⟨x, hx, he⟩⟩
        intro x hx y hy he ht
        rcases List.mem_append.1 hx with hx | hx
        · rcases List.mem_append.1 hy with hy | hy
          · exact h.types x (mem_removeAxis.1 hx).1 y (mem_removeAxis.1 hy).1 he ht
          · rw [List.mem_singleton.1 hy] at he
            exact absurd he (hno x hx (he ▸ ht))
        · rw [List.mem_singleton.1 hx] at he ht ⊢
          rcases List.mem_append.1 hy with hy | hy
          · exact absurd he.symm (hno y hy ht)
          · exact (List.mem_singleton.1 hy).symm
  | auxiliary a =>
    unfold step setAuxiliaryAxis
    dsimp only
    by_cases h1 : (cs.axes.find? fun x => x.name = a.name).isSome = true
    · rw [if_pos h1]; exact h
    · rw [if_neg h1]
      by_cases h2 : a.type ≠ .undefined ∧ (findType a.type cs.axes).isSome = true
      · rw [if_pos h2]; exact h
      · rw [if_neg h2]
        have r2 : ((removeAxis cs.aux a.name).map (·.name)).Nodup := by
          rw [removeAxis_eq]; exact nodup_filter_names _ _ n2
        refine ⟨(names_nodup_iff _).2 ⟨n1, nodup_snoc _ a r2 fun x hx => (mem_removeAxis.1 hx).2, ?_⟩, h.types⟩
        intro x hx y hy
        rcases List.mem_append.1 hy with hy | hy
        · exact n3 x hx y (mem_removeAxis.1 hy).1
        · rw [List.mem_singleton.1 hy]
          intro he
          exact h1 (List.find?_isSome.2 ⟨x, hx, by simpa using he⟩)

/-- **C46.** After every history of calls, raising ones included, all axis names differ (over main and auxiliary axes)
and no two main axes share a defined type. -/
theorem C46_axes_consistent (ops : List Op) : Consistent (run ops) := by
  unfold run
  have : ∀ (ops : List Op) (cs : CS), Consistent cs → Consistent (ops.foldl step cs) := by
    intro ops
    induction ops with
    | nil => intro cs h; exact h
    | cons op ops ih => intro cs h; exact ih _ (step_consistent cs op h)
  exact this ops _ ⟨by simp [getAxes], by simp⟩

/-- An axis that is a dimension, for the examples. -/
def dimAxis (n : String) (t : AxisType) : Axis := { name := n, type := t }

example : run [.axis (dimAxis "x" .geoX), .auxiliary (dimAxis "lon" .lon), .axis (dimAxis "x2" .geoX), .auxiliary (dimAxis "x" .undefined),
    .axis (dimAxis "lon" .undefined)] = ⟨[dimAxis "x" .geoX, dimAxis "lon" .undefined], []⟩ := by decide

/-- **C46.** A call of `setAxis` raises exactly when another main axis has the same defined type; when it does not, the
axis is there afterwards, it is what a search for its type finds, and all other main axes with other names are kept. -/
theorem C46_setAxis (ops : List Op) (a : Axis) :
    ((setAxis (run ops) a).2 = .throws ↔
      a.type ≠ .undefined ∧ ∃ b ∈ (run ops).axes, b.name ≠ a.name ∧ b.type = a.type) ∧
    (setAxis (run ops) a).2 ≠ .ub ∧
    ((setAxis (run ops) a).2 = .ok () →
      (a.type ≠ .undefined → findAxisOfType (setAxis (run ops) a).1 a.type = some a) ∧
      ∀ b, b ∈ (setAxis (run ops) a).1.axes ↔ b = a ∨ b ∈ (run ops).axes ∧ b.name ≠ a.name) := by
  generalize run ops = cs
  unfold setAxis
  dsimp only
  by_cases hc : a.type ≠ .undefined ∧ (findType a.type (removeAxis cs.axes a.name)).isSome = true
  · rw [if_pos hc]
    refine ⟨⟨fun _ => ⟨hc.1, ?_⟩, fun _ => rfl⟩, by simp, fun h => by cases h⟩
    obtain ⟨b, hb, ht⟩ := findType_some.1 hc.2
    exact ⟨b, (mem_removeAxis.1 hb).1, (mem_removeAxis.1 hb).2, ht⟩
  · rw [if_neg hc]
    refine ⟨⟨fun h => (by cases h), ?_⟩, by simp, fun _ => ⟨?_, ?_⟩⟩
    · rintro ⟨ht, b, hb, hn, he⟩
      exact absurd ⟨ht, findType_some.2 ⟨b, mem_removeAxis.2 ⟨hb, hn⟩, he⟩⟩ hc
    · intro ht
      have hnone : findType a.type (removeAxis cs.axes a.name) = none := by
        rw [← Option.not_isSome_iff_eq_none]
        exact fun h => hc ⟨ht, h⟩
      have : findType a.type (removeAxis cs.axes a.name ++ [a]) = some a := by
        unfold findType at hnone ⊢
        rw [List.find?_append, hnone]
        simp
      unfold findAxisOfType
      dsimp only
      rw [this]
    · intro b
      rw [List.mem_append, List.mem_singleton, mem_removeAxis]
      tauto

/-- **C46.** A search by type prefers main axes: it returns a main axis of the type if there is one (then the only one),
else the first auxiliary axis of that type, and nothing only when no axis has it. -/
theorem C46_find_axis (ops : List Op) (t : AxisType) (ht : t ≠ .undefined) :
    (∀ a ∈ (run ops).axes, a.type = t → findAxisOfType (run ops) t = some a) ∧
    ((∀ a ∈ (run ops).axes, a.type ≠ t) →
      findAxisOfType (run ops) t = (run ops).aux.find? fun a => a.type = t) ∧
    (findAxisOfType (run ops) t = none ↔ ∀ a ∈ getAxes (run ops), a.type ≠ t) := by
  have hcons := C46_axes_consistent ops
  generalize run ops = cs at *
  have hsome : ∀ a ∈ cs.axes, a.type = t → findAxisOfType cs t = some a := by
    intro a ha hat
    unfold findAxisOfType
    cases hf : findType t cs.axes with
    | none =>
      have := findType_some.2 ⟨a, ha, hat⟩
      rw [hf] at this
      cases this
    | some b =>
      have hb : b ∈ cs.axes := List.mem_of_find?_eq_some hf
      have hbt : b.type = t := by simpa using List.find?_some hf
      rw [hcons.types b hb a ha (hbt.trans hat.symm) (hbt ▸ ht)]
  have hnone : (∀ a ∈ cs.axes, a.type ≠ t) → findAxisOfType cs t = cs.aux.find? fun a => a.type = t := by
    intro h
    have : findType t cs.axes = none := by
      unfold findType
      rw [List.find?_eq_none]
      intro a ha
      simpa using h a ha
    unfold findAxisOfType
    rw [this]
    rfl
  refine ⟨hsome, hnone, ?_⟩
  constructor
  · intro h a ha hat
    rcases List.mem_append.1 ha with ha | ha
    · rw [hsome a ha hat] at h; cases h
    · by_cases hm : ∀ a ∈ cs.axes, a.type ≠ t
      · rw [hnone hm, List.find?_eq_none] at h
        exact absurd hat (by simpa using h a ha)
      · push Not at hm
        obtain ⟨b, hb, hbt⟩ := hm
        rw [hsome b hb hbt] at h; cases h
  · intro h
    rw [hnone fun a ha => h a (List.mem_append_left _ ha), List.find?_eq_none]
    intro a ha
    simpa using h a (List.mem_append_right _ ha)

/-- **C46.** A search by several types returns an axis of the first type in the list for which there is an axis, and nothing only
when no axis has any of the types. -/
theorem C46_find_axis_of_types (ops : List Op) (ts : List AxisType) (hts : ∀ t ∈ ts, t ≠ .undefined) :
    (∀ a, findAxisOfTypes (run ops) ts = some a ↔
      ∃ pre t post, ts = pre ++ t :: post ∧ findAxisOfType (run ops) t = some a ∧ ∀ b ∈ getAxes (run ops), b.type ∉ pre) ∧
    (findAxisOfTypes (run ops) ts = none ↔ ∀ b ∈ getAxes (run ops), b.type ∉ ts) := by
  induction ts with
  | nil => simp [findAxisOfTypes]
  | cons t ts ih =>
    obtain ⟨ih1, ih2⟩ := ih fun t' h => hts t' (List.mem_cons_of_mem _ h)
    have hn := (C46_find_axis ops t (hts t List.mem_cons_self)).2.2
    unfold findAxisOfTypes
    cases hf : findAxisOfType (run ops) t with
    | some a =>
      dsimp only
      have hex : ∃ b ∈ getAxes (run ops), b.type = t := by
        by_contra hne
        push Not at hne
        rw [hn.2 hne] at hf
        cases hf
      obtain ⟨b, hb, hbt⟩ := hex
      constructor
      · intro a'
        constructor
        · intro h
          cases h
          exact ⟨[], t, ts, rfl, hf, by simp⟩
        · rintro ⟨pre, t', post, he, hf', hpre⟩
          cases pre with
          | nil =>
            cases he
            rw [hf] at hf'
            exact hf'
          | cons p pre =>
            cases he
            exact absurd (List.mem_cons.2 (Or.inl hbt)) (hpre b hb)
      · constructor
        · intro h; cases h
        · intro h
          exact absurd (List.mem_cons.2 (Or.inl hbt)) (h b hb)
    | none =>
      dsimp only
      have hne := hn.1 hf
      constructor
      · intro a
        rw [ih1]
        constructor
        · rintro ⟨pre, t', post, he, hf', hpre⟩
          refine ⟨t :: pre, t', post, by rw [he]; rfl, hf', fun b hb hm => ?_⟩
          rcases List.mem_cons.1 hm with h | h
          · exact hne b hb h
          · exact hpre b hb h
        · rintro ⟨pre, t', post, he, hf', hpre⟩
          cases pre with
          | nil =>
            cases he
            rw [hf] at hf'
            cases hf'
          | cons p pre =>
            cases he
            exact ⟨pre, t', post, rfl, hf', fun b hb hm => hpre b hb (List.mem_cons_of_mem _ hm)⟩
      · rw [ih2]
        constructor
        · intro h b hb hm
          rcases List.mem_cons.1 hm with h' | h'
          · exact hne b hb h'
          · exact h b hb h'
        · intro h b hb hm
          exact h b hb (List.mem_cons_of_mem _ hm)

/-- A case: the vertical axis is searched for by several types; the height is found before the pressure that was added first. -/
example :
    let cs := run [.auxiliary (dimAxis "p" .pressure), .auxiliary (dimAxis "h" .height)]
    findAxisOfTypes cs [.geoZ, .height, .depth, .pressure] = some (dimAxis "h" .height) := by decide

/-- A call of `setAxis` that raises has already removed the axis with the same name: the coordinate system lost it. -/
theorem C46_raising_setAxis_loses_axis :
    let cs := run [.axis (dimAxis "x" .geoX), .axis (dimAxis "y" .geoY)]
    setAxis cs (dimAxis "x" .geoY) = (⟨[dimAxis "y" .geoY], []⟩, .throws) := by decide

end Fimex.CoordSys
