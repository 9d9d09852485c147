import Verif.CoordSys.BestModel
import Verif.CoordSys.CfAxisProps
import Verif.CoordSys.CfProjProps
import Mathlib.Data.List.Induction

/-!
# C99: horizontal coordinate systems for interpolation
-/

namespace Fimex.Cf

open Cdm CoordSys

variable {P V CS Pr : Type} {L : Lib V Pr} {c : CDM P V CS}

/-! ## Specification -/

/-- The last element of a list with a property. -/
def Last {α : Type} (p : α → Prop) (l : List α) (a : α) : Prop := ∃ l1 l2, l = l1 ++ a :: l2 ∧ p a ∧ ∀ b ∈ l2, ¬ p b

/-- The first axis with a type, main axes before auxiliary axes. -/
def TypeAxis (s : System Pr) (t : AxisType) (a : Axis) : Prop := First (fun b => b.type = t) (getAxes s.axes) a

/-- A system that can be interpolated: a simple grid with projection, or one with latitude and longitude. -/
def Usable (withProjection : Bool) (s : System Pr) : Prop :=
  if withProjection then s.simple = true ∧ s.proj ≠ none
  else (∃ a ∈ getAxes s.axes, a.type = .lat) ∧ ∃ a ∈ getAxes s.axes, a.type = .lon

/-- Name of the horizontal axes. -/
inductive HId (s : System Pr) : String → Prop
  | both {x y} : XAxis s x → YAxis s y → HId s (x.name ++ "," ++ y.name)
  | onlyX {x} : XAxis s x → (∀ y, ¬ YAxis s y) → HId s x.name
  | onlyY {y} : (∀ x, ¬ XAxis s x) → YAxis s y → HId s y.name
  | none : (∀ x, ¬ XAxis s x) → (∀ y, ¬ YAxis s y) → HId s ""

/-- The system that stands for all with the same name. -/
def Chosen (withProjection : Bool) (l : List (System Pr)) (k : String) (s : System Pr) : Prop :=
  Last (fun s => Usable withProjection s ∧ HId s k) l s

/-- The horizontal part of a system, for the variables that are connected with its name. -/
structure Horizontal (mapped : List (String × String)) (k : String) (s t : System Pr) : Prop where
  convention : t.convention = s.convention
  proj : t.proj = s.proj
  axes : ∀ a, a ∈ getAxes t.axes ↔ XAxis s a ∨ YAxis s a ∨ TypeAxis s .lon a ∨ TypeAxis s .lat a
  x : ∀ a, XAxis t a ↔ XAxis s a
  y : ∀ a, YAxis t a ↔ YAxis s a
  lon : ∀ a, TypeAxis t .lon a ↔ TypeAxis s .lon a
  lat : ∀ a, TypeAxis t .lat a ↔ TypeAxis s .lat a
  isFor : ∀ n, n ∈ t.isFor ↔ (n, k) ∈ mapped

/-- A dimension of the horizontal axes of a system. -/
def HDim (c : CDM P V CS) (s : System Pr) (d : String) : Prop :=
  ∃ a, (XAxis s a ∨ YAxis s a) ∧ ∃ w ∈ c.vars, w.name = a.name ∧ d ∈ w.shape

/-- What holds for listed systems: names of axes differ, and simple grids have horizontal axes. -/
def Sound (s : System Pr) : Prop := ((getAxes s.axes).map (·.name)).Nodup ∧ (s.simple = true → (∃ x, XAxis s x) ∧ ∃ y, YAxis s y)

/-! ## Lemmas -/

theorem mem_assign {α : Type} {k : String} {a : α} {m : List (String × α)} (hm : (m.map (·.1)).Pairwise (· < ·)) (p : String × α) :
    p ∈ assign k a m ↔ p = (k, a) ∨ (p ∈ m ∧ p.1 ≠ k) := by
  induction m with
  | nil => simp [assign]
  | cons q m ih =>
    obtain ⟨k', a'⟩ := q
    have hc := List.pairwise_cons.1 hm
    unfold assign
    by_cases h1 : k < k'
    · rw [if_pos h1, List.mem_cons]
      constructor
      · rintro (h | h)
        · exact .inl h
        · refine .inr ⟨h, ?_⟩
          rcases List.mem_cons.1 h with rfl | h
          · exact ne_of_gt h1
          · exact ne_of_gt (lt_trans h1 (hc.1 _ (List.mem_map_of_mem h)))
      · rintro (h | h)
        · exact .inl h
        · exact .inr h.1
    · rw [if_neg h1]
      by_cases h2 : k = k'
      · subst h2
        rw [if_pos rfl, List.mem_cons, List.mem_cons]
        constructor
        · rintro (h | h)
          · exact .inl h
          · exact .inr ⟨.inr h, ne_of_gt (hc.1 _ (List.mem_map_of_mem h))⟩
        · rintro (h | ⟨rfl | h, h3⟩)
          · exact .inl h
          · exact absurd rfl h3
          · exact .inr h
      · rw [if_neg h2, List.mem_cons, List.mem_cons, ih hc.2]
        constructor
        · rintro (rfl | h | h)
          · exact .inr ⟨.inl rfl, Ne.symm h2⟩
          · exact .inl h
          · exact .inr ⟨.inr h.1, h.2⟩
        · rintro (h | ⟨rfl | h, h3⟩)
          · exact .inr (.inl h)
          · exact .inl rfl
          · exact .inr (.inr ⟨h, h3⟩)

theorem sorted_assign {α : Type} {k : String} {a : α} {m : List (String × α)} (hm : (m.map (·.1)).Pairwise (· < ·)) :
    ((assign k a m).map (·.1)).Pairwise (· < ·) := by
  induction m with
  | nil => simp [assign]
  | cons q m ih =>
    obtain ⟨k', a'⟩ := q
    have hc := List.pairwise_cons.1 hm
    unfold assign
    by_cases h1 : k < k'
    · rw [if_pos h1, List.map_cons, List.pairwise_cons]
      refine ⟨fun z hz => ?_, hm⟩
      rw [List.map_cons] at hz
      rcases List.mem_cons.1 hz with rfl | hz
      · exact h1
      · exact lt_trans h1 (hc.1 z hz)
    · rw [if_neg h1]
      by_cases h2 : k = k'
      · subst h2
        rw [if_pos rfl]
        exact hm
      · rw [if_neg h2, List.map_cons, List.pairwise_cons]
        refine ⟨fun z hz => ?_, ih hc.2⟩
        obtain ⟨p, hp, rfl⟩ := List.mem_map.1 hz
        rcases (mem_assign hc.2 p).1 hp with rfl | ⟨hp, -⟩
        · exact lt_of_le_of_ne (not_lt.1 h1) (Ne.symm h2)
        · exact hc.1 _ (List.mem_map_of_mem hp)

theorem lookup_isSome {α : Type} {m : List (String × α)} {k : String} : (lookup m k).isSome = true ↔ ∃ a, (k, a) ∈ m := by
  unfold lookup
  rw [Option.isSome_map, List.find?_isSome]
  constructor
  · rintro ⟨⟨k', a⟩, hp, he⟩
    have : k' = k := by simpa using he
    subst this
    exact ⟨a, hp⟩
  · rintro ⟨a, ha⟩
    exact ⟨_, ha, by simp⟩

theorem hasAxisType_mem {s : System Pr} {t : AxisType} : hasAxisType s t = true ↔ ∃ a ∈ getAxes s.axes, a.type = t := by
  rw [hasAxisType_iff]
  cases h : findAxisOfType s.axes t with
  | none =>
    have := findAxisOfType_none.1 h
    simpa using this
  | some b =>
    have := first_mem (findAxisOfType_first.1 h)
    simpa using ⟨b, this⟩

theorem usable_iff {wp : Bool} {s : System Pr} : usable wp s = true ↔ Usable wp s := by
  unfold usable Usable
  cases wp
  · simp only [Bool.not_false, Bool.true_or, Bool.false_or, Bool.true_and, Bool.and_eq_true, hasAxisType_mem, Bool.false_eq_true, if_false]
  · simp only [Bool.not_true, Bool.true_or, Bool.false_or, Bool.and_true, Bool.and_eq_true, if_true, ne_eq, Option.isSome_iff_ne_none]

theorem geoX_none {s : System Pr} : geoX s = none ↔ ∀ x, ¬ XAxis s x := by
  constructor
  · intro h x hx
    rw [geoX_iff.2 hx] at h
    cases h
  · intro h
    cases hx : geoX s with
    | none => rfl
    | some x => exact absurd (geoX_iff.1 hx) (h x)

theorem geoY_none {s : System Pr} : geoY s = none ↔ ∀ x, ¬ YAxis s x := by
  constructor
  · intro h x hx
    rw [geoY_iff.2 hx] at h
    cases h
  · intro h
    cases hx : geoY s with
    | none => rfl
    | some x => exact absurd (geoY_iff.1 hx) (h x)

theorem horizontalId_iff {s : System Pr} {k : String} : horizontalId s = k ↔ HId s k := by
  have h1 : HId s (horizontalId s) := by
    unfold horizontalId
    cases hx : geoX s with
    | none =>
      cases hy : geoY s with
      | none => exact .none (geoX_none.1 hx) (geoY_none.1 hy)
      | some y => exact .onlyY (geoX_none.1 hx) (geoY_iff.1 hy)
    | some x =>
      cases hy : geoY s with
      | none => exact .onlyX (geoX_iff.1 hx) (geoY_none.1 hy)
      | some y => exact .both (geoX_iff.1 hx) (geoY_iff.1 hy)
  constructor
  · rintro rfl; exact h1
  · intro h
    unfold horizontalId
    cases h with
    | both hx hy => rw [geoX_iff.2 hx, geoY_iff.2 hy]
    | onlyX hx hy => rw [geoX_iff.2 hx, geoY_none.2 hy]
    | onlyY hx hy => rw [geoX_none.2 hx, geoY_iff.2 hy]
    | none hx hy => rw [geoX_none.2 hx, geoY_none.2 hy]

theorem last_snoc {α : Type} {p : α → Prop} {l : List α} {a b : α} : Last p (l ++ [b]) a ↔ (p b ∧ a = b) ∨ (¬ p b ∧ Last p l a) := by
  constructor
  · rintro ⟨l1, l2, e, h1, h2⟩
    rcases List.eq_nil_or_concat l2 with rfl | ⟨l3, z, rfl⟩
    · have := List.append_inj' e rfl
      simp only [List.cons.injEq, and_true] at this
      exact .inl ⟨this.2 ▸ h1, this.2.symm⟩
    · rw [List.concat_eq_append, ← List.cons_append, ← List.append_assoc] at e
      have := List.append_inj' e rfl
      simp only [List.cons.injEq, and_true] at this
      obtain ⟨e1, rfl⟩ := this
      rw [List.concat_eq_append] at h2
      exact .inr ⟨h2 _ (by simp), l1, l3, e1, h1, fun q hq => h2 q (by simp [hq])⟩
  · rintro (⟨h, rfl⟩ | ⟨h, l1, l2, rfl, h1, h2⟩)
    · exact ⟨l, [], rfl, h, by simp⟩
    · refine ⟨l1, l2 ++ [b], by simp, h1, fun q hq => ?_⟩
      rcases List.mem_append.1 hq with hq | hq
      · exact h2 q hq
      · rw [List.mem_singleton.1 hq]; exact h

theorem systemMap_spec (wp : Bool) (l : List (System Pr)) : ((systemMap wp l).map (·.1)).Pairwise (· < ·) ∧
    ∀ k s, (k, s) ∈ systemMap wp l ↔ Chosen wp l k s := by
  unfold Chosen
  induction l using List.reverseRecOn with
  | nil =>
    refine ⟨by simp [systemMap], fun k s => ?_⟩
    simp [systemMap, Last]
  | append_singleton l b ih =>
    have e : systemMap wp (l ++ [b]) = if usable wp b then assign (horizontalId b) b (systemMap wp l) else systemMap wp l := by
      unfold systemMap
      rw [List.foldl_append]
      rfl
    rw [e]
    by_cases hu : usable wp b = true
    · rw [if_pos hu]
      refine ⟨sorted_assign ih.1, fun k s => ?_⟩
      rw [mem_assign ih.1, last_snoc, ih.2]
      have hub := usable_iff.1 hu
      constructor
      · rintro (h | ⟨h, h1⟩)
        · cases h
          exact .inl ⟨⟨hub, horizontalId_iff.1 rfl⟩, rfl⟩
        · exact .inr ⟨fun h2 => h1 (horizontalId_iff.2 h2.2).symm, h⟩
      · rintro (⟨h, rfl⟩ | ⟨h, h1⟩)
        · exact .inl (by rw [horizontalId_iff.2 h.2])
        · exact .inr ⟨h1, fun e => h ⟨hub, horizontalId_iff.1 e.symm⟩⟩
    · rw [if_neg hu]
      refine ⟨ih.1, fun k s => ?_⟩
      rw [ih.2, last_snoc]
      constructor
      · exact fun h => .inr ⟨fun h1 => hu (usable_iff.2 h1.1), h⟩
      · rintro (⟨h, -⟩ | ⟨-, h⟩)
        · exact absurd (usable_iff.2 h.1) hu
        · exact h

theorem last_exists {α : Type} {p : α → Prop} {l : List α} {a : α} (ha : a ∈ l) (h : p a) : ∃ b, Last p l b := by
  induction l using List.reverseRecOn with
  | nil => cases ha
  | append_singleton l b ih =>
    by_cases hb : p b
    · exact ⟨b, last_snoc.2 (.inl ⟨hb, rfl⟩)⟩
    · rcases List.mem_append.1 ha with ha | ha
      · obtain ⟨z, hz⟩ := ih ha
        exact ⟨z, last_snoc.2 (.inr ⟨hb, hz⟩)⟩
      · rw [List.mem_singleton.1 ha] at h
        exact absurd h hb

theorem last_mem {α : Type} {p : α → Prop} {l : List α} {a : α} (h : Last p l a) : a ∈ l ∧ p a := by
  obtain ⟨l1, l2, rfl, h, -⟩ := h
  exact ⟨by simp, h⟩

theorem findComplete_iff {l : List (System Pr)} {v : Var P} {s : System Pr} :
    findComplete l v.name = some s ↔ First (fun s => Owns s v) l s := by
  unfold findComplete
  rw [find_first]
  refine iff_of_eq (congrArg (fun p => First p l s) (funext fun t => ?_))
  simp [isCSAndCompleteFor, Owns]

theorem mapVariables_spec (l : List (System Pr)) (m : List (String × System Pr)) (vars : List (Var P)) :
    ((mapVariables l m vars).map (·.1)).Pairwise (· < ·) ∧
    ∀ n k, (n, k) ∈ mapVariables l m vars ↔ ∃ v ∈ vars, v.name = n ∧ ∃ s, First (fun s => Owns s v) l s ∧ HId s k ∧ ∃ t, (k, t) ∈ m := by
  induction vars using List.reverseRecOn with
  | nil => exact ⟨by simp [mapVariables], fun n k => by simp [mapVariables]⟩
  | append_singleton vs v ih =>
    have e : mapVariables l m (vs ++ [v]) = (match findComplete l v.name with
      | some s => if (lookup m (horizontalId s)).isSome then assign v.name (horizontalId s) (mapVariables l m vs) else mapVariables l m vs
      | none => mapVariables l m vs) := by
      unfold mapVariables
      rw [List.foldl_append]
      rfl
    rw [e]
    have split : ∀ n k, (∃ w ∈ vs ++ [v], w.name = n ∧ ∃ s, First (fun s => Owns s w) l s ∧ HId s k ∧ ∃ t, (k, t) ∈ m) ↔
        (∃ w ∈ vs, w.name = n ∧ ∃ s, First (fun s => Owns s w) l s ∧ HId s k ∧ ∃ t, (k, t) ∈ m) ∨
        (v.name = n ∧ ∃ s, findComplete l v.name = some s ∧ HId s k ∧ ∃ t, (k, t) ∈ m) := by
      intro n k
      constructor
      · rintro ⟨w, hw, hn, s, hs, hr⟩
        rcases List.mem_append.1 hw with hw | hw
        · exact .inl ⟨w, hw, hn, s, hs, hr⟩
        · rw [List.mem_singleton.1 hw] at hn hs
          exact .inr ⟨hn, s, findComplete_iff.2 hs, hr⟩
      · rintro (⟨w, hw, hr⟩ | ⟨hn, s, hs, hr⟩)
        · exact ⟨w, by simp [hw], hr⟩
        · exact ⟨v, by simp, hn, s, findComplete_iff.1 hs, hr⟩
    -- the system found depends on the name only
    have same : ∀ n k, v.name = n → (∃ w ∈ vs, w.name = n ∧ ∃ s, First (fun s => Owns s w) l s ∧ HId s k ∧ ∃ t, (k, t) ∈ m) →
        ∃ s, findComplete l v.name = some s ∧ HId s k ∧ ∃ t, (k, t) ∈ m := by
      rintro n k hn ⟨w, -, hw, s, hs, hr⟩
      exact ⟨s, by rw [hn, ← hw]; exact findComplete_iff.2 hs, hr⟩
    cases hf : findComplete l v.name with
    | none =>
      refine ⟨ih.1, fun n k => ?_⟩
      dsimp only
      rw [ih.2, split, hf]
      simp
    | some s =>
      dsimp only
      by_cases hl : (lookup m (horizontalId s)).isSome = true
      · rw [if_pos hl]
        refine ⟨sorted_assign ih.1, fun n k => ?_⟩
        rw [mem_assign ih.1, ih.2, split, hf]
        constructor
        · rintro (h | ⟨h, -⟩)
          · cases h
            exact .inr ⟨rfl, s, rfl, horizontalId_iff.1 rfl, lookup_isSome.1 hl⟩
          · exact .inl h
        · intro h
          by_cases hn : n = v.name
          · obtain ⟨s', hs', hk, -⟩ : ∃ s', some s = some s' ∧ HId s' k ∧ ∃ t, (k, t) ∈ m := by
              rcases h with h | ⟨-, h⟩
              · rw [← hf]; exact same n k hn.symm h
              · exact h
            cases hs'
            exact .inl (by rw [hn, horizontalId_iff.2 hk])
          · rcases h with h | ⟨h, -⟩
            · exact .inr ⟨h, hn⟩
            · exact absurd h.symm hn
      · rw [if_neg hl]
        refine ⟨ih.1, fun n k => ?_⟩
        rw [ih.2, split, hf]
        constructor
        · exact fun h => .inl h
        · rintro (h | ⟨-, s', hs', hk, ht⟩)
          · exact h
          · cases hs'
            rw [← horizontalId_iff.2 hk] at ht
            exact absurd (lookup_isSome.2 ht) hl

theorem first_of_unique {α : Type} {p : α → Prop} {l : List α} {a : α} (h1 : a ∈ l) (h2 : p a) (h3 : ∀ b ∈ l, p b → b = a) : First p l a := by
  classical
  cases hf : l.find? fun b => decide (p b) with
  | none =>
    have := List.find?_eq_none.1 hf a h1
    simp [h2] at this
  | some b =>
    have hb : p b := by simpa using List.find?_some hf
    have := h3 b (List.mem_of_find?_eq_some hf) hb
    subst this
    have := find_first.1 hf
    simpa using this

theorem setAxisPtr_ok {cs : CoordSys.CS} {a : Axis} (ht : ∀ b ∈ cs.axes, b.type = a.type → b = a) (haux : cs.aux = [])
    (hn : ∀ b ∈ cs.axes, b.name = a.name → b = a) :
    ∃ r, setAxisPtr cs (some a) = .ok r ∧ r.aux = [] ∧ ∀ b, b ∈ r.axes ↔ b ∈ cs.axes ∨ b = a := by
  have hno : ¬ (a.type ≠ .undefined ∧ (findType a.type (removeAxis cs.axes a.name)).isSome = true) := by
    rintro ⟨-, h⟩
    obtain ⟨b, hb, hbt⟩ := findType_some.1 h
    obtain ⟨hb1, hb2⟩ := mem_removeAxis.1 hb
    exact hb2 (by rw [ht b hb1 hbt])
  refine ⟨⟨removeAxis cs.axes a.name ++ [a], removeAxis cs.aux a.name⟩, ?_, ?_, fun b => ?_⟩
  · unfold setAxisPtr setAxis
    simp only [if_neg hno]
  · simp [haux, removeAxis]
  · simp only [List.mem_append, mem_removeAxis, List.mem_singleton]
    constructor
    · rintro (⟨h, -⟩ | h)
      · exact .inl h
      · exact .inr h
    · rintro (h | h)
      · by_cases hb : b.name = a.name
        · exact .inr (hn b h hb)
        · exact .inl ⟨h, hb⟩
      · exact .inr h

theorem typeAxis_iff {s : System Pr} {t : AxisType} {a : Axis} : findAxisOfType s.axes t = some a ↔ TypeAxis s t a := findAxisOfType_first

/-- The type of a horizontal axis, and that it is the first one of its type. -/
theorem xAxis_iff {s : System Pr} {a : Axis} : XAxis s a ↔ TypeAxis s .geoX a ∨ ((∀ b ∈ getAxes s.axes, b.type ≠ .geoX) ∧ TypeAxis s .lon a) := by
  rw [← geoX_iff]
  unfold geoX findAxisOfTypes findAxisOfTypes findAxisOfTypes
  rw [← typeAxis_iff, ← typeAxis_iff, ← findAxisOfType_none]
  cases findAxisOfType s.axes .geoX with
  | some b => simp
  | none => cases findAxisOfType s.axes .lon <;> simp

theorem yAxis_iff {s : System Pr} {a : Axis} : YAxis s a ↔ TypeAxis s .geoY a ∨ ((∀ b ∈ getAxes s.axes, b.type ≠ .geoY) ∧ TypeAxis s .lat a) := by
  rw [← geoY_iff]
  unfold geoY findAxisOfTypes findAxisOfTypes findAxisOfTypes
  rw [← typeAxis_iff, ← typeAxis_iff, ← findAxisOfType_none]
  cases findAxisOfType s.axes .geoY with
  | some b => simp
  | none => cases findAxisOfType s.axes .lat <;> simp

theorem TypeAxis.unique {s : System Pr} {t : AxisType} {a b : Axis} (h1 : TypeAxis s t a) (h2 : TypeAxis s t b) : a = b := by
  have := (typeAxis_iff.2 h1).symm.trans (typeAxis_iff.2 h2)
  exact Option.some.inj this

theorem TypeAxis.mem {s : System Pr} {t : AxisType} {a : Axis} (h : TypeAxis s t a) : a ∈ getAxes s.axes ∧ a.type = t := first_mem h

theorem typeAxis_exists {s : System Pr} {t : AxisType} : (∃ a, TypeAxis s t a) ↔ ∃ a ∈ getAxes s.axes, a.type = t := by
  constructor
  · rintro ⟨a, h⟩; exact ⟨a, h.mem.1, h.mem.2⟩
  · rintro ⟨a, ha, ht⟩
    cases h : findAxisOfType s.axes t with
    | none => exact absurd ht (findAxisOfType_none.1 h a ha)
    | some b => exact ⟨b, typeAxis_iff.1 h⟩

theorem XAxis.unique {s : System Pr} {a b : Axis} (h1 : XAxis s a) (h2 : XAxis s b) : a = b :=
  Option.some.inj ((geoX_iff.2 h1).symm.trans (geoX_iff.2 h2))

theorem YAxis.unique {s : System Pr} {a b : Axis} (h1 : YAxis s a) (h2 : YAxis s b) : a = b :=
  Option.some.inj ((geoY_iff.2 h1).symm.trans (geoY_iff.2 h2))

/-- Types that occur once in the smaller list give the same axes in both. -/
theorem typeAxis_sub {s t : System Pr} {ty : AxisType}
    (h : ∀ a, a ∈ getAxes t.axes → a.type = ty → TypeAxis s ty a) (h2 : ∀ a, TypeAxis s ty a → a ∈ getAxes t.axes) (a : Axis) :
    TypeAxis t ty a ↔ TypeAxis s ty a := by
  constructor
  · intro ha
    exact h a ha.mem.1 ha.mem.2
  · intro ha
    exact first_of_unique (h2 a ha) ha.mem.2 fun b hb hbt => (h b hb hbt).unique ha

theorem minimal_ok (mapped : List (String × String)) {s : System Pr} (hs : ((getAxes s.axes).map (·.name)).Nodup) {x y : Axis}
    (hx : XAxis s x) (hy : YAxis s y) : ∃ t, minimal mapped s = .ok t ∧ Horizontal mapped (x.name ++ "," ++ y.name) s t := by
  have same : ∀ a ∈ getAxes s.axes, ∀ b ∈ getAxes s.axes, a.name = b.name → a = b := fun a ha b hb h => List.inj_on_of_nodup_map hs ha hb h
  have mx := axisOfTypes_mem hx
  have my := axisOfTypes_mem hy
  have tx : x.type = .geoX ∨ x.type = .lon := by simpa using mx.2
  have ty : y.type = .geoY ∨ y.type = .lat := by simpa using my.2
  have hxl : x.type = .lon → TypeAxis s .lon x := by
    intro h
    rcases xAxis_iff.1 hx with h1 | h1
    · rw [h1.mem.2] at h; cases h
    · exact h1.2
  have hyl : y.type = .lat → TypeAxis s .lat y := by
    intro h
    rcases yAxis_iff.1 hy with h1 | h1
    · rw [h1.mem.2] at h; cases h
    · exact h1.2
  obtain ⟨r1, e1, a1, m1⟩ := setAxisPtr_ok (cs := ⟨[], []⟩) (a := x) (by simp) rfl (by simp)
  have m1' : ∀ b, b ∈ r1.axes ↔ b = x := fun b => by rw [m1]; simp
  obtain ⟨r2, e2, a2, m2⟩ := setAxisPtr_ok (cs := r1) (a := y) (fun b hb ht => by
    rw [(m1' b).1 hb] at ht
    rcases tx with h | h <;> rcases ty with h' | h' <;> rw [h, h'] at ht <;> cases ht) a1
    (fun b hb hn => same b ((m1' b).1 hb ▸ mx.1) y my.1 hn)
  have m2' : ∀ b, b ∈ r2.axes ↔ b = x ∨ b = y := fun b => by rw [m2, m1']
  have step3 : ∃ r3, setIfAny s .lon r2 = .ok r3 ∧ r3.aux = [] ∧
      ∀ b, b ∈ r3.axes ↔ b = x ∨ b = y ∨ TypeAxis s .lon b := by
    unfold setIfAny
    by_cases h : hasAxisType s .lon = true
    · rw [if_pos h]
      obtain ⟨o, ho⟩ := typeAxis_exists.2 (hasAxisType_mem.1 h)
      rw [typeAxis_iff.2 ho]
      obtain ⟨r3, e3, a3, m3⟩ := setAxisPtr_ok (cs := r2) (a := o) (fun b hb ht => by
        rw [ho.mem.2] at ht
        rcases (m2' b).1 hb with rfl | rfl
        · exact (hxl ht).unique ho
        · rcases ty with h' | h' <;> rw [h'] at ht <;> cases ht) a2
        (fun b hb hn => same b (by rcases (m2' b).1 hb with rfl | rfl; exacts [mx.1, my.1]) o ho.mem.1 hn)
      refine ⟨r3, e3, a3, fun b => ?_⟩
      rw [m3, m2', or_assoc]
      refine or_congr_right (or_congr_right ⟨fun h => h ▸ ho, fun h => h.unique ho⟩)
    · rw [if_neg h]
      refine ⟨r2, rfl, a2, fun b => ?_⟩
      rw [m2']
      refine or_congr_right ⟨fun h => .inl h, fun h' => h'.elim id fun h' => absurd (hasAxisType_mem.2 ⟨b, h'.mem⟩) h⟩
  obtain ⟨r3, e3, a3, m3⟩ := step3
  have step4 : ∃ r4, setIfAny s .lat r3 = .ok r4 ∧ r4.aux = [] ∧
      ∀ b, b ∈ r4.axes ↔ b = x ∨ b = y ∨ TypeAxis s .lon b ∨ TypeAxis s .lat b := by
    unfold setIfAny
    by_cases h : hasAxisType s .lat = true
    · rw [if_pos h]
      obtain ⟨o, ho⟩ := typeAxis_exists.2 (hasAxisType_mem.1 h)
      rw [typeAxis_iff.2 ho]
      obtain ⟨r4, e4, a4, m4⟩ := setAxisPtr_ok (cs := r3) (a := o) (fun b hb ht => by
        rw [ho.mem.2] at ht
        rcases (m3 b).1 hb with rfl | rfl | h'
        · rcases tx with h' | h' <;> rw [h'] at ht <;> cases ht
        · exact (hyl ht).unique ho
        · rw [h'.mem.2] at ht; cases ht) a3
        (fun b hb hn => same b (by rcases (m3 b).1 hb with rfl | rfl | h'; exacts [mx.1, my.1, h'.mem.1]) o ho.mem.1 hn)
      refine ⟨r4, e4, a4, fun b => ?_⟩
      rw [m4, m3, or_assoc, or_assoc]
      refine or_congr_right (or_congr_right (or_congr_right ⟨fun h => h ▸ ho, fun h => h.unique ho⟩))
    · rw [if_neg h]
      refine ⟨r3, rfl, a3, fun b => ?_⟩
      rw [m3]
      refine or_congr_right (or_congr_right ⟨fun h => .inl h, fun h' => h'.elim id fun h' => absurd (hasAxisType_mem.2 ⟨b, h'.mem⟩) h⟩)
  obtain ⟨r4, e4, a4, m4⟩ := step4
  have hall : ∀ b, b ∈ getAxes r4 ↔ XAxis s b ∨ YAxis s b ∨ TypeAxis s .lon b ∨ TypeAxis s .lat b := by
    intro b
    unfold getAxes
    rw [a4, List.append_nil, m4]
    exact or_congr ⟨fun h => h ▸ hx, fun h => h.unique hx⟩ (or_congr_left ⟨fun h => h ▸ hy, fun h => h.unique hy⟩)
  have key : ∀ t : System Pr, t.axes = r4 → (∀ a, XAxis t a ↔ XAxis s a) ∧ (∀ a, YAxis t a ↔ YAxis s a) ∧
      (∀ a, TypeAxis t .lon a ↔ TypeAxis s .lon a) ∧ ∀ a, TypeAxis t .lat a ↔ TypeAxis s .lat a := by
    rintro t rfl
    have sub : ∀ a ∈ getAxes t.axes, a ∈ getAxes s.axes := by
      intro a ha
      rcases (hall a).1 ha with h | h | h | h
      · exact (axisOfTypes_mem h).1
      · exact (axisOfTypes_mem h).1
      · exact h.mem.1
      · exact h.mem.1
    have xl : ∀ a, XAxis s a → a.type = .lon → TypeAxis s .lon a := fun a h ht => by rw [h.unique hx] at ht ⊢; exact hxl ht
    have yl : ∀ a, YAxis s a → a.type = .lat → TypeAxis s .lat a := fun a h ht => by rw [h.unique hy] at ht ⊢; exact hyl ht
    have lon : ∀ a, TypeAxis t .lon a ↔ TypeAxis s .lon a := typeAxis_sub (fun a ha hat => by
      rcases (hall a).1 ha with h | h | h | h
      · exact xl a h hat
      · rw [h.unique hy] at hat
        rcases ty with h' | h' <;> rw [h'] at hat <;> cases hat
      · exact h
      · rw [h.mem.2] at hat; cases hat) fun a h => (hall a).2 (.inr (.inr (.inl h)))
    have lat : ∀ a, TypeAxis t .lat a ↔ TypeAxis s .lat a := typeAxis_sub (fun a ha hat => by
      rcases (hall a).1 ha with h | h | h | h
      · rw [h.unique hx] at hat
        rcases tx with h' | h' <;> rw [h'] at hat <;> cases hat
      · exact yl a h hat
      · rw [h.mem.2] at hat; cases hat
      · exact h) fun a h => (hall a).2 (.inr (.inr (.inr h)))
    have gx : ∀ a, TypeAxis t .geoX a ↔ TypeAxis s .geoX a := typeAxis_sub (fun a ha hat => by
      rcases (hall a).1 ha with h | h | h | h
      · rcases xAxis_iff.1 h with h1 | h1
        · exact h1
        · rw [h1.2.mem.2] at hat; cases hat
      · rw [h.unique hy] at hat
        rcases ty with h' | h' <;> rw [h'] at hat <;> cases hat
      · rw [h.mem.2] at hat; cases hat
      · rw [h.mem.2] at hat; cases hat) fun a h => (hall a).2 (.inl (xAxis_iff.2 (.inl h)))
    have gy : ∀ a, TypeAxis t .geoY a ↔ TypeAxis s .geoY a := typeAxis_sub (fun a ha hat => by
      rcases (hall a).1 ha with h | h | h | h
      · rw [h.unique hx] at hat
        rcases tx with h' | h' <;> rw [h'] at hat <;> cases hat
      · rcases yAxis_iff.1 h with h1 | h1
        · exact h1
        · rw [h1.2.mem.2] at hat; cases hat
      · rw [h.mem.2] at hat; cases hat
      · rw [h.mem.2] at hat; cases hat) fun a h => (hall a).2 (.inr (.inl (yAxis_iff.2 (.inl h))))
    have nx : ∀ (u : System Pr) (ty : AxisType), (∀ b ∈ getAxes u.axes, b.type ≠ ty) ↔ ∀ a, ¬ TypeAxis u ty a := by
      intro u ty
      rw [← not_exists, typeAxis_exists]
      push Not
      rfl
    refine ⟨fun a => ?_, fun a => ?_, lon, lat⟩
    · rw [xAxis_iff, xAxis_iff, gx, lon, nx, nx]
      refine or_congr_right (and_congr_left fun _ => forall_congr' fun b => not_congr (gx b))
    · rw [yAxis_iff, yAxis_iff, gy, lat, nx, nx]
      refine or_congr_right (and_congr_left fun _ => forall_congr' fun b => not_congr (gy b))
  have hrun : minimal mapped s = .ok { ({ convention := s.convention, axes := r4, proj := s.proj } : System Pr) with
      isFor := mapped.foldl (fun f v => if horizontalId ({ convention := s.convention, axes := r4, proj := s.proj } : System Pr) = v.2
        then setInsert v.1 f else f) [] } := by
    unfold minimal
    rw [geoX_iff.2 hx, geoY_iff.2 hy, e1, Res.ok_bind, e2, Res.ok_bind, e3, Res.ok_bind, e4, Res.ok_bind]
  refine ⟨_, hrun, ?_⟩
  obtain ⟨kx, ky, klon, klat⟩ := key { ({ convention := s.convention, axes := r4, proj := s.proj } : System Pr) with
      isFor := mapped.foldl (fun f v => if horizontalId ({ convention := s.convention, axes := r4, proj := s.proj } : System Pr) = v.2
        then setInsert v.1 f else f) [] } rfl
  refine ⟨rfl, rfl, hall, kx, ky, klon, klat, fun n => ?_⟩
  have hid : horizontalId ({ convention := s.convention, axes := r4, proj := s.proj } : System Pr) = x.name ++ "," ++ y.name := by
    obtain ⟨kx, ky, -⟩ := key ({ convention := s.convention, axes := r4, proj := s.proj } : System Pr) rfl
    exact horizontalId_iff.2 (.both ((kx x).2 hx) ((ky y).2 hy))
  rw [hid]
  have hfold : ∀ (m : List (String × String)) (f : List String), n ∈ m.foldl (fun f v => if x.name ++ "," ++ y.name = v.2 then setInsert v.1 f else f) f ↔
      n ∈ f ∨ (n, x.name ++ "," ++ y.name) ∈ m := by
    intro m
    induction m with
    | nil => simp
    | cons v m ih =>
      intro f
      rw [List.foldl_cons, ih]
      by_cases h : x.name ++ "," ++ y.name = v.2
      · rw [if_pos h, mem_setInsert, List.mem_cons]
        have : (n, x.name ++ "," ++ y.name) = v ↔ n = v.1 := by
          rw [h]
          exact ⟨fun e => e ▸ rfl, fun e => e ▸ rfl⟩
        rw [this]
        tauto
      · rw [if_neg h, List.mem_cons]
        have : (n, x.name ++ "," ++ y.name) ≠ v := fun e => h (e ▸ rfl)
        simp [this]
  rw [hfold]
  simp

theorem mapVariables_nil (l : List (System Pr)) (vars : List (Var P)) : mapVariables l [] vars = [] := by
  rw [List.eq_nil_iff_forall_not_mem]
  rintro ⟨n, k⟩ h
  obtain ⟨-, -, -, -, -, -, t, ht⟩ := ((mapVariables_spec l [] vars).2 n k).1 h
  cases ht

theorem findBest_ok {wp : Bool} {l : List (System Pr)} {b : Best Pr} (h : findBest wp l c = .ok b) :
    b.mapped = mapVariables l (systemMap wp l) c.vars ∧
    (∃ inc, each (fun p => incompatibleWith c b.mapped p.2) (systemMap wp l) = .ok inc ∧ b.incompatible = inc.flatten) ∧
    each (fun p => do
      let s ← minimal b.mapped p.2
      .ok (p.1, s)) (systemMap wp l) = .ok b.systems := by
  unfold findBest at h
  by_cases he : (systemMap wp l).isEmpty = true
  · rw [if_pos he] at h
    cases h
    rw [List.isEmpty_iff.1 he]
    exact ⟨(mapVariables_nil l c.vars).symm, ⟨[], rfl, rfl⟩, rfl⟩
  · rw [if_neg he] at h
    obtain ⟨inc, hi, h⟩ := Res.bind_eq_ok.1 h
    obtain ⟨sys, hs, h⟩ := Res.bind_eq_ok.1 h
    cases h
    exact ⟨rfl, ⟨inc, hi, rfl⟩, hs⟩

theorem usable_axes {wp : Bool} {s : System Pr} (hs : Sound s) (hu : Usable wp s) : (∃ x, XAxis s x) ∧ ∃ y, YAxis s y := by
  unfold Usable at hu
  by_cases hw : wp = true
  · rw [if_pos hw] at hu
    exact hs.2 hu.1
  · rw [if_neg hw] at hu
    constructor
    · cases h : geoX s with
      | some x => exact ⟨x, geoX_iff.1 h⟩
      | none =>
        obtain ⟨a, ha⟩ := typeAxis_exists.2 hu.2
        by_cases hg : ∃ b ∈ getAxes s.axes, b.type = .geoX
        · obtain ⟨b, hb⟩ := typeAxis_exists.2 hg
          exact ⟨b, xAxis_iff.2 (.inl hb)⟩
        · push Not at hg
          exact ⟨a, xAxis_iff.2 (.inr ⟨hg, ha⟩)⟩
    · cases h : geoY s with
      | some x => exact ⟨x, geoY_iff.1 h⟩
      | none =>
        obtain ⟨a, ha⟩ := typeAxis_exists.2 hu.1
        by_cases hg : ∃ b ∈ getAxes s.axes, b.type = .geoY
        · obtain ⟨b, hb⟩ := typeAxis_exists.2 hg
          exact ⟨b, yAxis_iff.2 (.inl hb)⟩
        · push Not at hg
          exact ⟨a, yAxis_iff.2 (.inr ⟨hg, ha⟩)⟩

theorem chosen_minimal {wp : Bool} {l : List (System Pr)} (hl : ∀ s ∈ l, Sound s) (mapped : List (String × String)) {k : String} {s : System Pr}
    (h : Chosen wp l k s) : ∃ t, minimal mapped s = .ok t ∧ Horizontal mapped k s t := by
  obtain ⟨hm, hu, hk⟩ := last_mem h
  obtain ⟨⟨x, hx⟩, y, hy⟩ := usable_axes (hl s hm) hu
  have : k = x.name ++ "," ++ y.name := by rw [← horizontalId_iff.2 hk]; exact horizontalId_iff.2 (.both hx hy)
  rw [this]
  exact minimal_ok mapped (hl s hm).1 hx hy

theorem getVariable_eq {n : String} {v : Var P} (h : getVariable c n = .ok v) : v ∈ c.vars ∧ v.name = n := by
  unfold getVariable at h
  cases hf : c.vars.find? fun v => v.name == n with
  | none => simp [hf] at h
  | some w =>
    simp only [hf, Res.ok.injEq] at h
    subst h
    exact ⟨List.mem_of_find?_eq_some hf, by simpa using List.find?_some hf⟩

/-! ## Theorems -/

/-- **C99.** There is one coordinate system for each pair of horizontal axes of a usable system; it is the horizontal part of the last one. -/
theorem C99_systems {wp : Bool} {l : List (System Pr)} (hl : ∀ s ∈ l, Sound s) {b : Best Pr} (h : findBest wp l c = .ok b) :
    (b.systems.map (·.1)).Pairwise (· < ·) ∧
    (∀ k, (∃ t, (k, t) ∈ b.systems) ↔ ∃ s ∈ l, Usable wp s ∧ HId s k) ∧
    ∀ k t, (k, t) ∈ b.systems → HId t k ∧ ∃ s, Chosen wp l k s ∧ Horizontal b.mapped k s t := by
  obtain ⟨-, -, hs⟩ := findBest_ok h
  have hf := each_ok hs
  obtain ⟨hsort, hmem⟩ := systemMap_spec wp l
  have hstep : ∀ (p q : String × System Pr), (do let s ← minimal b.mapped p.2; Res.ok (p.1, s) : Res (String × System Pr)) = .ok q →
      q.1 = p.1 ∧ minimal b.mapped p.2 = .ok q.2 := by
    intro p q e
    obtain ⟨s, e1, e2⟩ := Res.bind_eq_ok.1 e
    cases e2
    exact ⟨rfl, e1⟩
  refine ⟨?_, fun k => ⟨?_, ?_⟩, ?_⟩
  · have : b.systems.map (·.1) = (systemMap wp l).map (·.1) := by
      clear hs hsort hmem h
      generalize systemMap wp l = m at hf
      generalize b.systems = r at hf
      induction hf with
      | nil => rfl
      | cons r _ ih => rw [List.map_cons, List.map_cons, ih, (hstep _ _ r).1]
    rw [this]
    exact hsort
  · rintro ⟨t, ht⟩
    obtain ⟨p, hp, e⟩ := forall2_right hf ht
    have := (hstep _ _ e).1
    obtain ⟨hm, hu⟩ := last_mem ((hmem p.1 p.2).1 hp)
    exact ⟨p.2, hm, by rw [show k = p.1 from this]; exact hu⟩
  · rintro ⟨s, hs', hu⟩
    obtain ⟨z, hz⟩ := last_exists (p := fun s => Usable wp s ∧ HId s k) hs' hu
    obtain ⟨q, hq, e⟩ := forall2_left hf ((hmem k z).2 hz)
    have := (hstep _ _ e).1
    exact ⟨q.2, by rw [← show q.1 = k from this]; exact hq⟩
  · intro k t ht
    obtain ⟨p, hp, e⟩ := forall2_right hf ht
    obtain ⟨e1, e2⟩ := hstep _ _ e
    have hc := (hmem p.1 p.2).1 hp
    obtain ⟨t', e3, hh⟩ := chosen_minimal hl b.mapped hc
    rw [e2] at e3
    cases e3
    have e1 : k = p.1 := e1
    rw [e1]
    refine ⟨?_, p.2, hc, hh⟩
    have hid := (last_mem hc).2.2
    generalize p.1 = k at *
    have nx : (∀ x, ¬ XAxis p.2 x) → ∀ x, ¬ XAxis t x := fun h x hx => h x ((hh.x x).1 hx)
    have ny : (∀ x, ¬ YAxis p.2 x) → ∀ x, ¬ YAxis t x := fun h x hx => h x ((hh.y x).1 hx)
    cases hid with
    | both hx hy => exact .both ((hh.x _).2 hx) ((hh.y _).2 hy)
    | onlyX hx hy => exact .onlyX ((hh.x _).2 hx) (ny hy)
    | onlyY hx hy => exact .onlyY (nx hx) ((hh.y _).2 hy)
    | none hx hy => exact .none (nx hx) (ny hy)

/-- **C99.** A variable is interpolated with the pair of axes of its own coordinate system, if some usable system has these axes. -/
theorem C99_variables {wp : Bool} {l : List (System Pr)} {b : Best Pr} (h : findBest wp l c = .ok b) :
    (b.mapped.map (·.1)).Pairwise (· < ·) ∧
    ∀ n k, (n, k) ∈ b.mapped ↔ ∃ v ∈ c.vars, v.name = n ∧ ∃ s, First (fun s => Owns s v) l s ∧ HId s k ∧ ∃ t ∈ l, Usable wp t ∧ HId t k := by
  obtain ⟨hm, -, -⟩ := findBest_ok h
  obtain ⟨h1, h2⟩ := mapVariables_spec l (systemMap wp l) c.vars
  rw [hm]
  refine ⟨h1, fun n k => ?_⟩
  rw [h2]
  have : (∃ t, (k, t) ∈ systemMap wp l) ↔ ∃ t ∈ l, Usable wp t ∧ HId t k := by
    constructor
    · rintro ⟨t, ht⟩
      obtain ⟨hm, hu⟩ := last_mem (((systemMap_spec wp l).2 k t).1 ht)
      exact ⟨t, hm, hu⟩
    · rintro ⟨t, ht, hu⟩
      obtain ⟨z, hz⟩ := last_exists (p := fun s => Usable wp s ∧ HId s k) ht hu
      exact ⟨z, ((systemMap_spec wp l).2 k z).2 hz⟩
  rw [this]

/-- **C99.** The incompatible variables: those with a horizontal dimension that cannot be interpolated and are not axes. -/
theorem C99_incompatible {wp : Bool} {l : List (System Pr)} (hnd : (c.vars.map fun v : Var P => v.name).Nodup) {b : Best Pr}
    (h : findBest wp l c = .ok b) (n : String) :
    n ∈ b.incompatible ↔ ∃ k s, Chosen wp l k s ∧ ∃ v ∈ c.vars, v.name = n ∧ (∀ a ∈ getAxes s.axes, a.name ≠ n) ∧ (∀ k', (n, k') ∉ b.mapped) ∧
      ∃ d ∈ v.shape, HDim c s d := by
  obtain ⟨-, ⟨inc, hi, hinc⟩, -⟩ := findBest_ok h
  have hf := each_ok hi
  obtain ⟨hsort, hmem⟩ := systemMap_spec wp l
  have one : ∀ (s : System Pr) r, incompatibleWith c b.mapped s = .ok r → (n ∈ r ↔ ∃ v ∈ c.vars, v.name = n ∧ (∀ a ∈ getAxes s.axes, a.name ≠ n) ∧
      (∀ k', (n, k') ∉ b.mapped) ∧ ∃ d ∈ v.shape, HDim c s d) := by
    intro s r e
    unfold incompatibleWith at e
    cases hx : geoX s with
    | none => rw [hx] at e; cases e
    | some x =>
      cases hy : geoY s with
      | none => rw [hx, hy] at e; cases e
      | some y =>
        rw [hx, hy] at e
        obtain ⟨xv, e1, e⟩ := Res.bind_eq_ok.1 e
        obtain ⟨yv, e2, e⟩ := Res.bind_eq_ok.1 e
        cases e
        obtain ⟨mx, nx⟩ := getVariable_eq e1
        obtain ⟨my, ny⟩ := getVariable_eq e2
        have hd : ∀ d, d ∈ xv.shape ++ yv.shape ↔ HDim c s d := by
          intro d
          have same : ∀ v ∈ c.vars, ∀ w ∈ c.vars, v.name = w.name → v = w := fun v hv w hw e => List.inj_on_of_nodup_map hnd hv hw e
          rw [List.mem_append]
          constructor
          · rintro (h | h)
            · exact ⟨x, .inl (geoX_iff.1 hx), xv, mx, nx, h⟩
            · exact ⟨y, .inr (geoY_iff.1 hy), yv, my, ny, h⟩
          · rintro ⟨a, ha | ha, w, hw, hn, hdw⟩
            · have := ha.unique (geoX_iff.1 hx)
              subst this
              rw [same w hw xv mx (hn.trans nx.symm)] at hdw
              exact .inl hdw
            · have := ha.unique (geoY_iff.1 hy)
              subst this
              rw [same w hw yv my (hn.trans ny.symm)] at hdw
              exact .inr hdw
        rw [List.mem_map]
        have hlk : ∀ v : Var P, (lookup b.mapped v.name).isSome = false ↔ ∀ k', (v.name, k') ∉ b.mapped := by
          intro v
          rw [← Bool.not_eq_true, lookup_isSome, not_exists]
        constructor
        · rintro ⟨v, hv, rfl⟩
          rw [List.mem_filter] at hv
          obtain ⟨hv, hp⟩ := hv
          simp only [Bool.and_eq_true, Bool.not_eq_true', List.any_eq_true, List.any_eq_false, List.contains_iff_mem, beq_iff_eq] at hp
          obtain ⟨⟨p1, p2⟩, d, hdv, hdg⟩ := hp
          exact ⟨v, hv, rfl, p1, (hlk v).1 p2, d, hdv, (hd d).1 hdg⟩
        · rintro ⟨v, hv, rfl, p1, p2, d, hdv, hdg⟩
          refine ⟨v, List.mem_filter.2 ⟨hv, ?_⟩, rfl⟩
          simp only [Bool.and_eq_true, Bool.not_eq_true', List.any_eq_true, List.any_eq_false, List.contains_iff_mem, beq_iff_eq]
          exact ⟨⟨p1, (hlk v).2 p2⟩, d, hdv, (hd d).2 hdg⟩
  rw [hinc, List.mem_flatten]
  constructor
  · rintro ⟨r, hr, hn⟩
    obtain ⟨p, hp, e⟩ := forall2_right hf hr
    exact ⟨p.1, p.2, (hmem p.1 p.2).1 hp, (one _ _ e).1 hn⟩
  · rintro ⟨k, s, hc, hn⟩
    obtain ⟨r, hr, e⟩ := forall2_left hf ((hmem k s).2 hc)
    exact ⟨r, hr, (one _ _ e).2 hn⟩

/-- **C99.** Nothing is left on the old grid: a variable with a dimension of a horizontal axis is interpolated, an axis or incompatible. -/
theorem C99_nothing_left {wp : Bool} {l : List (System Pr)} (hl : ∀ s ∈ l, Sound s) (hnd : (c.vars.map fun v : Var P => v.name).Nodup) {b : Best Pr}
    (h : findBest wp l c = .ok b) {k : String} {t : System Pr} (ht : (k, t) ∈ b.systems) {v : Var P} (hv : v ∈ c.vars) {d : String}
    (hd : d ∈ v.shape) (hg : HDim c t d) :
    (∃ k', (v.name, k') ∈ b.mapped) ∨ (∃ s ∈ l, HId s k ∧ ∃ a ∈ getAxes s.axes, a.name = v.name) ∨ v.name ∈ b.incompatible := by
  obtain ⟨-, s, hc, hh⟩ := (C99_systems hl h).2.2 k t ht
  by_cases h1 : ∃ k', (v.name, k') ∈ b.mapped
  · exact .inl h1
  · by_cases h2 : ∃ a ∈ getAxes s.axes, a.name = v.name
    · exact .inr (.inl ⟨s, (last_mem hc).1, (last_mem hc).2.2, h2⟩)
    · push Not at h1 h2
      refine .inr (.inr ((C99_incompatible hnd h v.name).2 ⟨k, s, hc, v, hv, rfl, h2, h1, d, hd, ?_⟩))
      obtain ⟨a, ha, hr⟩ := hg
      exact ⟨a, ha.imp (hh.x a).1 (hh.y a).1, hr⟩

/-- Attributes belong to variables, and no axis has the name of the global attributes. -/
def AttrsOfVars (c : CDM P V CS) : Prop := ∀ n, (c.attrs n).isSome = true → n ≠ globalNS → ∃ v ∈ c.vars, v.name = n

theorem attrText_some {n a t : String} (h : attrText L c n a = some t) : (c.attrs n).isSome = true := by
  unfold attrText getAttribute at h
  cases hc : c.attrs n with
  | none => rw [hc] at h; cases h
  | some l => rfl

theorem typed_var (ha : AttrsOfVars c) {n : String} (hn : n ≠ globalNS) (ht : axisType L c n ≠ .undefined) : ∃ v ∈ c.vars, v.name = n := by
  obtain ⟨t, he⟩ : ∃ t, axisType L c n = t := ⟨_, rfl⟩
  have := (C94_type_by_rules L c n t).1 he
  rw [he] at ht
  cases this with
  | standard h _ => exact ha n (attrText_some h) hn
  | unit _ h _ => exact ha n (attrText_some h) hn
  | positive _ _ h _ => exact ha n (attrText_some h) hn
  | axis _ _ _ h _ => exact ha n (attrText_some h) hn
  | nothing _ _ _ _ => exact absurd rfl ht

theorem listed_sound (hnd : (c.vars.map fun v : Var P => v.name).Nodup) {l : List (System Pr)} (h : listCF L c = .ok l) :
    ∀ s ∈ l, Sound s ∧ Known L c s := by
  intro s hs
  obtain ⟨m, s1, s2, hk, -, -, -, hax, -⟩ := listed_phases hnd h hs
  have hk' : Known L c s := by
    unfold Known at hk ⊢
    rw [hax] at hk
    exact hk
  refine ⟨⟨hk'.2, fun hsim => ?_⟩, hk'⟩
  obtain ⟨x, y, hx, hy, -⟩ := (C96_simple hnd h s hs).1 hsim
  exact ⟨⟨x, hx⟩, y, hy⟩

theorem each_mem {α β : Type} {f : α → Res β} {l : List α} (h : ∀ a ∈ l, ∃ b, f a = .ok b) : ∃ r, each f l = .ok r := by
  induction l with
  | nil => exact ⟨[], rfl⟩
  | cons a l ih =>
    obtain ⟨b, hb⟩ := h a (by simp)
    obtain ⟨r, hr⟩ := ih fun a ha => h a (by simp [ha])
    exact ⟨b :: r, by unfold each; rw [hb, Res.ok_bind, hr, Res.ok_bind]⟩

/-- **C99.** For the coordinate systems of a CF dataset nothing is raised, and no null pointer is used. -/
theorem C99_cf_ok (wp : Bool) (hnd : (c.vars.map fun v : Var P => v.name).Nodup) (ha : AttrsOfVars c) {l : List (System Pr)}
    (h : listCF L c = .ok l) (hglobal : ∀ s ∈ l, ∀ a ∈ getAxes s.axes, a.name ≠ globalNS) :
    (∀ s ∈ l, Sound s) ∧ ∃ b, findBest wp l c = .ok b := by
  have hl := listed_sound hnd h
  refine ⟨fun s hs => (hl s hs).1, ?_⟩
  unfold findBest
  by_cases he : (systemMap wp l).isEmpty = true
  · exact ⟨_, if_pos he⟩
  · rw [if_neg he]
    have hvar : ∀ s ∈ l, ∀ a ∈ getAxes s.axes, a.type ≠ .undefined → ∃ v, getVariable c a.name = .ok v := by
      intro s hs a hm ht
      rw [((hl s hs).2.1 a hm).type] at ht
      obtain ⟨v, hv, hn⟩ := typed_var ha (hglobal s hs a hm) ht
      exact ⟨v, by rw [← hn]; exact getVariable_ok hnd hv⟩
    obtain ⟨inc, hi⟩ := each_mem (f := fun p : String × System Pr => incompatibleWith c (mapVariables l (systemMap wp l) c.vars) p.2)
      (l := systemMap wp l) (by
        rintro ⟨k, s⟩ hp
        obtain ⟨hm, hu, -⟩ := last_mem (((systemMap_spec wp l).2 k s).1 hp)
        obtain ⟨⟨x, hx⟩, y, hy⟩ := usable_axes (hl s hm).1 hu
        have mx := axisOfTypes_mem hx
        have my := axisOfTypes_mem hy
        obtain ⟨xv, ex⟩ := hvar s hm x mx.1 (by intro e; rw [e] at mx; simp at mx)
        obtain ⟨yv, ey⟩ := hvar s hm y my.1 (by intro e; rw [e] at my; simp at my)
        unfold incompatibleWith
        simp only [geoX_iff.2 hx, geoY_iff.2 hy, ex, ey, Res.ok_bind]
        exact ⟨_, rfl⟩)
    obtain ⟨sys, hs⟩ := each_mem (f := fun p : String × System Pr => do
      let s ← minimal (mapVariables l (systemMap wp l) c.vars) p.2
      Res.ok (p.1, s)) (l := systemMap wp l) (by
        rintro ⟨k, s⟩ hp
        obtain ⟨t, ht, -⟩ := chosen_minimal (fun s hs => (hl s hs).1) (mapVariables l (systemMap wp l) c.vars) (((systemMap_spec wp l).2 k s).1 hp)
        exact ⟨(k, t), by simp only [ht, Res.ok_bind]⟩)
    dsimp only
    rw [hi, Res.ok_bind, hs, Res.ok_bind]
    exact ⟨_, rfl⟩

/-- **C99** (partial).  A variable is interpolated with the projection, longitude and latitude of its own coordinate system, if all usable
systems with these axes have the same ones.  Missing: the case of two projections, or of two pairs of coordinates, on the same axes, see
`C99_two_projections` and `C99_two_coordinates`. -/
theorem C99_own_partial {wp : Bool} {l : List (System Pr)} (hl : ∀ s ∈ l, Sound s) {b : Best Pr} (h : findBest wp l c = .ok b)
    {v : Var P} {k : String} (hv : (v.name, k) ∈ b.mapped) :
    ∃ s t, First (fun s => Owns s v) l s ∧ HId s k ∧ (k, t) ∈ b.systems ∧ v.name ∈ t.isFor ∧
      ((∀ s' ∈ l, Usable wp s' → HId s' k → s'.proj = s.proj) → t.proj = s.proj) ∧
      ((∀ s' ∈ l, Usable wp s' → HId s' k → ∀ a, (TypeAxis s' .lon a ↔ TypeAxis s .lon a) ∧ (TypeAxis s' .lat a ↔ TypeAxis s .lat a)) →
        ∀ a, (TypeAxis t .lon a ↔ TypeAxis s .lon a) ∧ (TypeAxis t .lat a ↔ TypeAxis s .lat a)) := by
  obtain ⟨w, -, hw, s, hs, hk, hu⟩ := ((C99_variables h).2 v.name k).1 hv
  obtain ⟨-, h2, h3⟩ := C99_systems hl h
  obtain ⟨t, ht⟩ := (h2 k).2 hu
  obtain ⟨-, z, hz, hh⟩ := h3 k t ht
  obtain ⟨hzm, hzu, hzk⟩ := last_mem hz
  refine ⟨s, t, ?_, hk, ht, (hh.isFor v.name).2 hv, fun hp => ?_, fun hp a => ?_⟩
  · unfold Owns at hs ⊢
    rw [hw] at hs
    exact hs
  · rw [hh.proj]; exact hp z hzm hzu hzk
  · obtain ⟨p1, p2⟩ := hp z hzm hzu hzk a
    exact ⟨(hh.lon a).trans p1, (hh.lat a).trans p2⟩

/-! ## Cases -/

/-- A system, as shown in the cases. -/
structure Shown where
  key : String
  axes : List String
  proj : Option String
  isFor : List String
deriving DecidableEq

/-- What is found for a dataset: axes, projection and variables of each system, and the incompatible variables. -/
def bestOf (wp : Bool) (c : CDM Unit String Unit) : Option (List Shown × List String) :=
  match listCF toyLib c with
  | .ok l =>
    match findBest wp l c with
    | .ok b => some (b.systems.map fun p => ⟨p.1, (getAxes p.2.axes).map (·.name), p.2.proj, p.2.isFor⟩, b.incompatible)
    | _ => none
  | _ => none

/-- Two variables on the grid with or without time; a third has only one of the horizontal dimensions.  Longitude and latitude are no
axes of the last system, and are interpolated too. -/
def bestCdm (g1 g2 : String) : CDM Unit String Unit :=
  toyCdm [("time", 2), ("x", 3), ("y", 4)]
    [("time", ["time"], [("units", "hours")]), ("x", ["x"], [("axis", "X")]), ("y", ["y"], [("axis", "Y")]),
     ("lon", ["x", "y"], [("units", "degrees_east")]), ("lat", ["x", "y"], [("units", "degrees_north")]),
     ("polar", [], [("grid_mapping_name", "polar_stereographic")]), ("lcc", [], [("grid_mapping_name", "lambert_conformal_conic")]),
     ("T", ["x", "y", "time"], [("grid_mapping", g1), ("coordinates", "lon lat")]), ("P", ["x", "y"], [("grid_mapping", g2)]), ("S", ["x"], [])]

example : bestOf true (bestCdm "lcc" "lcc") =
    some ([⟨"x,y", ["x", "y"], some "lambert_conformal_conic", ["P", "T", "lat", "lon"]⟩], ["S"]) := by decide +kernel

/-- Two projections on the same axes: `T` has the mapping `lcc`, and is interpolated as polar stereographic, the mapping of `P`. -/
theorem C99_two_projections : bestOf true (bestCdm "lcc" "polar") =
    some ([⟨"x,y", ["x", "y"], some "polar_stereographic", ["P", "T", "lat", "lon"]⟩], ["S"]) := by decide +kernel

/-- Two pairs of coordinates on the same axes: the one of `Q` is used for `T` too, and that of `T` is removed. -/
theorem C99_two_coordinates : bestOf false (toyCdm [("x", 3), ("y", 4)]
    [("x", ["x"], [("axis", "X")]), ("y", ["y"], [("axis", "Y")]),
     ("lon", ["x", "y"], [("units", "degrees_east")]), ("lat", ["x", "y"], [("units", "degrees_north")]),
     ("lon2", ["x", "y"], [("units", "degrees_east")]), ("lat2", ["x", "y"], [("units", "degrees_north")]),
     ("T", ["x", "y"], [("coordinates", "lon lat")]), ("Q", ["x", "y"], [("coordinates", "lon2 lat2")])]) =
    some ([⟨"x,y", ["x", "y", "lon2", "lat2"], none, ["Q", "T"]⟩], ["lon", "lat"]) := by decide +kernel

end Fimex.Cf
