import Verif.CoordSys.CfModel

/-!
# C94: types of axes

The specification is a list of rules for four texts: `standard_name`, `units`, `positive` and `axis`, each of them possibly missing.
The rules are written with tables of names and do not say in which order a program looks at them.
-/

namespace Fimex.Cf

open Cdm CoordSys

variable {P V CS Pr : Type}

/-! ## Specification -/

/-- Two texts that differ in the case of letters only. -/
def SameLetters (a b : String) : Prop := a.toList.map Char.toLower = b.toList.map Char.toLower

/-- Standard names that decide the type of an axis. -/
def standardNames : List (String × AxisType) :=
  [("longitude", .lon), ("latitude", .lat), ("forecast_reference_time", .referenceTime), ("realization", .realization),
   ("projection_x_coordinate", .geoX), ("grid_longitude", .geoX), ("projection_y_coordinate", .geoY), ("grid_latitude", .geoY),
   ("atmosphere_sigma_coordinate", .geoZ), ("atmosphere_hybrid_sigma_pressure_coordinate", .geoZ),
   ("atmosphere_hybrid_height_coordinate", .geoZ), ("atmosphere_sleve_coordinate", .geoZ), ("ocean_sigma_coordinate", .geoZ),
   ("ocean_s_coordinate", .geoZ), ("ocean_sigma_z_coordinate", .geoZ), ("ocean_double_sigma_coordinate", .geoZ),
   ("ocean_s_coordinate_g1", .geoZ), ("ocean_s_coordinate_g2", .geoZ)]

/-- Spellings of `degrees_east` and `degrees_north`. -/
def degreeUnits : List (String × AxisType) :=
  [("degrees_east", .lon), ("degrees_e", .lon), ("degreese", .lon), ("degree_east", .lon), ("degree_e", .lon), ("degreee", .lon),
   ("degrees_north", .lat), ("degrees_n", .lat), ("degreesn", .lat), ("degree_north", .lat), ("degree_n", .lat), ("degreen", .lat)]

/-- Deprecated units of vertical axes. -/
def levelUnits : List String := ["level", "layer", "sigma_level"]

/-- A text is in a table, apart from the case of letters. -/
def InTable (t : List (String × AxisType)) (s : String) (a : AxisType) : Prop := ∃ n, (n, a) ∈ t ∧ SameLetters s n

/-- The type given by a unit. -/
inductive UnitType (L : Lib V Pr) (u : String) : AxisType → Prop
  | degree {a} : InTable degreeUnits u a → UnitType L u a
  | time : (∀ a, ¬ InTable degreeUnits u a) → L.convertible u "seconds since 1970-01-01 00:00:00" = true → UnitType L u .time
  | pressure : (∀ a, ¬ InTable degreeUnits u a) → L.convertible u "seconds since 1970-01-01 00:00:00" = false →
      L.convertible "mbar" u = true → UnitType L u .pressure
  | level {n} : L.convertible u "seconds since 1970-01-01 00:00:00" = false → L.convertible "mbar" u = false →
      n ∈ levelUnits → SameLetters u n → UnitType L u .geoZ

/-- The type given by an attribute `positive`. -/
inductive PositiveType (L : Lib V Pr) (p : String) (units : Option String) : AxisType → Prop
  | height {u} : units = some u → L.convertible "m" u = true → p = "up" → PositiveType L p units .height
  | depth {u} : units = some u → L.convertible "m" u = true → p ≠ "up" → PositiveType L p units .depth
  | other : (∀ u, units = some u → L.convertible "m" u = false) → PositiveType L p units .geoZ

/-- The type given by an attribute `axis`. -/
inductive LetterType (L : Lib V Pr) (a : String) (units : Option String) : AxisType → Prop
  | x : SameLetters a "x" → LetterType L a units .geoX
  | y : SameLetters a "y" → LetterType L a units .geoY
  | t : SameLetters a "t" → LetterType L a units .time
  | pressure {u} : SameLetters a "z" → units = some u → L.convertible u "mbar" = true → LetterType L a units .pressure
  | height {u} : SameLetters a "z" → units = some u → L.convertible u "mbar" = false → L.convertible u "m" = true →
      LetterType L a units .height
  | z : SameLetters a "z" → (∀ u, units = some u → L.convertible u "mbar" = false ∧ L.convertible u "m" = false) → LetterType L a units .geoZ
  | none : (∀ l ∈ ["x", "y", "z", "t"], ¬ SameLetters a l) → LetterType L a units .undefined

/-- The type of an axis with the given texts. -/
inductive TypeOf (L : Lib V Pr) (sname units positive axis : Option String) : AxisType → Prop
  | standard {s a} : sname = some s → InTable standardNames s a → TypeOf L sname units positive axis a
  | unit {u a} : (∀ s, sname = some s → ∀ a, ¬ InTable standardNames s a) → units = some u → UnitType L u a →
      TypeOf L sname units positive axis a
  | positive {p a} : (∀ s, sname = some s → ∀ a, ¬ InTable standardNames s a) → (∀ u, units = some u → ∀ a, ¬ UnitType L u a) →
      positive = some p → PositiveType L p units a → TypeOf L sname units positive axis a
  | axis {x a} : (∀ s, sname = some s → ∀ a, ¬ InTable standardNames s a) → (∀ u, units = some u → ∀ a, ¬ UnitType L u a) →
      positive = none → axis = some x → LetterType L x units a → TypeOf L sname units positive axis a
  | nothing : (∀ s, sname = some s → ∀ a, ¬ InTable standardNames s a) → (∀ u, units = some u → ∀ a, ¬ UnitType L u a) →
      positive = none → axis = none → TypeOf L sname units positive axis .undefined

/-! ## The program follows the rules -/

theorem lower_eq_iff {s n : String} (hn : lower n = n) : lower s = n ↔ SameLetters s n := by
  unfold SameLetters
  constructor
  · intro h
    rw [← hn] at h
    unfold lower at h
    have := congrArg String.toList h
    simpa using this
  · intro h
    rw [← hn]
    unfold lower
    rw [h]

theorem inTable_iff {t : List (String × AxisType)} (ht : ∀ x ∈ t, lower x.1 = x.1) {s : String} {a : AxisType} :
    InTable t s a ↔ (lower s, a) ∈ t := by
  unfold InTable
  constructor
  · rintro ⟨n, hm, h⟩
    rw [(lower_eq_iff (ht _ hm)).2 h]
    exact hm
  · intro h
    exact ⟨lower s, h, (lower_eq_iff (ht _ h)).1 rfl⟩

theorem standardNames_lower : ∀ x ∈ standardNames, lower x.1 = x.1 := by decide +kernel
theorem degreeUnits_lower : ∀ x ∈ degreeUnits, lower x.1 = x.1 := by decide +kernel
theorem levelUnits_lower : ∀ x ∈ levelUnits, lower x = x := by decide +kernel

theorem typeOfStandardName_iff {s : String} {a : AxisType} : typeOfStandardName s = some a ↔ InTable standardNames s a := by
  rw [inTable_iff standardNames_lower]
  unfold typeOfStandardName standardNames
  generalize lower s = l
  constructor
  · intro h
    dsimp only at h
    split_ifs at h with h1 h2 h3 h4 h5 h6 h7 <;> cases h
    · simpa using h1
    · simpa using h2
    · simpa using h3
    · simpa using h4
    · simpa using h5
    · simpa using h6
    · simpa using h7
  · intro h
    simp only [List.mem_cons, Prod.mk.injEq, List.not_mem_nil, or_false] at h
    rcases h with ⟨rfl, rfl⟩ | ⟨rfl, rfl⟩ | ⟨rfl, rfl⟩ | ⟨rfl, rfl⟩ | ⟨rfl, rfl⟩ | ⟨rfl, rfl⟩ | ⟨rfl, rfl⟩ | ⟨rfl, rfl⟩ | ⟨rfl, rfl⟩ |
      ⟨rfl, rfl⟩ | ⟨rfl, rfl⟩ | ⟨rfl, rfl⟩ | ⟨rfl, rfl⟩ | ⟨rfl, rfl⟩ | ⟨rfl, rfl⟩ | ⟨rfl, rfl⟩ | ⟨rfl, rfl⟩ | ⟨rfl, rfl⟩ <;> decide +kernel

theorem degree_iff {u : String} {a : AxisType} :
    InTable degreeUnits u a ↔
      (a = .lon ∧ (lower u = "degrees_east" ∨ lower u = "degrees_e" ∨ lower u = "degreese" ∨ lower u = "degree_east" ∨ lower u = "degree_e" ∨
        lower u = "degreee")) ∨
      (a = .lat ∧ (lower u = "degrees_north" ∨ lower u = "degrees_n" ∨ lower u = "degreesn" ∨ lower u = "degree_north" ∨
        lower u = "degree_n" ∨ lower u = "degreen")) := by
  rw [inTable_iff degreeUnits_lower]
  unfold degreeUnits
  generalize lower u = l
  cases a <;> simp

theorem level_iff {u : String} : (∃ n ∈ levelUnits, SameLetters u n) ↔ (lower u = "level" ∨ lower u = "layer" ∨ lower u = "sigma_level") := by
  have : (∃ n ∈ levelUnits, SameLetters u n) ↔ ∃ n ∈ levelUnits, lower u = n :=
    exists_congr fun n => and_congr_right fun hn => (lower_eq_iff (levelUnits_lower n hn)).symm
  rw [this]
  unfold levelUnits
  simp

theorem lon_not_lat {u : String} (h : lower u = "degrees_east" ∨ lower u = "degrees_e" ∨ lower u = "degreese" ∨ lower u = "degree_east" ∨
    lower u = "degree_e" ∨ lower u = "degreee") : ¬ (lower u = "degrees_north" ∨ lower u = "degrees_n" ∨ lower u = "degreesn" ∨
    lower u = "degree_north" ∨ lower u = "degree_n" ∨ lower u = "degreen") := by
  revert h
  generalize lower u = l
  rintro (rfl | rfl | rfl | rfl | rfl | rfl) <;> decide +kernel

theorem level_not_degree {u : String} (h : lower u = "level" ∨ lower u = "layer" ∨ lower u = "sigma_level") :
    ¬ (lower u = "degrees_east" ∨ lower u = "degrees_e" ∨ lower u = "degreese" ∨ lower u = "degree_east" ∨
    lower u = "degree_e" ∨ lower u = "degreee") ∧ ¬ (lower u = "degrees_north" ∨ lower u = "degrees_n" ∨ lower u = "degreesn" ∨
    lower u = "degree_north" ∨ lower u = "degree_n" ∨ lower u = "degreen") := by
  revert h
  generalize lower u = l
  rintro (rfl | rfl | rfl) <;> decide +kernel

theorem typeOfUnit_iff (L : Lib V Pr) {u : String} {a : AxisType} : typeOfUnit L u = some a ↔ UnitType L u a := by
  unfold typeOfUnit isTime
  dsimp only
  constructor
  · intro h
    split_ifs at h with h1 h2 h3 h4 h5 <;> cases h
    · exact .degree (degree_iff.2 (Or.inl ⟨rfl, h1⟩))
    · exact .degree (degree_iff.2 (Or.inr ⟨rfl, h2⟩))
    · refine .time (fun a ha => ?_) h3
      rcases degree_iff.1 ha with ⟨-, h⟩ | ⟨-, h⟩
      · exact h1 h
      · exact h2 h
    · refine .pressure (fun a ha => ?_) (by simpa using h3) h4
      rcases degree_iff.1 ha with ⟨-, h⟩ | ⟨-, h⟩
      · exact h1 h
      · exact h2 h
    · obtain ⟨n, hn, hs⟩ := level_iff.2 h5
      exact .level (by simpa using h3) (by simpa using h4) hn hs
  · intro h
    have nodeg : (∀ a, ¬ InTable degreeUnits u a) → ¬ (lower u = "degrees_east" ∨ lower u = "degrees_e" ∨ lower u = "degreese" ∨
        lower u = "degree_east" ∨ lower u = "degree_e" ∨ lower u = "degreee") ∧ ¬ (lower u = "degrees_north" ∨ lower u = "degrees_n" ∨
        lower u = "degreesn" ∨ lower u = "degree_north" ∨ lower u = "degree_n" ∨ lower u = "degreen") :=
      fun h => ⟨fun hl => h .lon (degree_iff.2 (Or.inl ⟨rfl, hl⟩)), fun hl => h .lat (degree_iff.2 (Or.inr ⟨rfl, hl⟩))⟩
    cases h with
    | degree hd =>
      rcases degree_iff.1 hd with ⟨rfl, k⟩ | ⟨rfl, k⟩
      · rw [if_pos k]
      · rw [if_neg fun h' => lon_not_lat h' k, if_pos k]
    | time h1 h2 =>
      obtain ⟨h3, h4⟩ := nodeg h1
      rw [if_neg h3, if_neg h4, if_pos h2]
    | pressure h1 h2 h5 =>
      obtain ⟨h3, h4⟩ := nodeg h1
      rw [if_neg h3, if_neg h4, if_neg (by simp [h2]), if_pos h5]
    | level h1 h2 hn hs =>
      have hl := level_iff.1 ⟨_, hn, hs⟩
      obtain ⟨h3, h4⟩ := level_not_degree hl
      rw [if_neg h3, if_neg h4, if_neg (by simp [h1]), if_neg (by simp [h2]), if_pos hl]

theorem typeOfPositive_iff (L : Lib V Pr) {p : String} {u : Option String} {a : AxisType} :
    typeOfPositive L p u = a ↔ PositiveType L p u a := by
  unfold typeOfPositive
  cases u with
  | none =>
    dsimp only
    constructor
    · rintro rfl
      exact .other fun u h => (by cases h)
    · intro h
      cases h with
      | height h => cases h
      | depth h => cases h
      | other _ => rfl
  | some u =>
    dsimp only
    constructor
    · intro h
      split_ifs at h with h1 h2 <;> subst h
      · exact .height rfl h1 h2
      · exact .depth rfl h1 h2
      · exact .other fun u' h' => by cases h'; simpa using h1
    · intro h
      cases h with
      | height h h1 h2 => cases h; rw [if_pos h1, if_pos h2]
      | depth h h1 h2 => cases h; rw [if_pos h1, if_neg h2]
      | other h => rw [if_neg (by simp [h u rfl])]

theorem typeOfAxis_iff (L : Lib V Pr) {x : String} {u : Option String} {a : AxisType} :
    (typeOfAxis L x u).getD .undefined = a ↔ LetterType L x u a := by
  have kx : lower x = "x" ↔ SameLetters x "x" := lower_eq_iff (by decide +kernel)
  have ky : lower x = "y" ↔ SameLetters x "y" := lower_eq_iff (by decide +kernel)
  have kz : lower x = "z" ↔ SameLetters x "z" := lower_eq_iff (by decide +kernel)
  have kt : lower x = "t" ↔ SameLetters x "t" := lower_eq_iff (by decide +kernel)
  unfold typeOfAxis
  dsimp only
  constructor
  · intro h
    by_cases h1 : lower x = "x"
    · rw [if_pos h1] at h; subst h; exact .x (kx.1 h1)
    rw [if_neg h1] at h
    by_cases h2 : lower x = "y"
    · rw [if_pos h2] at h; subst h; exact .y (ky.1 h2)
    rw [if_neg h2] at h
    by_cases h3 : lower x = "z"
    · rw [if_pos h3] at h
      cases u with
      | none => subst h; exact .z (kz.1 h3) fun u hu => (by cases hu)
      | some u =>
        dsimp only at h
        split_ifs at h with h4 h5 <;> subst h
        · exact .pressure (kz.1 h3) rfl h4
        · exact .height (kz.1 h3) rfl (by simpa using h4) h5
        · exact .z (kz.1 h3) fun u' hu => by cases hu; exact ⟨by simpa using h4, by simpa using h5⟩
    rw [if_neg h3] at h
    by_cases h4 : lower x = "t"
    · rw [if_pos h4] at h; subst h; exact .t (kt.1 h4)
    rw [if_neg h4] at h
    subst h
    refine .none fun l hl => ?_
    simp only [List.mem_cons, List.not_mem_nil, or_false] at hl
    rcases hl with rfl | rfl | rfl | rfl
    · exact fun h => h1 (kx.2 h)
    · exact fun h => h2 (ky.2 h)
    · exact fun h => h3 (kz.2 h)
    · exact fun h => h4 (kt.2 h)
  · intro h
    cases h with
    | x h => rw [if_pos (kx.2 h)]; rfl
    | y h => rw [ky.2 h]; rfl
    | t h => rw [kt.2 h]; rfl
    | pressure h hu h1 => rw [kz.2 h, hu]; simp [h1]
    | height h hu h1 h2 => rw [kz.2 h, hu]; simp [h1, h2]
    | z h hu =>
      rw [kz.2 h]
      cases u with
      | none => rfl
      | some u => simp [hu u rfl]
    | none h =>
      rw [if_neg fun h' => h "x" (by simp) (kx.1 h'), if_neg fun h' => h "y" (by simp) (ky.1 h'),
        if_neg fun h' => h "z" (by simp) (kz.1 h'), if_neg fun h' => h "t" (by simp) (kt.1 h')]
      rfl

/-- **C94.** The type given to an axis is the one of the rules: every axis has exactly one type, and the rules and the program agree on it.
Nothing but the four attributes matters. -/
theorem C94_type_by_rules (L : Lib V Pr) (c : CDM P V CS) (n : String) (a : AxisType) :
    axisType L c n = a ↔
      TypeOf L (attrText L c n "standard_name") (attrText L c n "units") (attrText L c n "positive") (attrText L c n "axis") a := by
  unfold axisType
  generalize attrText L c n "standard_name" = sn
  generalize attrText L c n "units" = un
  generalize attrText L c n "positive" = po
  generalize attrText L c n "axis" = ax
  have nosn : sn.bind typeOfStandardName = none ↔ ∀ s, sn = some s → ∀ a, ¬ InTable standardNames s a := by
    rw [Option.bind_eq_none_iff]
    refine forall_congr' fun s => forall_congr' fun _ => ?_
    rw [Option.eq_none_iff_forall_ne_some]
    exact forall_congr' fun a => by rw [← typeOfStandardName_iff]
  have noun : un.bind (typeOfUnit L) = none ↔ ∀ u, un = some u → ∀ a, ¬ UnitType L u a := by
    rw [Option.bind_eq_none_iff]
    refine forall_congr' fun s => forall_congr' fun _ => ?_
    rw [Option.eq_none_iff_forall_ne_some]
    exact forall_congr' fun a => by rw [← typeOfUnit_iff]
  constructor
  · intro h
    cases h1 : sn.bind typeOfStandardName with
    | some t =>
      rw [h1] at h
      cases h
      obtain ⟨s, hs, ht⟩ := Option.bind_eq_some_iff.1 h1
      exact .standard hs (typeOfStandardName_iff.1 ht)
    | none =>
      rw [h1] at h
      have k1 := nosn.1 h1
      dsimp only at h
      cases h2 : un.bind (typeOfUnit L) with
      | some t =>
        rw [h2] at h
        cases h
        obtain ⟨u, hu, ht⟩ := Option.bind_eq_some_iff.1 h2
        exact .unit k1 hu ((typeOfUnit_iff L).1 ht)
      | none =>
        rw [h2] at h
        have k2 := noun.1 h2
        cases po with
        | some p => exact .positive k1 k2 rfl ((typeOfPositive_iff L).1 h)
        | none =>
          cases ax with
          | some x => exact .axis k1 k2 rfl rfl ((typeOfAxis_iff L).1 h)
          | none => cases h; exact .nothing k1 k2 rfl rfl
  · intro h
    cases h with
    | standard hs ht => rw [hs, Option.bind_some, typeOfStandardName_iff.2 ht]
    | unit k hu ht => rw [nosn.2 k, hu, Option.bind_some, (typeOfUnit_iff L).2 ht]
    | positive k1 k2 hp ht => rw [nosn.2 k1, noun.2 k2, hp]; exact (typeOfPositive_iff L).2 ht
    | axis k1 k2 hp hx ht => rw [nosn.2 k1, noun.2 k2, hp, hx]; exact (typeOfAxis_iff L).2 ht
    | nothing k1 k2 hp hx => rw [nosn.2 k1, noun.2 k2, hp, hx]

/-- An attribute is the same up to the case of letters, or missing in both. -/
def SameText : Option String → Option String → Prop
  | some a, some b => SameLetters a b
  | none, none => True
  | _, _ => False

theorem inTable_congr {t : List (String × AxisType)} {a b : String} (h : SameLetters a b) (x : AxisType) : InTable t a x ↔ InTable t b x := by
  unfold InTable SameLetters at *
  rw [h]

/-- **C94.** The case of letters in `standard_name` and `axis` does not matter, nor does it in `units` as far as the unit library does not
see it.  The full property (`positive` as well, CF section 4.3) is violated: `C94_positive_letters`. -/
theorem C94_letters_partial (L : Lib V Pr) (c : CDM P V CS) (c' : CDM P V CS) (n n' : String)
    (hs : SameText (attrText L c n "standard_name") (attrText L c' n' "standard_name"))
    (hu : SameText (attrText L c n "units") (attrText L c' n' "units"))
    (hx : SameText (attrText L c n "axis") (attrText L c' n' "axis"))
    (hp : attrText L c n "positive" = attrText L c' n' "positive")
    (hL : ∀ a b w, SameLetters a b → L.convertible a w = L.convertible b w ∧ L.convertible w a = L.convertible w b) :
    axisType L c n = axisType L c' n' := by
  have low : ∀ a b, SameLetters a b → lower a = lower b := fun a b h => by
    unfold lower
    rw [h]
  unfold axisType
  rw [hp]
  revert hs hu hx
  generalize attrText L c n "standard_name" = s
  generalize attrText L c n "units" = u
  generalize attrText L c n "axis" = x
  generalize attrText L c' n' "standard_name" = s'
  generalize attrText L c' n' "units" = u'
  generalize attrText L c' n' "axis" = x'
  intro hs hu hx
  have e1 : s.bind typeOfStandardName = s'.bind typeOfStandardName := by
    cases s <;> cases s' <;> first | rfl | cases hs | skip
    simp only [Option.bind_some]
    unfold typeOfStandardName
    rw [low _ _ hs]
  have e2 : u.bind (typeOfUnit L) = u'.bind (typeOfUnit L) := by
    cases u <;> cases u' <;> first | rfl | cases hu | skip
    simp only [Option.bind_some]
    unfold typeOfUnit isTime
    rw [low _ _ hu, (hL _ _ "seconds since 1970-01-01 00:00:00" hu).1, (hL _ _ "mbar" hu).2]
  have e3 : ∀ p, typeOfPositive L p u = typeOfPositive L p u' := by
    intro p
    cases u <;> cases u' <;> first | rfl | cases hu | skip
    unfold typeOfPositive
    dsimp only
    rw [(hL _ _ "m" hu).2]
  have e4 : ∀ a b, SameLetters a b → typeOfAxis L a u = typeOfAxis L b u' := by
    intro a b h
    unfold typeOfAxis
    rw [low _ _ h]
    cases u <;> cases u' <;> first | rfl | cases hu | skip
    dsimp only
    rw [(hL _ _ "mbar" hu).1, (hL _ _ "m" hu).1]
  rw [e1, e2]
  cases s'.bind typeOfStandardName with
  | some t => rfl
  | none =>
    cases u'.bind (typeOfUnit L) with
    | some t => rfl
    | none =>
      cases attrText L c' n' "positive" with
      | some p => exact e3 p
      | none =>
        cases x <;> cases x' <;> first | rfl | cases hx | skip
        dsimp only
        rw [e4 _ _ hx]

/-- **C94.** A standard name of the table outweighs all other attributes, then a unit that says the type, then `positive`. -/
theorem C94_priority (L : Lib V Pr) (c : CDM P V CS) (n : String) (a : AxisType) :
    (∀ s, attrText L c n "standard_name" = some s → InTable standardNames s a → axisType L c n = a) ∧
    (∀ u, attrText L c n "standard_name" = none → attrText L c n "units" = some u → UnitType L u a → axisType L c n = a) ∧
    (attrText L c n "standard_name" = none → attrText L c n "units" = none → ∀ p, attrText L c n "positive" = some p →
      axisType L c n = .geoZ) := by
  refine ⟨fun s h1 h2 => ?_, fun u h1 h2 h3 => ?_, fun h1 h2 p h3 => ?_⟩
  · exact (C94_type_by_rules L c n a).2 (.standard h1 h2)
  · exact (C94_type_by_rules L c n a).2 (.unit (fun s h => by rw [h1] at h; cases h) h2 h3)
  · refine (C94_type_by_rules L c n _).2 (.positive (fun s h => by rw [h1] at h; cases h) (fun u h => by rw [h2] at h; cases h) h3 (.other ?_))
    intro u h
    rw [h2] at h
    cases h

/-! ## Cases -/

/-- A library that knows metres, bars and hours. -/
def unitLib : Lib String String where
  text := id
  convertible a b := (a == "m" && b == "m") || (a == "mbar" && b == "hPa") || (a == "hPa" && b == "mbar") ||
    (a == "hours since 2000-01-01" && b == "seconds since 1970-01-01 00:00:00")
  createProj _ := .throws
  latLonValue := "latitude_longitude"

/-- A dataset that is one axis with some attributes. -/
def oneAxis (attrs : List (String × String)) : CDM Unit String Unit where
  attrs n := if n = "k" then some (attrs.map fun a => ⟨a.1, a.2⟩) else none
  vars := [⟨"k", ["k"], ()⟩]
  dims := [⟨"k", 3, false⟩]
  coordsInitialized := false
  coordSystems := ()

example :
    ([[("standard_name", "Grid_Longitude"), ("units", "degrees_north")], [("standard_name", "height"), ("units", "Degrees_North")],
      [("units", "hours since 2000-01-01"), ("axis", "X")], [("units", "hPa"), ("positive", "down")], [("units", "Layer")],
      [("units", "m"), ("positive", "up")], [("units", "m"), ("positive", "down")], [("positive", "down")], [("units", "m"), ("axis", "Z")],
      [("axis", "y")], [("axis", "w")], []] : List (List (String × String))).map (fun a => axisType unitLib (oneAxis a) "k") =
    [.geoX, .lat, .time, .pressure, .geoZ, .height, .depth, .geoZ, .height, .geoY, .undefined, .undefined] := by decide +kernel

/-- `positive = "Up"` makes a depth of a height: the case of letters matters there, and so does every other text. -/
theorem C94_positive_letters :
    SameLetters "up" "Up" ∧ axisType unitLib (oneAxis [("units", "m"), ("positive", "up")]) "k" = .height ∧
    axisType unitLib (oneAxis [("units", "m"), ("positive", "Up")]) "k" = .depth := by
  unfold SameLetters
  decide +kernel

end Fimex.Cf
