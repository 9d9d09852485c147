import Verif.CoordSys.LonLatLemmas

/-!
# C108: longitude and latitude for all grids
-/

namespace Fimex.LonLat

open Cdm CoordSys Cf Change

variable {V CS Pr T α O : Type}

/-! ## Specification -/

/-- A coordinate system has an axis of a type. -/
def HasType (s : System Pr) (t : AxisType) : Prop := ∃ a ∈ getAxes s.axes, a.type = t

/-- A simple grid with a projection that is not described by both longitude and latitude: names of its axes and the projection. -/
structure Needs (s : System Pr) (x y : String) (p : Pr) : Prop where
  simple : s.simple = true
  proj : s.proj = some p
  without : ¬ (HasType s .lat ∧ HasType s .lon)
  x : ∃ a, XAxis s a ∧ a.name = x
  y : ∃ a, YAxis s a ∧ a.name = y

/-- The names of the axes with an underscore between them tell the grids apart. -/
def Distinguished (l : List (System Pr)) : Prop :=
  ∀ s ∈ l, ∀ t ∈ l, ∀ x y p x' y' q, Needs s x y p → Needs t x' y' q → x ++ "_" ++ y = x' ++ "_" ++ y' → x = x' ∧ y = y'

/-- Grids with the same axes have the same projection. -/
def OneProjection (l : List (System Pr)) : Prop := ∀ s ∈ l, ∀ t ∈ l, ∀ x y p q, Needs s x y p → Needs t x y q → p = q

/-- No variable is on two such grids. -/
def OneGrid {P : Type} (l : List (System Pr)) (c : CDM P V CS) : Prop :=
  ∀ v ∈ c.vars, ∀ s ∈ l, ∀ t ∈ l, Owns s v → Owns t v → ∀ x y p x' y' q, Needs s x y p → Needs t x' y' q → x = x' ∧ y = y'

/-! ## The grids -/

theorem hasType_iff {s : System Pr} {t : AxisType} : hasAxisType s t = true ↔ HasType s t := by
  unfold hasAxisType HasType getAxes
  rw [Bool.or_eq_true, findType_some, findType_some]
  simp only [List.mem_append]
  constructor
  · rintro (⟨a, h1, h2⟩ | ⟨a, h1, h2⟩)
    · exact ⟨a, .inl h1, h2⟩
    · exact ⟨a, .inr h1, h2⟩
  · rintro ⟨a, h1 | h1, h2⟩
    · exact .inl ⟨a, h1, h2⟩
    · exact .inr ⟨a, h1, h2⟩

theorem wanted_needs {s : System Pr} {ax ay : Axis} {p : Pr} (h : wanted s = true) (hx : geoX s = some ax) (hy : geoY s = some ay) (hp : s.proj = some p) :
    Needs s ax.name ay.name p := by
  unfold wanted at h
  rw [Bool.and_eq_true, Bool.and_eq_true, Bool.not_eq_true', Bool.and_eq_false_iff] at h
  refine ⟨h.1.1, hp, ?_, ⟨ax, findAxisOfTypes_iff.1 hx, rfl⟩, ⟨ay, findAxisOfTypes_iff.1 hy, rfl⟩⟩
  rintro ⟨h1, h2⟩
  rw [← hasType_iff] at h1 h2
  rw [h1, h2] at h
  simp at h

theorem needs_wanted {s : System Pr} {x y : String} {p : Pr} (h : Needs s x y p) :
    wanted s = true ∧ ∃ ax ay, geoX s = some ax ∧ ax.name = x ∧ geoY s = some ay ∧ ay.name = y := by
  obtain ⟨ax, hx, rfl⟩ := h.x
  obtain ⟨ay, hy, rfl⟩ := h.y
  refine ⟨?_, ax, ay, findAxisOfTypes_iff.2 hx, rfl, findAxisOfTypes_iff.2 hy, rfl⟩
  unfold wanted
  rw [h.simple, h.proj]
  have := h.without
  rw [← hasType_iff, ← hasType_iff, ← Bool.and_eq_true] at this
  rw [Bool.eq_false_iff.2 this]
  rfl

/-- The variables entered for a coordinate system. -/
def ownedNames (names : List String) (s : System Pr) : List String := names.filter fun n => s.complete.contains n && s.isFor.contains n

theorem mem_ownedNames {names : List String} {s : System Pr} {n : String} : n ∈ ownedNames names s ↔ n ∈ names ∧ n ∈ s.isFor ∧ n ∈ s.complete := by
  unfold ownedNames
  rw [List.mem_filter]
  simp [and_comm]

/-- What is known of the grids that are collected from the coordinate systems `done`. -/
structure Collected (names : List String) (done : List (System Pr)) (m : List (String × Group Pr)) : Prop where
  sorted : (m.map (·.1)).Pairwise (· < ·)
  from_ : ∀ e ∈ m, (∃ s ∈ done, Needs s e.2.x e.2.y e.2.proj ∧ e.1 = e.2.x ++ "_" ++ e.2.y) ∧
    ∀ n, n ∈ e.2.vars ↔ ∃ s ∈ done, (∃ x y p, Needs s x y p ∧ x ++ "_" ++ y = e.1) ∧ n ∈ ownedNames names s
  all : ∀ s ∈ done, ∀ x y p, Needs s x y p → ∃ e ∈ m, e.1 = x ++ "_" ++ y

theorem mem_enter {k x y : String} {p : Pr} {ns : List String} : ∀ {m : List (String × Group Pr)}, (m.map (·.1)).Pairwise (· < ·) →
    ((enter k x y p ns m).map (·.1)).Pairwise (· < ·) ∧ (∀ e ∈ enter k x y p ns m, e.1 = k ∨ e ∈ m) ∧ (∀ e ∈ m, e.1 ≠ k → e ∈ enter k x y p ns m) ∧
    (∃ e ∈ enter k x y p ns m, e.1 = k) ∧
    ∀ e ∈ enter k x y p ns m, e.1 = k → e.2.x = x ∧ e.2.y = y ∧ e.2.proj = p ∧ ∀ n, n ∈ e.2.vars ↔ n ∈ ns ∨ ∃ g, (k, g) ∈ m ∧ n ∈ g.vars
  | [], _ => by
    unfold enter
    refine ⟨by simp, ?_, by simp, ⟨_, List.mem_cons_self, rfl⟩, ?_⟩
    · intro e he
      rw [List.mem_singleton] at he
      exact .inl (by rw [he])
    · intro e he _
      rw [List.mem_singleton] at he
      rw [he]
      refine ⟨rfl, rfl, rfl, fun n => ?_⟩
      dsimp only
      rw [mem_insertAll]
      simp
  | (k', g) :: m, h => by
    have hc := List.pairwise_cons.1 h
    unfold enter
    by_cases h1 : k < k'
    · rw [if_pos h1]
      have hno : ∀ g', (k, g') ∉ (k', g) :: m := by
        intro g' hm
        rcases List.mem_cons.1 hm with e | hm
        · cases e; exact lt_irrefl _ h1
        · exact lt_irrefl _ (lt_trans h1 (hc.1 k (List.mem_map.2 ⟨_, hm, rfl⟩)))
      refine ⟨?_, ?_, ?_, ⟨_, List.mem_cons_self, rfl⟩, ?_⟩
      · rw [List.map_cons, List.pairwise_cons]
        refine ⟨fun a ha => ?_, h⟩
        rw [List.map_cons] at ha
        rcases List.mem_cons.1 ha with rfl | ha
        · exact h1
        · exact lt_trans h1 (hc.1 a ha)
      · intro e he
        rcases List.mem_cons.1 he with rfl | he
        · exact .inl rfl
        · exact .inr he
      · intro e he _
        exact List.mem_cons_of_mem _ he
      · rintro ⟨a, b⟩ he hk
        rcases List.mem_cons.1 he with e | hm
        · cases e
          refine ⟨rfl, rfl, rfl, fun n => ?_⟩
          dsimp only
          rw [mem_insertAll]
          constructor
          · rintro (h | h)
            · exact .inl h
            · cases h
          · rintro (h | ⟨g', hm, -⟩)
            · exact .inl h
            · exact absurd hm (hno g')
        · cases hk
          exact absurd hm (hno b)
    · rw [if_neg h1]
      by_cases h2 : k = k'
      · subst h2
        rw [if_pos rfl]
        have hno : ∀ g', (k, g') ∉ m := fun g' hm => lt_irrefl _ (hc.1 k (List.mem_map.2 ⟨_, hm, rfl⟩))
        refine ⟨h, ?_, ?_, ⟨_, List.mem_cons_self, rfl⟩, ?_⟩
        · intro e he
          rcases List.mem_cons.1 he with rfl | he
          · exact .inl rfl
          · exact .inr (List.mem_cons_of_mem _ he)
        · intro e he hne
          rcases List.mem_cons.1 he with rfl | he
          · exact absurd rfl hne
          · exact List.mem_cons_of_mem _ he
        · rintro ⟨a, b⟩ he hk
          rcases List.mem_cons.1 he with e | hm
          · cases e
            refine ⟨rfl, rfl, rfl, fun n => ?_⟩
            dsimp only
            rw [mem_insertAll]
            refine or_congr_right ⟨fun h => ⟨g, List.mem_cons_self, h⟩, ?_⟩
            rintro ⟨g', hm, hn⟩
            rcases List.mem_cons.1 hm with e | hm
            · cases e; exact hn
            · exact absurd hm (hno g')
          · cases hk
            exact absurd hm (hno b)
      · rw [if_neg h2]
        obtain ⟨i1, i2, i3, i4, i5⟩ := mem_enter (k := k) (x := x) (y := y) (p := p) (ns := ns) hc.2
        refine ⟨?_, ?_, ?_, ?_, ?_⟩
        · rw [List.map_cons, List.pairwise_cons]
          refine ⟨fun a ha => ?_, i1⟩
          obtain ⟨e, he, rfl⟩ := List.mem_map.1 ha
          rcases i2 e he with hk | he
          · rw [hk]
            exact lt_of_le_of_ne (not_lt.1 h1) (Ne.symm h2)
          · exact hc.1 _ (List.mem_map_of_mem he)
        · intro e he
          rcases List.mem_cons.1 he with rfl | he
          · exact .inr List.mem_cons_self
          · exact (i2 e he).imp id (List.mem_cons_of_mem _)
        · intro e he hne
          rcases List.mem_cons.1 he with rfl | he
          · exact List.mem_cons_self
          · exact List.mem_cons_of_mem _ (i3 e he hne)
        · obtain ⟨e, he, hk⟩ := i4
          exact ⟨e, List.mem_cons_of_mem _ he, hk⟩
        · intro e he hk
          rcases List.mem_cons.1 he with rfl | he
          · exact absurd hk (Ne.symm h2)
          · obtain ⟨j1, j2, j3, j4⟩ := i5 e he hk
            refine ⟨j1, j2, j3, fun n => (j4 n).trans (or_congr_right ?_)⟩
            refine exists_congr fun g' => and_congr_left fun _ => ⟨List.mem_cons_of_mem _, fun h => ?_⟩
            rcases List.mem_cons.1 h with e | h
            · cases e; exact absurd rfl h2
            · exact h

theorem collected_enter {names : List String} {done : List (System Pr)} {m : List (String × Group Pr)} (h : Collected names done m) {s : System Pr}
    {x y : String} {p : Pr} (hn : Needs s x y p) : Collected names (done ++ [s]) (enter (x ++ "_" ++ y) x y p (ownedNames names s) m) := by
  obtain ⟨i1, i2, i3, i4, i5⟩ := mem_enter (k := x ++ "_" ++ y) (x := x) (y := y) (p := p) (ns := ownedNames names s) h.sorted
  have uniq : ∀ {x' y' : String} {q : Pr}, Needs s x' y' q → x' = x ∧ y' = y := by
    intro x' y' q hq
    obtain ⟨-, ax, ay, e1, rfl, e2, rfl⟩ := needs_wanted hq
    obtain ⟨-, bx, by', f1, rfl, f2, rfl⟩ := needs_wanted hn
    rw [e1] at f1
    rw [e2] at f2
    cases f1
    cases f2
    exact ⟨rfl, rfl⟩
  refine ⟨i1, fun e he => ?_, fun t ht x' y' q hq => ?_⟩
  · by_cases hk : e.1 = x ++ "_" ++ y
    · obtain ⟨j1, j2, j3, j4⟩ := i5 e he hk
      refine ⟨⟨s, by simp, by rw [j1, j2, j3]; exact hn, by rw [j1, j2]; exact hk⟩, fun n => ?_⟩
      rw [j4 n]
      constructor
      · rintro (h' | ⟨g, hg, hng⟩)
        · exact ⟨s, by simp, ⟨x, y, p, hn, hk.symm⟩, h'⟩
        · obtain ⟨t, ht, ⟨x', y', q, hq, hk'⟩, ho⟩ := ((h.from_ _ hg).2 n).1 hng
          exact ⟨t, List.mem_append_left _ ht, ⟨x', y', q, hq, hk'.trans hk.symm⟩, ho⟩
      · rintro ⟨t, ht, ⟨x', y', q, hq, hk'⟩, ho⟩
        rcases List.mem_append.1 ht with ht | ht
        · obtain ⟨e', he', hke⟩ := h.all t ht x' y' q hq
          refine .inr ⟨e'.2, ?_, ((h.from_ e' he').2 n).2 ⟨t, ht, ⟨x', y', q, hq, hke.symm⟩, ho⟩⟩
          have : e'.1 = x ++ "_" ++ y := hke.trans (hk'.trans hk)
          rw [← this]
          exact he'
        · cases List.mem_singleton.1 ht
          exact .inl ho
    · have hm := (i2 e he).resolve_left hk
      obtain ⟨⟨t, ht, h1, h2⟩, h3⟩ := h.from_ e hm
      refine ⟨⟨t, List.mem_append_left _ ht, h1, h2⟩, fun n => ?_⟩
      rw [h3 n]
      constructor
      · rintro ⟨u, hu, h4, h5⟩
        exact ⟨u, List.mem_append_left _ hu, h4, h5⟩
      · rintro ⟨u, hu, ⟨x', y', q, hq, hk'⟩, h5⟩
        rcases List.mem_append.1 hu with hu | hu
        · exact ⟨u, hu, ⟨x', y', q, hq, hk'⟩, h5⟩
        · cases List.mem_singleton.1 hu
          obtain ⟨rfl, rfl⟩ := uniq hq
          exact absurd hk'.symm hk
  · rcases List.mem_append.1 ht with ht | ht
    · obtain ⟨e, he, hk⟩ := h.all t ht x' y' q hq
      by_cases hkk : e.1 = x ++ "_" ++ y
      · obtain ⟨e', he', hke⟩ := i4
        exact ⟨e', he', hke.trans (hkk.symm.trans hk)⟩
      · exact ⟨e, i3 e he hkk, hk⟩
    · cases List.mem_singleton.1 ht
      obtain ⟨rfl, rfl⟩ := uniq hq
      exact i4

theorem collect_is {names : List String} : ∀ (l : List (System Pr)) {done : List (System Pr)} {m m' : List (String × Group Pr)},
    Collected names done m → collect names l m = .ok m' → Collected names (done ++ l) m'
  | [], done, m, m', h, hr => by
    unfold collect at hr
    cases hr
    rw [List.append_nil]
    exact h
  | s :: l, done, m, m', h, hr => by
    unfold collect at hr
    have assoc : done ++ s :: l = (done ++ [s]) ++ l := by simp
    rw [assoc]
    by_cases hw : wanted s = true
    · rw [if_pos hw] at hr
      cases hx : geoX s with
      | none => rw [hx] at hr; cases hr
      | some ax =>
        cases hy : geoY s with
        | none => rw [hx, hy] at hr; cases hr
        | some ay =>
          cases hp : s.proj with
          | none => rw [hx, hy, hp] at hr; cases hr
          | some p =>
            rw [hx, hy, hp] at hr
            exact collect_is l (collected_enter h (wanted_needs hw hx hy hp)) hr
    · rw [if_neg hw] at hr
      refine collect_is l ⟨h.sorted, fun e he => ?_, fun t ht x y p hn => ?_⟩ hr
      · obtain ⟨⟨t, ht, h1, h2⟩, h3⟩ := h.from_ e he
        refine ⟨⟨t, List.mem_append_left _ ht, h1, h2⟩, fun n => ?_⟩
        rw [h3 n]
        constructor
        · rintro ⟨u, hu, h4, h5⟩
          exact ⟨u, List.mem_append_left _ hu, h4, h5⟩
        · rintro ⟨u, hu, ⟨x', y', q, hq, hk'⟩, h5⟩
          rcases List.mem_append.1 hu with hu | hu
          · exact ⟨u, hu, ⟨x', y', q, hq, hk'⟩, h5⟩
          · cases List.mem_singleton.1 hu
            exact absurd (needs_wanted hq).1 hw
      · rcases List.mem_append.1 ht with ht | ht
        · exact h.all t ht x y p hn
        · cases List.mem_singleton.1 ht
          exact absurd (needs_wanted hn).1 hw

theorem collected_nil (names : List String) : Collected (Pr := Pr) names [] [] :=
  ⟨List.Pairwise.nil, (fun _ he => by cases he), (fun _ hs => by cases hs)⟩

/-- The grids are collected, unless an axis is missing. -/
theorem collect_ok {names : List String} : ∀ (l : List (System Pr)) (m : List (String × Group Pr)),
    (∀ s ∈ l, s.simple = true → (∃ a, XAxis s a) ∧ ∃ a, YAxis s a) → ∃ m', collect names l m = .ok m'
  | [], m, _ => ⟨m, rfl⟩
  | s :: l, m, h => by
    unfold collect
    by_cases hw : wanted s = true
    · rw [if_pos hw]
      have hw' := hw
      unfold wanted at hw'
      rw [Bool.and_eq_true, Bool.and_eq_true] at hw'
      obtain ⟨⟨ax, hx⟩, ay, hy⟩ := h s List.mem_cons_self hw'.1.1
      obtain ⟨p, hp⟩ := Option.isSome_iff_exists.1 hw'.1.2
      rw [show geoX s = some ax from findAxisOfTypes_iff.2 hx, show geoY s = some ay from findAxisOfTypes_iff.2 hy, hp]
      exact collect_ok l _ fun t ht => h t (List.mem_cons_of_mem _ ht)
    · rw [if_neg hw]
      exact collect_ok l m fun t ht => h t (List.mem_cons_of_mem _ ht)

/-! ## All grids -/

variable {E : Ext V Pr T α} {read : String → Res (T × List α)}

/-- Longitude and latitude of a grid, as they are found in the end. -/
structure Done (E : Ext V Pr T α) (read : String → Res (T × List α)) (c c' : CDM (Pay T α O) V CS) (x y : String) (p : Pr) (lon lat : String) : Prop where
  newLon : NewName c lon
  newLat : NewName c lat
  differ : lon ≠ lat
  values : ∃ xs ys lons lats, Values read c x xs ∧ Values read c y ys ∧ E.lonLat p xs ys = .ok (lons, lats) ∧ LonLatVars E x y lons lats c' lon lat

/-- The dataset afterwards, for the grids `gs`. -/
structure Result (E : Ext V Pr T α) (read : String → Res (T × List α)) (gs : List (Group Pr)) (c c' : CDM (Pay T α O) V CS) : Prop where
  plain : Plain c'
  dims : c'.dims = c.dims
  keeps : ∀ v ∈ c.vars, ∃ w ∈ c'.vars, Loaded read (fun n => ∃ g ∈ gs, n = g.x ∨ n = g.y) v w
  vars : ∀ w ∈ c'.vars, (∃ v ∈ c.vars, Loaded read (fun n => ∃ g ∈ gs, n = g.x ∨ n = g.y) v w) ∨
    ∃ g ∈ gs, ∃ lon lat, Done E read c c' g.x g.y g.proj lon lat ∧ (w.name = lon ∨ w.name = lat)
  others : ∀ n, ¬ NewName c n → (∀ g ∈ gs, n ∉ g.vars) → getAttributes c' n = getAttributes c n
  global : getAttributes c' globalNS = getAttributes c globalNS
  attrs : ∀ n, ¬ NewName c n → without ["coordinates"] (getAttributes c' n) = without ["coordinates"] (getAttributes c n)
  points : ∀ pre g post, gs = pre ++ g :: post → ∃ lon lat, Numbered "lon" lon ∧ Numbered "lat" lat ∧ Done E read c c' g.x g.y g.proj lon lat ∧
    ∀ n ∈ g.vars, (∀ h ∈ post, n ∉ h.vars) → getAttributes c' n = without ["coordinates"] (getAttributes c n) ++ [⟨"coordinates", E.value (lon ++ " " ++ lat)⟩]

theorem Values.fwd {k k' : CDM (Pay T α O) V CS} {A : String → Prop} {n : String} {xs : List α} (h : Values read k n xs)
    (hk : ∀ v ∈ k.vars, ∃ w ∈ k'.vars, Loaded read A v w) : Values read k' n xs := by
  obtain ⟨v, hv, hn, t, h⟩ := h
  obtain ⟨w, hw, hl⟩ := hk v hv
  refine ⟨w, hw, hl.name.trans hn, t, ?_⟩
  rcases hl with rfl | ⟨-, h1, d, h2, rfl⟩
  · exact h
  · rcases h with h | ⟨-, h⟩
    · rw [h1] at h; cases h
    · subst hn
      rw [h2] at h
      cases h
      exact .inl rfl

theorem LonLatVars.later {k k' : CDM (Pay T α O) V CS} {A : String → Prop} {x y lon lat : String} {lons lats : List α}
    (h : LonLatVars E x y lons lats k lon lat) (hk : ∀ v ∈ k.vars, ∃ w ∈ k'.vars, Loaded read A v w) (h1 : getAttributes k' lon = getAttributes k lon)
    (h2 : getAttributes k' lat = getAttributes k lat) : LonLatVars E x y lons lats k' lon lat := by
  refine ⟨?_, ?_, h1.trans h.lonAttrs, h2.trans h.latAttrs⟩
  · obtain ⟨w, hw, hl⟩ := hk _ h.lonVar
    cases loaded_inMemory hl rfl
    exact hw
  · obtain ⟨w, hw, hl⟩ := hk _ h.latVar
    cases loaded_inMemory hl rfl
    exact hw

theorem pointing_without (lon lat : String) (l : List (Attr V)) : without ["coordinates"] (pointing E lon lat l) = without ["coordinates"] l := by
  unfold pointing
  rw [without_append, without_without]
  simp [without]

theorem addGrids_is [DecidableEq T] : ∀ (gs : List (Group Pr)) {k k' : CDM (Pay T α O) V CS}, Plain k → (∀ g ∈ gs, ∀ n ∈ g.vars, ∃ v ∈ k.vars, v.name = n) →
    (∀ g ∈ gs, ¬ NewName k g.x ∧ ¬ NewName k g.y) → addGrids E read gs k = .ok k' → Result E read gs k k'
  | [], k, k', hp, hg, ha, h => by
    unfold addGrids at h
    cases h
    refine ⟨hp, rfl, fun v hv => ⟨v, hv, .inl rfl⟩, fun w hw => .inl ⟨w, hw, .inl rfl⟩, fun _ _ _ => rfl, rfl, fun _ _ => rfl, fun pre g post e => ?_⟩
    cases pre <;> cases e
  | g :: gs, k, k', hp, hg, ha, h => by
    unfold addGrids at h
    obtain ⟨k1, h1, h2⟩ := Res.bind_eq_ok.1 h
    obtain ⟨lon, lat, pl, pt, A⟩ := addGrid_is hp (hg g List.mem_cons_self) h1
    have hg' : ∀ g' ∈ gs, ∀ n ∈ g'.vars, ∃ v ∈ k1.vars, v.name = n := by
      intro g' h' n hn
      obtain ⟨v, hv, e⟩ := hg g' (List.mem_cons_of_mem _ h') n hn
      obtain ⟨w, hw, hl⟩ := A.keeps v hv
      exact ⟨w, hw, hl.name.trans e⟩
    have old : ∀ n, ¬ NewName k n → ¬ NewName k1 n ∧ n ≠ lon ∧ n ≠ lat := by
      intro n hn
      refine ⟨fun h => hn ⟨fun v hv e => ?_, fun d hd => ?_⟩, fun e => hn (e ▸ A.newLon), fun e => hn (e ▸ A.newLat)⟩
      · obtain ⟨w, hw, hl⟩ := A.keeps v hv
        exact h.1 w hw (hl.name.trans e)
      · exact h.2 d (by rw [A.dims]; exact hd)
    have R := addGrids_is gs A.plain hg' (fun g' h' => ⟨(old _ (ha g' (List.mem_cons_of_mem _ h')).1).1, (old _ (ha g' (List.mem_cons_of_mem _ h')).2).1⟩) h2
    have newer : ∀ n, NewName k1 n → NewName k n := by
      intro n h
      by_contra hn
      exact (old n hn).1 h
    obtain ⟨xs, ys, lons, lats, v1, v2, v3, v4⟩ := A.grid
    have lonOld : ¬ NewName k1 lon := fun h => h.1 _ v4.lonVar rfl
    have latOld : ¬ NewName k1 lat := fun h => h.1 _ v4.latVar rfl
    have fresh : ∀ n, NewName k n → ∀ g' ∈ gs, n ∉ g'.vars := by
      intro n hn g' h' hm
      obtain ⟨v, hv, e⟩ := hg g' (List.mem_cons_of_mem _ h') n hm
      exact hn.1 v hv e
    have done1 : Done E read k k' g.x g.y g.proj lon lat :=
      ⟨A.newLon, A.newLat, A.differ, xs, ys, lons, lats, v1, v2, v3,
        v4.later R.keeps (R.others lon lonOld (fresh lon A.newLon)) (R.others lat latOld (fresh lat A.newLat))⟩
    have back : ∀ {x : String} {zs : List α}, x ≠ lon → x ≠ lat → Values read k1 x zs → Values read k x zs := by
      intro x zs hx1 hx2 hv
      refine values_loaded (A := fun n => n = g.x ∨ n = g.y) (fun w hw hn => ?_) hv
      rcases A.vars w hw with h | h | h
      · exact h
      · exact absurd (hn.symm.trans h) hx1
      · exact absurd (hn.symm.trans h) hx2
    have doneL : ∀ {x y : String} {p : Pr} {lo la : String}, x ≠ lon ∧ x ≠ lat → y ≠ lon ∧ y ≠ lat → Done E read k1 k' x y p lo la → Done E read k k' x y p lo la := by
      rintro x y p lo la hx hy ⟨d1, d2, d3, xs', ys', lo', la', e1, e2, e3, e4⟩
      exact ⟨newer _ d1, newer _ d2, d3, xs', ys', lo', la', back hx.1 hx.2 e1, back hy.1 hy.2 e2, e3, e4⟩
    have axes : ∀ g' ∈ gs, (g'.x ≠ lon ∧ g'.x ≠ lat) ∧ g'.y ≠ lon ∧ g'.y ≠ lat :=
      fun g' h' => ⟨(old _ (ha g' (List.mem_cons_of_mem _ h')).1).2, (old _ (ha g' (List.mem_cons_of_mem _ h')).2).2⟩
    have up1 : ∀ {v w : Var (Pay T α O)}, Loaded read (fun n => n = g.x ∨ n = g.y) v w → Loaded read (fun n => ∃ g' ∈ g :: gs, n = g'.x ∨ n = g'.y) v w :=
      fun h => h.mono fun n hn => ⟨g, List.mem_cons_self, hn⟩
    have up2 : ∀ {v w : Var (Pay T α O)}, Loaded read (fun n => ∃ g' ∈ gs, n = g'.x ∨ n = g'.y) v w → Loaded read (fun n => ∃ g' ∈ g :: gs, n = g'.x ∨ n = g'.y) v w :=
      fun h => h.mono fun n ⟨g', h', hn⟩ => ⟨g', List.mem_cons_of_mem _ h', hn⟩
    refine ⟨R.plain, R.dims.trans A.dims, fun v hv => ?_, fun w hw => ?_, fun n hn hv => ?_, ?_, fun n hn => ?_, fun pre g' post e => ?_⟩
    · obtain ⟨u, hu, l1⟩ := A.keeps v hv
      obtain ⟨w, hw, l2⟩ := R.keeps u hu
      exact ⟨w, hw, (up1 l1).trans (up2 l2)⟩
    · rcases R.vars w hw with ⟨u, hu, l2⟩ | ⟨g', h', lo, la, d, e⟩
      · rcases A.vars u hu with ⟨v, hv, l1⟩ | e | e
        · exact .inl ⟨v, hv, (up1 l1).trans (up2 l2)⟩
        · exact .inr ⟨g, List.mem_cons_self, lon, lat, done1, .inl (l2.name.trans e)⟩
        · exact .inr ⟨g, List.mem_cons_self, lon, lat, done1, .inr (l2.name.trans e)⟩
      · exact .inr ⟨g', List.mem_cons_of_mem _ h', lo, la, doneL (axes g' h').1 (axes g' h').2 d, e⟩
    · obtain ⟨o1, o2, o3⟩ := old n hn
      rw [R.others n o1 (fun g' h' => hv g' (List.mem_cons_of_mem _ h')), A.others n (hv g List.mem_cons_self) o2 o3]
    · have g1 : globalNS ≠ lon := by
        obtain ⟨a, rfl⟩ := pl.start
        intro e
        have := congrArg String.toList e
        rw [String.toList_append] at this
        simp [globalNS] at this
      have g2 : globalNS ≠ lat := by
        obtain ⟨a, rfl⟩ := pt.start
        intro e
        have := congrArg String.toList e
        rw [String.toList_append] at this
        simp [globalNS] at this
      have g3 : globalNS ∉ g.vars := by
        intro h
        obtain ⟨v, hv, e⟩ := hg g List.mem_cons_self _ h
        exact hp.global v hv e
      rw [R.global, A.others _ g3 g1 g2]
    · obtain ⟨o1, o2, o3⟩ := old n hn
      rw [R.attrs n o1]
      by_cases hv : n ∈ g.vars
      · rw [A.points n hv, pointing_without]
      · rw [A.others n hv o2 o3]
    · cases pre with
      | nil =>
        cases e
        refine ⟨lon, lat, pl, pt, done1, fun n hn hpost => ?_⟩
        obtain ⟨v, hv, e⟩ := hg g List.mem_cons_self n hn
        have hno : ¬ NewName k n := fun h => h.1 v hv e
        rw [R.others n (old n hno).1 hpost, A.points n hn]
        rfl
      | cons g0 pre =>
        cases e
        obtain ⟨lo, la, q1, q2, d, e⟩ := R.points pre g' post rfl
        have hm : g' ∈ pre ++ g' :: post := by simp
        refine ⟨lo, la, q1, q2, doneL (axes g' hm).1 (axes g' hm).2 d, fun n hn hpost => ?_⟩
        obtain ⟨v, hv, e'⟩ := hg g' (List.mem_cons_of_mem _ hm) n hn
        have hno : ¬ NewName k n := fun h => h.1 v hv e'
        rw [e n hn hpost]
        congr 1
        by_cases hv : n ∈ g.vars
        · rw [A.points n hv, pointing_without]
        · rw [A.others n hv (old n hno).2.1 (old n hno).2.2]

/-! ## C108 -/

/-- The grids of a dataset. -/
theorem generateAll_is [DecidableEq T] {l : List (System Pr)} {c c' : CDM (Pay T α O) V CS} (hp : Plain c)
    (hax : ∀ s ∈ l, ∀ x y p, Needs s x y p → ¬ NewName c x ∧ ¬ NewName c y) (h : generateAll E read l c = .ok c') :
    ∃ m, Collected (c.vars.map (·.name)) l m ∧ Result E read (m.map (·.2)) c c' := by
  unfold generateAll at h
  obtain ⟨m, h1, h2⟩ := Res.bind_eq_ok.1 h
  have hc := collect_is l (collected_nil _) h1
  rw [List.nil_append] at hc
  refine ⟨m, hc, addGrids_is _ hp (fun g hg n hn => ?_) (fun g hg => ?_) h2⟩
  · obtain ⟨e, he, rfl⟩ := List.mem_map.1 hg
    obtain ⟨s, -, -, hs⟩ := ((hc.from_ e he).2 n).1 hn
    obtain ⟨v, hv, e⟩ := List.mem_map.1 (mem_ownedNames.1 hs).1
    exact ⟨v, hv, e⟩
  · obtain ⟨e, he, rfl⟩ := List.mem_map.1 hg
    obtain ⟨⟨s, hs, hn, -⟩, -⟩ := hc.from_ e he
    exact hax s hs _ _ _ hn

/-- What is there stays: the dimensions, all variables (the values of axes may be read into memory), the attributes of the dataset, and all
attributes of variables but for `coordinates`; and that changes only for variables of grids that need longitude and latitude.  What is new is the
longitude and latitude of such a grid, under new names. -/
theorem C108_kept [DecidableEq T] {l : List (System Pr)} {c c' : CDM (Pay T α O) V CS} (hp : Plain c)
    (hax : ∀ s ∈ l, ∀ x y p, Needs s x y p → ¬ NewName c x ∧ ¬ NewName c y) (h : generateAll E read l c = .ok c') :
    Plain c' ∧ c'.dims = c.dims ∧ getAttributes c' globalNS = getAttributes c globalNS ∧
    (∀ v ∈ c.vars, (∃ w ∈ c'.vars, Loaded read (fun n => ∃ s ∈ l, ∃ x y p, Needs s x y p ∧ (n = x ∨ n = y)) v w) ∧
      without ["coordinates"] (getAttributes c' v.name) = without ["coordinates"] (getAttributes c v.name) ∧
      ((∀ s ∈ l, Owns s v → ∀ x y p, ¬ Needs s x y p) → getAttributes c' v.name = getAttributes c v.name)) ∧
    ∀ w ∈ c'.vars, (∀ v ∈ c.vars, v.name ≠ w.name) →
      ∃ s ∈ l, ∃ x y p lon lat, Needs s x y p ∧ Done E read c c' x y p lon lat ∧ (w.name = lon ∨ w.name = lat) := by
  obtain ⟨m, hm, R⟩ := generateAll_is hp hax h
  have up : ∀ {v w : Var (Pay T α O)}, Loaded read (fun n => ∃ g ∈ m.map (·.2), n = g.x ∨ n = g.y) v w →
      Loaded read (fun n => ∃ s ∈ l, ∃ x y p, Needs s x y p ∧ (n = x ∨ n = y)) v w := by
    intro v w h
    refine h.mono fun n ⟨g, hg, hn⟩ => ?_
    obtain ⟨e, he, rfl⟩ := List.mem_map.1 hg
    obtain ⟨⟨s, hs, hns, -⟩, -⟩ := hm.from_ e he
    exact ⟨s, hs, _, _, _, hns, hn⟩
  refine ⟨R.plain, R.dims, R.global, fun v hv => ?_, fun w hw hnew => ?_⟩
  · have hno : ¬ NewName c v.name := fun h => h.1 v hv rfl
    obtain ⟨w, hw, hl⟩ := R.keeps v hv
    refine ⟨⟨w, hw, up hl⟩, R.attrs _ hno, fun hs => R.others _ hno fun g hg hn => ?_⟩
    obtain ⟨e, he, rfl⟩ := List.mem_map.1 hg
    obtain ⟨s, hs', ⟨x, y, p, hq, -⟩, ho⟩ := ((hm.from_ e he).2 _).1 hn
    exact hs s hs' ⟨(mem_ownedNames.1 ho).2.1, (mem_ownedNames.1 ho).2.2⟩ x y p hq
  · rcases R.vars w hw with ⟨v, hv, hl⟩ | ⟨g, hg, lon, lat, d, e⟩
    · exact absurd hl.name.symm (hnew v hv)
    · obtain ⟨e', he, rfl⟩ := List.mem_map.1 hg
      obtain ⟨⟨s, hs, hns, -⟩, -⟩ := hm.from_ e' he
      exact ⟨s, hs, _, _, _, lon, lat, hns, d, e⟩

/-- Every grid that needs them gets its longitude and latitude, of the values of its axes and by its projection, under new names, and its variables
name them as `coordinates`, and keep their other attributes.

The names of the axes have to tell the grids apart (`C108_key_taken`), one projection is used on the same axes (`C108_last_projection`), and a
variable is on one grid; for CF datasets that is so (`C108_cf_one_grid`). -/
theorem C108_coordinates_partial [DecidableEq T] {l : List (System Pr)} {c c' : CDM (Pay T α O) V CS} (hp : Plain c)
    (hax : ∀ s ∈ l, ∀ x y p, Needs s x y p → ¬ NewName c x ∧ ¬ NewName c y) (hd : Distinguished l) (hop : OneProjection l) (hog : OneGrid l c)
    (h : generateAll E read l c = .ok c') {s : System Pr} (hs : s ∈ l) {x y : String} {p : Pr} (hn : Needs s x y p) :
    ∃ lon lat, Numbered "lon" lon ∧ Numbered "lat" lat ∧ Done E read c c' x y p lon lat ∧
      ∀ t ∈ l, ∀ q, Needs t x y q → ∀ v ∈ c.vars, Owns t v →
        getAttributes c' v.name = without ["coordinates"] (getAttributes c v.name) ++ [⟨"coordinates", E.value (lon ++ " " ++ lat)⟩] := by
  obtain ⟨m, hm, R⟩ := generateAll_is hp hax h
  obtain ⟨e, he, hk⟩ := hm.all s hs x y p hn
  obtain ⟨⟨u, hu, hnu, hku⟩, hvars⟩ := hm.from_ e he
  obtain ⟨ex, ey⟩ := hd s hs u hu _ _ _ _ _ _ hn hnu (hk.symm.trans hku)
  have ep : p = e.2.proj := hop s hs u hu x y p _ hn (by rw [ex, ey]; exact hnu)
  obtain ⟨pre, post, epp⟩ := List.append_of_mem he
  obtain ⟨lon, lat, q1, q2, d, pts⟩ := R.points (pre.map (·.2)) e.2 (post.map (·.2)) (by rw [epp, List.map_append, List.map_cons])
  refine ⟨lon, lat, q1, q2, by rw [ex, ey, ep]; exact d, fun t ht q hq v hv ho => ?_⟩
  refine pts v.name ?_ fun g hg hv' => ?_
  · rw [hvars]
    exact ⟨t, ht, ⟨x, y, q, hq, hk.symm⟩, mem_ownedNames.2 ⟨List.mem_map_of_mem hv, ho.1, ho.2⟩⟩
  · obtain ⟨e', he', rfl⟩ := List.mem_map.1 hg
    have hem : e' ∈ m := by rw [epp]; exact List.mem_append_right _ (List.mem_cons_of_mem _ he')
    obtain ⟨-, hvars'⟩ := hm.from_ e' hem
    obtain ⟨t', ht', ⟨x', y', q', hq', hk'⟩, ho'⟩ := (hvars' v.name).1 hv'
    obtain ⟨e1, e2⟩ := hog v hv t ht t' ht' ho ⟨(mem_ownedNames.1 ho').2.1, (mem_ownedNames.1 ho').2.2⟩ _ _ _ _ _ _ hq hq'
    have hlt := hm.sorted
    rw [epp, List.map_append, List.map_cons] at hlt
    have := (List.pairwise_cons.1 (List.pairwise_append.1 hlt).2.1).1 e'.1 (List.mem_map_of_mem he')
    rw [← hk', ← e1, ← e2, hk] at this
    exact lt_irrefl _ this

/-! ## CF datasets -/

theorem axisOfTypes_eq {s : System Pr} {ts : List AxisType} {a b : Axis} (ha : AxisOfTypes s ts a) (hb : AxisOfTypes s ts b) : a = b := by
  rw [← findAxisOfTypes_iff] at ha hb
  rw [ha] at hb
  exact Option.some.inj hb

/-- The axes of the grids of a CF dataset are dimensions, and a variable is on one grid, if names of axes are not empty and have no comma. -/
theorem C108_cf_one_grid {c : CDM (Pay T α O) V CS} (hp : Plain c) {l : List (System Pr)} (hl : listCF E.lib c = .ok l) :
    (∀ s ∈ l, ∀ x y p, Needs s x y p → ¬ NewName c x ∧ ¬ NewName c y) ∧ (PlainNames E.lib c → OneGrid l c) := by
  refine ⟨fun s hs x y p hn => ?_, fun hpl v hv s hs t ht h1 h2 x y p x' y' q hn hn' => ?_⟩
  · obtain ⟨ax, ay, hx, hy, ⟨⟨d, hd, e⟩, -⟩, ⟨d', hd', e'⟩, -⟩ := (C96_simple hp.vars hl s hs).1 hn.simple
    obtain ⟨bx, hbx, rfl⟩ := hn.x
    obtain ⟨by', hby, rfl⟩ := hn.y
    cases axisOfTypes_eq hx hbx
    cases axisOfTypes_eq hy hby
    exact ⟨fun h => h.2 d hd e, fun h => h.2 d' hd' e'⟩
  · cases (C95_unique hp.vars hpl hl).2 v hv s hs t ht (isCSAndCompleteFor_iff.2 h1) (isCSAndCompleteFor_iff.2 h2)
    obtain ⟨ax, hx, rfl⟩ := hn.x
    obtain ⟨ay, hy, rfl⟩ := hn.y
    obtain ⟨bx, hx', rfl⟩ := hn'.x
    obtain ⟨by', hy', rfl⟩ := hn'.y
    exact ⟨by rw [axisOfTypes_eq hx hx'], by rw [axisOfTypes_eq hy hy']⟩

/-- The grids of a CF dataset have both axes, as is asserted. -/
theorem C108_axes {c : CDM (Pay T α O) V CS} (hp : Plain c) {l : List (System Pr)} (hl : listCF E.lib c = .ok l) :
    ∃ m, collect (c.vars.map (·.name)) l [] = .ok m := by
  refine collect_ok l [] fun s hs h => ?_
  obtain ⟨x, y, hx, hy, -⟩ := (C96_simple hp.vars hl s hs).1 h
  exact ⟨⟨x, hx⟩, y, hy⟩

theorem Numbered.chars {b n : String} (h : Numbered b n) {ch : Char} (hb : ch ∉ b.toList) (hd : ch.isDigit = false) : ch ∉ n.toList := by
  rcases h with rfl | ⟨j, -, rfl⟩
  · exact hb
  · rw [String.toList_append, List.mem_append]
    rintro (h | h)
    · exact hb h
    · have h' : ch ∈ (Nat.repr j).toList := h
      rw [Nat.toList_repr] at h'
      have := Nat.isDigit_of_mem_toDigits (by decide) (by decide) h'
      rw [hd] at this
      cases this

theorem word_first {a b : String} (ha : ' ' ∉ a.toList) (hne : a ≠ "") : Word (a ++ " " ++ b) a := by
  unfold Word Text.words
  rw [String.toList_append, String.toList_append, List.append_assoc, Text.pieces_prefix _ _ _ (fun c hc => by
    rw [List.contains_eq_mem, decide_eq_false_iff_not, List.mem_singleton]
    rintro rfl
    exact ha hc)]
  have : (" ".toList ++ b.toList) = ' ' :: b.toList := rfl
  rw [this, List.mem_filter]
  refine ⟨?_, ?_⟩
  · unfold Text.pieces
    rw [if_pos (by rfl)]
    simp
  · cases h : a.toList with
    | nil => exact absurd (String.toList_inj.1 (by rw [h]; rfl)) hne
    | cons _ _ => rfl

theorem word_second {a b : String} (ha : ' ' ∉ a.toList) (hb : ' ' ∉ b.toList) (hne : b ≠ "") : Word (a ++ " " ++ b) b := by
  unfold Word Text.words
  rw [String.toList_append, String.toList_append, List.append_assoc, Text.pieces_prefix _ _ _ (fun c hc => by
    rw [List.contains_eq_mem, decide_eq_false_iff_not, List.mem_singleton]
    rintro rfl
    exact ha hc)]
  have : (" ".toList ++ b.toList) = ' ' :: b.toList := rfl
  rw [this, List.mem_filter]
  refine ⟨?_, ?_⟩
  · unfold Text.pieces
    rw [if_pos (by rfl), List.tail_cons]
    have := Text.pieces_prefix [' '].contains b.toList [] (fun c hc => by
      rw [List.contains_eq_mem, decide_eq_false_iff_not, List.mem_singleton]
      rintro rfl
      exact hb hc)
    rw [List.append_nil] at this
    rw [this]
    simp [Text.pieces]
  · cases h : b.toList with
    | nil => exact absurd (String.toList_inj.1 (by rw [h]; rfl)) hne
    | cons _ _ => rfl

theorem attrText_ga {P : Type} {L : Lib V Pr} {c : CDM P V CS} {n a : String} {v : V} {l1 l2 : List (Attr V)} (h : getAttributes c n = l1 ++ ⟨a, v⟩ :: l2) (h1 : ∀ b ∈ l1, b.name ≠ a) :
    attrText L c n a = some (L.text v) := by
  unfold getAttributes at h
  unfold attrText getAttribute
  cases hc : c.attrs n with
  | none => rw [hc] at h; simp at h
  | some l =>
    rw [hc] at h
    dsimp only
    rw [Option.getD_some] at h
    rw [h, List.find?_append, List.find?_eq_none.2 (by simpa using h1)]
    simp

/-- The new variables have the types of longitude and latitude. -/
theorem done_types {c c' : CDM (Pay T α O) V CS} {x y : String} {p : Pr} {lon lat : String} (htext : ∀ t, E.lib.text (E.value t) = t)
    (h : Done E read c c' x y p lon lat) : axisType E.lib c' lon = .lon ∧ axisType E.lib c' lat = .lat := by
  obtain ⟨xs, ys, lons, lats, -, -, -, d⟩ := h.values
  have h1 : attrText E.lib c' lon "standard_name" = some "longitude" := by
    rw [attrText_ga (l1 := [⟨"units", E.value "degree_east"⟩, ⟨"long_name", E.value "longitude"⟩]) (l2 := []) d.lonAttrs (by simp), htext]
  have h2 : attrText E.lib c' lat "standard_name" = some "latitude" := by
    rw [attrText_ga (l1 := [⟨"units", E.value "degree_north"⟩, ⟨"long_name", E.value "latitude"⟩]) (l2 := []) d.latAttrs (by simp), htext]
  unfold axisType
  rw [h1, h2, Option.bind_some, Option.bind_some, show typeOfStandardName "longitude" = some .lon by decide +kernel,
    show typeOfStandardName "latitude" = some .lat by decide +kernel]
  exact ⟨rfl, rfl⟩

/-- The coordinate systems that are listed afterwards for the variables of such a grid have longitude and latitude, so that nothing more is needed for them. -/
theorem C108_listed [DecidableEq T] {c c' : CDM (Pay T α O) V CS} (hp : Plain c) (htext : ∀ t, E.lib.text (E.value t) = t) {l l' : List (System Pr)}
    (hl : listCF E.lib c = .ok l) (hpl : PlainNames E.lib c) (hd : Distinguished l) (hop : OneProjection l)
    (h : generateAll E read l c = .ok c') (hl' : listCF E.lib c' = .ok l') {s : System Pr} (hs : s ∈ l) {x y : String} {p : Pr} (hn : Needs s x y p)
    {v w : Var (Pay T α O)} (hv : v ∈ c.vars) (ho : Owns s v) (hw : w ∈ c'.vars) (hvw : w.name = v.name) {s' : System Pr} (hs' : s' ∈ l') (ho' : Owns s' w) :
    HasType s' .lon ∧ HasType s' .lat ∧ ∀ x' y' q, ¬ Needs s' x' y' q := by
  obtain ⟨hax, hog⟩ := C108_cf_one_grid hp hl
  obtain ⟨lon, lat, q1, q2, d, pts⟩ := C108_coordinates_partial hp hax hd hop (hog hpl) h hs hn
  have hp' : Plain c' := (C108_kept hp hax h).1
  have ht := attrText_ga (L := E.lib) (l2 := []) (pts s hs p hn v hv ho) (fun b hb => by
    have := (List.mem_filter.1 hb).2
    simpa using this)
  rw [htext] at ht
  have blank1 : ' ' ∉ lon.toList := q1.chars (by decide) (by decide)
  have blank2 : ' ' ∉ lat.toList := q2.chars (by decide) (by decide)
  have ne1 : lon ≠ "" := by
    obtain ⟨r, rfl⟩ := q1.start
    intro e
    have := congrArg String.toList e
    rw [String.toList_append] at this
    simp at this
  have ne2 : lat ≠ "" := by
    obtain ⟨r, rfl⟩ := q2.start
    intro e
    have := congrArg String.toList e
    rw [String.toList_append] at this
    simp at this
  have a1 : AxisName E.lib c' w lon := .inr ⟨_, by rw [hvw]; exact ht, word_first blank1 ne1⟩
  have a2 : AxisName E.lib c' w lat := .inr ⟨_, by rw [hvw]; exact ht, word_second blank1 blank2 ne2⟩
  have hm := (C95_marks hp'.vars hl' s' hs').isFor w hw
  obtain ⟨-, v0, -, -, hk⟩ := C95_axes hp'.vars hl' s' hs'
  obtain ⟨t1, t2⟩ := done_types htext d
  obtain ⟨b1, hb1, e1⟩ := hm.1 ho'.1 lon a1
  obtain ⟨b2, hb2, e2⟩ := hm.1 ho'.1 lat a2
  have r1 : HasType s' .lon := ⟨b1, hb1, by rw [(hk.known b1 hb1).type, e1, t1]⟩
  have r2 : HasType s' .lat := ⟨b2, hb2, by rw [(hk.known b2 hb2).type, e2, t2]⟩
  exact ⟨r1, r2, fun x' y' q hq => hq.without ⟨r2, r1⟩⟩

/-! ## Cases -/

/-- As `toyExt`; the second projection moves by 10. -/
def ext : Ext String String Bool Nat :=
  { toyExt with lonLat := fun p xs ys => .ok (ys.flatMap fun _ => xs.map fun x => if p = "moved" then x + 10 else x, ys.flatMap fun y => xs.map fun _ => y) }

/-- Values of axes that can be read. -/
def toyRead (n : String) : Res (Bool × List Nat) := if n ∈ ["x", "xs", "a_b", "a"] then .ok (true, [1, 2, 3]) else .ok (true, [4, 5])

def all (c : CDM (Pay Bool Nat Unit) String Unit) : Res (CDM (Pay Bool Nat Unit) String Unit) := do
  let l ← listCF toyLib c
  generateAll ext toyRead l c

/-- What can be seen of the result. -/
structure Seen where
  vars : List (String × List String × Option (List Nat))
  attrs : List (String × String × String)
deriving DecidableEq

def see (r : Res (CDM (Pay Bool Nat Unit) String Unit)) (ns : List String) : Res Seen :=
  match r with
  | .ok c => .ok ⟨(c.vars.map fun v => (v.name, v.shape, v.payload.data.map (·.2))).filter fun v => v.1 ∈ ns,
      (c.vars.flatMap fun v => (getAttributes c v.name).map fun a => (v.name, a.name, a.value)).filter fun a => a.1 ∈ ns⟩
  | .throws => .throws
  | .ub => .ub

/-- Two grids; `U` has longitude and latitude. -/
def grids : CDM (Pay Bool Nat Unit) String Unit := dataset [("x", 3), ("y", 2), ("xs", 3), ("ys", 2), ("time", 2)]
  [("x", ["x"], [("axis", "X")]), ("y", ["y"], [("axis", "Y")]), ("xs", ["xs"], [("axis", "X")]), ("ys", ["ys"], [("axis", "Y")]), ("lcc", [], [("grid_mapping_name", "lcc")]),
   ("T", ["x", "y", "time"], [("grid_mapping", "lcc"), ("units", "K")]), ("W", ["xs", "ys", "time"], [("grid_mapping", "lcc")]), ("time", ["time"], []),
   ("lon", ["x", "y"], [("standard_name", "longitude")]), ("lat", ["x", "y"], [("standard_name", "latitude")]),
   ("U", ["x", "y"], [("grid_mapping", "lcc"), ("coordinates", "lon lat")]), ("S", ["x"], [])]

example : see (all grids) ["x", "T", "U", "lon0", "lat0", "W", "lon1"] = .ok
    { vars := [("x", ["x"], some [1, 2, 3]), ("T", ["x", "y", "time"], none), ("W", ["xs", "ys", "time"], none), ("U", ["x", "y"], none),
        ("lon0", ["x", "y"], some [1, 2, 3, 1, 2, 3]), ("lat0", ["x", "y"], some [4, 4, 4, 5, 5, 5]), ("lon1", ["xs", "ys"], some [1, 2, 3, 1, 2, 3])]
      attrs := [("x", "axis", "X"), ("T", "grid_mapping", "lcc"), ("T", "units", "K"), ("T", "coordinates", "lon0 lat0"), ("W", "grid_mapping", "lcc"),
        ("W", "coordinates", "lon1 lat1"), ("U", "grid_mapping", "lcc"), ("U", "coordinates", "lon lat"), ("lon0", "units", "degree_east"),
        ("lon0", "long_name", "longitude"), ("lon0", "standard_name", "longitude"), ("lat0", "units", "degree_north"), ("lat0", "long_name", "latitude"),
        ("lat0", "standard_name", "latitude"), ("lon1", "units", "degree_east"), ("lon1", "long_name", "longitude"), ("lon1", "standard_name", "longitude")] } := by
  decide +kernel

example : Plain grids := dataset_plain (by decide +kernel) (by decide +kernel) (by decide +kernel)

/-- Axes and projections of the grids without longitude and latitude. -/
def needed (l : List (System Pr)) : List (String × String × Pr) :=
  l.filterMap fun s => if wanted s then do some ((← geoX s).name, (← geoY s).name, ← s.proj) else none

theorem mem_needed {l : List (System Pr)} {s : System Pr} (hs : s ∈ l) {x y : String} {p : Pr} (h : Needs s x y p) : (x, y, p) ∈ needed l := by
  obtain ⟨hw, ax, ay, e1, rfl, e2, rfl⟩ := needs_wanted h
  refine List.mem_filterMap.2 ⟨s, hs, ?_⟩
  rw [if_pos hw, e1, e2, h.proj]
  rfl

/-- The grids are told apart, with one projection. -/
theorem distinguished_of {l : List (System Pr)} (h : ∀ a ∈ needed l, ∀ b ∈ needed l, a.1 ++ "_" ++ a.2.1 = b.1 ++ "_" ++ b.2.1 → a = b) : Distinguished l ∧ OneProjection l := by
  refine ⟨fun s hs t ht x y p x' y' q h1 h2 e => ?_, fun s hs t ht x y p q h1 h2 => ?_⟩
  · cases h _ (mem_needed hs h1) _ (mem_needed ht h2) e
    exact ⟨rfl, rfl⟩
  · cases h _ (mem_needed hs h1) _ (mem_needed ht h2) rfl
    rfl

example : ∃ l, listCF toyLib grids = .ok l ∧ Distinguished l ∧ OneProjection l ∧ (∃ s ∈ l, Needs s "x" "y" "lcc") ∧ ∃ s ∈ l, Needs s "xs" "ys" "lcc" := by
  have h : (listCF toyLib grids).bind (fun l => .ok (needed l)) = .ok [("x", "y", "lcc"), ("xs", "ys", "lcc")] := by decide +kernel
  obtain ⟨l, hl, e⟩ := Res.bind_eq_ok.1 h
  cases e' : needed l with
  | nil => rw [e'] at e; cases e
  | cons a m =>
    have e : needed l = [("x", "y", "lcc"), ("xs", "ys", "lcc")] := Res.ok.inj e
    have mem : ∀ t ∈ needed l, ∃ s ∈ l, Needs s t.1 t.2.1 t.2.2 := by
      intro t ht
      obtain ⟨s, hs, h⟩ := List.mem_filterMap.1 ht
      by_cases hw : wanted s = true
      · rw [if_pos hw] at h
        cases hx : geoX s with
        | none => rw [hx] at h; cases h
        | some ax =>
          cases hy : geoY s with
          | none => rw [hx, hy] at h; cases h
          | some ay =>
            cases hp : s.proj with
            | none => rw [hx, hy, hp] at h; cases h
            | some p =>
              rw [hx, hy, hp] at h
              cases h
              exact ⟨s, hs, wanted_needs hw hx hy hp⟩
      · rw [if_neg hw] at h; cases h
    obtain ⟨d1, d2⟩ := distinguished_of (l := l) (by rw [e]; decide +kernel)
    exact ⟨l, hl, d1, d2, mem ("x", "y", "lcc") (by rw [e]; decide), mem ("xs", "ys", "lcc") (by rw [e]; decide)⟩

/-- Names with underscores: two grids are taken for one, and variables get longitude and latitude of dimensions they do not have. -/
theorem C108_key_taken : see (all (dataset [("a_b", 3), ("c", 2), ("a", 3), ("b_c", 2)]
    [("a_b", ["a_b"], [("axis", "X")]), ("c", ["c"], [("axis", "Y")]), ("a", ["a"], [("axis", "X")]), ("b_c", ["b_c"], [("axis", "Y")]), ("lcc", [], [("grid_mapping_name", "lcc")]),
     ("T", ["a_b", "c"], [("grid_mapping", "lcc")]), ("U", ["a", "b_c"], [("grid_mapping", "lcc")])])) ["U", "lon", "lon0"] = .ok
    ⟨[("U", ["a", "b_c"], none), ("lon", ["a_b", "c"], some [1, 2, 3, 1, 2, 3])],
     [("U", "grid_mapping", "lcc"), ("U", "coordinates", "lon lat"), ("lon", "units", "degree_east"), ("lon", "long_name", "longitude"), ("lon", "standard_name", "longitude")]⟩ := by
  decide +kernel

/-- Two projections on the same axes: all variables get longitude and latitude by the last one. -/
theorem C108_last_projection : see (all (dataset [("x", 3), ("y", 2), ("time", 2)]
    [("x", ["x"], [("axis", "X")]), ("y", ["y"], [("axis", "Y")]), ("time", ["time"], []), ("lcc", [], [("grid_mapping_name", "lcc")]), ("other", [], [("grid_mapping_name", "moved")]),
     ("T", ["x", "y", "time"], [("grid_mapping", "other")]), ("U", ["x", "y"], [("grid_mapping", "lcc")])])) ["T", "U", "lon", "lon0"] = .ok
    ⟨[("T", ["x", "y", "time"], none), ("U", ["x", "y"], none), ("lon", ["x", "y"], some [1, 2, 3, 1, 2, 3])],
     [("T", "grid_mapping", "other"), ("T", "coordinates", "lon lat"), ("U", "grid_mapping", "lcc"), ("U", "coordinates", "lon lat"), ("lon", "units", "degree_east"),
      ("lon", "long_name", "longitude"), ("lon", "standard_name", "longitude")]⟩ ∧
    ext.lonLat "moved" [1, 2, 3] [4, 5] = .ok ([11, 12, 13, 11, 12, 13], [4, 4, 4, 5, 5, 5]) := by decide +kernel

/-- A variable with another coordinate: it is no longer named.  Then it counts as a variable on the grid itself, so that a second call adds longitude and
latitude once more, and even the first longitude and latitude name them as their coordinates. -/
theorem C108_coordinate_lost :
    let c := dataset [("x", 3), ("y", 2)] [("x", ["x"], [("axis", "X")]), ("y", ["y"], [("axis", "Y")]), ("lcc", [], [("grid_mapping_name", "lcc")]),
      ("oro", ["x", "y"], [("units", "m"), ("positive", "up"), ("grid_mapping", "lcc")]), ("T", ["x", "y"], [("grid_mapping", "lcc"), ("coordinates", "oro")])]
    see (all c) ["T"] = .ok ⟨[("T", ["x", "y"], none)], [("T", "grid_mapping", "lcc"), ("T", "coordinates", "lon lat")]⟩ ∧
    see ((all c).bind all) ["T", "oro", "lon", "lat0"] = .ok
      ⟨[("oro", ["x", "y"], none), ("T", ["x", "y"], none), ("lon", ["x", "y"], some [1, 2, 3, 1, 2, 3]), ("lat0", ["x", "y"], some [4, 4, 4, 5, 5, 5])],
       [("oro", "units", "m"), ("oro", "positive", "up"), ("oro", "grid_mapping", "lcc"), ("oro", "coordinates", "lon0 lat0"), ("T", "grid_mapping", "lcc"),
        ("T", "coordinates", "lon lat"), ("lon", "units", "degree_east"), ("lon", "long_name", "longitude"), ("lon", "standard_name", "longitude"),
        ("lon", "coordinates", "lon0 lat0"), ("lat0", "units", "degree_north"), ("lat0", "long_name", "latitude"), ("lat0", "standard_name", "latitude")]⟩ := by
  decide +kernel

/-- Axes in kilometres: the numbers are used as if they were metres, whatever the unit is. -/
theorem C108_units_ignored :
    let c := fun u => dataset [("x", 3), ("y", 2)] [("x", ["x"], [("axis", "X"), ("units", u)]), ("y", ["y"], [("axis", "Y"), ("units", u)]),
      ("lcc", [], [("grid_mapping_name", "lcc")]), ("T", ["x", "y"], [("grid_mapping", "lcc")])]
    see (all (c "km")) ["lon", "lat"] = see (all (c "m")) ["lon", "lat"] ∧ see (all (c "m")) ["lon", "lat"] ≠ .throws ∧ see (all (c "m")) ["lon", "lat"] ≠ .ub := by
  decide +kernel

end Fimex.LonLat
