import Verif.CoordSys.WrfLemmas
import Verif.CoordSys.CfProps

/-! # Coordinate systems of WRF datasets: what a listing without exception does -/

namespace Fimex.Wrf

open Cdm CoordSys Cf Change Tables

variable {V CS Pr K O β : Type}

/-! ## Single calls -/

theorem newVariable_ok {c c' : Ds V CS K O} {v : Var (Pay DataType (Option K) O)} {u : Unit} (h : newVariable v c = (c', .ok u)) :
    Fresh v.name c ∧ c'.vars = c.vars ++ [v] ∧ c'.dims = c.dims ∧ ∀ n, c'.attrs n = c.attrs n := by
  have h1 : after (addVariable c v) = .ok c' := by
    have : addVariable c v = (c', .ok u) := h
    rw [this]
    rfl
  obtain ⟨h2, h3⟩ := addVariable_is h1
  exact ⟨h2, h3.vars, h3.dims, h3.attrs⟩

theorem modifyFirst_last {P : Type} {f : Var P → Var P} {v : Var P} : ∀ {l : List (Var P)}, (∀ w ∈ l, w.name ≠ v.name) →
    modifyFirst v.name f (l ++ [v]) = l ++ [f v]
  | [], _ => by simp [modifyFirst]
  | w :: l, h => by
    rw [List.cons_append]
    unfold modifyFirst
    rw [if_neg (by simpa using h w List.mem_cons_self), modifyFirst_last fun u hu => h u (List.mem_cons_of_mem _ hu), List.cons_append]

theorem getVariable_last {c : Ds V CS K O} {l : List (Var (Pay DataType (Option K) O))} {v : Var (Pay DataType (Option K) O)} (hc : c.vars = l ++ [v])
    (hf : ∀ w ∈ l, w.name ≠ v.name) : getVariable c v.name = .ok v := by
  unfold getVariable
  rw [hc, List.find?_append, List.find?_eq_none.2 (by simpa using hf)]
  simp

theorem giveData_ok {c c' : Ds V CS K O} {l : List (Var (Pay DataType (Option K) O))} {v : Var (Pay DataType (Option K) O)} {d : DataType × List (Option K)} {u : Unit}
    (hc : c.vars = l ++ [v]) (hf : ∀ w ∈ l, w.name ≠ v.name) (h : giveData v.name d c = (c', .ok u)) :
    v.payload.dtype = d.1 ∧ c'.vars = l ++ [{ v with payload := { v.payload with data := some d } }] ∧ c'.dims = c.dims ∧ ∀ n, c'.attrs n = c.attrs n := by
  unfold giveData setVarData at h
  rw [getVariable_last hc hf] at h
  dsimp only at h
  by_cases ht : v.payload.dtype ≠ d.1
  · rw [if_pos ht] at h
    simp at h
  · rw [if_neg ht] at h
    simp only [Prod.mk.injEq] at h
    rw [← h.1]
    refine ⟨not_not.1 ht, ?_, rfl, fun _ => rfl⟩
    dsimp only
    rw [hc, modifyFirst_last hf]

theorem newAttributes_ok {E : Ext V Pr K} {c c' : Ds V CS K O} {n : String} {l : List (String × String)} {u : Unit}
    (h : newAttributes E n l c = (c', .ok u)) :
    c'.vars = c.vars ∧ c'.dims = c.dims ∧ getAttributes c' n = getAttributes c n ++ l.map (fun a => ⟨a.1, E.value a.2⟩) ∧ ∀ m, m ≠ n → c'.attrs m = c.attrs m :=
  (addAttributes_is h).2

/-- A new variable for an axis. -/
structure Added (E : Ext V Pr K) (c c' : Ds V CS K O) (n : String) (attrs : List (String × String)) (vals : List (Option K)) : Prop where
  fresh : Fresh n c
  vars : c'.vars = c.vars ++ [⟨n, [n], ⟨.float, some (.float, vals), none⟩⟩]
  dims : c'.dims = c.dims
  own : getAttributes c' n = getAttributes c n ++ attrs.map fun a => ⟨a.1, E.value a.2⟩
  attrs : ∀ m, m ≠ n → c'.attrs m = c.attrs m

theorem newAxisVariable_ok {E : Ext V Pr K} {c c' : Ds V CS K O} {n : String} {attrs : List (String × String)} {vals : List (Option K)} {u : Unit}
    (h : newAxisVariable E n attrs vals c = (c', .ok u)) : Added E c c' n attrs vals := by
  unfold newAxisVariable at h
  obtain ⟨c1, u1, h1, h⟩ := bind_ok h
  obtain ⟨c2, u2, h2, h⟩ := bind_ok h
  obtain ⟨f1, v1, d1, a1⟩ := newVariable_ok h1
  obtain ⟨v2, d2, o2, a2⟩ := newAttributes_ok h2
  obtain ⟨-, v3, d3, a3⟩ := giveData_ok (v := ⟨n, [n], ⟨.float, none, none⟩⟩) (v2.trans v1) f1 h
  refine ⟨f1, v3, d3.trans (d2.trans d1), ?_, fun m hm => (a3 m).trans ((a2 m hm).trans (a1 m))⟩
  have e3 : getAttributes c' n = getAttributes c2 n := by
    unfold getAttributes
    rw [a3]
  have e1 : getAttributes c1 n = getAttributes c n := by
    unfold getAttributes
    rw [a1]
  rw [e3, o2, e1]

/-- An axis made of a variable. -/
def IsAxis (c : Ds V CS K O) (n : String) (t : AxisType) (a : Axis) : Prop :=
  ∃ v, getVariable c n = .ok v ∧ a = { name := n, type := t, isExplicit := true, shape := v.shape }

theorem IsAxis.extends {c c' : Ds V CS K O} {n : String} {t : AxisType} {a : Axis} (h : IsAxis c n t a) (hc : Extends c c') : IsAxis c' n t a :=
  ⟨h.choose, hc.getVariable h.choose_spec.1, h.choose_spec.2⟩

theorem mkAxis_ok {c c' : Ds V CS K O} {n : String} {t : AxisType} {a : Axis} (h : mkAxis n t c = (c', .ok a)) : c' = c ∧ IsAxis c n t a := by
  obtain ⟨rfl, h1⟩ := read_ok h
  obtain ⟨v, hv, h2⟩ := Res.bind_eq_ok.1 h1
  obtain ⟨-, rfl⟩ := getVariable_some hv
  cases h2
  exact ⟨rfl, v, hv, rfl⟩

theorem mkAxis_of {c : Ds V CS K O} {n : String} {t : AxisType} {a : Axis} (h : IsAxis c n t a) : mkAxis n t c = (c, .ok a) := by
  obtain ⟨v, hv, rfl⟩ := h
  unfold mkAxis
  rw [read_apply, hv, Res.ok_bind, (getVariable_some hv).2]

/-- A call that, repeated after it has succeeded, changes nothing and gives the same. -/
def Stable (m : Eff (Ds V CS K O) β) : Prop :=
  ∀ c c1 b c', Named c → m c = (c1, .ok b) → Extends c1 c' → m c' = (c', .ok b)

theorem Stable.pure (b : β) : Stable (pure b : Eff (Ds V CS K O) β) := by
  intro c c1 b' c' _ h _
  rw [pure_apply, Prod.mk.injEq] at h
  rw [pure_apply, h.2]

theorem Stable.bind {γ : Type} {m : Eff (Ds V CS K O) β} {f : β → Eff (Ds V CS K O) γ} (hm : Stable m) (gm : Grows m) (hf : ∀ b, Stable (f b))
    (gf : ∀ b, Grows (f b)) : Stable (m >>= f) := by
  intro c c2 b c' hc h he
  obtain ⟨c1, a, h1, h2⟩ := bind_ok h
  have e1 : Extends c c1 := by
    have := gm c hc
    rwa [h1] at this
  have e2 : Extends c1 c2 := by
    have := gf a c1 e1.named
    rwa [h2] at this
  rw [bind_of_ok (hm c c1 a c' hc h1 (e2.trans he)), hf a c1 c2 b c' e1.named h2 he]

theorem Stable.read {f : Ds V CS K O → Res β} (hf : ∀ c c', Extends c c' → ∀ b, f c = .ok b → f c' = .ok b) : Stable (Eff.read f) := by
  intro c c1 b c' _ h he
  obtain ⟨rfl, h⟩ := read_ok h
  rw [read_apply, hf _ _ he b h]

theorem mkAxis_stable (n : String) (t : AxisType) : Stable (mkAxis n t : Eff (Ds V CS K O) Axis) := by
  intro c c1 a c' _ h he
  obtain ⟨rfl, h⟩ := mkAxis_ok h
  exact mkAxis_of (h.extends he)

theorem mkAxis_grows (n : String) (t : AxisType) : Grows (mkAxis n t : Eff (Ds V CS K O) Axis) := .read _

theorem ifDimension_stable {n : String} {m : Eff (Ds V CS K O) β} (hm : Stable m) (gm : Grows m) : Stable (ifDimension n m) := by
  intro c c1 b c' hc h he
  have e := ifDimension_grows (n := n) gm c hc
  rw [h] at e
  have hd : hasDimension c' n = hasDimension c n := (he.hasDimension n).trans (e.hasDimension n)
  unfold ifDimension at h ⊢
  rw [hd]
  split
  · rename_i hn
    rw [if_pos hn] at h
    exact (hm.bind gm (fun b => .pure _) fun b => .pure _) c c1 b c' hc h he
  · rename_i hn
    rw [if_neg hn] at h
    simp only [Prod.mk.injEq] at h
    rw [h.2]

theorem unlessVariable_stable {n : String} {m : Eff (Ds V CS K O) Unit} (hm : ∀ c c1 u, m c = (c1, .ok u) → hasVariable c1 n = true) :
    Stable (unlessVariable n m) := by
  intro c c1 u c' hc h he
  have h1 : hasVariable c1 n = true := by
    unfold unlessVariable at h
    cases hv : hasVariable c n with
    | true =>
      rw [hv] at h
      simp only [Bool.not_true, Bool.false_eq_true, if_false, Prod.mk.injEq] at h
      rw [← h.1]
      exact hv
    | false =>
      rw [hv] at h
      exact hm _ _ _ h
  unfold unlessVariable
  rw [he.hasVariable h1]
  rfl

theorem Added.has {E : Ext V Pr K} {c c' : Ds V CS K O} {n : String} {attrs : List (String × String)} {vals : List (Option K)} (h : Added E c c' n attrs vals) :
    hasVariable c' n = true := hasVariable_true.2 ⟨_, h.vars ▸ List.mem_append_right _ (List.mem_singleton.2 rfl), rfl⟩

variable [Field K] {E : Ext V Pr K}

/-- Outcome of making an axis of a dimension. -/
structure MadeAxis (c c' : Ds V CS K O) (n : String) (t : AxisType) (r : Option Axis) : Prop where
  some : hasDimension c n = true → ∃ a, r = some a ∧ IsAxis c' n t a
  none : hasDimension c n = false → r = none ∧ c' = c

omit [Field K] in
theorem ifDimension_ok {n : String} {m : Eff (Ds V CS K O) β} {c c' : Ds V CS K O} {r : Option β} (h : ifDimension n m c = (c', .ok r)) :
    (hasDimension c n = true → ∃ b, r = some b ∧ m c = (c', .ok b)) ∧ (hasDimension c n = false → r = none ∧ c' = c) := by
  unfold ifDimension at h
  cases hd : hasDimension c n with
  | true =>
    rw [hd, if_pos rfl] at h
    obtain ⟨c1, b, h1, h2⟩ := bind_ok h
    rw [pure_apply] at h2
    cases h2
    exact ⟨fun _ => ⟨b, rfl, h1⟩, fun h => by cases h⟩
  | false =>
    rw [hd, if_neg (by simp)] at h
    cases h
    exact ⟨fun h => (by cases h), fun _ => ⟨rfl, rfl⟩⟩

omit [Field K] in
theorem unlessVariable_ok {n : String} {m : Eff (Ds V CS K O) Unit} {c c' : Ds V CS K O} {u : Unit} (h : unlessVariable n m c = (c', .ok u)) :
    (hasVariable c n = true → c' = c) ∧ (hasVariable c n = false → m c = (c', .ok u)) := by
  unfold unlessVariable at h
  cases hv : hasVariable c n with
  | true =>
    rw [hv] at h
    cases h
    exact ⟨fun _ => rfl, fun h => by cases h⟩
  | false =>
    rw [hv] at h
    exact ⟨fun h => (by cases h), fun _ => h⟩

/-- What the call for a horizontal axis does. -/
theorem horizontal_ok {latLon : Bool} {x : Option K} {n delta metres degrees : String} {t : AxisType} {c c' : Ds V CS K O} {r : Option Axis}
    (h : horizontal E latLon x n delta metres degrees t c = (c', .ok r)) :
    MadeAxis c c' n t r ∧ (hasDimension c n = true → hasVariable c n = true → c' = c) ∧
    (hasDimension c n = true → hasVariable c n = false → ∃ a d dim, getAttribute c globalNS delta = .ok a ∧ E.num a.value = .ok d ∧ getDimension c n = .ok dim ∧
      Added E c c' n (if latLon then [("units", "degree"), ("standard_name", degrees)] else [("units", "m"), ("standard_name", metres)])
        (spread x (if latLon then (E.toDeg d).map fun x => x / 6370000 else d) dim.length)) := by
  unfold horizontal at h
  obtain ⟨h1, h2⟩ := ifDimension_ok h
  refine ⟨⟨fun hd => ?_, h2⟩, fun hd hv => ?_, fun hd hv => ?_⟩
  all_goals
    obtain ⟨b, rfl, h3⟩ := h1 hd
    obtain ⟨c1, u, h4, h5⟩ := bind_ok h3
    obtain ⟨rfl, h6⟩ := mkAxis_ok h5
  · exact ⟨b, rfl, h6⟩
  · exact (unlessVariable_ok h4).1 hv
  · have h7 := (unlessVariable_ok h4).2 hv
    obtain ⟨c2, d, h8, h9⟩ := bind_ok h7
    obtain ⟨c3, dim, h10, h11⟩ := bind_ok h9
    obtain ⟨rfl, h8⟩ := read_ok h8
    obtain ⟨rfl, h10⟩ := read_ok h10
    obtain ⟨a, h12, h13⟩ := Res.bind_eq_ok.1 h8
    exact ⟨a, d, dim, h12, h13, h10, newAxisVariable_ok h11⟩

theorem vertical_ok {n : String} {c c' : Ds V CS K O} {r : Option Axis} (h : vertical E n c = (c', .ok r)) :
    MadeAxis c c' n .geoZ r ∧ (hasDimension c n = true → hasVariable c n = true → c' = c) ∧
    (hasDimension c n = true → hasVariable c n = false → ∃ dim, getDimension c n = .ok dim ∧
      Added E c c' n [("units", "1")] ((List.range dim.length).map fun (i : Nat) => some (i : K))) := by
  unfold vertical at h
  obtain ⟨h1, h2⟩ := ifDimension_ok h
  refine ⟨⟨fun hd => ?_, h2⟩, fun hd hv => ?_, fun hd hv => ?_⟩
  all_goals
    obtain ⟨b, rfl, h3⟩ := h1 hd
    obtain ⟨c1, u, h4, h5⟩ := bind_ok h3
    obtain ⟨rfl, h6⟩ := mkAxis_ok h5
  · exact ⟨b, rfl, h6⟩
  · exact (unlessVariable_ok h4).1 hv
  · have h7 := (unlessVariable_ok h4).2 hv
    obtain ⟨c3, dim, h10, h11⟩ := bind_ok h7
    obtain ⟨rfl, h10⟩ := read_ok h10
    exact ⟨dim, h10, newAxisVariable_ok h11⟩

/-- The reference time is never added without an exception. -/
theorem addReferenceTime_raises {c c' : Ds V CS K O} {u : Unit} : addReferenceTime E c ≠ (c', .ok u) := by
  intro h
  unfold addReferenceTime at h
  obtain ⟨c1, u1, h1, g1⟩ := bind_ok h
  obtain ⟨c2, s, h2, g2⟩ := bind_ok g1
  obtain ⟨c3, u3, h3, g3⟩ := bind_ok g2
  obtain ⟨f1, v1, -, -⟩ := newVariable_ok h1
  have e2 : c2 = c1 := by
    unfold sinceDate at h2
    obtain ⟨c4, s4, h4, h5⟩ := bind_ok h2
    exact (read_ok h5).1.trans (read_ok h4).1
  subst e2
  obtain ⟨v3, -, -, -⟩ := newAttributes_ok h3
  obtain ⟨ht, -⟩ := giveData_ok (v := ⟨"forecast_reference_time", [], ⟨.int, none, none⟩⟩) (v3.trans v1) f1 g3
  cases ht

theorem addTime_ok {c c' : Ds V CS K O} {u : Unit} (h : addTime E c = (c', .ok u)) :
    ∃ dim units step, getDimension c "Time" = .ok dim ∧ sinceDate E "START_DATE" c = (c, .ok units) ∧
      (match getAttribute c globalNS "TIME_STEP_MN" with | .ok a => E.num a.value | _ => .ok (some 180)) = .ok step ∧
      Added E c c' "Time" [("units", units)] ((List.range dim.length).map fun (i : Nat) => do some ((← step) / 60 * i)) := by
  unfold addTime at h
  obtain ⟨c1, dim, h1, g1⟩ := bind_ok h
  obtain ⟨c2, units, h2, g2⟩ := bind_ok g1
  obtain ⟨c3, step, h3, g3⟩ := bind_ok g2
  obtain ⟨rfl, h1⟩ := read_ok h1
  have e2 : c2 = c1 := by
    unfold sinceDate at h2
    obtain ⟨c4, s4, h4, h5⟩ := bind_ok h2
    exact (read_ok h5).1.trans (read_ok h4).1
  subst e2
  obtain ⟨rfl, h3⟩ := read_ok h3
  exact ⟨dim, units, step, h1, h2, h3, newAxisVariable_ok g3⟩

theorem time_ok {c c' : Ds V CS K O} {a : Axis} (h : time E c = (c', .ok a)) :
    IsAxis c' "Time" .time a ∧ (hasVariable c "Time" = true → c' = c) ∧
    (hasVariable c "Time" = false → hasDimension c "Time" = true ∧ hasVariable c "forecast_reference_time" = true ∧ addTime E c = (c', .ok ())) := by
  unfold time at h
  obtain ⟨c1, u, h1, h2⟩ := bind_ok h
  obtain ⟨rfl, h2⟩ := mkAxis_ok h2
  refine ⟨h2, fun hv => ?_, fun hv => ?_⟩
  · unfold timeVariables at h1
    rw [hv] at h1
    simp only [Bool.not_true, Bool.and_false, Bool.false_eq_true, if_false, Prod.mk.injEq] at h1
    exact h1.1.symm
  · unfold timeVariables at h1
    cases hd : hasDimension c "Time" with
    | false =>
      rw [hd] at h1
      simp only [Bool.false_and, Bool.false_eq_true, if_false, Prod.mk.injEq] at h1
      obtain ⟨v, hv', -⟩ := h2
      obtain ⟨h3, h4⟩ := getVariable_some hv'
      rw [← h1.1] at h3
      exact absurd h4 (hasVariable_false.1 hv v h3)
    | true =>
      rw [hd, hv] at h1
      simp only [Bool.not_false, Bool.and_self, if_true] at h1
      obtain ⟨c2, u2, h3, h4⟩ := bind_ok h1
      obtain ⟨h5, h6⟩ := unlessVariable_ok h4
      have hr : hasVariable c2 "forecast_reference_time" = true := by
        cases hr : hasVariable c2 "forecast_reference_time" with
        | true => rfl
        | false => exact absurd (h6 hr) addReferenceTime_raises
      have := h5 hr
      subst this
      refine ⟨rfl, ?_, h3⟩
      obtain ⟨_, _, _, -, -, -, ha⟩ := addTime_ok h3
      obtain ⟨v, hv1, hv2⟩ := hasVariable_true.1 hr
      rw [ha.vars] at hv1
      rcases List.mem_append.1 hv1 with hv1 | hv1
      · exact hasVariable_true.2 ⟨v, hv1, hv2⟩
      · rw [List.mem_singleton.1 hv1] at hv2
        have hv2 : "Time" = "forecast_reference_time" := hv2
        exact absurd hv2 (by decide +kernel)

/-- The axis of another dimension needs a variable. -/
theorem other_ok {c c' : Ds V CS K O} {n : String} {a : Axis} (h : other n c = (c', .ok a)) : c' = c ∧ IsAxis c n .undefined a := by
  unfold other at h
  obtain ⟨c1, u, h1, h2⟩ := bind_ok h
  obtain ⟨rfl, h2⟩ := mkAxis_ok h2
  obtain ⟨h3, h4⟩ := unlessVariable_ok h1
  cases hv : hasVariable c n with
  | true =>
    have := h3 hv
    subst this
    exact ⟨rfl, h2⟩
  | false =>
    have h5 := h4 hv
    obtain ⟨c2, u2, h6, h7⟩ := bind_ok h5
    obtain ⟨c3, d, h8, h9⟩ := bind_ok h7
    obtain ⟨rfl, -⟩ := read_ok h8
    obtain ⟨f1, v1, -, -⟩ := newVariable_ok h6
    obtain ⟨ht, -⟩ := giveData_ok (v := ⟨n, [n], ⟨.int, none, none⟩⟩) v1 f1 h9
    cases ht

/-! ## Repetition -/

theorem horizontal_stable {latLon : Bool} {x : Option K} {n delta metres degrees : String} {t : AxisType} (hg : n ≠ globalNS) :
    Stable (horizontal E latLon x n delta metres degrees t : Eff (Ds V CS K O) _) := by
  unfold horizontal
  have g := unlessVariable_grows (V := V) (CS := CS) (O := O) (n := n) (m := do
      let d ← globalAttr E.num delta
      let dim ← Eff.read fun c => getDimension c n
      newAxisVariable E n (if latLon then [("units", "degree"), ("standard_name", degrees)] else [("units", "m"), ("standard_name", metres)])
        (spread x (if latLon then (E.toDeg d).map fun x => x / 6370000 else d) dim.length))
    ((Within.read _ _).bind fun _ => (Within.read _ _).bind fun _ => newAxisVariable_within hg _ _)
  refine ifDimension_stable (Stable.bind (unlessVariable_stable fun c c1 u h => ?_) g (fun _ => mkAxis_stable n t) fun _ => mkAxis_grows n t)
    (g.bind fun _ => mkAxis_grows n t)
  obtain ⟨c2, d, h8, h9⟩ := bind_ok h
  obtain ⟨c3, dim, h10, h11⟩ := bind_ok h9
  exact (newAxisVariable_ok h11).has

theorem vertical_stable {n : String} (hg : n ≠ globalNS) : Stable (vertical E n : Eff (Ds V CS K O) _) := by
  unfold vertical
  have g := unlessVariable_grows (V := V) (CS := CS) (O := O) (n := n) (m := do
      let dim ← Eff.read fun c => getDimension c n
      newAxisVariable E n [("units", "1")] ((List.range dim.length).map fun (i : Nat) => some (i : K)))
    ((Within.read _ _).bind fun _ => newAxisVariable_within hg _ _)
  refine ifDimension_stable (Stable.bind (unlessVariable_stable fun c c1 u h => ?_) g (fun _ => mkAxis_stable n _) fun _ => mkAxis_grows n _)
    (g.bind fun _ => mkAxis_grows n _)
  obtain ⟨c3, dim, h10, h11⟩ := bind_ok h
  exact (newAxisVariable_ok h11).has

theorem time_stable : Stable (time E : Eff (Ds V CS K O) _) := by
  intro c c1 a c' hc h he
  obtain ⟨h1, -, -⟩ := time_ok h
  have h2 := h1.extends he
  obtain ⟨v, hv, -⟩ := id h2
  have hh : hasVariable c' "Time" = true := hasVariable_true.2 ⟨v, getVariable_some hv⟩
  unfold time
  have h3 : timeVariables E c' = (c', .ok ()) := by
    unfold timeVariables
    rw [hh]
    simp
  rw [bind_of_ok h3]
  exact mkAxis_of h2

omit [Field K] in
theorem attrNum_stable (n : String) : Stable (attrNum E n : Eff (Ds V CS K O) _) := by
  refine Stable.read fun c c' he b h => ?_
  rwa [he.getAttribute]

omit [Field K] in
theorem globalAttr_stable (f : V → Res β) (n : String) : Stable (globalAttr f n : Eff (Ds V CS K O) _) := by
  refine Stable.read fun c c' he b h => ?_
  rwa [he.getAttribute]

theorem projText_stable : Stable (projText E : Eff (Ds V CS K O) _) := by
  unfold projText
  repeat refine Stable.bind (attrNum_stable _) (.read _) (fun _ => ?_) fun _ => ?_
  all_goals try (repeat refine Grows.bind (.read _) fun _ => ?_)
  case refine_1 => 
    refine Stable.bind (globalAttr_stable _ _) (.read _) (fun _ => ?_) fun _ => ?_
    all_goals
      dsimp only
      repeat' split
      all_goals exact .pure _
  all_goals
    dsimp only
    repeat' split
    all_goals exact .pure _

omit [Field K] in
theorem centre_stable {t : String} {latLon : Bool} : Stable (centre E t latLon : Eff (Ds V CS K O) _) := by
  unfold centre
  refine Stable.bind (Stable.read fun _ _ _ _ h => h) (.read _) (fun _ => ?_) fun _ => (Grows.bind (.read _) fun _ => Grows.bind (.read _) fun _ => Grows.bind (.read _) fun _ => .pure _)
  refine Stable.bind (attrNum_stable _) (.read _) (fun _ => ?_) fun _ => (Grows.bind (.read _) fun _ => Grows.bind (.read _) fun _ => .pure _)
  refine Stable.bind (attrNum_stable _) (.read _) (fun _ => ?_) fun _ => (Grows.bind (.read _) fun _ => .pure _)
  exact Stable.bind (Stable.read fun _ _ _ _ h => h) (.read _) (fun _ => .pure _) fun _ => .pure _

/-! ## All axes -/

/-- The type of the axis of a dimension. -/
def typeOf (n : String) : AxisType :=
  if n = "west_east" ∨ n = "west_east_stag" then .geoX
  else if n = "south_north" ∨ n = "south_north_stag" then .geoY
  else if n = "bottom_top" ∨ n = "bottom_top_stag" then .geoZ
  else if n = "Time" then .time
  else .undefined

/-- The axes are made of the variables of a dataset. -/
structure Good (c : Ds V CS K O) (A : Axes) : Prop where
  west : ∀ a, A.west = some a → IsAxis c "west_east" .geoX a
  stagWest : ∀ a, A.stagWest = some a → IsAxis c "west_east_stag" .geoX a
  north : ∀ a, A.north = some a → IsAxis c "south_north" .geoY a
  stagNorth : ∀ a, A.stagNorth = some a → IsAxis c "south_north_stag" .geoY a
  bottom : ∀ a, A.bottom = some a → IsAxis c "bottom_top" .geoZ a
  stagBottom : ∀ a, A.stagBottom = some a → IsAxis c "bottom_top_stag" .geoZ a
  time : IsAxis c "Time" .time A.time

omit [Field K] in
theorem MadeAxis.axis {c c1 c' : Ds V CS K O} {n : String} {t : AxisType} {r : Option Axis} (h : MadeAxis c c1 n t r) (he : Extends c1 c') (a : Axis)
    (ha : r = Option.some a) : IsAxis c' n t a := by
  cases hd : hasDimension c n with
  | false => rw [(h.none hd).1] at ha; cases ha
  | true =>
    obtain ⟨b, hb, h1⟩ := h.some hd
    rw [hb] at ha
    cases ha
    exact h1.extends he

omit [Field K] in
theorem grows_of {m : Eff (Ds V CS K O) β} {c c' : Ds V CS K O} {b : Res β} (h : Grows m) (hc : Named c) (he : m c = (c', b)) : Extends c c' := by
  have := h c hc
  rwa [he] at this

/-- The states between the axes. -/
theorem allAxes_split {latLon : Bool} {x y : Option K} {c c' : Ds V CS K O} {A : Axes} (hc : Named c) (h : allAxes E latLon x y c = (c', .ok A)) :
    ∃ c1 c2 c3 c4 c5 c6,
      horizontal E latLon x "west_east" "DX" "projection_x_axis" "grid_longitude" .geoX c = (c1, .ok A.west) ∧
      horizontal E latLon x "west_east_stag" "DX" "projection_x_axis" "grid_longitude" .geoX c1 = (c2, .ok A.stagWest) ∧
      horizontal E latLon y "south_north" "DY" "projection_y_axis" "grid_latitude" .geoY c2 = (c3, .ok A.north) ∧
      horizontal E latLon y "south_north_stag" "DY" "projection_y_axis" "grid_latitude" .geoY c3 = (c4, .ok A.stagNorth) ∧
      vertical E "bottom_top" c4 = (c5, .ok A.bottom) ∧ vertical E "bottom_top_stag" c5 = (c6, .ok A.stagBottom) ∧ time E c6 = (c', .ok A.time) ∧
      Extends c c1 ∧ Extends c1 c2 ∧ Extends c2 c3 ∧ Extends c3 c4 ∧ Extends c4 c5 ∧ Extends c5 c6 ∧ Extends c6 c' := by
  unfold allAxes at h
  obtain ⟨c1, a1, h1, h⟩ := bind_ok h
  obtain ⟨c2, a2, h2, h⟩ := bind_ok h
  obtain ⟨c3, a3, h3, h⟩ := bind_ok h
  obtain ⟨c4, a4, h4, h⟩ := bind_ok h
  obtain ⟨c5, a5, h5, h⟩ := bind_ok h
  obtain ⟨c6, a6, h6, h⟩ := bind_ok h
  obtain ⟨c7, a7, h7, h⟩ := bind_ok h
  rw [pure_apply] at h
  cases h
  have e1 := grows_of (horizontal_grows (by decide +kernel)) hc h1
  have e2 := grows_of (horizontal_grows (by decide +kernel)) e1.named h2
  have e3 := grows_of (horizontal_grows (by decide +kernel)) e2.named h3
  have e4 := grows_of (horizontal_grows (by decide +kernel)) e3.named h4
  have e5 := grows_of (vertical_grows (by decide +kernel)) e4.named h5
  have e6 := grows_of (vertical_grows (by decide +kernel)) e5.named h6
  have e7 := grows_of time_grows e6.named h7
  exact ⟨c1, c2, c3, c4, c5, c6, h1, h2, h3, h4, h5, h6, h7, e1, e2, e3, e4, e5, e6, e7⟩

theorem allAxes_good {latLon : Bool} {x y : Option K} {c c' : Ds V CS K O} {A : Axes} (hc : Named c) (h : allAxes E latLon x y c = (c', .ok A)) :
    Good c' A := by
  obtain ⟨c1, c2, c3, c4, c5, c6, h1, h2, h3, h4, h5, h6, h7, e1, e2, e3, e4, e5, e6, e7⟩ := allAxes_split hc h
  exact ⟨(horizontal_ok h1).1.axis (e2.trans (e3.trans (e4.trans (e5.trans (e6.trans e7))))),
    (horizontal_ok h2).1.axis (e3.trans (e4.trans (e5.trans (e6.trans e7)))), (horizontal_ok h3).1.axis (e4.trans (e5.trans (e6.trans e7))),
    (horizontal_ok h4).1.axis (e5.trans (e6.trans e7)), (vertical_ok h5).1.axis (e6.trans e7), (vertical_ok h6).1.axis e7, (time_ok h7).1⟩

omit [Field K] in
theorem nonNull_ok {a : Option β} {c c' : Ds V CS K O} {b : β} (h : nonNull a c = (c', .ok b)) : c' = c ∧ a = some b := by
  obtain ⟨rfl, h⟩ := read_ok h
  cases a with
  | none => cases h
  | some a => cases h; exact ⟨rfl, rfl⟩

theorem axisOf_ok {c c' : Ds V CS K O} {A : Axes} {n : String} {a : Axis} (hg : Good c A) (h : axisOf A n c = (c', .ok a)) :
    c' = c ∧ IsAxis c n (typeOf n) a := by
  unfold axisOf at h
  unfold typeOf
  by_cases h1 : n = "west_east"
  · rw [if_pos h1] at h
    obtain ⟨rfl, k⟩ := nonNull_ok h
    rw [if_pos (.inl h1), h1]
    exact ⟨rfl, hg.west a k⟩
  rw [if_neg h1] at h
  by_cases h2 : n = "west_east_stag"
  · rw [if_pos h2] at h
    obtain ⟨rfl, k⟩ := nonNull_ok h
    rw [if_pos (.inr h2), h2]
    exact ⟨rfl, hg.stagWest a k⟩
  rw [if_neg h2] at h
  rw [if_neg (by tauto)]
  by_cases h3 : n = "south_north"
  · rw [if_pos h3] at h
    obtain ⟨rfl, k⟩ := nonNull_ok h
    rw [if_pos (.inl h3), h3]
    exact ⟨rfl, hg.north a k⟩
  rw [if_neg h3] at h
  by_cases h4 : n = "south_north_stag"
  · rw [if_pos h4] at h
    obtain ⟨rfl, k⟩ := nonNull_ok h
    rw [if_pos (.inr h4), h4]
    exact ⟨rfl, hg.stagNorth a k⟩
  rw [if_neg h4] at h
  rw [if_neg (by tauto)]
  by_cases h5 : n = "Time"
  · rw [if_pos h5, pure_apply] at h
    cases h
    rw [if_neg, if_pos h5, h5]
    · exact ⟨rfl, hg.time⟩
    · rw [h5]
      decide +kernel
  rw [if_neg h5] at h
  by_cases h6 : n = "bottom_top"
  · rw [if_pos h6] at h
    obtain ⟨rfl, k⟩ := nonNull_ok h
    rw [if_pos (.inl h6), h6]
    exact ⟨rfl, hg.bottom a k⟩
  rw [if_neg h6] at h
  by_cases h7 : n = "bottom_top_stag"
  · rw [if_pos h7] at h
    obtain ⟨rfl, k⟩ := nonNull_ok h
    rw [if_pos (.inr h7), h7]
    exact ⟨rfl, hg.stagBottom a k⟩
  rw [if_neg h7] at h
  rw [if_neg (by tauto), if_neg h5]
  exact other_ok h

theorem allAxes_stable {latLon : Bool} {x y : Option K} : Stable (allAxes E latLon x y : Eff (Ds V CS K O) _) := by
  have hb : "west_east" ≠ globalNS ∧ "west_east_stag" ≠ globalNS ∧ "south_north" ≠ globalNS ∧ "south_north_stag" ≠ globalNS ∧ "bottom_top" ≠ globalNS ∧
      "bottom_top_stag" ≠ globalNS := by decide +kernel
  obtain ⟨n1, n2, n3, n4, n5, n6⟩ := hb
  intro c c1 A c' hc h he
  obtain ⟨d1, d2, d3, d4, d5, d6, h1, h2, h3, h4, h5, h6, h7, e1, e2, e3, e4, e5, e6, e7⟩ := allAxes_split hc h
  unfold allAxes
  rw [bind_of_ok (horizontal_stable n1 _ _ _ c' hc h1 (e2.trans (e3.trans (e4.trans (e5.trans (e6.trans (e7.trans he))))))),
    bind_of_ok (horizontal_stable n2 _ _ _ c' e1.named h2 (e3.trans (e4.trans (e5.trans (e6.trans (e7.trans he)))))),
    bind_of_ok (horizontal_stable n3 _ _ _ c' e2.named h3 (e4.trans (e5.trans (e6.trans (e7.trans he))))),
    bind_of_ok (horizontal_stable n4 _ _ _ c' e3.named h4 (e5.trans (e6.trans (e7.trans he)))),
    bind_of_ok (vertical_stable n5 _ _ _ c' e4.named h5 (e6.trans (e7.trans he))),
    bind_of_ok (vertical_stable n6 _ _ _ c' e5.named h6 (e7.trans he)),
    bind_of_ok (time_stable _ _ _ c' e6.named h7 he), pure_apply]

/-! ## Systems -/

/-- The axes of a coordinate system and what it is besides. -/
structure Built (c : Ds V CS K O) (l : List String) (s s' : System Pr) : Prop where
  aux : s'.axes.aux = []
  axes : ∀ a ∈ s'.axes.axes, (a ∈ s.axes.axes ∧ a.name ∉ l) ∨ (a.name ∈ l ∧ IsAxis c a.name (typeOf a.name) a)
  all : ∀ n ∈ l, ∃ a ∈ s'.axes.axes, a.name = n
  consistent : Consistent s'.axes
  times : "Times" ∈ s'.deps ↔ "Times" ∈ s.deps ∨ "Time" ∈ l
  deps : ∀ n ∈ s'.deps, n ∈ s.deps ∨ n = "Times"
  same : s'.convention = s.convention ∧ s'.proj = s.proj ∧ s'.isFor = s.isFor ∧ s'.complete = s.complete ∧ s'.vtran = s.vtran ∧ s'.simple = s.simple
  kept : ∀ a ∈ s.axes.axes, ∃ b ∈ s'.axes.axes, b.name = a.name

theorem setAxes_ok {A : Axes} : ∀ {l : List String} {s s' : System Pr} {c c' : Ds V CS K O}, Good c A → s.axes.aux = [] → Consistent s.axes →
    setAxes A l s c = (c', .ok s') → c' = c ∧ Built c l s s'
  | [], s, s', c, c', _, ha, hs, h => by
    unfold setAxes at h
    rw [pure_apply] at h
    cases h
    exact ⟨rfl, ha, fun a h => .inl ⟨h, by simp⟩, by simp, hs, by simp, fun n h => .inl h, ⟨rfl, rfl, rfl, rfl, rfl, rfl⟩, fun a h => ⟨a, h, rfl⟩⟩
  | n :: l, s, s', c, c', hg, ha, hs, h0 => by
    unfold setAxes at h0
    obtain ⟨c1, a, h1, h⟩ := bind_ok h0
    obtain ⟨rfl, hax⟩ := axisOf_ok hg h1
    have hn : a.name = n := by
      obtain ⟨v, -, rfl⟩ := hax
      rfl
    have hcons : Consistent (CoordSys.setAxis s.axes a).1 := step_consistent s.axes (.axis a) hs
    rcases hset : CoordSys.setAxis s.axes a with ⟨cs, u | _ | _⟩
    · rw [hset] at h hcons
      dsimp only at h hcons
      unfold CoordSys.setAxis at hset
      dsimp only at hset
      split at hset
      · simp at hset
      · rw [Prod.mk.injEq] at hset
        obtain ⟨hset, -⟩ := hset
        have haux : cs.aux = [] := by
          rw [← hset, ha]
          rfl
        have hmem : ∀ b, b ∈ cs.axes ↔ (b ∈ s.axes.axes ∧ b.name ≠ n) ∨ b = a := by
          intro b
          rw [← hset]
          dsimp only
          rw [List.mem_append, mem_removeAxis, List.mem_singleton, hn]
        obtain ⟨e, hb⟩ := setAxes_ok (s := { s with axes := cs, deps := if n = "Time" then setInsert "Times" s.deps else s.deps }) hg haux hcons h
        refine ⟨e, hb.aux, fun b hb' => ?_, fun m hm => ?_, hb.consistent, ?_, fun m hm => ?_, hb.same, fun b hb' => ?_⟩
        · rcases hb.axes b hb' with ⟨h2, h3⟩ | ⟨h2, h3⟩
          · rcases (hmem b).1 h2 with ⟨h4, h5⟩ | rfl
            · exact .inl ⟨h4, by simp [h5, h3]⟩
            · exact .inr ⟨by simp [hn], hn ▸ hax⟩
          · exact .inr ⟨List.mem_cons_of_mem _ h2, h3⟩
        · rcases List.mem_cons.1 hm with rfl | hm
          · obtain ⟨b, h2, h3⟩ := hb.kept a ((hmem a).2 (.inr rfl))
            exact ⟨b, h2, h3.trans hn⟩
          · exact hb.all m hm
        · rw [hb.times]
          dsimp only
          by_cases ht : n = "Time"
          · rw [if_pos ht]
            simp [mem_setInsert, ht]
          · rw [if_neg ht]
            have : ¬ "Time" = n := fun h => ht h.symm
            simp [this]
        · rcases hb.deps m hm with h2 | h2
          · dsimp only at h2
            by_cases ht : n = "Time"
            · rw [if_pos ht, mem_setInsert] at h2
              exact h2.symm
            · rw [if_neg ht] at h2
              exact .inl h2
          · exact .inr h2
        · by_cases hbn : b.name = n
          · obtain ⟨b', h2, h3⟩ := hb.kept a ((hmem a).2 (.inr rfl))
            exact ⟨b', h2, h3.trans (hn.trans hbn.symm)⟩
          · exact hb.kept b ((hmem b).2 (.inl ⟨hb', hbn⟩))
    · rw [hset] at h
      dsimp only at h
      rw [read_apply] at h
      simp at h
    · rw [hset] at h
      dsimp only at h
      rw [read_apply] at h
      simp at h

/-- The system of a shape. -/
structure ForShape (c : Ds V CS K O) (p : Pr) (l : List String) (s : System Pr) : Prop where
  convention : s.convention = "WRF"
  proj : s.proj = some p
  simple : s.simple = true
  vtran : s.vtran = none
  names : ∀ n, HasAxis s n ↔ n ∈ l
  axes : ∀ a ∈ getAxes s.axes, IsAxis c a.name (typeOf a.name) a
  consistent : Consistent s.axes
  deps : ∀ n, n ∈ s.deps ↔ n = "Times" ∧ "Time" ∈ l

theorem setAxes_shape {A : Axes} {l : List String} {s' : System Pr} {p : Pr} {c c' : Ds V CS K O} (hg : Good c A)
    (h : setAxes A l ({ convention := "WRF", proj := some p } : System Pr) c = (c', .ok s')) :
    c' = c ∧ ForShape c p l { s' with simple := true } ∧ s'.isFor = [] ∧ s'.complete = [] := by
  obtain ⟨e, hb⟩ := setAxes_ok hg rfl ⟨by simp [getAxes], by simp⟩ h
  refine ⟨e, ⟨hb.same.1, hb.same.2.1, rfl, hb.same.2.2.2.2.1, fun n => ?_, fun a ha => ?_, hb.consistent, fun n => ?_⟩, hb.same.2.2.1, hb.same.2.2.2.1⟩
  · unfold HasAxis getAxes
    rw [hb.aux, List.append_nil]
    constructor
    · rintro ⟨a, ha, rfl⟩
      rcases hb.axes a ha with ⟨h1, -⟩ | ⟨h1, -⟩
      · simp at h1
      · exact h1
    · exact hb.all n
  · unfold getAxes at ha
    rw [hb.aux, List.append_nil] at ha
    rcases hb.axes a ha with ⟨h1, -⟩ | ⟨-, h1⟩
    · simp at h1
    · exact h1
  · constructor
    · intro hn
      rcases hb.deps n hn with h1 | rfl
      · simp at h1
      · refine ⟨rfl, ?_⟩
        rcases hb.times.1 hn with h1 | h1
        · simp at h1
        · exact h1
    · rintro ⟨rfl, h1⟩
      exact hb.times.2 (.inr h1)

/-- The systems found so far. -/
structure Systems (c : Ds V CS K O) (p : Pr) (D : List (Var (Pay DataType (Option K) O))) (m : List (String × System Pr)) : Prop where
  sorted : (m.map (·.1)).Pairwise (· < ·)
  shape : ∀ e ∈ m, ∃ v ∈ D, isGrid v.shape = true ∧ e.1 = shapeId v.shape ∧ ForShape c p v.shape e.2
  isFor : ∀ e ∈ m, ∀ n, n ∈ e.2.isFor ↔ ∃ v ∈ D, isGrid v.shape = true ∧ e.1 = shapeId v.shape ∧ v.name = n
  complete : ∀ e ∈ m, ∀ n, n ∈ e.2.complete ↔ ∃ v ∈ D, isGrid v.shape = true ∧ e.1 = shapeId v.shape ∧ v.name = n
  all : ∀ v ∈ D, isGrid v.shape = true → ∃ e ∈ m, e.1 = shapeId v.shape

omit [Field K] in
theorem Systems.skip {c : Ds V CS K O} {p : Pr} {D : List (Var (Pay DataType (Option K) O))} {m : List (String × System Pr)} (h : Systems c p D m)
    {v : Var (Pay DataType (Option K) O)} (hv : isGrid v.shape = false) : Systems c p (D ++ [v]) m := by
  have hx : ∀ (q : Var (Pay DataType (Option K) O) → Prop), (∃ w ∈ D ++ [v], isGrid w.shape = true ∧ q w) ↔ ∃ w ∈ D, isGrid w.shape = true ∧ q w := by
    intro q
    constructor
    · rintro ⟨w, hw, h1, h2⟩
      rcases List.mem_append.1 hw with hw | hw
      · exact ⟨w, hw, h1, h2⟩
      · rw [List.mem_singleton.1 hw, hv] at h1
        cases h1
    · rintro ⟨w, hw, h1⟩
      exact ⟨w, List.mem_append_left _ hw, h1⟩
  refine ⟨h.sorted, fun e he => (hx _).2 (h.shape e he), fun e he n => ?_, fun e he n => ?_, fun w hw hg => ?_⟩
  · rw [h.isFor e he n, hx]
  · rw [h.complete e he n, hx]
  · rcases List.mem_append.1 hw with hw | hw
    · exact h.all w hw hg
    · rw [List.mem_singleton.1 hw, hv] at hg
      cases hg

omit [Field K] in
theorem Systems.mark {c : Ds V CS K O} {p : Pr} {D : List (Var (Pay DataType (Option K) O))} {m : List (String × System Pr)} 
    {v : Var (Pay DataType (Option K) O)} (hv : isGrid v.shape = true) (sorted : (m.map (·.1)).Pairwise (· < ·))
    (shape : ∀ e ∈ m, ∃ w ∈ D ++ [v], isGrid w.shape = true ∧ e.1 = shapeId w.shape ∧ ForShape c p w.shape e.2)
    (isFor : ∀ e ∈ m, ∀ n, n ∈ e.2.isFor ↔ ∃ v ∈ D, isGrid v.shape = true ∧ e.1 = shapeId v.shape ∧ v.name = n)
    (complete : ∀ e ∈ m, ∀ n, n ∈ e.2.complete ↔ ∃ v ∈ D, isGrid v.shape = true ∧ e.1 = shapeId v.shape ∧ v.name = n)
    (all : ∀ w ∈ D ++ [v], isGrid w.shape = true → ∃ e ∈ m, e.1 = shapeId w.shape) :
    Systems c p (D ++ [v]) (markVariable (shapeId v.shape) v.name m) := by
  have hkey : ∀ e ∈ markVariable (shapeId v.shape) v.name m, ∃ d ∈ m, e.1 = d.1 ∧
      e.2 = if d.1 = shapeId v.shape then { d.2 with isFor := setInsert v.name d.2.isFor, complete := setInsert v.name d.2.complete } else d.2 := by
    intro e he
    obtain ⟨d, hd, rfl⟩ := List.mem_map.1 he
    refine ⟨d, hd, ?_⟩
    by_cases h1 : d.1 = shapeId v.shape
    · rw [if_pos h1, if_pos h1]
      exact ⟨rfl, rfl⟩
    · rw [if_neg h1, if_neg h1]
      exact ⟨rfl, rfl⟩
  have hx : ∀ (k n : String), (∃ w ∈ D ++ [v], isGrid w.shape = true ∧ k = shapeId w.shape ∧ w.name = n) ↔
      (∃ w ∈ D, isGrid w.shape = true ∧ k = shapeId w.shape ∧ w.name = n) ∨ (k = shapeId v.shape ∧ v.name = n) := by
    intro k n
    constructor
    · rintro ⟨w, hw, h1, h2⟩
      rcases List.mem_append.1 hw with hw | hw
      · exact .inl ⟨w, hw, h1, h2⟩
      · rw [List.mem_singleton.1 hw] at h2
        exact .inr h2
    · rintro (⟨w, hw, h1⟩ | h2)
      · exact ⟨w, List.mem_append_left _ hw, h1⟩
      · exact ⟨v, List.mem_append_right _ (List.mem_singleton.2 rfl), hv, h2⟩
  refine ⟨?_, fun e he => ?_, fun e he n => ?_, fun e he n => ?_, fun w hw hg => ?_⟩
  · have : (markVariable (shapeId v.shape) v.name m).map (·.1) = m.map (·.1) := by
      unfold markVariable
      rw [List.map_map]
      refine List.map_congr_left fun e _ => ?_
      dsimp only [Function.comp]
      split <;> rfl
    rw [this]
    exact sorted
  · obtain ⟨d, hd, h1, h2⟩ := hkey e he
    obtain ⟨w, hw, h3, h4, h5⟩ := shape d hd
    refine ⟨w, hw, h3, h1.trans h4, ?_⟩
    rw [h2]
    split
    · exact ⟨h5.convention, h5.proj, h5.simple, h5.vtran, h5.names, h5.axes, h5.consistent, h5.deps⟩
    · exact h5
  · obtain ⟨d, hd, h1, h2⟩ := hkey e he
    rw [hx, h2, h1, ← isFor d hd n]
    by_cases h3 : d.1 = shapeId v.shape
    · rw [if_pos h3]
      dsimp only
      rw [mem_setInsert, or_comm]
      simp [h3, eq_comm]
    · rw [if_neg h3]
      simp [h3]
  · obtain ⟨d, hd, h1, h2⟩ := hkey e he
    rw [hx, h2, h1, ← complete d hd n]
    by_cases h3 : d.1 = shapeId v.shape
    · rw [if_pos h3]
      dsimp only
      rw [mem_setInsert, or_comm]
      simp [h3, eq_comm]
    · rw [if_neg h3]
      simp [h3]
  · obtain ⟨e, he, h1⟩ := all w hw hg
    refine ⟨_, List.mem_map_of_mem he, ?_⟩
    split
    · exact h1
    · exact h1

theorem systems_ok {p : Pr} {A : Axes} : ∀ {l D : List (Var (Pay DataType (Option K) O))} {m r : List (String × System Pr)} {c c' : Ds V CS K O}, Good c A →
    Systems c p D m → systems p A l m c = (c', .ok r) → c' = c ∧ Systems c p (D ++ l) r
  | [], D, m, r, c, c', _, hm, h => by
    unfold systems at h
    rw [pure_apply] at h
    cases h
    rw [List.append_nil]
    exact ⟨rfl, hm⟩
  | v :: l, D, m, r, c, c', hg, hm, h => by
    unfold systems at h
    have e : D ++ v :: l = (D ++ [v]) ++ l := by simp
    rw [e]
    cases hv : isGrid v.shape with
    | false =>
      rw [hv] at h
      exact systems_ok hg (hm.skip hv) h
    | true =>
      rw [hv] at h
      simp only [Bool.not_true, Bool.false_eq_true, if_false] at h
      by_cases hany : (m.any fun e => e.1 == shapeId v.shape) = true
      · rw [if_pos hany] at h
        refine systems_ok hg (Systems.mark hv hm.sorted (fun e he => ?_) hm.isFor hm.complete fun w hw hgw => ?_) h
        · obtain ⟨w, hw, h1⟩ := hm.shape e he
          exact ⟨w, List.mem_append_left _ hw, h1⟩
        · rcases List.mem_append.1 hw with hw | hw
          · exact hm.all w hw hgw
          · rw [List.mem_singleton.1 hw]
            obtain ⟨e, he, h1⟩ := List.any_eq_true.1 hany
            exact ⟨e, he, by simpa using h1⟩
      · rw [if_neg hany] at h
        obtain ⟨c1, s, h1, k⟩ := bind_ok h
        obtain ⟨rfl, hs, hf, hk⟩ := setAxes_shape hg h1
        have hnew : ∀ w ∈ D, isGrid w.shape = true → shapeId v.shape ≠ shapeId w.shape := by
          intro w hw hgw he
          obtain ⟨e, he', h2⟩ := hm.all w hw hgw
          exact hany (List.any_eq_true.2 ⟨e, he', by simp [h2, he]⟩)
        refine systems_ok hg (Systems.mark hv (sorted_insertSystem hm.sorted) (fun e he => ?_) (fun e he n => ?_) (fun e he n => ?_) fun w hw hgw => ?_) k
        · rcases mem_insertSystem he with rfl | he
          · exact ⟨v, List.mem_append_right _ (List.mem_singleton.2 rfl), hv, rfl, hs⟩
          · obtain ⟨w, hw, h1⟩ := hm.shape e he
            exact ⟨w, List.mem_append_left _ hw, h1⟩
        · rcases mem_insertSystem he with rfl | he
          · dsimp only
            rw [hf]
            simp only [List.not_mem_nil, false_iff]
            rintro ⟨w, hw, h2, h3, -⟩
            exact hnew w hw h2 h3
          · exact hm.isFor e he n
        · rcases mem_insertSystem he with rfl | he
          · dsimp only
            rw [hk]
            simp only [List.not_mem_nil, false_iff]
            rintro ⟨w, hw, h2, h3, -⟩
            exact hnew w hw h2 h3
          · exact hm.complete e he n
        · rcases List.mem_append.1 hw with hw | hw
          · obtain ⟨e, he, h1⟩ := hm.all w hw hgw
            exact ⟨e, insertSystem_keeps he, h1⟩
          · rw [List.mem_singleton.1 hw]
            exact insertSystem_key

end Fimex.Wrf
