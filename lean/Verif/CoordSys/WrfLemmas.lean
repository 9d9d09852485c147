import Verif.CoordSys.WrfModel
import Verif.CoordSys.ChangeLemmas
import Mathlib.Tactic.FieldSimp
import Mathlib.Tactic.Ring

/-! # Coordinate systems of WRF datasets: effect of the calls -/

namespace Fimex.Wrf

open Cdm CoordSys Cf Change Tables

variable {V CS Pr K O S β γ : Type}

/-! ## Calls -/

theorem pure_apply (b : β) (s : S) : (pure b : Eff S β) s = (s, .ok b) := rfl

theorem read_apply (f : S → Res β) (s : S) : Eff.read f s = (s, f s) := rfl

theorem bind_apply (m : Eff S β) (f : β → Eff S γ) (s : S) : (m >>= f) s =
    match m s with
    | (s', .ok b) => f b s'
    | (s', .throws) => (s', .throws)
    | (s', .ub) => (s', .ub) := rfl

theorem bind_ok {m : Eff S β} {f : β → Eff S γ} {s s' : S} {b : γ} (h : (m >>= f) s = (s', .ok b)) :
    ∃ s1 a, m s = (s1, .ok a) ∧ f a s1 = (s', .ok b) := by
  rw [bind_apply] at h
  rcases hm : m s with ⟨s1, a | _ | _⟩ <;> rw [hm] at h
  · exact ⟨s1, a, rfl, h⟩
  · simp at h
  · simp at h

theorem bind_of_ok {m : Eff S β} {f : β → Eff S γ} {s s1 : S} {a : β} (h : m s = (s1, .ok a)) : (m >>= f) s = f a s1 := by
  rw [bind_apply, h]

theorem read_ok {f : S → Res β} {s s' : S} {b : β} (h : Eff.read f s = (s', .ok b)) : s' = s ∧ f s = .ok b := by
  rw [read_apply, Prod.mk.injEq] at h
  exact ⟨h.1.symm, h.2⟩

/-! ## What stays -/

/-- All variables of a dataset have different names. -/
def Named (c : Ds V CS K O) : Prop := (c.vars.map fun v => v.name).Nodup

/-- A name is not that of a variable. -/
def Fresh (n : String) (c : Ds V CS K O) : Prop := ∀ v ∈ c.vars, v.name ≠ n

/-- A dataset with more variables. -/
structure Extends (c c' : Ds V CS K O) : Prop where
  dims : c'.dims = c.dims
  keeps : ∀ v ∈ c.vars, v ∈ c'.vars
  attrs : ∀ n, (n = globalNS ∨ ∃ v ∈ c.vars, v.name = n) → c'.attrs n = c.attrs n
  named : Named c'
  fresh : ∀ w ∈ c'.vars, w ∈ c.vars ∨ (Fresh w.name c ∧ (w.shape = [w.name] ∨ (w.name = "forecast_reference_time" ∧ w.shape = [])))

theorem Extends.refl {c : Ds V CS K O} (h : Named c) : Extends c c := ⟨rfl, fun _ hv => hv, fun _ _ => rfl, h, fun _ hw => .inl hw⟩

theorem Extends.trans {c c1 c' : Ds V CS K O} (h1 : Extends c c1) (h2 : Extends c1 c') : Extends c c' where
  dims := h2.dims.trans h1.dims
  keeps v hv := h2.keeps v (h1.keeps v hv)
  attrs n hn := by
    rw [h2.attrs n (hn.imp_right fun ⟨v, hv, e⟩ => ⟨v, h1.keeps v hv, e⟩), h1.attrs n hn]
  named := h2.named
  fresh w hw := by
    rcases h2.fresh w hw with h | ⟨h, hs⟩
    · exact h1.fresh w h
    · exact .inr ⟨fun v hv => h v (h1.keeps v hv), hs⟩

theorem Extends.getVariable {c c' : Ds V CS K O} (h : Extends c c') {n : String} {v : Var (Pay DataType (Option K) O)} (hv : getVariable c n = .ok v) :
    Cdm.getVariable c' n = .ok v := by
  obtain ⟨h1, rfl⟩ := getVariable_some hv
  have h2 := h.keeps v h1
  unfold Cdm.getVariable
  cases hf : c'.vars.find? fun w => w.name == v.name with
  | none =>
    rw [List.find?_eq_none] at hf
    exact absurd (hf v h2) (by simp)
  | some w =>
    have h3 := List.mem_of_find?_eq_some hf
    have h4 : w.name = v.name := by simpa using List.find?_some hf
    rw [List.inj_on_of_nodup_map h.named h3 h2 h4]

theorem Extends.hasVariable {c c' : Ds V CS K O} (h : Extends c c') {n : String} (hv : hasVariable c n = true) : Cdm.hasVariable c' n = true := by
  obtain ⟨v, hv, e⟩ := hasVariable_true.1 hv
  exact hasVariable_true.2 ⟨v, h.keeps v hv, e⟩

theorem Extends.hasDimension {c c' : Ds V CS K O} (h : Extends c c') (n : String) : Cdm.hasDimension c' n = Cdm.hasDimension c n := by
  unfold Cdm.hasDimension
  rw [h.dims]

theorem Extends.getDimension {c c' : Ds V CS K O} (h : Extends c c') (n : String) : Cdm.getDimension c' n = Cdm.getDimension c n := by
  unfold Cdm.getDimension
  rw [h.dims]

theorem Extends.getAttribute {c c' : Ds V CS K O} (h : Extends c c') (n : String) : Cdm.getAttribute c' globalNS n = Cdm.getAttribute c globalNS n := by
  unfold Cdm.getAttribute
  rw [h.attrs _ (.inl rfl)]

/-- A call that only adds variables, also if it raises. -/
def Grows (m : Eff (Ds V CS K O) β) : Prop := ∀ c, Named c → Extends c (m c).1

theorem Grows.pure (b : β) : Grows (pure b : Eff (Ds V CS K O) β) := fun _ h => Extends.refl h

theorem Grows.read (f : Ds V CS K O → Res β) : Grows (Eff.read f) := fun _ h => Extends.refl h

theorem Grows.bind {m : Eff (Ds V CS K O) β} {f : β → Eff (Ds V CS K O) γ} (hm : Grows m) (hf : ∀ b, Grows (f b)) : Grows (m >>= f) := by
  intro c hc
  have h1 := hm c hc
  rw [bind_apply]
  rcases he : m c with ⟨s1, a | _ | _⟩ <;> rw [he] at h1
  · exact h1.trans (hf a s1 h1.named)
  · exact h1
  · exact h1

/-- A call that only changes one variable, seen from a dataset without it. -/
def Within (n : String) (m : Eff (Ds V CS K O) β) : Prop := ∀ c c', Fresh n c → Extends c c' → Extends c (m c').1

theorem Within.pure (n : String) (b : β) : Within n (pure b : Eff (Ds V CS K O) β) := fun _ _ _ h => h

theorem Within.read (n : String) (f : Ds V CS K O → Res β) : Within n (Eff.read f) := fun _ _ _ h => h

theorem Within.bind {n : String} {m : Eff (Ds V CS K O) β} {f : β → Eff (Ds V CS K O) γ} (hm : Within n m) (hf : ∀ b, Within n (f b)) :
    Within n (m >>= f) := by
  intro c c' hc h
  have h1 := hm c c' hc h
  rw [bind_apply]
  rcases he : m c' with ⟨s1, a | _ | _⟩ <;> rw [he] at h1
  · exact hf a c s1 hc h1
  · exact h1
  · exact h1

/-- The same dataset for what concerns variables, dimensions and attributes. -/
theorem Extends.same {c c' d : Ds V CS K O} (h : Extends c c') (hv : d.vars = c'.vars) (hd : d.dims = c'.dims)
    (ha : ∀ n, (n = globalNS ∨ ∃ v ∈ c.vars, v.name = n) → d.attrs n = c'.attrs n) : Extends c d where
  dims := hd.trans h.dims
  keeps v h1 := hv ▸ h.keeps v h1
  attrs n hn := (ha n hn).trans (h.attrs n hn)
  named := by
    have := h.named
    unfold Named at this ⊢
    rwa [hv]
  fresh w hw := h.fresh w (hv ▸ hw)

theorem newVariable_within {v : Var (Pay DataType (Option K) O)} (hs : v.shape = [v.name] ∨ (v.name = "forecast_reference_time" ∧ v.shape = [])) :
    Within v.name (newVariable v : Eff (Ds V CS K O) Unit) := by
  intro c c' hf h
  unfold newVariable addVariable
  dsimp only
  have hsame : Cdm.hasVariable { c' with coordsInitialized := false } v.name = Cdm.hasVariable c' v.name := rfl
  rw [hsame]
  cases hv : Cdm.hasVariable c' v.name with
  | true => exact h.same rfl rfl fun _ _ => rfl
  | false =>
    have hn := hasVariable_false.1 hv
    refine ⟨h.dims, fun w hw => List.mem_append_left _ (h.keeps w hw), h.attrs, ?_, fun w hw => ?_⟩
    · show ((c'.vars ++ [v]).map fun v => v.name).Nodup
      rw [List.map_append, List.nodup_append]
      refine ⟨h.named, by simp, ?_⟩
      intro a ha b hb
      obtain ⟨w, hw, rfl⟩ := List.mem_map.1 ha
      rw [List.map_cons, List.map_nil, List.mem_singleton] at hb
      rw [hb]
      exact hn w hw
    · rcases List.mem_append.1 hw with hw | hw
      · exact h.fresh w hw
      · rw [List.mem_singleton.1 hw]
        exact .inr ⟨hf, hs⟩

theorem newVariable_within' {n : String} {sh : List String} {p : Pay DataType (Option K) O} (hs : sh = [n] ∨ (n = "forecast_reference_time" ∧ sh = [])) :
    Within n (newVariable ⟨n, sh, p⟩ : Eff (Ds V CS K O) Unit) := newVariable_within (v := ⟨n, sh, p⟩) hs

theorem addAttribute_other {c : Ds V CS K O} {n m : String} {a : Attr V} (h : m ≠ n) :
    (addAttribute c n a).1.vars = c.vars ∧ (addAttribute c n a).1.dims = c.dims ∧ (addAttribute c n a).1.attrs m = c.attrs m := by
  unfold addAttribute
  dsimp only
  split
  · exact ⟨rfl, rfl, rfl⟩
  · split
    · simp [h]
    · simp [h]

theorem addAttributes_within {n : String} (hg : n ≠ globalNS) (l : List (Attr V)) :
    Within n (fun c : Ds V CS K O => addAttributes c n l) := by
  induction l with
  | nil => exact fun _ _ _ h => h
  | cons a l ih =>
    intro c c' hf h
    have h1 : Extends c (addAttribute c' n a).1 := by
      refine h.same ?_ ?_ fun m hm => ?_
      · exact (addAttribute_other (m := globalNS) hg.symm).1
      · exact (addAttribute_other (m := globalNS) hg.symm).2.1
      · refine (addAttribute_other ?_).2.2
        rcases hm with rfl | ⟨v, hv, rfl⟩
        · exact hg.symm
        · exact hf v hv
    show Extends c (addAttributes c' n (a :: l)).1
    unfold addAttributes
    split
    · rename_i d he
      rw [he] at h1
      exact ih c d hf h1
    · rename_i d r _ he
      rw [he] at h1
      exact h1

theorem newAttributes_within {E : Ext V Pr K} {n : String} (hg : n ≠ globalNS) (l : List (String × String)) :
    Within n (newAttributes E n l : Eff (Ds V CS K O) Unit) := addAttributes_within hg _

theorem modifyFirst_other {P : Type} {n : String} {f : Var P → Var P} {w : Var P} (hw : w.name ≠ n) : ∀ {l : List (Var P)}, w ∈ l → w ∈ modifyFirst n f l
  | v :: l, h => by
    unfold modifyFirst
    rcases List.mem_cons.1 h with rfl | h
    · rw [if_neg (by simpa using hw)]
      exact List.mem_cons_self
    · split
      · exact List.mem_cons_of_mem _ h
      · exact List.mem_cons_of_mem _ (modifyFirst_other hw h)

theorem giveData_within (n : String) (d : DataType × List (Option K)) : Within n (giveData n d : Eff (Ds V CS K O) Unit) := by
  intro c c' hf h
  unfold giveData setVarData
  cases hv : Cdm.getVariable c' n with
  | throws => exact h
  | ub => exact h
  | ok v =>
    dsimp only
    by_cases ht : v.payload.dtype ≠ d.1
    · rw [if_pos ht]
      exact h
    · rw [if_neg ht]
      have e := modifyFirst_eq n (fun v : Var (Pay DataType (Option K) O) => { v with payload := { v.payload with data := some d } }) c'.vars h.named
      dsimp only
      refine ⟨h.dims, fun w hw => modifyFirst_other (hf w hw) (h.keeps w hw), h.attrs, ?_, fun w hw => ?_⟩
      · show ((modifyFirst n _ c'.vars).map fun v => v.name).Nodup
        rw [e, List.map_map]
        have : (fun v : Var (Pay DataType (Option K) O) => v.name) ∘ (fun v => if v.name = n then { v with payload := { v.payload with data := some d } } else v) =
            fun v => v.name := by
          funext w
          dsimp only [Function.comp]
          split <;> rfl
        rw [this]
        exact h.named
      · have hw : w ∈ modifyFirst n _ c'.vars := hw
        rw [e, List.mem_map] at hw
        obtain ⟨u, hu, rfl⟩ := hw
        by_cases hn : u.name = n
        · rw [if_pos hn]
          rcases h.fresh u hu with h1 | ⟨h1, h2⟩
          · exact absurd hn (hf u h1)
          · exact .inr ⟨h1, h2⟩
        · rw [if_neg hn]
          exact h.fresh u hu

theorem unlessVariable_grows {n : String} {m : Eff (Ds V CS K O) Unit} (hm : Within n m) : Grows (unlessVariable n m) := by
  intro c hc
  unfold unlessVariable
  cases hv : Cdm.hasVariable c n with
  | true => exact Extends.refl hc
  | false => exact hm c c (hasVariable_false.1 hv) (Extends.refl hc)

theorem ifDimension_grows {n : String} {m : Eff (Ds V CS K O) β} (hm : Grows m) : Grows (ifDimension n m) := by
  intro c hc
  unfold ifDimension
  split
  · exact hm.bind (fun b => .pure _) c hc
  · exact Extends.refl hc

theorem newAxisVariable_within {E : Ext V Pr K} {n : String} (hg : n ≠ globalNS) (l : List (String × String)) (vals : List (Option K)) :
    Within n (newAxisVariable E n l vals : Eff (Ds V CS K O) Unit) := by
  unfold newAxisVariable
  exact (newVariable_within' (.inl rfl)).bind fun _ => (newAttributes_within hg l).bind fun _ => giveData_within n _

variable [Field K] {E : Ext V Pr K}

theorem horizontal_grows {latLon : Bool} {x : Option K} {n delta metres degrees : String} {t : AxisType} (hg : n ≠ globalNS) :
    Grows (horizontal E latLon x n delta metres degrees t : Eff (Ds V CS K O) _) := by
  unfold horizontal
  refine ifDimension_grows ((unlessVariable_grows ?_).bind fun _ => .read _)
  exact (Within.read _ _).bind fun _ => (Within.read _ _).bind fun _ => newAxisVariable_within hg _ _

theorem vertical_grows {n : String} (hg : n ≠ globalNS) : Grows (vertical E n : Eff (Ds V CS K O) _) := by
  unfold vertical
  refine ifDimension_grows ((unlessVariable_grows ?_).bind fun _ => .read _)
  exact (Within.read _ _).bind fun _ => newAxisVariable_within hg _ _

omit [Field K] in
theorem sinceDate_within {n m : String} : Within n (sinceDate E m : Eff (Ds V CS K O) _) := by
  unfold sinceDate
  exact (Within.read _ _).bind fun _ => .read _ _

theorem addTime_within : Within "Time" (addTime E : Eff (Ds V CS K O) _) := by
  unfold addTime
  exact (Within.read _ _).bind fun _ => sinceDate_within.bind fun _ => (Within.read _ _).bind fun _ => newAxisVariable_within (by decide +kernel) _ _

theorem addReferenceTime_within : Within "forecast_reference_time" (addReferenceTime E : Eff (Ds V CS K O) _) := by
  unfold addReferenceTime
  exact (newVariable_within' (.inr ⟨rfl, rfl⟩)).bind fun _ =>
    sinceDate_within.bind fun _ => (newAttributes_within (by decide +kernel) _).bind fun _ => giveData_within _ _

theorem timeVariables_grows : Grows (timeVariables E : Eff (Ds V CS K O) Unit) := by
  intro c hc
  unfold timeVariables
  cases hv : Cdm.hasVariable c "Time" with
  | true => rw [Bool.not_true, Bool.and_false]; exact Extends.refl hc
  | false =>
    cases hd : Cdm.hasDimension c "Time" with
    | false => exact Extends.refl hc
    | true =>
      rw [Bool.not_false, Bool.and_true, if_pos rfl]
      have h1 := addTime_within (E := E) c c (hasVariable_false.1 hv) (Extends.refl hc)
      rw [bind_apply]
      rcases he : addTime E c with ⟨s1, a | _ | _⟩ <;> rw [he] at h1
      · exact h1.trans (unlessVariable_grows addReferenceTime_within s1 h1.named)
      · exact h1
      · exact h1

theorem time_grows : Grows (time E : Eff (Ds V CS K O) _) := by
  unfold time
  exact timeVariables_grows.bind fun _ => .read _

theorem allAxes_grows {latLon : Bool} {x y : Option K} : Grows (allAxes E latLon x y : Eff (Ds V CS K O) _) := by
  unfold allAxes
  exact (horizontal_grows (by decide +kernel)).bind fun _ => (horizontal_grows (by decide +kernel)).bind fun _ => (horizontal_grows (by decide +kernel)).bind fun _ =>
    (horizontal_grows (by decide +kernel)).bind fun _ => (vertical_grows (by decide +kernel)).bind fun _ => (vertical_grows (by decide +kernel)).bind fun _ =>
    time_grows.bind fun _ => .pure _

theorem other_grows (n : String) : Grows (other n : Eff (Ds V CS K O) _) := by
  unfold other
  exact (unlessVariable_grows ((newVariable_within' (.inl rfl)).bind fun _ => (Within.read _ _).bind fun _ => giveData_within n _)).bind fun _ => .read _

theorem axisOf_grows (A : Axes) (n : String) : Grows (axisOf A n : Eff (Ds V CS K O) _) := by
  unfold axisOf
  repeat' split
  all_goals first | exact .read _ | exact .pure _ | exact other_grows n

theorem setAxes_grows (A : Axes) : ∀ (l : List String) (s : System Pr), Grows (setAxes A l s : Eff (Ds V CS K O) _)
  | [], s => .pure s
  | n :: l, s => by
    unfold setAxes
    refine (axisOf_grows A n).bind fun a => ?_
    split
    · exact setAxes_grows A l _
    · exact .read _
    · exact .read _

theorem systems_grows (p : Pr) (A : Axes) : ∀ (l : List (Var (Pay DataType (Option K) O))) (m : List (String × System Pr)),
    Grows (systems p A l m : Eff (Ds V CS K O) _)
  | [], m => .pure m
  | v :: l, m => by
    unfold systems
    split
    · exact systems_grows p A l m
    · split
      · exact systems_grows p A l _
      · exact (setAxes_grows A _ _).bind fun s => systems_grows p A l _

theorem projText_grows : Grows (projText E : Eff (Ds V CS K O) _) := by
  unfold projText
  repeat refine Grows.bind (.read _) fun _ => ?_
  dsimp only
  repeat' split
  all_goals exact .pure _

omit [Field K] in
theorem centre_grows {t : String} {latLon : Bool} : Grows (centre E t latLon : Eff (Ds V CS K O) _) := by
  unfold centre
  repeat refine Grows.bind (.read _) fun _ => ?_
  exact .pure _

theorem listWrf_grows : Grows (listWrf E : Eff (Ds V CS K O) _) := by
  intro c hc
  unfold listWrf
  split
  · exact Extends.refl hc
  · refine projText_grows.bind (fun t => ?_) c hc
    split
    · exact .pure _
    · exact centre_grows.bind fun pc => allAxes_grows.bind fun A => Grows.bind (m := fun c => systems pc.1 A c.vars [] c)
        (fun c hc => systems_grows _ _ _ _ c hc) fun _ => .pure _

end Fimex.Wrf
