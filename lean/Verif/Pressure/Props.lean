import Verif.Pressure.Lemmas
import Mathlib.Data.List.Nodup

/-!
# Pressure conversions: which variables are made

Properties of the model of `src/CDMPressureConversions.cc`.
-/

namespace Fimex.Pressure

open Fimex.Cdm

variable {P V : Type}

/-! ## Text of an operation -/

/-- The text of options: `;key=value` for each, then `;flag`. -/
def optionText (opts : List (String × String)) (flag : Option String) : List Char :=
  (opts.flatMap fun p => ';' :: (p.1.toList ++ '=' :: p.2.toList)) ++ (flag.map fun f => ';' :: f.toList).getD []

/-- The value of the first option with this key. -/
def firstValue (opts : List (String × String)) (k : String) : Option String :=
  match opts with
  | [] => none
  | (k', v) :: l => if k' = k then some v else firstValue l k

theorem readOptions_text (opts : List (String × String)) (flag : Option String)
    (hk : ∀ p ∈ opts, '=' ∉ p.1.toList ∧ ';' ∉ p.2.toList) (hf : ∀ f, flag = some f → f ≠ "" ∧ '=' ∉ f.toList)
    (m : List (String × String)) (r : List Char) (hr : optionText opts flag = ';' :: r) (k : String) :
    find (readOptions r m) k = match find m k with
      | some v => some v
      | none => firstValue (opts ++ (flag.map fun f => (f, "")).toList) k := by
  induction opts generalizing m r with
  | nil =>
    cases flag with
    | none => simp [optionText] at hr
    | some f =>
      obtain ⟨h1, h2⟩ := hf f rfl
      simp only [optionText, List.flatMap_nil, List.nil_append, Option.map_some, Option.getD_some, List.cons.injEq,
        true_and] at hr
      subst hr
      rw [readOptions_flag (by simpa using h1) h2, find_insert]
      cases find m k <;> simp [firstValue]
  | cons p opts ih =>
    obtain ⟨h1, h2⟩ := hk p (by simp)
    simp only [optionText, List.flatMap_cons, List.cons_append, List.append_assoc, List.cons.injEq, true_and] at hr
    have hrest : optionText opts flag = (opts.flatMap fun p => ';' :: (p.1.toList ++ '=' :: p.2.toList)) ++
        (flag.map fun f => ';' :: f.toList).getD [] := rfl
    rw [← hrest] at hr
    rcases hq : optionText opts flag with _ | ⟨c, q⟩
    · rw [hq, List.append_nil] at hr
      subst hr
      rw [readOptions_last h1 h2, find_insert, String.ofList_toList, String.ofList_toList]
      have ho : opts = [] := by
        cases opts with
        | nil => rfl
        | cons a b => simp [optionText] at hq
      have hfl : flag = none := by
        cases flag with
        | none => rfl
        | some f => simp [optionText] at hq
      subst ho hfl
      cases find m k <;> simp [firstValue]
    · have hc : c = ';' := by
        cases opts with
        | nil =>
          cases flag with
          | none => simp [optionText] at hq
          | some f => simp [optionText] at hq; exact hq.1.symm
        | cons a b => simp [optionText] at hq; exact hq.1.symm
      subst hc
      rw [hq] at hr
      subst hr
      rw [readOptions_more h1 h2, ih (fun a ha => hk a (by simp [ha])) _ q hq, find_insert, String.ofList_toList,
        String.ofList_toList]
      cases e : find m k with
      | some v => rfl
      | none =>
        by_cases hpk : p.1 = k
        · simp [firstValue, hpk]
        · simp [firstValue, hpk]

/-- **C87** The text of an operation: the conversion, then `;key=value` any number of times, then maybe a word without
`=`, is read as this conversion with these options; of several options with one key the first counts. -/
theorem C87_operation_text (conv : String) (opts : List (String × String)) (flag : Option String) (hc : ';' ∉ conv.toList)
    (hk : ∀ p ∈ opts, '=' ∉ p.1.toList ∧ ';' ∉ p.2.toList) (hf : ∀ f, flag = some f → f ≠ "" ∧ '=' ∉ f.toList) :
    (readOper (String.ofList (conv.toList ++ optionText opts flag))).conversion = conv ∧
    ∀ k, find (readOper (String.ofList (conv.toList ++ optionText opts flag))).options k =
      firstValue (opts ++ (flag.map fun f => (f, "")).toList) k := by
  unfold readOper
  rw [String.toList_ofList]
  rcases hq : optionText opts flag with _ | ⟨c, q⟩
  · have ho : opts = [] := by
      cases opts with
      | nil => rfl
      | cons a b => simp [optionText] at hq
    have hfl : flag = none := by
      cases flag with
      | none => rfl
      | some f => simp [optionText] at hq
    subst ho hfl
    rw [List.append_nil, cut_none hc, String.ofList_toList]
    exact ⟨rfl, fun k => by simp [find, firstValue]⟩
  · have hc' : c = ';' := by
      cases opts with
      | nil =>
        cases flag with
        | none => simp [optionText] at hq
        | some f => simp [optionText] at hq; exact hq.1.symm
      | cons a b => simp [optionText] at hq; exact hq.1.symm
    subst hc'
    rw [cut_append hc]
    refine ⟨String.ofList_toList, fun k => ?_⟩
    simp only
    rw [readOptions_text opts flag hk hf [] q hq k]
    simp [find]

/-- **C87** A word without `=` that does not come last is taken for the beginning of the next key. -/
theorem C87_flag_not_last : (readOper "theta2T;quick;air_temperature=t").options = [("quick;air_temperature", "t")] := by
  decide +kernel

example : (readOper "omega2vwind;omega=w;air_temperature=t;omega=x;flag") =
    ⟨"omega2vwind", [("omega", "w"), ("air_temperature", "t"), ("flag", "")]⟩ := by decide +kernel

/-! ## Variables -/

/-- `x` is the first in `l` with the property. -/
def IsFirst {α : Type} (p : α → Prop) (l : List α) (x : α) : Prop :=
  ∃ a b, l = a ++ x :: b ∧ p x ∧ ∀ y ∈ a, ¬p y

theorem isFirst_find {α : Type} {p : α → Bool} {l : List α} {x : α} (h : IsFirst (fun y => p y = true) l x) :
    l.find? p = some x := by
  obtain ⟨a, b, rfl, hx, ha⟩ := h
  rw [List.find?_append, List.find?_eq_none.2 ha]
  simp [hx]

theorem find_isFirst {α : Type} {p : α → Bool} {l : List α} {x : α} (h : l.find? p = some x) :
    IsFirst (fun y => p y = true) l x := by
  rw [List.find?_eq_some_iff_append] at h
  obtain ⟨hp, a, b, e, ha⟩ := h
  exact ⟨a, b, e, hp, fun y hy => by simpa using ha y hy⟩

/-- The name is that of the option, or the variable has a standard name that matches. -/
def Found (e : Env P V) (o : Oper) (key pattern n : String) : Prop :=
  (∃ v ∈ e.input.vars, v.name = n) ∧
    ((∃ w, find o.options key = some w ∧ n = w) ∨
      (find o.options key = none ∧ ∃ l, e.input.attrs n = some l ∧ ∃ a, IsFirst (fun b => b.name = "standard_name") l a ∧
        e.isName pattern a.value = true))

/-- **C87** The variables that a conversion starts from: the one that an option names, otherwise all with a standard
name that matches. -/
theorem C87_sources (e : Env P V) (o : Oper) (key pattern n : String) :
    n ∈ findVars e o key pattern ↔ Found e o key pattern n := by
  unfold findVars Found
  cases h : find o.options key with
  | some w =>
    simp only
    cases hv : hasVariable e.input w with
    | false =>
      have : w ∉ e.input.vars.map (·.name) := by rw [← hasVariable_iff, hv]; decide
      simp only [Bool.false_eq_true, if_false, List.not_mem_nil, false_iff, not_and, not_or]
      rintro ⟨v, h1, h2⟩
      refine ⟨?_, by simp⟩
      rintro ⟨w', h3, h4⟩
      obtain rfl := Option.some.inj h3
      subst h4
      exact this (List.mem_map.2 ⟨v, h1, h2⟩)
    | true =>
      have : w ∈ e.input.vars.map (·.name) := by rw [← hasVariable_iff, hv]
      simp only [if_true, List.mem_singleton]
      constructor
      · rintro rfl
        obtain ⟨v, h1, h2⟩ := List.mem_map.1 this
        exact ⟨⟨v, h1, h2⟩, .inl ⟨n, rfl, rfl⟩⟩
      · rintro ⟨-, ⟨w', h3, h4⟩ | ⟨h3, -⟩⟩
        · obtain rfl := Option.some.inj h3; exact h4
        · cases h3
  | none =>
    simp only
    have key : n ∈ Cdm.findVariables e.input [("standard_name", e.isName pattern)] [] ↔
        ∃ v ∈ e.input.vars, v.name = n ∧ checkVariableAttribute e.input v.name "standard_name" (e.isName pattern) = true := by
      unfold Cdm.findVariables
      rw [List.mem_filterMap]
      apply exists_congr
      intro v
      apply and_congr_right
      intro _
      cases hc : checkVariableAttribute e.input v.name "standard_name" (e.isName pattern) <;> simp [List.find?, hc]
    rw [key]
    have ck : ∀ n, checkVariableAttribute e.input n "standard_name" (e.isName pattern) = true ↔
        ∃ l, e.input.attrs n = some l ∧ ∃ a, IsFirst (fun b => b.name = "standard_name") l a ∧
        e.isName pattern a.value = true := by
      intro n
      unfold checkVariableAttribute
      cases ha : e.input.attrs n with
      | none => simp
      | some l =>
        simp only [Option.some.injEq, exists_eq_left']
        have hb : (fun b : Attr V => b.name = "standard_name") = fun b => ((b.name == "standard_name") = true) := by
          funext b; simp
        rw [hb]
        cases hf : l.find? fun b => b.name == "standard_name" with
        | none =>
          simp only [Bool.false_eq_true, false_iff, not_exists, not_and]
          intro a h1
          rw [isFirst_find h1] at hf; cases hf
        | some b =>
          simp only
          constructor
          · intro h'; exact ⟨b, find_isFirst hf, h'⟩
          · rintro ⟨a, h1, h2⟩
            rw [isFirst_find h1] at hf
            obtain rfl := Option.some.inj hf; exact h2
    constructor
    · rintro ⟨v, hv, rfl, hc⟩
      exact ⟨⟨v, hv, rfl⟩, .inr ⟨trivial, (ck v.name).1 hc⟩⟩
    · rintro ⟨⟨v, hv, rfl⟩, ⟨w, h3, -⟩ | ⟨-, h4⟩⟩
      · cases h3
      · exact ⟨v, hv, rfl, (ck v.name).2 h4⟩

theorem getVariable_ok {c : CDM P V Unit} (hi : Inv c) {v : Var P} (hv : v ∈ c.vars) : getVariable c v.name = .ok v := by
  unfold getVariable
  cases h : c.vars.find? fun w => w.name == v.name with
  | none => exact absurd (List.find?_eq_none.1 h v hv) (by simp)
  | some w =>
    simp only
    have h1 := List.mem_of_find?_eq_some h
    have h2 : w.name = v.name := by simpa using List.find?_some h
    rw [List.inj_on_of_nodup_map hi.vars h1 hv h2]

/-- The system is the first one that is complete for the variable. -/
def SystemOf (e : Env P V) (n : String) (s : Sys) : Prop := IsFirst (fun s => s.complete n = true) e.systems s

/-- No system is complete for the variable. -/
def NoSystem (e : Env P V) (n : String) : Prop := ∀ s ∈ e.systems, s.complete n = false

theorem systemFor_some {e : Env P V} {n : String} {s : Sys} (h : SystemOf e n s) : systemFor e n = some s :=
  isFirst_find (p := fun s : Sys => s.complete n) h

theorem systemFor_none {e : Env P V} {n : String} (h : NoSystem e n) : systemFor e n = none := by
  unfold systemFor
  rw [List.find?_eq_none]
  intro s hs; simp [h s hs]

theorem system_cases (e : Env P V) (n : String) : NoSystem e n ∨ ∃ s, SystemOf e n s := by
  cases h : e.systems.find? fun s => s.complete n with
  | none =>
    left
    intro s hs
    have := List.find?_eq_none.1 h s hs
    simpa using this
  | some s => exact .inr ⟨s, find_isFirst (p := fun s : Sys => s.complete n) h⟩

/-- The name of a new variable: that of the option with this key, otherwise the key. -/
def Named (o : Oper) (key t : String) : Prop := find o.options key = some t ∨ (find o.options key = none ∧ t = key)

theorem Named.eq {o : Oper} {key t : String} (h : Named o key t) : deriveName o key = t := by
  unfold deriveName
  rcases h with h | ⟨h, rfl⟩ <;> rw [h] <;> rfl

/-! ## Potential temperature -/

/-- The attributes without those with these names. -/
def without (names : List String) (l : List (Attr V)) : List (Attr V) := l.filter fun a => decide (a.name ∉ names)

theorem nodup_without {l : List (Attr V)} (h : (l.map (·.name)).Nodup) (names : List String) :
    ((without names l).map (·.name)).Nodup := nodup_filter_map _ _ h

theorem decide_not_contains (names : List String) (n : String) : (!names.contains n) = decide (n ∉ names) := by
  by_cases h : n ∈ names <;> simp [h]

theorem not_mem_without (names : List String) (l : List (Attr V)) {n : String} (hn : n ∈ names) :
    n ∉ (without names l).map (·.name) := by
  rw [List.mem_map]
  rintro ⟨a, ha, rfl⟩
  have := (List.mem_filter.1 ha).2
  simp [hn] at this

theorem thetaStep_skip {e : Env P V} {o : Oper} {s : Out P V} {th : String}
    (h : NoSystem e th ∨ hasVariable s.1 (deriveName o "air_temperature") = true) : thetaStep e o s th = .ok s := by
  unfold thetaStep
  rcases h with h | h
  · rw [systemFor_none h]
  · cases systemFor e th with
    | none => rfl
    | some cs => simp [h]

theorem foldlM_skip {α β : Type} {f : α → β → Res α} {s : α} {l : List β} (h : ∀ b ∈ l, f s b = .ok s) :
    l.foldlM f s = .ok s := by
  induction l with
  | nil => rfl
  | cons b l ih =>
    rw [List.foldlM_cons, h b (by simp), Res.ok_bind]
    exact ih fun b' hb' => h b' (by simp [hb'])

/-- **C87** `theta2T` makes the temperature from the first potential temperature that has a complete coordinate system:
same shape, its attributes but for `standard_name` and `long_name`, and the standard name `air_temperature`; the
potential temperature is taken away. Nothing happens if there is none or if the name is taken. -/
theorem C87_theta (e : Env P V) (o : Oper) (out : CDM P V Unit) (hi : Inv e.input) (ho : Inv out)
    (t : String) (ht : Named o "air_temperature" t) (hg : t ≠ globalNS) :
    ((∀ n, Found e o "air_potential_temperature" "air_potential_temperature" n →
        NoSystem e n ∨ hasVariable out t = true) → theta2T e o out = .ok (out, [])) ∧
    ∀ (th : Var P) (s : Sys), th ∈ e.input.vars → hasVariable out th.name = true →
      IsFirst (fun n => ¬NoSystem e n) (findVars e o "air_potential_temperature" "air_potential_temperature") th.name →
      SystemOf e th.name s → hasVariable out t = false →
      ∃ out', theta2T e o out = .ok (out', [⟨t, s, .theta th.name⟩]) ∧
        Made out out' ⟨t, th.shape, e.plain th.payload⟩
          (without ["standard_name", "long_name"] (getAttributes e.input th.name) ++
            [⟨"standard_name", e.text "air_temperature"⟩]) (some th.name) := by
  obtain rfl := ht.eq
  constructor
  · intro h
    apply foldlM_skip
    intro n hn
    exact thetaStep_skip (h n ((C87_sources e o _ _ n).1 hn))
  · intro th s hth hin hfirst hs hfree
    obtain ⟨a, b, hl, -, ha⟩ := hfirst
    unfold theta2T
    rw [hl, List.foldlM_append, foldlM_skip fun n hn => thetaStep_skip (.inl (not_not.1 (ha n hn))), Res.ok_bind,
      List.foldlM_cons]
    have hw : ((getAttributes e.input th.name).filter fun a => !(a.name == "standard_name") && !(a.name == "long_name")) =
        without ["standard_name", "long_name"] (getAttributes e.input th.name) := by
      apply List.filter_congr
      intro a _
      by_cases h1 : a.name = "standard_name" <;> by_cases h2 : a.name = "long_name" <;> simp [h1, h2]
    have hne : th.name ≠ deriveName o "air_temperature" := fun h' => by rw [h', hfree] at hin; cases hin
    obtain ⟨c, hc, hm⟩ := make ho (v := ⟨deriveName o "air_temperature", th.shape, e.plain th.payload⟩) hfree hg
      (l := without ["standard_name", "long_name"] (getAttributes e.input th.name) ++
        [⟨"standard_name", e.text "air_temperature"⟩]) (by
        rw [List.map_append, List.nodup_append]
        refine ⟨nodup_without (nodup_getAttributes _ hi _) _, by simp, ?_⟩
        intro x hx y hy e
        simp only [List.map_cons, List.map_nil, List.mem_singleton] at hy
        subst hy e
        exact not_mem_without _ _ (by simp) hx)
    have hstep : thetaStep e o (out, []) th.name =
        .ok (removeVariable c th.name, [⟨deriveName o "air_temperature", s, .theta th.name⟩]) := by
      unfold thetaStep
      rw [systemFor_some hs]
      simp only [hfree, Bool.false_eq_true, if_false]
      rw [getVariable_ok hi hth, Res.ok_bind, hw]
      simp only [done_append] at hc
      simp only [done_one]
      rw [done_add hfree, Res.ok_bind] at hc ⊢
      obtain ⟨c1, h1, h2⟩ := Res.bind_eq_ok.1 hc
      rw [h1, Res.ok_bind, h2]
      rfl
    rw [hstep, Res.ok_bind]
    have hm' := hm.remove hne
    refine ⟨removeVariable c th.name, foldlM_skip fun n _ => thetaStep_skip (.inr ?_), hm'⟩
    rw [hasVariable_iff, hm'.vars]
    simp

/-! ## Relative humidity -/

theorem humidityStep_skip {e : Env P V} {o : Oper} {temps : List String} {s : Out P V} {sh : String}
    (h : NoSystem e sh ∨ (temps = [] ∧ e.warns = false) ∨
      (hasVariable s.1 (deriveName o "relative_humidity") = true ∧ ∃ t ts, temps = t :: ts ∧ ∀ cs, SystemOf e sh cs → cs.complete t = true)) :
    humidityStep e o temps s sh = .ok s := by
  unfold humidityStep
  rcases system_cases e sh with h' | ⟨cs, hcs⟩
  · rw [systemFor_none h']
  rw [systemFor_some hcs]
  rcases h with h | h | ⟨h1, t, ts, rfl, h2⟩
  · obtain ⟨a, b, h3, h4, -⟩ := hcs
    rw [h cs (by rw [h3]; simp)] at h4; cases h4
  · simp [h.1, h.2]
  · simp [h2 cs hcs, addHumidity, h1]

/-- The attributes of the relative humidity: those of the specific humidity that have nothing to do with values, and
its own. -/
def humidityAttributes (e : Env P V) (l : List (Attr V)) (sh temp : String) : List (Attr V) :=
  without ["standard_name", "long_name", "units", "scale_factor", "add_offset", "_FillValue", "valid_min", "valid_max",
    "valid_range"] l ++
  [⟨"standard_name", e.text "relative_humidity"⟩,
    ⟨"long_name", e.text ("relative humidity derived from " ++ sh ++ " and " ++ temp)⟩, ⟨"units", e.text "1"⟩,
    ⟨"valid_min", e.validMin⟩, ⟨"valid_max", e.validMax⟩, ⟨"scale_factor", e.scale⟩]

/-- **C87** `specific2relative`, if the first temperature is complete for the system of each specific humidity: the
relative humidity is made from the first specific humidity that has a complete system, with the same shape as `short`,
with its attributes; nothing is taken away. Nothing happens if there is none or if the name is taken. -/
theorem C87_humidity (e : Env P V) (o : Oper) (out : CDM P V Unit) (ho : Inv out) (r : String)
    (hr : Named o "relative_humidity" r) (hg : r ≠ globalNS) (t : String) (ts : List String)
    (htemp : findVars e o "air_temperature" "air_temperature" = t :: ts)
    (hall : ∀ n s, Found e o "specific_humidity" "specific_humidity" n → SystemOf e n s → s.complete t = true) :
    ((∀ n, Found e o "specific_humidity" "specific_humidity" n → NoSystem e n ∨ hasVariable out r = true) →
      specific2relative e o out = .ok (out, [])) ∧
    ∀ (sh : Var P) (s : Sys), sh ∈ out.vars →
      IsFirst (fun n => ¬NoSystem e n) (findVars e o "specific_humidity" "specific_humidity") sh.name →
      SystemOf e sh.name s → hasVariable out r = false →
      ∃ out', specific2relative e o out = .ok (out', [⟨r, s, .humidity sh.name t⟩]) ∧
        Made out out' ⟨r, sh.shape, e.short⟩ (humidityAttributes e (getAttributes out sh.name) sh.name t) none := by
  obtain rfl := hr.eq
  unfold specific2relative
  rw [htemp]
  constructor
  · intro h
    apply foldlM_skip
    intro n hn
    have hf := (C87_sources e o _ _ n).1 hn
    apply humidityStep_skip
    rcases h n hf with h | h
    · exact .inl h
    · exact .inr (.inr ⟨h, t, ts, rfl, fun cs hcs => hall n cs hf hcs⟩)
  · intro sh s hsh hfirst hs hfree
    have hfound := fun n hn => (C87_sources e o "specific_humidity" "specific_humidity" n).1 hn
    obtain ⟨a, b, hl, -, ha⟩ := hfirst
    rw [hl] at hfound ⊢
    rw [List.foldlM_append, foldlM_skip fun n hn => humidityStep_skip (.inl (not_not.1 (ha n hn))), Res.ok_bind,
      List.foldlM_cons]
    have hw : ((getAttributes out sh.name).filter fun a => !notKept.contains a.name) =
        without ["standard_name", "long_name", "units", "scale_factor", "add_offset", "_FillValue", "valid_min", "valid_max",
          "valid_range"] (getAttributes out sh.name) := by
      apply List.filter_congr
      intro a _
      rw [← decide_not_contains]
      rfl
    obtain ⟨c, hc, hm⟩ := make ho (v := ⟨deriveName o "relative_humidity", sh.shape, e.short⟩) hfree hg
      (l := humidityAttributes e (getAttributes out sh.name) sh.name t) (by
        unfold humidityAttributes
        rw [List.map_append, List.nodup_append]
        refine ⟨nodup_without (nodup_getAttributes _ ho _) _, by simp, ?_⟩
        intro x hx y hy e
        subst e
        refine not_mem_without _ _ ?_ hx
        simp only [List.map_cons, List.map_nil] at hy
        exact (by decide : ∀ z ∈ ["standard_name", "long_name", "units", "valid_min", "valid_max", "scale_factor"],
          z ∈ ["standard_name", "long_name", "units", "scale_factor", "add_offset", "_FillValue", "valid_min", "valid_max",
            "valid_range"]) _ hy)
    have hstep : humidityStep e o (t :: ts) (out, []) sh.name =
        .ok (c, [⟨deriveName o "relative_humidity", s, .humidity sh.name t⟩]) := by
      unfold humidityStep
      rw [systemFor_some hs]
      simp only [hall sh.name s (hfound _ (by simp)) hs, if_true, addHumidity, hfree, Bool.false_eq_true, if_false]
      rw [getVariable_ok ho hsh, Res.ok_bind, hw]
      unfold humidityAttributes at hc
      simp only [done_append] at hc
      rw [done_add hfree, Res.ok_bind] at hc ⊢
      obtain ⟨c1, h1, h2⟩ := Res.bind_eq_ok.1 hc
      rw [h1, Res.ok_bind, h2]
      rfl
    rw [hstep, Res.ok_bind]
    refine ⟨c, foldlM_skip fun n hn => humidityStep_skip (.inr (.inr ⟨?_, t, ts, rfl, fun cs hcs =>
      hall n cs (hfound n (by simp [hn])) hcs⟩)), hm⟩
    rw [hasVariable_iff, hm.vars]
    simp

/-- **C87** Without a temperature `specific2relative` does nothing, unless a specific humidity has a system and warnings
are written: the message uses a temperature that is not there. -/
theorem C87_humidity_without_temperature (e : Env P V) (o : Oper) (out : CDM P V Unit)
    (htemp : findVars e o "air_temperature" "air_temperature" = []) :
    ((e.warns = true ∧ ∃ n s, Found e o "specific_humidity" "specific_humidity" n ∧ SystemOf e n s) →
      specific2relative e o out = .ub) ∧
    (¬(e.warns = true ∧ ∃ n s, Found e o "specific_humidity" "specific_humidity" n ∧ SystemOf e n s) →
      specific2relative e o out = .ok (out, [])) := by
  unfold specific2relative
  rw [htemp]
  have hf : ∀ n, Found e o "specific_humidity" "specific_humidity" n ↔
    n ∈ findVars e o "specific_humidity" "specific_humidity" := fun n => (C87_sources e o _ _ n).symm
  simp only [hf]
  generalize findVars e o "specific_humidity" "specific_humidity" = l
  constructor
  · rintro ⟨hw, n, s, hn, hs⟩
    induction l with
    | nil => cases hn
    | cons m l ih =>
      rw [List.foldlM_cons]
      rcases system_cases e m with h | ⟨s', h⟩
      · rw [humidityStep_skip (.inl h), Res.ok_bind]
        rcases List.mem_cons.1 hn with rfl | hn
        · obtain ⟨a, b, h3, h4, -⟩ := hs
          rw [h s (by rw [h3]; simp)] at h4; cases h4
        · exact ih hn
      · have : humidityStep e o [] (out, []) m = .ub := by
          unfold humidityStep; rw [systemFor_some h]; simp [hw]
        rw [this]; rfl
  · intro h
    apply foldlM_skip
    intro n hn
    apply humidityStep_skip
    cases hw : e.warns with
    | false => exact .inr (.inl ⟨rfl, rfl⟩)
    | true =>
      rcases system_cases e n with h' | ⟨s, h'⟩
      · exact .inl h'
      · exact absurd ⟨hw, n, s, hn, h'⟩ h

/-- **C87** The search for a temperature advances the wrong iterator: if the first temperature is not complete for the
system of the first specific humidity that has one, the behaviour is undefined, although there may be another
temperature that is. -/
theorem C87_humidity_second_temperature (e : Env P V) (o : Oper) (out : CDM P V Unit) (t : String) (ts : List String)
    (htemp : findVars e o "air_temperature" "air_temperature" = t :: ts) (sh : String) (s : Sys)
    (hfirst : IsFirst (fun n => ¬NoSystem e n) (findVars e o "specific_humidity" "specific_humidity") sh)
    (hs : SystemOf e sh s) (hc : s.complete t = false) : specific2relative e o out = .ub := by
  obtain ⟨a, b, hl, -, ha⟩ := hfirst
  unfold specific2relative
  rw [htemp, hl, List.foldlM_append, foldlM_skip fun n hn => humidityStep_skip (.inl (not_not.1 (ha n hn))), Res.ok_bind,
    List.foldlM_cons]
  have : humidityStep e o (t :: ts) (out, []) sh = .ub := by
    unfold humidityStep; rw [systemFor_some hs]; simp [hc]
  rw [this]; rfl

/-! ## Vertical wind -/

/-- **C87** `omega2vwind`: with exactly one vertical velocity in pressure and exactly one temperature, a system that is
complete for both and a name that is not taken, the upward velocity is made with the same shape; it has a standard name
and a unit, and the other one is taken away. In all other cases nothing happens. -/
theorem C87_omega (e : Env P V) (o : Oper) (out : CDM P V Unit) (hi : Inv e.input) (ho : Inv out) (w : String)
    (hw : Named o "upward_air_velocity" w) (hg : w ≠ globalNS) :
    (∀ (om : Var P) (t : String) (s : Sys), om ∈ e.input.vars → hasVariable out om.name = true →
      findVars e o "omega" omegaPattern = [om.name] → findVars e o "air_temperature" "air_temperature" = [t] →
      SystemOf e om.name s → s.complete t = true → hasVariable out w = false → hasVariable e.input w = false →
      ∃ out', omega2vwind e o out = .ok (out', [⟨w, s, .omega om.name t⟩]) ∧
        Made out out' ⟨w, om.shape, e.float⟩
          [⟨"standard_name", e.text "upward_air_velocity"⟩, ⟨"units", e.text "m/s"⟩] (some om.name)) ∧
    ((∀ om t s, findVars e o "omega" omegaPattern = [om] → findVars e o "air_temperature" "air_temperature" = [t] →
        SystemOf e om s → s.complete t = false ∨ hasVariable out w = true) → omega2vwind e o out = .ok (out, [])) := by
  obtain rfl := hw.eq
  constructor
  · intro om t s hom hin h1 h2 hs hc hfree hfree'
    have hne : om.name ≠ deriveName o "upward_air_velocity" := fun h' => by rw [h', hfree] at hin; cases hin
    obtain ⟨c, hmk, hm⟩ := make ho (v := ⟨deriveName o "upward_air_velocity", om.shape, e.float⟩) hfree hg
      (l := [⟨"standard_name", e.text "upward_air_velocity"⟩] ++ [⟨"units", e.text "m/s"⟩]) (by simp)
    refine ⟨removeVariable c om.name, ?_, hm.remove hne⟩
    unfold omega2vwind
    rw [h1, h2]
    simp only [addWind]
    rw [systemFor_some hs]
    simp only [hc, hfree, Bool.not_true, Bool.false_eq_true, if_false]
    rw [getVariable_ok hi hom, Res.ok_bind]
    simp only [done_append] at hmk
    simp only [done_one]
    rw [done_add hfree, Res.ok_bind] at hmk ⊢
    obtain ⟨c1, h3, h4⟩ := Res.bind_eq_ok.1 hmk
    have hco : copyCoordinates e c (deriveName o "upward_air_velocity") = .ok c := by
      unfold copyCoordinates getAttribute
      rw [attrs_none hi hfree' hg]
    rw [h3, Res.ok_bind, h4, Res.ok_bind, hco]
    rfl
  · intro h
    unfold omega2vwind
    split
    · rename_i om t h1 h2
      unfold addWind
      rcases system_cases e om with h' | ⟨s, h'⟩
      · rw [systemFor_none h']
      · rw [systemFor_some h']
        rcases h om t s h1 h2 h' with h3 | h3
        · simp [h3]
        · by_cases h4 : s.complete t <;> simp [h3, h4]
    · rfl

/-- **C87** The coordinates of the vertical velocity are not taken over: they are looked up for the new name. -/
theorem C87_omega_coordinates : ∃ (e : Env Unit String) (out' : CDM Unit String Unit) (c : List Conv),
    getAttributes e.input "omega" = [⟨"standard_name", "omega"⟩, ⟨"coordinates", "lon lat"⟩] ∧
    omega2vwind e ⟨"omega2vwind", []⟩ e.input = .ok (out', c) ∧
    getAttributes out' "upward_air_velocity" = [⟨"standard_name", "upward_air_velocity"⟩, ⟨"units", "m/s"⟩] := by
  refine ⟨{ input := ⟨fun n => if n = "omega" then some [⟨"standard_name", "omega"⟩, ⟨"coordinates", "lon lat"⟩] else
              if n = "ta" then some [⟨"standard_name", "air_temperature"⟩] else none,
              [⟨"omega", ["x", "y"], ()⟩, ⟨"ta", ["x", "y"], ()⟩], [], true, ()⟩
            systems := [⟨fun _ => true, none, none, none, none, true, .throws⟩]
            isName := fun p v => p == v || (p == omegaPattern && v == "omega")
            text := id, plain := id, short := (), float := (), validMin := "0", validMax := "25000", scale := "4e-5"
            warns := false }, ?_⟩
  refine ⟨_, _, rfl, rfl, rfl⟩

/-! ## Pressure with four dimensions -/

/-- The dimensions of the four axes. -/
def Four (s : Sys) (d : List String) : Prop :=
  ∃ x y z t xs ys zs ts, s.x = some (x :: xs) ∧ s.y = some (y :: ys) ∧ s.z = some (z :: zs) ∧ s.t = some (t :: ts) ∧
    d = [x, y, z, t]

/-- The dimension has this length. -/
def HasLength (e : Env P V) (k : String) (n : ℕ) : Prop := ∃ d ∈ e.input.dims, d.name = k ∧ d.length = n

/-- A system for the pressure: four axes, of which the vertical one has `n` values, and a converter that has no other
dimensions but for those of length 1 or 0. -/
def Eligible (e : Env P V) (s : Sys) (n : ℕ) (d : List String) : Prop :=
  Four s d ∧ HasLength e (d.getD 2 "") n ∧ s.hasTransformation = true ∧
    ∃ shape, s.converter = .ok (some shape) ∧ ∀ k ∈ shape, k ∉ d → ∃ m, HasLength e k m ∧ m ≤ 1

/-- Nothing goes wrong with a system: an axis has a dimension, the dimensions are there, and the converter is made
without exception. -/
structure Sound (e : Env P V) (s : Sys) : Prop where
  axes : ∀ a, s.x = some a ∨ s.y = some a ∨ s.z = some a ∨ s.t = some a → a ≠ []
  vertical : ∀ z zs, s.z = some (z :: zs) → ∃ n, HasLength e z n
  converter : s.hasTransformation = true → ∃ c, s.converter = .ok c
  other : ∀ shape, s.converter = .ok (some shape) → ∀ k ∈ shape, ∃ m, HasLength e k m

theorem getDimension_ok {e : Env P V} (hi : Inv e.input) {k : String} {n : ℕ} (h : HasLength e k n) :
    ∃ d, getDimension e.input k = .ok d ∧ d.length = n := by
  obtain ⟨d, hd, rfl, rfl⟩ := h
  refine ⟨d, ?_, rfl⟩
  unfold getDimension
  cases h : e.input.dims.find? fun w => w.name == d.name with
  | none => exact absurd (List.find?_eq_none.1 h d hd) (by simp)
  | some w =>
    simp only
    have h1 := List.mem_of_find?_eq_some h
    have h2 : w.name = d.name := by simpa using List.find?_some h
    rw [List.inj_on_of_nodup_map hi.dims h1 hd h2]

theorem hasLength_unique {e : Env P V} (hi : Inv e.input) {k : String} {m n : ℕ} (h : HasLength e k m)
    (h' : HasLength e k n) : m = n := by
  obtain ⟨d, h1, h2⟩ := getDimension_ok hi h
  obtain ⟨d', h1', h2'⟩ := getDimension_ok hi h'
  rw [h1] at h1'
  cases h1'
  rw [← h2, ← h2']

theorem hasOther_ok {e : Env P V} (hi : Inv e.input) (ps : List String) {l : List String}
    (hl : ∀ k ∈ l, ∃ m, HasLength e k m) :
    ∃ r, hasOther e ps l = .ok r ∧ (r = false ↔ ∀ k ∈ l, k ∉ ps → ∃ m, HasLength e k m ∧ m ≤ 1) := by
  induction l with
  | nil => exact ⟨false, rfl, by simp⟩
  | cons k l ih =>
    obtain ⟨r, h1, h2⟩ := ih fun k' hk' => hl k' (by simp [hk'])
    obtain ⟨m, hm⟩ := hl k (by simp)
    obtain ⟨d, hd, rfl⟩ := getDimension_ok hi hm
    unfold hasOther
    by_cases hk : k ∈ ps
    · refine ⟨r, by simp [hk, h1], ?_⟩
      rw [h2]
      simp [hk]
    · refine ⟨decide (1 < d.length) || r, by simp [hk, hd, h1], ?_⟩
      rw [Bool.or_eq_false_iff, h2, decide_eq_false_iff_not]
      simp only [List.forall_mem_cons]
      apply and_congr_left
      intro _
      constructor
      · intro h _; exact ⟨_, hm, by omega⟩
      · intro h
        obtain ⟨m', hm', hle⟩ := h hk
        rw [hasLength_unique hi hm hm']; omega

theorem fourStep_ok {e : Env P V} (hi : Inv e.input) {s : Sys} (hs : Sound e s) (b : Best) :
    (∃ n d, Eligible e s n d ∧ notLarger b n = false ∧ fourStep e b s = .ok (some (n, d, s))) ∨
    ((∀ n d, Eligible e s n d → notLarger b n = true) ∧ fourStep e b s = .ok b) := by
  unfold fourStep
  split
  · rename_i x y z t hx hy hz ht
    obtain ⟨x, xs, rfl⟩ := List.exists_cons_of_ne_nil (hs.axes x (.inl hx))
    obtain ⟨y, ys, rfl⟩ := List.exists_cons_of_ne_nil (hs.axes y (.inr (.inl hy)))
    obtain ⟨z, zs, rfl⟩ := List.exists_cons_of_ne_nil (hs.axes z (.inr (.inr (.inl hz))))
    obtain ⟨t, ts, rfl⟩ := List.exists_cons_of_ne_nil (hs.axes t (.inr (.inr (.inr ht))))
    obtain ⟨n, hn⟩ := hs.vertical z zs hz
    obtain ⟨d, hd, rfl⟩ := getDimension_ok hi hn
    have hfour : Four s [x, y, z, t] := ⟨x, y, z, t, xs, ys, zs, ts, hx, hy, hz, ht, rfl⟩
    have hel : ∀ n' d', Eligible e s n' d' → n' = d.length ∧ d' = [x, y, z, t] := by
      rintro n' d' ⟨⟨x', y', z', t', xs', ys', zs', ts', h1, h2, h3, h4, rfl⟩, h5, -⟩
      rw [hx] at h1; rw [hy] at h2; rw [hz] at h3; rw [ht] at h4
      simp only [Option.some.injEq, List.cons.injEq] at h1 h2 h3 h4
      obtain ⟨rfl, -⟩ := h1
      obtain ⟨rfl, -⟩ := h2
      obtain ⟨rfl, -⟩ := h3
      obtain ⟨rfl, -⟩ := h4
      exact ⟨hasLength_unique hi h5 hn, rfl⟩
    simp only [front, Res.ok_bind, hd]
    cases hb : notLarger b d.length with
    | true =>
      right
      refine ⟨?_, by simp⟩
      intro n' d' h'
      rw [(hel n' d' h').1]; exact hb
    | false =>
      simp only [Bool.false_eq_true, if_false]
      unfold fourTry
      cases hT : s.hasTransformation with
      | false =>
        right
        refine ⟨fun n' d' h' => ?_, by simp⟩
        have := h'.2.2.1
        rw [hT] at this; cases this
      | true =>
        simp only [Bool.not_true, Bool.false_eq_true, if_false]
        obtain ⟨c, hc⟩ := hs.converter hT
        rw [hc]
        cases c with
        | none =>
          right
          refine ⟨fun n' d' h' => ?_, rfl⟩
          obtain ⟨shape, h, -⟩ := h'.2.2.2
          rw [hc] at h; cases h
        | some shape =>
          obtain ⟨r, h1, h2⟩ := hasOther_ok hi [x, y, z, t] (hs.other shape hc)
          simp only [front, Res.ok_bind, h1]
          cases r with
          | false =>
            left
            exact ⟨d.length, [x, y, z, t], ⟨hfour, hn, hT, shape, hc, h2.1 rfl⟩, hb, rfl⟩
          | true =>
            right
            refine ⟨fun n' d' h' => ?_, rfl⟩
            obtain ⟨-, rfl⟩ := hel n' d' h'
            obtain ⟨shape', h, h3⟩ := h'.2.2.2
            rw [hc] at h
            simp only [Res.ok.injEq, Option.some.injEq] at h
            subst h
            exact absurd (h2.2 h3) (by decide)
  · rename_i h
    right
    refine ⟨?_, rfl⟩
    rintro n d ⟨⟨x', y', z', t', xs', ys', zs', ts', h1, h2, h3, h4, rfl⟩, -⟩
    exact absurd h4 (h _ _ _ _ h1 h2 h3)

/-- The first of the systems with the longest vertical axis. -/
def Longest (e : Env P V) (l : List Sys) (n : ℕ) (d : List String) (s : Sys) : Prop :=
  Eligible e s n d ∧ ∃ a b, l = a ++ s :: b ∧ (∀ s' ∈ a, ∀ n' d', Eligible e s' n' d' → n' < n) ∧
    ∀ s' ∈ b, ∀ n' d', Eligible e s' n' d' → n' ≤ n

/-- Of the systems seen so far none is suitable, or the longest was taken. -/
def Chosen (e : Env P V) (l : List Sys) (b : Best) : Prop :=
  match b with
  | none => ∀ s ∈ l, ∀ n d, ¬Eligible e s n d
  | some (n, d, s) => Longest e l n d s

theorem four_fold {e : Env P V} (hi : Inv e.input) (l pre : List Sys) (hs : ∀ s ∈ l, Sound e s) (b : Best)
    (hb : Chosen e pre b) : ∃ b', l.foldlM (fourStep e) b = .ok b' ∧ Chosen e (pre ++ l) b' := by
  induction l generalizing pre b with
  | nil => exact ⟨b, rfl, by simpa using hb⟩
  | cons s l ih =>
    rw [List.foldlM_cons]
    have hpre : ∀ b', Chosen e (pre ++ [s]) b' → ∃ b'', l.foldlM (fourStep e) b' = .ok b'' ∧ Chosen e (pre ++ s :: l) b'' := by
      intro b' hb'
      obtain ⟨b'', h1, h2⟩ := ih (pre ++ [s]) (fun s' hs' => hs s' (by simp [hs'])) b' hb'
      exact ⟨b'', h1, by simpa using h2⟩
    rcases fourStep_ok hi (hs s (by simp)) b with ⟨n, d, hel, hn, hstep⟩ | ⟨hno, hstep⟩
    · rw [hstep, Res.ok_bind]
      apply hpre
      refine ⟨hel, pre, [], by simp, ?_, by simp⟩
      intro s' hs' n' d' h'
      cases b with
      | none => exact absurd h' (hb s' hs' n' d')
      | some p =>
        obtain ⟨m, dm, sm⟩ := p
        obtain ⟨h1, a, c, rfl, h2, h3⟩ := hb
        simp only [notLarger, decide_eq_false_iff_not, Nat.not_le] at hn
        rcases List.mem_append.1 hs' with h4 | h4
        · have := h2 s' h4 n' d' h'; omega
        · rcases List.mem_cons.1 h4 with rfl | h4
          · have : n' = m := by
              obtain ⟨⟨_, _, z, _, _, _, _, _, _, _, hz, _, rfl⟩, h6, -⟩ := h1
              obtain ⟨⟨_, _, z', _, _, _, _, _, _, _, hz', _, rfl⟩, h6', -⟩ := h'
              rw [hz] at hz'
              simp only [Option.some.injEq, List.cons.injEq] at hz'
              obtain ⟨rfl, -⟩ := hz'
              exact hasLength_unique hi h6' h6
            omega
          · have := h3 s' h4 n' d' h'; omega
    · rw [hstep, Res.ok_bind]
      apply hpre
      cases b with
      | none =>
        intro s' hs' n' d' h'
        rcases List.mem_append.1 hs' with h4 | h4
        · exact hb s' h4 n' d' h'
        · obtain rfl := List.mem_singleton.1 h4
          have := hno n' d' h'
          simp [notLarger] at this
      | some p =>
        obtain ⟨m, dm, sm⟩ := p
        obtain ⟨h1, a, c, rfl, h2, h3⟩ := hb
        refine ⟨h1, a, c ++ [s], by simp, h2, ?_⟩
        intro s' hs' n' d' h'
        rcases List.mem_append.1 hs' with h4 | h4
        · exact h3 s' h4 n' d' h'
        · obtain rfl := List.mem_singleton.1 h4
          have := hno n' d' h'
          simpa [notLarger] using this

/-- **C87** `add4Dpressure` takes the first of the suitable coordinate systems with the longest vertical axis; the new
variable has the dimensions of its four axes. An exception tells that there is none; nothing happens if the name is
taken. -/
theorem C87_pressure (e : Env P V) (o : Oper) (out : CDM P V Unit) (hi : Inv e.input) (ho : Inv out) (p : String)
    (hp : Named o "air_pressure4D" p) (hg : p ≠ globalNS) (hs : ∀ s ∈ e.systems, Sound e s) :
    (hasVariable out p = true → add4Dpressure e o out = .ok (out, [])) ∧
    (hasVariable out p = false → (∀ s ∈ e.systems, ∀ n d, ¬Eligible e s n d) → add4Dpressure e o out = .throws) ∧
    (hasVariable out p = false → (∃ s ∈ e.systems, ∃ n d, Eligible e s n d) →
      ∃ n d s out', Longest e e.systems n d s ∧ add4Dpressure e o out = .ok (out', [⟨p, s, .pressure4D d⟩]) ∧
        Made out out' ⟨p, d, e.float⟩ [⟨"units", e.text "hPa"⟩, ⟨"standard_name", e.text "air_pressure"⟩] none) := by
  obtain rfl := hp.eq
  obtain ⟨b, hb, hch⟩ := four_fold hi e.systems [] hs none (by simp [Chosen])
  unfold add4Dpressure
  refine ⟨fun h => by simp [h], fun h hno => ?_, fun h hex => ?_⟩
  · simp only [h, Bool.false_eq_true, if_false]
    rw [hb]
    cases b with
    | none => rfl
    | some q =>
      obtain ⟨n, d, s⟩ := q
      obtain ⟨h1, a, c, h2, -⟩ := hch
      simp only [List.nil_append] at h2
      exact absurd h1 (hno s (by rw [h2]; simp) n d)
  · simp only [h, Bool.false_eq_true, if_false]
    rw [hb]
    cases b with
    | none =>
      obtain ⟨s, hs, n, d, hel⟩ := hex
      exact absurd hel (hch s (by simpa using hs) n d)
    | some q =>
      obtain ⟨n, d, s⟩ := q
      obtain ⟨c, hc, hm⟩ := make ho (v := ⟨deriveName o "air_pressure4D", d, e.float⟩) h hg
        (l := [⟨"units", e.text "hPa"⟩] ++ [⟨"standard_name", e.text "air_pressure"⟩]) (by simp)
      refine ⟨n, d, s, c, by simpa [Chosen] using hch, ?_, hm⟩
      simp only [Res.ok_bind, done_one]
      simp only [done_append] at hc
      rw [done_add h, Res.ok_bind] at hc ⊢
      obtain ⟨c1, h3, h4⟩ := Res.bind_eq_ok.1 hc
      rw [h3, Res.ok_bind, h4]
      rfl

/-- **C87** If the converter of the first system with four axes cannot be made, the exception is caught and reported
as a skipped system, but then the missing converter is used. -/
theorem C87_pressure_exception (e : Env P V) (o : Oper) (out : CDM P V Unit) (hi : Inv e.input) (p : String)
    (hp : Named o "air_pressure4D" p) (hfree : hasVariable out p = false) (s : Sys) (l : List Sys) (hl : e.systems = s :: l)
    (d : List String) (hd : Four s d) (n : ℕ) (hn : HasLength e (d.getD 2 "") n) (ht : s.hasTransformation = true)
    (hc : s.converter = .throws) : add4Dpressure e o out = .ub := by
  obtain rfl := hp.eq
  obtain ⟨x, y, z, t, xs, ys, zs, ts, h1, h2, h3, h4, rfl⟩ := hd
  obtain ⟨dz, hdz, -⟩ := getDimension_ok hi hn
  simp only [List.getD_cons_succ, List.getD_cons_zero] at hdz
  unfold add4Dpressure
  simp [hfree, hl, fourStep, h1, h2, h3, h4, front, hdz, notLarger, fourTry, ht, hc]

/-! ## All operations -/

/-- What an operation does to a dataset, whatever the names: it stays well formed, it keeps its dimensions, a variable
of the result was there before with the same attributes or has one of the `names`, and a variable that is lost is one of
`lost`. -/
structure Changes (out out' : CDM P V Unit) (names : List String) (lost : String → Prop) : Prop where
  inv : Inv out → Inv out'
  dims : out'.dims = out.dims
  new : ∀ v ∈ out'.vars, v.name ∉ names → v ∈ out.vars ∧ out'.attrs v.name = out.attrs v.name
  kept : ∀ v ∈ out.vars, v ∈ out'.vars ∨ lost v.name

theorem Changes.refl (out : CDM P V Unit) (names : List String) (lost : String → Prop) : Changes out out names lost :=
  ⟨id, rfl, fun _ h _ => ⟨h, rfl⟩, fun _ h => .inl h⟩

theorem Changes.trans {a b c : CDM P V Unit} {n n' : List String} {l l' : String → Prop} (h : Changes a b n l)
    (h' : Changes b c n' l') : Changes a c (n ++ n') fun x => l x ∨ l' x := by
  refine ⟨fun hi => h'.inv (h.inv hi), h'.dims.trans h.dims, ?_, ?_⟩
  · intro v hv hn
    simp only [List.mem_append, not_or] at hn
    obtain ⟨h1, h2⟩ := h'.new v hv hn.2
    obtain ⟨h3, h4⟩ := h.new v h1 hn.1
    exact ⟨h3, h2.trans h4⟩
  · intro v hv
    rcases h.kept v hv with h1 | h1
    · rcases h'.kept v h1 with h2 | h2
      · exact .inl h2
      · exact .inr (.inr h2)
    · exact .inr (.inl h1)

theorem Changes.mono {a b : CDM P V Unit} {n n' : List String} {l l' : String → Prop} (h : Changes a b n l)
    (hn : ∀ x ∈ n, x ∈ n') (hl : ∀ x, l x → l' x) : Changes a b n' l' :=
  ⟨h.inv, h.dims, fun v hv hv' => h.new v hv fun h => hv' (hn _ h), fun v hv => (h.kept v hv).imp id (hl _)⟩

theorem changes_addVariable {out c : CDM P V Unit} {v : Var P} (h : done (addVariable out v) = .ok c) :
    Changes out c [v.name] fun _ => False := by
  cases hv : hasVariable out v.name with
  | true =>
    have h' : hasVariable { out with coordsInitialized := false } v.name = true := hv
    simp [addVariable, h', done] at h
  | false =>
    have hi := fun hi => inv_step (fun _ => ()) out hi (.addVar v)
    rw [done_add hv] at h
    have hv' : hasVariable { out with coordsInitialized := false } v.name = false := hv
    simp only [step, addVariable, hv', Bool.not_false, if_true] at hi
    cases h
    refine ⟨hi, rfl, ?_, fun w hw => .inl (by simp [hw])⟩
    intro w hw hn
    rcases List.mem_append.1 hw with h | h
    · exact ⟨h, rfl⟩
    · rw [List.mem_singleton.1 h] at hn; simp at hn

theorem changes_addAttributes {l : List (Attr V)} {out c : CDM P V Unit} {n : String}
    (h : done (addAttributes out n l) = .ok c) : Changes out c [n] fun _ => False := by
  induction l generalizing out with
  | nil => cases h; exact .refl _ _ _
  | cons a l ih =>
    have hi := fun hi => inv_step (fun _ => ()) out hi (.addAttr n a)
    simp only [step] at hi
    unfold addAttributes at h
    rcases addAttribute_cases out n a with h' | h' | h'
    · rw [h'.2] at h; cases h
    · rw [h'.2.2] at h; cases h
    · rw [h'.2.2] at h hi
      refine ((Changes.trans (n := [n]) (l := fun _ => False) ⟨hi, rfl, ?_, fun w hw => .inl hw⟩ (ih h)).mono (by simp)
        (by simp))
      intro v hv hn
      refine ⟨hv, ?_⟩
      have : v.name ≠ n := by simpa using hn
      simp [this]

theorem changes_remove (out : CDM P V Unit) (n : String) : Changes out (removeVariable out n) [] fun x => x = n := by
  refine ⟨fun hi => inv_removeVariable _ hi _, rfl, ?_, ?_⟩
  · intro v hv _
    obtain ⟨h1, h2⟩ := List.mem_filter.1 hv
    have h3 : v.name ≠ n := by simpa using h2
    exact ⟨h1, by simp [removeVariable, h3]⟩
  · intro v hv
    by_cases h : v.name = n
    · exact .inr h
    · exact .inl (List.mem_filter.2 ⟨hv, by simpa using h⟩)

theorem thetaStep_changes {e : Env P V} {o : Oper} {s s' : Out P V} {th : String} (h : thetaStep e o s th = .ok s') :
    ∃ l, s'.2 = s.2 ++ l ∧ Changes s.1 s'.1 (l.map (·.name)) fun x => x = th := by
  unfold thetaStep at h
  split at h
  · cases h; exact ⟨[], by simp, .refl _ _ _⟩
  · rename_i cs _
    simp only at h
    split at h
    · cases h; exact ⟨[], by simp, .refl _ _ _⟩
    · obtain ⟨v, -, h⟩ := Res.bind_eq_ok.1 h
      obtain ⟨c1, h1, h⟩ := Res.bind_eq_ok.1 h
      obtain ⟨c2, h2, h⟩ := Res.bind_eq_ok.1 h
      obtain ⟨c3, h3, h⟩ := Res.bind_eq_ok.1 h
      cases h
      rw [done_one] at h3
      refine ⟨[_], rfl, ?_⟩
      exact ((((changes_addVariable h1).trans (changes_addAttributes h2)).trans (changes_addAttributes h3)).trans
        (changes_remove c3 th)).mono (by simp) (by simp)

theorem humidityStep_changes {e : Env P V} {o : Oper} {ts : List String} {s s' : Out P V} {sh : String}
    (h : humidityStep e o ts s sh = .ok s') :
    ∃ l, s'.2 = s.2 ++ l ∧ Changes s.1 s'.1 (l.map (·.name)) fun _ => False := by
  unfold humidityStep at h
  split at h
  · cases h; exact ⟨[], by simp, .refl _ _ _⟩
  · split at h
    · split at h
      · cases h
      · cases h; exact ⟨[], by simp, .refl _ _ _⟩
    · split at h
      · unfold addHumidity at h
        simp only at h
        split at h
        · cases h; exact ⟨[], by simp, .refl _ _ _⟩
        · obtain ⟨v, -, h⟩ := Res.bind_eq_ok.1 h
          obtain ⟨c1, h1, h⟩ := Res.bind_eq_ok.1 h
          obtain ⟨c2, h2, h⟩ := Res.bind_eq_ok.1 h
          obtain ⟨c3, h3, h⟩ := Res.bind_eq_ok.1 h
          cases h
          refine ⟨[_], rfl, ?_⟩
          exact (((changes_addVariable h1).trans (changes_addAttributes h2)).trans (changes_addAttributes h3)).mono
            (by simp) (by simp)
      · cases h

theorem fold_changes {f : Out P V → String → Res (Out P V)} {lost : String → Prop} {l : List String}
    (hf : ∀ s s' n, n ∈ l → f s n = .ok s' → ∃ k, s'.2 = s.2 ++ k ∧ Changes s.1 s'.1 (k.map (·.name)) lost)
    {s s' : Out P V} (h : l.foldlM f s = .ok s') :
    ∃ k, s'.2 = s.2 ++ k ∧ Changes s.1 s'.1 (k.map (·.name)) lost := by
  induction l generalizing s with
  | nil => cases h; exact ⟨[], by simp, .refl _ _ _⟩
  | cons n l ih =>
    rw [List.foldlM_cons] at h
    obtain ⟨t, h1, h2⟩ := Res.bind_eq_ok.1 h
    obtain ⟨k, h3, h4⟩ := hf s t n (by simp) h1
    obtain ⟨k', h5, h6⟩ := ih (fun s s' m hm => hf s s' m (by simp [hm])) h2
    refine ⟨k ++ k', by rw [h5, h3]; simp, (h4.trans h6).mono (by simp) (by simp)⟩

/-- The variables that an operation may take away. -/
def Lost (e : Env P V) (op n : String) : Prop :=
  ((readOper op).conversion = "theta2T" ∧
    Found e (readOper op) "air_potential_temperature" "air_potential_temperature" n) ∨
  ((readOper op).conversion = "omega2vwind" ∧ Found e (readOper op) "omega" omegaPattern n)

theorem omega_changes {e : Env P V} {o : Oper} {out : CDM P V Unit} {r : Out P V} (h : omega2vwind e o out = .ok r) :
    Changes out r.1 (r.2.map (·.name)) (Found e o "omega" omegaPattern) := by
  unfold omega2vwind at h
  split at h
  · rename_i om t hom _
    unfold addWind at h
    split at h
    · cases h; exact .refl _ _ _
    · simp only at h
      split at h
      · cases h; exact .refl _ _ _
      · split at h
        · cases h; exact .refl _ _ _
        · obtain ⟨v, -, h⟩ := Res.bind_eq_ok.1 h
          obtain ⟨c1, h1, h⟩ := Res.bind_eq_ok.1 h
          obtain ⟨c2, h2, h⟩ := Res.bind_eq_ok.1 h
          obtain ⟨c3, h3, h⟩ := Res.bind_eq_ok.1 h
          obtain ⟨c4, h4, h⟩ := Res.bind_eq_ok.1 h
          cases h
          rw [done_one] at h2 h3
          have hco : Changes c3 c4 [deriveName o "upward_air_velocity"] fun _ => False := by
            unfold copyCoordinates at h4
            split at h4
            · rw [done_one] at h4
              exact changes_addAttributes h4
            · cases h4; exact .refl _ _ _
            · cases h4
          have hf : Found e o "omega" omegaPattern om := (C87_sources e o _ _ om).1 (by rw [hom]; simp)
          exact (((((changes_addVariable h1).trans (changes_addAttributes h2)).trans (changes_addAttributes h3)).trans
            hco).trans (changes_remove c4 om)).mono (by simp) (by simpa using hf)
  · cases h; exact .refl _ _ _

theorem pressure_changes {e : Env P V} {o : Oper} {out : CDM P V Unit} {r : Out P V} (h : add4Dpressure e o out = .ok r) :
    Changes out r.1 (r.2.map (·.name)) fun _ => False := by
  unfold add4Dpressure at h
  simp only at h
  split at h
  · cases h; exact .refl _ _ _
  · obtain ⟨b, -, h⟩ := Res.bind_eq_ok.1 h
    split at h
    · cases h
    · obtain ⟨c1, h1, h⟩ := Res.bind_eq_ok.1 h
      obtain ⟨c2, h2, h⟩ := Res.bind_eq_ok.1 h
      obtain ⟨c3, h3, h⟩ := Res.bind_eq_ok.1 h
      cases h
      rw [done_one] at h2 h3
      exact (((changes_addVariable h1).trans (changes_addAttributes h2)).trans (changes_addAttributes h3)).mono
        (by simp) (by simp)

/-- The conversions. -/
def known : List String := ["specific2relative", "theta2T", "omega2vwind", "add4Dpressure"]

theorem find_inserts (k : List Conv) (m : List (String × Conv)) (n : String) :
    find (k.foldl (fun m c => insert m c.name c) m) n = match find m n with
      | some w => some w
      | none => k.find? fun c => c.name == n := by
  induction k generalizing m with
  | nil => cases h : find m n <;> simp [h]
  | cons c k ih =>
    rw [List.foldl_cons, ih, find_insert]
    cases h : find m n with
    | some w => rfl
    | none =>
      by_cases hc : c.name = n
      · simp [hc]
      · have : (c.name == n) = false := by simpa using hc
        simp [hc, this, List.find?]

theorem operate_changes {e : Env P V} {s s' : CDM P V Unit × List (String × Conv)} {op : String}
    (h : operate e s op = .ok s') : (readOper op).conversion ∈ known ∧
    ∃ k : List Conv, s'.2 = k.foldl (fun m c => insert m c.name c) s.2 ∧ Changes s.1 s'.1 (k.map (·.name)) (Lost e op) := by
  unfold operate at h
  obtain ⟨r, h1, h2⟩ := Res.bind_eq_ok.1 h
  cases h2
  unfold runFactory at h1
  split at h1
  · rename_i hc
    refine ⟨by rw [hc]; simp [known], r.2, rfl, ?_⟩
    obtain ⟨k, h3, h4⟩ := fold_changes (lost := fun _ => False) (fun s s' n _ h => humidityStep_changes h) h1
    simp only [List.nil_append] at h3
    rw [h3]
    exact h4.mono (by simp) (by simp)
  split at h1
  · rename_i hc
    refine ⟨by rw [hc]; simp [known], r.2, rfl, ?_⟩
    obtain ⟨k, h3, h4⟩ := fold_changes (lost := Found e (readOper op) "air_potential_temperature" "air_potential_temperature")
      (fun s s' n hn h => by
        obtain ⟨k, h3, h4⟩ := thetaStep_changes h
        exact ⟨k, h3, h4.mono (by simp) (by rintro x rfl; exact (C87_sources e _ _ _ x).1 hn)⟩) h1
    simp only [List.nil_append] at h3
    rw [h3]
    exact h4.mono (by simp) fun x hx => .inl ⟨hc, hx⟩
  split at h1
  · rename_i hc
    refine ⟨by rw [hc]; simp [known], r.2, rfl, ?_⟩
    exact (omega_changes h1).mono (by simp) fun x hx => .inr ⟨hc, hx⟩
  split at h1
  · rename_i hc
    refine ⟨by rw [hc]; simp [known], r.2, rfl, ?_⟩
    exact (pressure_changes h1).mono (by simp) (by simp)
  · cases h1

/-- **C87** Any operations on a well formed dataset: the result is well formed and has the same dimensions; a variable
of the result for which there is no converter is one of the input, with the same attributes, so that its data come from
the input; a variable is taken away only by `theta2T` or `omega2vwind`, that start from it. -/
theorem C87_construct (e : Env P V) (ops : List String) (hi : Inv e.input) (c : CDM P V Unit) (m : List (String × Conv))
    (h : construct e ops = .ok (c, m)) :
    (∀ op ∈ ops, (readOper op).conversion ∈ known) ∧ Inv c ∧ c.dims = e.input.dims ∧
    (∀ v ∈ c.vars, find m v.name = none → v ∈ e.input.vars ∧ c.attrs v.name = e.input.attrs v.name) ∧
    (∀ v ∈ e.input.vars, v ∈ c.vars ∨ ∃ op ∈ ops, Lost e op v.name) ∧
    ∀ {α : Type} (rd : String → ℕ → Res α) (f : Conv → ℕ → Res α) (v : String) (p : ℕ), find m v = none →
      getDataSlice m rd f v p = rd v p := by
  have key : ∀ (ops : List String) (s s' : CDM P V Unit × List (String × Conv)), ops.foldlM (operate e) s = .ok s' →
      (∀ op ∈ ops, (readOper op).conversion ∈ known) ∧ ∃ k : List Conv, s'.2 = k.foldl (fun m c => insert m c.name c) s.2 ∧
        Changes s.1 s'.1 (k.map (·.name)) fun x => ∃ op ∈ ops, Lost e op x := by
    intro ops
    induction ops with
    | nil =>
      intro s s' h
      cases h
      exact ⟨by simp, [], rfl, .refl _ _ _⟩
    | cons op ops ih =>
      intro s s' h
      rw [List.foldlM_cons] at h
      obtain ⟨t, h1, h2⟩ := Res.bind_eq_ok.1 h
      obtain ⟨h3, k, h4, h5⟩ := operate_changes h1
      obtain ⟨h6, k', h7, h8⟩ := ih t s' h2
      refine ⟨by simpa using ⟨h3, h6⟩, k ++ k', by rw [h7, h4, List.foldl_append], (h5.trans h8).mono (by simp) ?_⟩
      rintro x (hx | ⟨op', ho, hx⟩)
      · exact ⟨op, by simp, hx⟩
      · exact ⟨op', by simp [ho], hx⟩
  obtain ⟨h1, k, h2, h3⟩ := key ops _ _ h
  refine ⟨h1, h3.inv hi, h3.dims, ?_, h3.kept, ?_⟩
  · intro v hv hn
    apply h3.new v hv
    intro hk
    simp only at h2
    rw [h2, find_inserts] at hn
    simp only [find, List.find?_nil, Option.map_none, List.find?_eq_none] at hn
    obtain ⟨c', hc', e⟩ := List.mem_map.1 hk
    exact hn c' hc' (by simp [e])
  · intro α rd f v p hn
    unfold getDataSlice
    rw [hn]

/-- **C87** An unknown conversion is refused. -/
theorem C87_unknown (e : Env P V) (ops : List String) (h : ∃ op ∈ ops, (readOper op).conversion ∉ known) (hi : Inv e.input)
    (r : CDM P V Unit × List (String × Conv)) : construct e ops ≠ .ok r := by
  intro h'
  obtain ⟨op, h1, h2⟩ := h
  exact h2 ((C87_construct e ops hi r.1 r.2 h').1 op h1)

/-! ## Cases -/

/-- Potential temperature, humidity and temperature on hybrid levels, and a temperature at the surface. -/
def exampleEnv (temps : List String) : Env Unit String where
  input := ⟨fun n => if n = "theta" then some [⟨"standard_name", "air_potential_temperature"⟩, ⟨"units", "K"⟩] else
      if n = "q" then some [⟨"standard_name", "specific_humidity"⟩, ⟨"units", "1"⟩, ⟨"coordinates", "lon lat"⟩] else
      if n ∈ temps then some [⟨"standard_name", "air_temperature"⟩] else none,
    ⟨"theta", ["x", "y", "lev", "time"], ()⟩ :: ⟨"q", ["x", "y", "lev", "time"], ()⟩ ::
      temps.map fun t => ⟨t, ["x", "y", "lev", "time"], ()⟩,
    [⟨"x", 4, false⟩, ⟨"y", 3, false⟩, ⟨"lev", 5, false⟩, ⟨"time", 2, true⟩], true, ()⟩
  systems := [⟨fun n => n == "t0", some ["x"], some ["y"], none, some ["time"], false, .ok none⟩,
    ⟨fun n => n != "t0", some ["x"], some ["y"], some ["lev"], some ["time"], true, .ok (some ["x", "y", "lev", "time"])⟩]
  isName := fun p v => p == v
  text := id
  plain := id
  short := ()
  float := ()
  validMin := "0"
  validMax := "25000"
  scale := "4e-5"
  warns := true

/-- The names of the variables and of the converters. -/
def summary (r : Res (CDM Unit String Unit × List (String × Conv))) : Option (List String × List String) :=
  match r with
  | .ok (c, m) => some (c.vars.map (·.name), m.map (·.1))
  | _ => none

/-- Non-vacuity: three operations. -/
example : summary (construct (exampleEnv ["t", "t0"]) ["theta2T;air_temperature=tt", "specific2relative", "add4Dpressure"]) =
    some (["q", "t", "t0", "tt", "relative_humidity", "air_pressure4D"], ["tt", "relative_humidity", "air_pressure4D"]) := by
  decide +kernel

/-- With the temperature at the surface first, the behaviour is undefined. -/
example : construct (exampleEnv ["t0", "t"]) ["specific2relative"] = .ub := by rfl

/-- Non-vacuity: the names and attributes of the example are those of a well formed dataset. -/
example : Inv (exampleEnv ["t", "t0"]).input := by
  refine ⟨by decide, by decide, ?_, ?_⟩
  · intro n l h
    simp only [exampleEnv] at h
    split at h
    · cases h; decide
    split at h
    · cases h; decide
    split at h
    · cases h; decide
    · cases h
  · intro n h
    right
    rw [hasVariable_iff]
    simp only [exampleEnv] at h ⊢
    by_contra hc
    simp only [List.map_cons, List.map_nil, List.mem_cons, List.not_mem_nil, or_false, not_or] at hc
    simp [hc.1, hc.2.1, hc.2.2.1, hc.2.2.2] at h

/-- Non-vacuity: the systems of the example. -/
example : ∀ s ∈ (exampleEnv ["t", "t0"]).systems, Sound (exampleEnv ["t", "t0"]) s := by
  intro s hs
  simp only [exampleEnv, List.mem_cons, List.not_mem_nil, or_false] at hs
  rcases hs with rfl | rfl
  · refine ⟨by rintro a (h | h | h | h) <;> cases h <;> simp, (fun z zs h => nomatch h), (fun h => nomatch h), (fun _ h => nomatch h)⟩
  · refine ⟨by rintro a (h | h | h | h) <;> cases h <;> simp, ?_, fun _ => ⟨_, rfl⟩, ?_⟩
    · intro z zs h
      cases h
      exact ⟨5, ⟨"lev", 5, false⟩, by simp [exampleEnv], rfl, rfl⟩
    · intro shape h k hk
      cases h
      simp only [List.mem_cons, List.not_mem_nil, or_false] at hk
      rcases hk with rfl | rfl | rfl | rfl
      · exact ⟨4, ⟨"x", 4, false⟩, by simp [exampleEnv], rfl, rfl⟩
      · exact ⟨3, ⟨"y", 3, false⟩, by simp [exampleEnv], rfl, rfl⟩
      · exact ⟨5, ⟨"lev", 5, false⟩, by simp [exampleEnv], rfl, rfl⟩
      · exact ⟨2, ⟨"time", 2, true⟩, by simp [exampleEnv], rfl, rfl⟩

end Fimex.Pressure
