import Verif.Grib.ConfigLemmas
import Mathlib.Algebra.Order.Field.Rat

/-!
# C122: Messages of GRIB files find their parameters in the configuration

The configuration of the GRIB reader is a list of parameters, each with elements that say which messages belong to it.
-/

set_option linter.unusedSectionVars false

namespace Fimex.GribConfig
open Fimex.Tables Fimex.Cdm

variable {K : Type}

/-! ## What the configuration says -/

/-- The text of an attribute, empty if there is none. -/
def attr (p : Props) (k : String) : String := ((p.find? fun x => x.1 = k).map (·.2)).getD ""

/-- The texts that restrict a key, in the order they are read: an attribute, children `extraKey`, and for the two keys beside the number
an attribute again. -/
def texts (one : Bool) (e : Elem) (k : String) : List String :=
  (if k ∈ ["typeOfLevel", "levelNo", "timeRangeIndicator", "typeOfStatisticalProcessing"] then [attr e.props k] else []) ++
  (e.extra.filter fun x => attr x "name" = k).map (fun x => attr x "value") ++
  (if k ∈ (if one then ["gribTablesVersionNo", "identificationOfOriginatingGeneratingCentre"] else ["parameterCategory", "discipline"])
    then [attr e.props k] else [])

/-- A value is admitted by an element for a key: the last text for the key that is not empty, if any, lists it or lists nothing. -/
def Admits (E : Env K) (one : Bool) (e : Elem) (k : String) (v : ℤ) : Prop :=
  ∀ t vs, lastText (texts one e k) = some t → E.longs t = .ok vs → vs = [] ∨ v ∈ vs

/-- A message belongs to an element. Numbers of parameters are compared as 32-bit numbers. -/
structure Belongs (E : Env K) (one : Bool) (e : Elem) (m : Msg) : Prop where
  number : attr e.props (if one then "indicatorOfParameter" else "parameterNumber") ≠ "" ∧
    ∃ id, E.long (attr e.props (if one then "indicatorOfParameter" else "parameterNumber")) = .ok id ∧ (2 ^ 32 : ℤ) ∣ id - m.ids.1
  first : Admits E one e (if one then "gribTablesVersionNo" else "parameterCategory") m.ids.2.1
  second : Admits E one e (if one then "identificationOfOriginatingGeneratingCentre" else "discipline") m.ids.2.2
  levelType : Admits E one e "typeOfLevel" m.levelType
  levelNo : Admits E one e "levelNo" m.levelNo
  timeRange : Admits E one e "timeRangeIndicator" m.timeRange
  statistics : Admits E one e "typeOfStatisticalProcessing" m.statistics
  step : attr e.props "stepType" = "" ∨ E.split (attr e.props "stepType") = [] ∨ m.stepType ∈ E.split (attr e.props "stepType")
  other : ∀ o ∈ m.other, Admits E one e o.1 o.2

/-- The elements of a parameter for an edition. -/
def elems (one : Bool) (p : Param) : List Elem := if one then p.grib1 else p.grib2

theorem attr_eq (p : Props) (k : String) : getXmlProp p k = attr p k := by
  unfold getXmlProp attr
  have : (fun x : String × String => x.1 == k) = fun x => decide (x.1 = k) := by
    funext x
    exact beq_eq_decide _ _
  rw [this]
  cases p.find? fun x => decide (x.1 = k) <;> rfl

theorem filter_keys (e : Elem) (keys : List String) (hk : keys.Nodup) (k : String) :
    ((keys.map fun k => (k, getXmlProp e.props k)).filter (·.1 = k)).map (·.2) = if k ∈ keys then [attr e.props k] else [] := by
  induction keys with
  | nil => rfl
  | cons a l ih =>
    have h := List.nodup_cons.1 hk
    rw [List.map_cons, List.filter_cons]
    by_cases ha : a = k
    · subst ha
      have hn := ih h.2
      rw [if_neg h.1] at hn
      rw [if_pos (by simp), List.map_cons, hn]
      simp [attr_eq]
    · rw [if_neg (by simpa using ha), ih h.2]
      have hka : ¬ k = a := fun q => ha q.symm
      simp [List.mem_cons, hka]

theorem filter_extra (l : List Props) (k : String) :
    ((l.map fun x => (getXmlProp x "name", getXmlProp x "value")).filter (·.1 = k)).map (·.2) =
      (l.filter fun x => attr x "name" = k).map (fun x => attr x "value") := by
  induction l with
  | nil => rfl
  | cons a l ih =>
    rw [List.map_cons, List.filter_cons, List.filter_cons]
    simp only [attr_eq] at ih ⊢
    by_cases ha : attr a "name" = k
    · simp only [ha, decide_true, if_true, List.map_cons, ih]
    · simp only [ha, decide_false, Bool.false_eq_true, if_false, ih]

/-- What an entry of the index holds. -/
theorem entry {E : Env K} {one : Bool} {var : ℕ} {e : Elem} {pc1 pc : ParamConf} (h1 : gribAny E var e = .ok pc1)
    (h2 : setLongs E e pc1 (pairKeys one) = .ok pc) :
    pc.var = var ∧
    (∀ k, match lastText (texts one e k) with
      | some t => ∃ vs, E.longs t = .ok vs ∧ pc.longs k = some vs
      | none => pc.longs k = none) ∧
    pc.strings "stepType" = if attr e.props "stepType" = "" then none else some (E.split (attr e.props "stepType")) := by
  unfold gribAny at h1
  obtain ⟨pc0, g1, g2⟩ := bind_ok h1
  rw [setLongs_eq] at g1 h2
  rw [extra_eq] at g2
  have sv := settings _ "stepType" g1
  have sv2 := settings _ "stepType" g2
  have sv3 := settings _ "stepType" h2
  have hss : (setString E e pc0 "stepType").var = pc0.var ∧ (setString E e pc0 "stepType").longs = pc0.longs ∧
      (setString E e pc0 "stepType").strings "stepType" =
        if attr e.props "stepType" = "" then pc0.strings "stepType" else some (E.split (attr e.props "stepType")) := by
    unfold setString
    rw [attr_eq]
    by_cases hs : attr e.props "stepType" = ""
    · simp [hs]
    · simp [hs]
  refine ⟨sv3.1.trans (sv2.1.trans (hss.1.trans sv.1)), fun k => ?_, ?_⟩
  · have a := (settings _ k g1).2.2
    have b := (settings _ k g2).2.2
    have c := (settings _ k h2).2.2
    rw [filter_keys _ _ (by decide)] at a
    rw [filter_extra] at b
    rw [filter_keys _ _ (by cases one <;> decide)] at c
    unfold texts
    have hp : (if one then ["gribTablesVersionNo", "identificationOfOriginatingGeneratingCentre"] else ["parameterCategory", "discipline"])
        = pairKeys one := rfl
    rw [hp, lastText_append, lastText_append]
    rw [hss.2.1] at b
    have hf : (["typeOfLevel", "levelNo", "timeRangeIndicator", "typeOfStatisticalProcessing"] : List String) = fixedKeys := rfl
    rw [hf]
    cases hc : lastText (if k ∈ pairKeys one then [attr e.props k] else []) with
    | some t => rw [hc] at c; exact c
    | none =>
      rw [hc] at c
      rw [Option.none_or]
      cases hb : lastText ((e.extra.filter fun x => attr x "name" = k).map (fun x => attr x "value")) with
      | some t =>
        rw [hb] at b
        obtain ⟨vs, b1, b2⟩ := b
        exact ⟨vs, b1, c.trans b2⟩
      | none =>
        rw [hb] at b
        rw [Option.none_or]
        cases ha : lastText (if k ∈ fixedKeys then [attr e.props k] else []) with
        | some t =>
          rw [ha] at a
          obtain ⟨vs, a1, a2⟩ := a
          exact ⟨vs, a1, c.trans (b.trans a2)⟩
        | none =>
          rw [ha] at a
          exact c.trans (b.trans a)
  · rw [sv3.2.1, sv2.2.1, hss.2.2, sv.2.1]

theorem hasLong_iff {E : Env K} {one : Bool} {e : Elem} {pc : ParamConf} {k : String} (v : ℤ)
    (h : match lastText (texts one e k) with
      | some t => ∃ vs, E.longs t = .ok vs ∧ pc.longs k = some vs
      | none => pc.longs k = none) : hasLong pc k v = true ↔ Admits E one e k v := by
  unfold Admits hasLong
  cases ht : lastText (texts one e k) with
  | none =>
    rw [ht] at h
    simp only at h
    rw [h]
    simp
  | some t =>
    rw [ht] at h
    obtain ⟨vs, h1, h2⟩ := h
    rw [h2]
    constructor
    · intro q t' vs' e1 e2
      cases e1
      rw [h1] at e2
      cases e2
      cases vs with
      | nil => exact Or.inl rfl
      | cons a l => right; simpa using q
    · intro q
      cases vs with
      | nil => rfl
      | cons a l =>
        have := (q t (a :: l) rfl h1).resolve_left (by simp)
        simpa using this

/-- One element in the index. -/
theorem addElem_spec {E : Env K} {one : Bool} {var : ℕ} {idx idx' : ℤ → List ParamConf} {e : Elem} {m : Msg}
    (hone : (m.edition == 1) = one) (h : addElem E one var idx e = .ok idx') :
    ∃ L, idx' (toInt m.ids.1) = idx (toInt m.ids.1) ++ L ∧ (∀ pc ∈ L, pc.var = var) ∧
      ((∃ pc ∈ L, fits m pc = true) ↔ Belongs E one e m) := by
  unfold addElem at h
  have hid : getXmlProp e.props (idKey one) = attr e.props (if one then "indicatorOfParameter" else "parameterNumber") := attr_eq _ _
  rw [hid] at h
  by_cases h0 : attr e.props (if one then "indicatorOfParameter" else "parameterNumber") = ""
  · rw [if_pos h0] at h
    cases h
    exact ⟨[], by simp, by simp, by simpa using fun b : Belongs E one e m => b.number.1 h0⟩
  · rw [if_neg h0] at h
    obtain ⟨pc1, h1, h⟩ := bind_ok h
    obtain ⟨pc, h2, h⟩ := bind_ok h
    obtain ⟨id, h3, h⟩ := bind_ok h
    cases h
    obtain ⟨ev, el, es⟩ := entry h1 h2
    by_cases hn : toInt m.ids.1 = toInt id
    · refine ⟨[pc], by simp [hn], by simpa using ev, ?_⟩
      have hd := (toInt_eq id m.ids.1).1 hn.symm
      have hstep : hasString pc "stepType" m.stepType = true ↔
          (attr e.props "stepType" = "" ∨ E.split (attr e.props "stepType") = [] ∨ m.stepType ∈ E.split (attr e.props "stepType")) := by
        unfold hasString
        rw [es]
        by_cases hs : attr e.props "stepType" = ""
        · simp [hs]
        · rw [if_neg hs]
          simp only [hs, false_or]
          cases hq : E.split (attr e.props "stepType") with
          | nil => simp
          | cons a l => simp
      have hall : fits m pc = true ↔
          (((Admits E one e (if one then "gribTablesVersionNo" else "parameterCategory") m.ids.2.1 ∧
            Admits E one e (if one then "identificationOfOriginatingGeneratingCentre" else "discipline") m.ids.2.2) ∧
            Admits E one e "typeOfLevel" m.levelType ∧ Admits E one e "levelNo" m.levelNo ∧ Admits E one e "timeRangeIndicator" m.timeRange ∧
            Admits E one e "typeOfStatisticalProcessing" m.statistics) ∧ hasString pc "stepType" m.stepType = true ∧
            ∀ o ∈ m.other, Admits E one e o.1 o.2) := by
        unfold fits
        rw [hone]
        simp only [Bool.and_eq_true, List.all_eq_true]
        simp only [← hasLong_iff _ (el _)]
        cases one <;> simp only [pairKeys, if_true, if_false, Bool.false_eq_true, Bool.and_eq_true] <;> tauto
      rw [hstep] at hall
      simp only [List.mem_singleton, exists_eq_left]
      rw [hall]
      constructor
      · rintro ⟨⟨⟨a1, a2⟩, a3, a4, a5, a6⟩, a7, a8⟩
        exact ⟨⟨h0, id, h3, hd⟩, a1, a2, a3, a4, a5, a6, a7, a8⟩
      · intro b
        exact ⟨⟨⟨b.first, b.second⟩, b.levelType, b.levelNo, b.timeRange, b.statistics⟩, b.step, b.other⟩
    · refine ⟨[], by simp [hn], by simp, ?_⟩
      simp only [List.not_mem_nil, false_and, exists_false, false_iff]
      intro b
      obtain ⟨_, id', q1, q2⟩ := b.number
      rw [h3] at q1
      cases q1
      exact hn ((toInt_eq id m.ids.1).2 q2).symm

/-- The elements of a parameter in the index. -/
theorem addElems_spec {E : Env K} {one : Bool} {var : ℕ} {m : Msg} (hone : (m.edition == 1) = one) (es : List Elem) :
    ∀ {idx idx' : ℤ → List ParamConf}, es.foldlM (addElem E one var) idx = .ok idx' →
      ∃ L, idx' (toInt m.ids.1) = idx (toInt m.ids.1) ++ L ∧ (∀ pc ∈ L, pc.var = var) ∧
        ((∃ pc ∈ L, fits m pc = true) ↔ ∃ e ∈ es, Belongs E one e m) := by
  induction es with
  | nil => intro idx idx' h; cases h; exact ⟨[], by simp, by simp, by simp⟩
  | cons e es ih =>
    intro idx idx' h
    obtain ⟨c, h1, h2⟩ := foldlM_cons_ok h
    obtain ⟨L1, a1, a2, a3⟩ := addElem_spec hone h1
    obtain ⟨L2, b1, b2, b3⟩ := ih h2
    refine ⟨L1 ++ L2, by rw [b1, a1, List.append_assoc], ?_, ?_⟩
    · intro pc hp
      rcases List.mem_append.1 hp with hp | hp
      · exact a2 _ hp
      · exact b2 _ hp
    · simp only [List.mem_append, List.mem_cons]
      constructor
      · rintro ⟨pc, hp | hp, hf⟩
        · exact ⟨e, Or.inl rfl, a3.1 ⟨pc, hp, hf⟩⟩
        · obtain ⟨e', h', hb⟩ := b3.1 ⟨pc, hp, hf⟩
          exact ⟨e', Or.inr h', hb⟩
      · rintro ⟨e', rfl | h', hb⟩
        · obtain ⟨pc, hp, hf⟩ := a3.2 hb
          exact ⟨pc, Or.inl hp, hf⟩
        · obtain ⟨pc, hp, hf⟩ := b3.2 ⟨e', h', hb⟩
          exact ⟨pc, Or.inr hp, hf⟩

section
variable [Field K] [DecidableEq K]

/-- What is known of the index after some parameters. -/
def Good (E : Env K) (m : Msg) (c : Config K) (ps : List Param) : Prop :=
  c.vars.length = ps.length ∧
  (∀ i, findVariableConfig c m = some i ↔
    (∃ p, ps[i]? = some p ∧ ∃ e ∈ elems (m.edition == 1) p, Belongs E (m.edition == 1) e m) ∧
      ∀ j p, j < i → ps[j]? = some p → ∀ e ∈ elems (m.edition == 1) p, ¬ Belongs E (m.edition == 1) e m)

theorem good_step {E : Env K} {m : Msg} {c c' : Config K} {ps : List Param} {p : Param} (hg : Good E m c ps) (h : addParam E c p = .ok c') :
    Good E m c' (ps ++ [p]) ∧ ∃ v, readVar E p = .ok v ∧ c'.vars = c.vars ++ [v] := by
  unfold addParam at h
  obtain ⟨v, h1, h⟩ := bind_ok h
  obtain ⟨i1, h2, h⟩ := bind_ok h
  obtain ⟨i2, h3, h⟩ := bind_ok h
  cases h
  obtain ⟨hl, hf⟩ := hg
  refine ⟨⟨by simp [hl], ?_⟩, v, h1, rfl⟩
  have key : ∃ L, ((if m.edition = 1 then i1 else i2) (toInt m.ids.1)) = ((if m.edition = 1 then c.idx1 else c.idx2) (toInt m.ids.1)) ++ L ∧
      (∀ pc ∈ L, pc.var = c.vars.length) ∧
      ((∃ pc ∈ L, fits m pc = true) ↔ ∃ e ∈ elems (m.edition == 1) p, Belongs E (m.edition == 1) e m) := by
    by_cases he : m.edition = 1
    · have hone : (m.edition == 1) = true := by simpa using he
      rw [if_pos he, if_pos he, hone]
      exact addElems_spec hone p.grib1 h2
    · have hone : (m.edition == 1) = false := by simpa using he
      rw [if_neg he, if_neg he, hone]
      exact addElems_spec hone p.grib2 h3
  obtain ⟨L, k1, k2, k3⟩ := key
  have hfind : findVariableConfig ({ c with vars := c.vars ++ [v], idx1 := i1, idx2 := i2 } : Config K) m =
      (findVariableConfig c m).or ((L.find? (fits m)).map (·.var)) := by
    unfold findVariableConfig
    simp only
    rw [k1, List.find?_append]
    cases ((if m.edition = 1 then c.idx1 else c.idx2) (toInt m.ids.1)).find? (fits m) <;> simp
  intro i
  rw [hfind]
  have hnone : findVariableConfig c m = none → ∀ (j : ℕ) (q : Param), ps[j]? = some q → ∀ e ∈ elems (m.edition == 1) q, ¬ Belongs E (m.edition == 1) e m := by
    intro hn j
    induction j using Nat.strong_induction_on with
    | _ j ih =>
      intro q hq e he hb
      have := (hf j).2 ⟨⟨q, hq, e, he, hb⟩, fun j' q' hj hq' => ih j' hj q' hq'⟩
      rw [hn] at this
      cases this
  cases hc : findVariableConfig c m with
  | some i0 =>
    obtain ⟨⟨q, hq, hb⟩, hmin⟩ := (hf i0).1 hc
    have hi0 : i0 < ps.length := (List.getElem?_eq_some_iff.1 hq).1
    rw [Option.some_or]
    constructor
    · intro hi
      cases hi
      refine ⟨⟨q, by rw [List.getElem?_append_left hi0]; exact hq, hb⟩, fun j q' hj hq' => ?_⟩
      rw [List.getElem?_append_left (by omega)] at hq'
      exact hmin j q' hj hq'
    · rintro ⟨⟨q', hq', e', he', hb'⟩, hmin'⟩
      by_cases hlt : i < ps.length
      · rw [List.getElem?_append_left hlt] at hq'
        have := (hf i).2 ⟨⟨q', hq', e', he', hb'⟩, fun j r hj hr => hmin' j r hj (by
          rw [List.getElem?_append_left (List.getElem?_eq_some_iff.1 hr).1]; exact hr)⟩
        rw [← hc, this]
      · obtain ⟨e, he, hbe⟩ := hb
        exact absurd hbe (hmin' i0 q (by omega) (by rw [List.getElem?_append_left hi0]; exact hq) e he)
  | none =>
    have hno := hnone hc
    rw [Option.none_or]
    cases hL : L.find? (fits m) with
    | none =>
      simp only [Option.map_none, reduceCtorEq, false_iff]
      rintro ⟨⟨q', hq', e', he', hb'⟩, _⟩
      by_cases hlt : i < ps.length
      · rw [List.getElem?_append_left hlt] at hq'
        exact hno i q' hq' e' he' hb'
      · have hi : i = ps.length := by
          have := (List.getElem?_eq_some_iff.1 hq').1
          simp at this
          omega
        subst hi
        rw [List.getElem?_append_right le_rfl] at hq'
        simp at hq'
        subst hq'
        obtain ⟨pc, hp, hfit⟩ := k3.2 ⟨e', he', hb'⟩
        have := List.find?_eq_none.1 hL pc hp
        exact this hfit
    | some pc =>
      have hp := List.mem_of_find?_eq_some hL
      have hfit : fits m pc = true := by simpa using List.find?_some hL
      have hv : pc.var = ps.length := (k2 pc hp).trans hl
      have hbel := k3.1 ⟨pc, hp, hfit⟩
      simp only [Option.map_some, Option.some.injEq, hv]
      constructor
      · intro hi
        subst hi
        refine ⟨⟨p, by simp, hbel⟩, fun j q hj hq => ?_⟩
        rw [List.getElem?_append_left hj] at hq
        exact hno j q hq
      · rintro ⟨⟨q', hq', e', he', hb'⟩, hmin'⟩
        by_cases hlt : i < ps.length
        · rw [List.getElem?_append_left hlt] at hq'
          exact absurd hb' (hno i q' hq' e' he')
        · have := (List.getElem?_eq_some_iff.1 hq').1
          simp at this
          omega

theorem good_all {E : Env K} {m : Msg} (ps : List Param) : ∀ {c c' : Config K} {qs : List Param}, Good E m c qs → ps.foldlM (addParam E) c = .ok c' →
    Good E m c' (qs ++ ps) ∧ ∃ vs, ps.mapM (readVar E) = .ok vs ∧ c'.vars = c.vars ++ vs := by
  induction ps with
  | nil => intro c c' qs hg h; cases h; exact ⟨by simpa using hg, [], rfl, by simp⟩
  | cons p ps ih =>
    intro c c' qs hg h
    obtain ⟨c1, h1, h2⟩ := foldlM_cons_ok h
    obtain ⟨g1, v, hv, hc⟩ := good_step hg h1
    obtain ⟨g2, vs, hvs, hcs⟩ := ih g1 h2
    refine ⟨by simpa using g2, v :: vs, ?_, ?_⟩
    · rw [List.mapM_cons, hv, Res.ok_bind, hvs]
      rfl
    · rw [hcs, hc]
      simp

theorem good_config {E : Env K} {d : Doc} {c : Config K} (m : Msg) (h : configFromXML E d = .ok c) :
    Good E m c d.params ∧ d.params.mapM (readVar E) = .ok c.vars := by
  unfold configFromXML at h
  by_cases hr : d.roots = 1
  · rw [if_pos hr] at h
    obtain ⟨only, h1, h2⟩ := bind_ok h
    have g0 : Good E m ({ earth := readEarth d.earth, onlyDefined := only } : Config K) [] := by
      refine ⟨rfl, fun i => ?_⟩
      simp [findVariableConfig]
    obtain ⟨a, vs, b, e⟩ := good_all d.params g0 h2
    rw [List.nil_append] at a
    refine ⟨a, ?_⟩
    rw [b, e]
    rfl
  · rw [if_neg hr] at h
    cases h

/-! ## Theorems -/

/-- C122: a message gets the first parameter of the configuration, in the order of the document, that has an element the message belongs
to; of the other parameters nothing matters. -/
theorem C122_first_parameter {E : Env K} {d : Doc} {c : Config K} (h : configFromXML E d = .ok c) (m : Msg) (i : ℕ) :
    findVariableConfig c m = some i ↔
      (∃ p, d.params[i]? = some p ∧ ∃ e ∈ elems (m.edition == 1) p, Belongs E (m.edition == 1) e m) ∧
        ∀ j p, j < i → d.params[j]? = some p → ∀ e ∈ elems (m.edition == 1) p, ¬ Belongs E (m.edition == 1) e m :=
  (good_config m h).1.2 i

/-- C122: a message gets no parameter exactly if it belongs to no element. -/
theorem C122_no_parameter {E : Env K} {d : Doc} {c : Config K} (h : configFromXML E d = .ok c) (m : Msg) :
    findVariableConfig c m = none ↔ ∀ p ∈ d.params, ∀ e ∈ elems (m.edition == 1) p, ¬ Belongs E (m.edition == 1) e m := by
  have hf := C122_first_parameter h m
  constructor
  · intro hn p hp e he hb
    obtain ⟨j, hj⟩ := List.getElem?_of_mem hp
    have : ∀ (j : ℕ) (q : Param), d.params[j]? = some q → ∀ e ∈ elems (m.edition == 1) q, ¬ Belongs E (m.edition == 1) e m := by
      intro j
      induction j using Nat.strong_induction_on with
      | _ j ih =>
        intro q hq e he hb
        have := (hf j).2 ⟨⟨q, hq, e, he, hb⟩, fun j' q' hj hq' => ih j' hj q' hq'⟩
        rw [hn] at this
        cases this
    exact this j p hj e he hb
  · intro hn
    cases hc : findVariableConfig c m with
    | none => rfl
    | some i =>
      obtain ⟨⟨p, hp, e, he, hb⟩, _⟩ := (hf i).1 hc
      exact absurd hb (hn p (List.mem_of_getElem? hp) e he)

/-- C122: every parameter of the document becomes one variable, in order. -/
theorem C122_variables {E : Env K} {d : Doc} {c : Config K} (h : configFromXML E d = .ok c) : d.params.mapM (readVar E) = .ok c.vars :=
  (good_config ⟨0, (0, 0, 0), 0, 0, 0, 0, "", [], ""⟩ h).2

/-- C122: which messages are used: with `definedOnly` those that belong to some element of the document, otherwise all; a message with
parameter goes to the variable of that name, one without to a variable named after the message. -/
theorem C122_chosen {E : Env K} {d : Doc} {c : Config K} (h : configFromXML E d = .ok c) (m : Msg) :
    (chosen c m = none ↔ c.onlyDefined = true ∧ ∀ p ∈ d.params, ∀ e ∈ elems (m.edition == 1) p, ¬ Belongs E (m.edition == 1) e m) ∧
    (∀ i n, chosen c m = some (some i, n) → ∃ v, c.vars[i]? = some v ∧ n = some v.name) ∧
    (∀ n, chosen c m = some (none, n) → n = some ("ga_" ++ m.shortName ++ "_" ++ toString m.levelType)) := by
  refine ⟨?_, ?_, ?_⟩
  · rw [← C122_no_parameter h m]
    unfold chosen
    by_cases hq : c.onlyDefined = true ∧ findVariableConfig c m = none
    · simp only [hq, and_self, if_true]
    · simp only [hq, if_false, reduceCtorEq]
  · intro i n hc
    unfold chosen at hc
    simp only at hc
    split_ifs at hc
    rw [Option.some.injEq, Prod.mk.injEq] at hc
    obtain ⟨h1, h2⟩ := hc
    have hi := ((C122_first_parameter h m i).1 h1).1
    obtain ⟨p, hp, _⟩ := hi
    have hlt := (List.getElem?_eq_some_iff.1 hp).1
    have hl := (good_config m h).1.1
    refine ⟨c.vars[i], List.getElem?_eq_getElem (by omega), ?_⟩
    rw [← h2, h1]
    show Option.map (·.name) c.vars[i]? = _
    rw [List.getElem?_eq_getElem (by omega)]
    rfl
  · intro n hc
    unfold chosen at hc
    simp only at hc
    split_ifs at hc
    rw [Option.some.injEq, Prod.mk.injEq] at hc
    obtain ⟨h1, h2⟩ := hc
    rw [← h2, h1]
    rfl

/-- C122: documents that are refused: no or several roots, and an unknown selection. -/
theorem C122_refused (E : Env K) (d : Doc) :
    (d.roots ≠ 1 → configFromXML E d = .throws) ∧
    (∀ p l, d.select = p :: l → attr p "value" ≠ "definedOnly" → attr p "value" ≠ "all" → configFromXML E d = .throws) := by
  refine ⟨fun h => by unfold configFromXML; rw [if_neg h], fun p l hs h1 h2 => ?_⟩
  unfold configFromXML readSelect
  rw [hs]
  simp only [attr_eq, h1, h2, if_false]
  split_ifs <;> rfl

/-- C122: a restriction by a further key that the message does not have is not looked at, so the message belongs to the element whatever
the value asked for. -/
theorem C122_missing_key_not_looked_at (E : Env K) (one : Bool) (e : Elem) (x : Props) (m : Msg)
    (h1 : attr x "name" ∉ ["typeOfLevel", "levelNo", "timeRangeIndicator", "typeOfStatisticalProcessing", "gribTablesVersionNo",
      "identificationOfOriginatingGeneratingCentre", "parameterCategory", "discipline"])
    (h2 : ∀ o ∈ m.other, o.1 ≠ attr x "name") :
    Belongs E one { e with extra := e.extra ++ [x] } m ↔ Belongs E one e m := by
  have ht : ∀ k v, k ≠ attr x "name" → (Admits E one { e with extra := e.extra ++ [x] } k v ↔ Admits E one e k v) := by
    intro k v hk
    have : texts one { e with extra := e.extra ++ [x] } k = texts one e k := by
      unfold texts
      simp only [List.filter_append]
      have : [x].filter (fun x => decide (attr x "name" = k)) = [] := by simpa using fun q : attr x "name" = k => hk q.symm
      rw [this, List.append_nil]
    unfold Admits
    rw [this]
  simp only [List.mem_cons, List.not_mem_nil, or_false, not_or] at h1
  obtain ⟨q1, q2, q3, q4, q5, q6, q7, q8⟩ := h1
  have hf : ∀ v, Admits E one { e with extra := e.extra ++ [x] } (if one then "gribTablesVersionNo" else "parameterCategory") v ↔
      Admits E one e (if one then "gribTablesVersionNo" else "parameterCategory") v := by
    intro v
    refine ht _ v ?_
    cases one
    · exact fun q => q7 q.symm
    · exact fun q => q5 q.symm
  have hs : ∀ v, Admits E one { e with extra := e.extra ++ [x] } (if one then "identificationOfOriginatingGeneratingCentre" else "discipline") v ↔
      Admits E one e (if one then "identificationOfOriginatingGeneratingCentre" else "discipline") v := by
    intro v
    refine ht _ v ?_
    cases one
    · exact fun q => q8 q.symm
    · exact fun q => q6 q.symm
  constructor
  · intro b
    exact ⟨b.number, (hf _).1 b.first, (hs _).1 b.second, (ht _ _ fun q => q1 q.symm).1 b.levelType, (ht _ _ fun q => q2 q.symm).1 b.levelNo,
      (ht _ _ fun q => q3 q.symm).1 b.timeRange, (ht _ _ fun q => q4 q.symm).1 b.statistics, b.step,
      fun o ho => (ht _ _ (h2 o ho)).1 (b.other o ho)⟩
  · intro b
    exact ⟨b.number, (hf _).2 b.first, (hs _).2 b.second, (ht _ _ fun q => q1 q.symm).2 b.levelType, (ht _ _ fun q => q2 q.symm).2 b.levelNo,
      (ht _ _ fun q => q3 q.symm).2 b.timeRange, (ht _ _ fun q => q4 q.symm).2 b.statistics, b.step,
      fun o ho => (ht _ _ (h2 o ho)).2 (b.other o ho)⟩

/-! ### Variables of parameters -/

/-- The children of a kind. -/
def vectorsOf (cs : List Child) : List Props := cs.filterMap fun | .vector p => some p | _ => none
def precisionsOf (cs : List Child) : List Props := cs.filterMap fun | .precision p => some p | _ => none
def attributesOf (cs : List Child) : List Props := cs.filterMap fun | .listed p => some p | _ => none

/-- A text as number, with a default for the empty text. -/
def Reads (E : Env K) (dflt : K) (t : String) (x : K) : Prop := (t = "" ∧ x = dflt) ∨ (t ≠ "" ∧ E.real t = .ok x)

/-- The attributes for a scale factor and an offset, for types that are not floating point; 1 and 0 are left out. -/
def scaling (t : DataType) (so : K × K) : List (Attr (AVal K)) :=
  if t = .float ∨ t = .double then []
  else ([("scale_factor", so.1, (1 : K)), ("add_offset", so.2, 0)].filter fun x => x.2.1 ≠ x.2.2).map fun x => ⟨x.1, .num x.2.1⟩

theorem scaling_eq (t : DataType) (s o : K) : scaleAttributes t s o = scaling t (s, o) := by
  unfold scaleAttributes scaling
  by_cases ht : t = .float ∨ t = .double
  · rw [if_pos ht, if_pos ht]
  · rw [if_neg ht, if_neg ht]
    by_cases h1 : s = 1 <;> by_cases h2 : o = 0 <;> simp [h1, h2]

theorem vectors_spec (cs : List Child) : ∀ v : VarConf K, cs.foldl readVector v =
    match (vectorsOf cs).getLast? with
    | some p => { v with direction := attr p "direction", counterpart := attr p "counterpart" }
    | none => v := by
  induction cs with
  | nil => intro v; rfl
  | cons a cs ih =>
    intro v
    rw [List.foldl_cons, ih]
    cases a with
    | vector p =>
      have : vectorsOf (Child.vector p :: cs) = p :: vectorsOf cs := rfl
      rw [this]
      cases hl : vectorsOf cs with
      | nil => simp [readVector, attr_eq]
      | cons q l => rw [List.getLast?_cons_cons]; simp [List.getLast?_cons, readVector]
    | precision p => rfl
    | listed p => rfl

theorem readNumber_spec {E : Env K} {d x : K} {t : String} (h : readNumber E d t = .ok x) : Reads E d t x := by
  unfold readNumber at h
  by_cases ht : t = ""
  · rw [if_pos ht] at h
    cases h
    exact Or.inl ⟨ht, rfl⟩
  · rw [if_neg ht] at h
    exact Or.inr ⟨ht, h⟩

theorem precisions_spec {E : Env K} (cs : List Child) : ∀ {v w : VarConf K}, cs.foldlM (readPrecision E) v = .ok w →
    ∃ sos, List.Forall₂ (fun p so => Reads E 1 (attr p "scale_factor") (Prod.fst so) ∧ Reads E 0 (attr p "add_offset") (Prod.snd so))
        (precisionsOf cs) sos ∧
      w = { v with
        attributes := v.attributes ++ sos.flatMap (scaling v.type)
        scale := (sos.getLast?.getD (v.scale, v.offset)).1
        offset := (sos.getLast?.getD (v.scale, v.offset)).2 } := by
  induction cs with
  | nil => intro v w h; cases h; exact ⟨[], List.Forall₂.nil, by simp⟩
  | cons a cs ih =>
    intro v w h
    obtain ⟨c, h1, h2⟩ := foldlM_cons_ok h
    obtain ⟨sos, i1, i2⟩ := ih h2
    cases a with
    | vector p => cases h1; exact ⟨sos, i1, i2⟩
    | listed p => cases h1; exact ⟨sos, i1, i2⟩
    | precision p =>
      unfold readPrecision at h1
      obtain ⟨s, g1, h1⟩ := bind_ok h1
      obtain ⟨o, g2, h1⟩ := bind_ok h1
      cases h1
      rw [attr_eq] at g1 g2
      refine ⟨(s, o) :: sos, List.Forall₂.cons ⟨readNumber_spec g1, readNumber_spec g2⟩ i1, ?_⟩
      rw [i2]
      simp only [scaling_eq, List.flatMap_cons, List.append_assoc]
      cases sos with
      | nil => rfl
      | cons b l => rw [List.getLast?_cons_cons]; simp [List.getLast?_cons]

theorem attributes_spec {E : Env K} (cs : List Child) : ∀ {v w : VarConf K}, cs.foldlM (readAttribute E) v = .ok w →
    ∃ as, List.Forall₂ (fun p a => (Attr.name a) = attr p "name" ∧ E.value (attr p "type") (attr p "value") = .ok (Attr.value a))
        (attributesOf cs) as ∧ w = { v with attributes := v.attributes ++ as } := by
  induction cs with
  | nil => intro v w h; cases h; exact ⟨[], List.Forall₂.nil, by simp⟩
  | cons a cs ih =>
    intro v w h
    obtain ⟨c, h1, h2⟩ := foldlM_cons_ok h
    obtain ⟨as, i1, i2⟩ := ih h2
    cases a with
    | vector p => cases h1; exact ⟨as, i1, i2⟩
    | precision p => cases h1; exact ⟨as, i1, i2⟩
    | listed p =>
      unfold readAttribute at h1
      obtain ⟨x, g1, h1⟩ := bind_ok h1
      cases h1
      simp only [attr_eq] at g1 i2
      refine ⟨⟨attr p "name", x⟩ :: as, List.Forall₂.cons ⟨rfl, g1⟩ i1, ?_⟩
      rw [i2]
      simp

/-- C122: what a parameter says of its variable: the name, the type (double if not given), whether it has no time; direction and
counterpart of the last `spatial_vector`; factor and offset of the last `precision`, and both zero if there is none; the attributes for
every `precision`, then those listed. -/
theorem C122_variable {E : Env K} {p : Param} {v : VarConf K} (h : readVar E p = .ok v) :
    v.name = attr p.props "name" ∧
    v.type = (if attr p.props "type" = "" then .double else string2datatype (attr p.props "type").toList) ∧
    (v.constantTime = true ↔ attr p.props "constantTime" = "true") ∧
    (∀ q, (vectorsOf p.children).getLast? = some q → v.direction = attr q "direction" ∧ v.counterpart = attr q "counterpart") ∧
    (vectorsOf p.children = [] → v.direction = "" ∧ v.counterpart = "") ∧
    ∃ sos as, List.Forall₂ (fun p so => Reads E 1 (attr p "scale_factor") (Prod.fst so) ∧ Reads E 0 (attr p "add_offset") (Prod.snd so))
        (precisionsOf p.children) sos ∧
      List.Forall₂ (fun p a => (Attr.name a) = attr p "name" ∧ E.value (attr p "type") (attr p "value") = .ok (Attr.value a))
        (attributesOf p.children) as ∧
      v.attributes = sos.flatMap (scaling v.type) ++ as ∧ (v.scale, v.offset) = sos.getLast?.getD (0, 0) := by
  unfold readVar at h
  obtain ⟨w, h1, h2⟩ := bind_ok h
  obtain ⟨sos, a1, a2⟩ := precisions_spec _ h1
  obtain ⟨as, b1, b2⟩ := attributes_spec _ h2
  rw [vectors_spec] at a2
  have hn : (newVar p : VarConf K).name = attr p.props "name" := attr_eq _ _
  have ht : (newVar p : VarConf K).type = (if attr p.props "type" = "" then .double else string2datatype (attr p.props "type").toList) := by
    unfold newVar
    simp only [attr_eq]
  have hc : ((newVar p : VarConf K).constantTime = true ↔ attr p.props "constantTime" = "true") := by
    unfold newVar
    simp only [attr_eq, decide_eq_true_eq]
  rw [b2, a2]
  cases hv : (vectorsOf p.children).getLast? with
  | none =>
    have hnil : vectorsOf p.children = [] := List.getLast?_eq_none_iff.1 hv
    refine ⟨hn, ht, hc, ?_, fun _ => ⟨rfl, rfl⟩, sos, as, a1, b1, ?_, ?_⟩
    · intro q hq
      cases hq
    · simp [newVar]
    · simp [newVar]
  | some q =>
    refine ⟨hn, ht, hc, ?_, ?_, sos, as, a1, b1, ?_, ?_⟩
    · intro q' hq'
      cases hq'
      exact ⟨rfl, rfl⟩
    · intro hnil
      rw [hnil] at hv
      cases hv
    · simp [newVar]
    · simp [newVar]

/-! ### Variables of the dataset -/

theorem addAttrs_ok (as : List (Attr (AVal K))) : ∀ {l r : List (Attr (AVal K))}, addAttrs l as = .ok r → r = l ++ as ∧
    ((l.map (·.name)).Nodup → (r.map (·.name)).Nodup) := by
  induction as with
  | nil => intro l r h; cases h; simp
  | cons a as ih =>
    intro l r h
    unfold addAttrs at h
    by_cases hq : (l.any fun b => b.name == a.name) = true
    · rw [if_pos hq] at h
      cases h
    · rw [if_neg hq] at h
      obtain ⟨i1, i2⟩ := ih h
      refine ⟨by rw [i1]; simp, fun hn => i2 ?_⟩
      rw [List.map_append, List.nodup_append]
      refine ⟨hn, by simp, ?_⟩
      intro x hx y hy hxy
      simp only [List.map_cons, List.map_nil, List.mem_singleton] at hy
      subst hy
      obtain ⟨b, hb, rfl⟩ := List.mem_map.1 hx
      exact hq (List.any_eq_true.2 ⟨b, hb, by simpa using hxy⟩)

/-- C122: the dataset has the type and the attributes that were configured, then the projection, then coordinates if there are any; no name
is there twice. -/
theorem C122_declared {k : Kept K} {mapping coords : String} {d : Declared K} (h : declare k mapping coords = .ok d) :
    d.type = k.type ∧ (d.attributes.map (·.name)).Nodup ∧
    d.attributes = k.attributes ++ [⟨"grid_mapping", .text mapping⟩] ++ (if coords = "" then [] else [⟨"coordinates", .text coords⟩]) := by
  unfold declare at h
  obtain ⟨as, h1, h2⟩ := bind_ok h
  cases h2
  obtain ⟨a, b⟩ := addAttrs_ok _ h1
  exact ⟨rfl, b (by simp), by simpa using a⟩

/-- C122, violated: no variable of a GRIB dataset is ever a part of a vector. The counterpart is declared only if it is empty. -/
theorem C122_never_a_vector (replace : String → String) (c : Config K) (v : Option ℕ) (mapping coords : String) (d : Declared K)
    (h : (loadAndBuild replace c v mapping coords).2 = .ok d) : d.counterpart = "" := by
  unfold loadAndBuild declare at h
  simp only at h
  obtain ⟨as, _, h2⟩ := bind_ok h
  cases h2
  unfold declareVector
  split_ifs with hq
  · exact hq
  · rfl

/-- C122, violated: and a configured counterpart takes away the direction, too; a direction is declared only without counterpart. -/
theorem C122_direction_without_counterpart {k : Kept K} {mapping coords : String} {d : Declared K} (h : declare k mapping coords = .ok d) :
    d.direction = if k.counterpart = "" then directionOf k.direction else .none := by
  unfold declare at h
  obtain ⟨as, _, h2⟩ := bind_ok h
  cases h2
  unfold declareVector
  split_ifs <;> rfl

/-- C122, violated: templates in the attributes of a parameter are not replaced: the dataset gets the text of the configuration, whatever
the times. The configuration itself is changed, after the attributes were copied. -/
theorem C122_templates_stay (replace : String → String) (c : Config K) (i : ℕ) (v : VarConf K) (hv : c.vars[i]? = some v) (mapping coords : String)
    (d : Declared K) (h : (loadAndBuild replace c (some i) mapping coords).2 = .ok d) :
    (∀ a ∈ v.attributes, a ∈ d.attributes) ∧
    (loadAndBuild replace c (some i) mapping coords).1.vars[i]? =
      some { v with attributes := v.attributes.map fun a => match a.value with
        | .text s => ⟨a.name, .text (replace s)⟩
        | .num x => ⟨a.name, .num x⟩ } := by
  constructor
  · intro a ha
    unfold loadAndBuild at h
    have hk : ((some i).bind fun i => c.vars[i]?) = some v := hv
    simp only [hk] at h
    rw [(C122_declared h).2.2]
    exact List.mem_append_left _ (List.mem_append_left _ ha)
  · unfold loadAndBuild updateTemplates
    simp only [List.getElem?_map, hv, Option.map_some, Option.some.injEq]
    congr 1
    refine List.map_congr_left fun a _ => ?_
    unfold updateAttr
    obtain ⟨n, x⟩ := a
    cases x <;> rfl

/-- The value of an attribute that is a number. -/
def numberOf (as : List (Attr (AVal K))) (n : String) (dflt : K) : K :=
  match as.find? fun a => a.name = n with
  | some ⟨_, .num x⟩ => x
  | _ => dflt

theorem numberOf_skip (as bs : List (Attr (AVal K))) (n : String) (d : K) (h : ∀ a ∈ as, a.name ≠ n) :
    numberOf (as ++ bs) n d = numberOf bs n d := by
  unfold numberOf
  rw [List.find?_append]
  have : as.find? (fun a => decide (a.name = n)) = none := List.find?_eq_none.2 fun a ha => by simpa using h a ha
  rw [this, Option.none_or]

theorem numberOf_none (as : List (Attr (AVal K))) (n : String) (d : K) (h : ∀ a ∈ as, a.name ≠ n) : numberOf as n d = d := by
  have := numberOf_skip as [] n d h
  rw [List.append_nil] at this
  exact this

/-- C122: for a variable of whole numbers with one `precision` whose factor is not zero, and no attribute of these names besides, factor
and offset of the attributes give a value back from what is delivered. -/
theorem C122_scaling {E : Env K} {p : Param} {v : VarConf K} (h : readVar E p = .ok v) (hp : (precisionsOf p.children).length = 1)
    (ht : v.type ≠ .float ∧ v.type ≠ .double) (hs : v.scale ≠ 0)
    (ha : ∀ q ∈ attributesOf p.children, attr q "name" ≠ "scale_factor" ∧ attr q "name" ≠ "add_offset") (x : K) :
    packed (keep (some v)) x * numberOf v.attributes "scale_factor" 1 + numberOf v.attributes "add_offset" 0 = x := by
  obtain ⟨-, -, -, -, -, sos, as, f1, f2, e1, e2⟩ := C122_variable h
  have hl : sos.length = 1 := by rw [← f1.length_eq]; exact hp
  obtain ⟨so, rfl⟩ := List.length_eq_one_iff.1 hl
  obtain ⟨s, o⟩ := so
  simp only [List.getLast?_singleton, Option.getD_some, Prod.mk.injEq] at e2
  obtain ⟨es, eo⟩ := e2
  have hno : ∀ n, (n = "scale_factor" ∨ n = "add_offset") → ∀ a ∈ as, a.name ≠ n := by
    intro n hn a haa heq
    obtain ⟨j, hj⟩ := List.getElem?_of_mem haa
    have hjl := (List.getElem?_eq_some_iff.1 hj).1
    have hj2 : j < (attributesOf p.children).length := by rw [f2.length_eq]; exact hjl
    have hq := (List.forall₂_iff_get.1 f2).2 j hj2 hjl
    have : as.get ⟨j, hjl⟩ = a := (List.getElem?_eq_some_iff.1 hj).2
    rw [this] at hq
    have hm := ha _ (List.get_mem (attributesOf p.children) ⟨j, hj2⟩)
    rw [← hq.1, heq] at hm
    rcases hn with rfl | rfl
    · exact hm.1 rfl
    · exact hm.2 rfl
  have hsc : ∀ (d : K) n, (n = "scale_factor" ∨ n = "add_offset") → numberOf v.attributes n d = numberOf (scaling v.type (s, o)) n d := by
    intro d n hn
    rw [e1]
    simp only [List.flatMap_cons, List.flatMap_nil, List.append_nil]
    unfold numberOf
    rw [List.find?_append]
    have : as.find? (fun a => decide (a.name = n)) = none := List.find?_eq_none.2 fun a haa => by simpa using hno n hn a haa
    rw [this, Option.or_none]
  rw [hsc 1 _ (Or.inl rfl), hsc 0 _ (Or.inr rfl)]
  have hps : packed (keep (some v)) x = (x - o) / s := by
    unfold packed hasPrecision keep
    simp only
    rw [if_pos (by simpa using hs), es, eo]
  rw [hps]
  have hs' : s ≠ 0 := by rwa [← es]
  have hts : ¬ (v.type = .float ∨ v.type = .double) := by
    rintro (q | q)
    · exact ht.1 q
    · exact ht.2 q
  have n1 : numberOf (scaling v.type (s, o)) "scale_factor" 1 = s := by
    unfold numberOf scaling
    rw [if_neg hts]
    by_cases h1 : s = 1 <;> by_cases h2 : o = 0 <;> simp [h1, h2]
  have n2 : numberOf (scaling v.type (s, o)) "add_offset" 0 = o := by
    unfold numberOf scaling
    rw [if_neg hts]
    by_cases h1 : s = 1 <;> by_cases h2 : o = 0 <;> simp [h1, h2]
  rw [n1, n2]
  field_simp
  ring

/-- C122, violated: with factor zero the attribute says zero, and the data are not packed. -/
theorem C122_factor_zero {E : Env K} {p : Param} {v : VarConf K} (h : readVar E p = .ok v) (hp : (precisionsOf p.children).length = 1)
    (ht : v.type ≠ .float ∧ v.type ≠ .double) (hs : v.scale = 0) (x : K) :
    packed (keep (some v)) x = x ∧ (⟨"scale_factor", .num 0⟩ : Attr (AVal K)) ∈ v.attributes := by
  obtain ⟨-, -, -, -, -, sos, as, f1, f2, e1, e2⟩ := C122_variable h
  have hl : sos.length = 1 := by rw [← f1.length_eq]; exact hp
  obtain ⟨so, rfl⟩ := List.length_eq_one_iff.1 hl
  obtain ⟨s, o⟩ := so
  simp only [List.getLast?_singleton, Option.getD_some, Prod.mk.injEq] at e2
  obtain ⟨es, eo⟩ := e2
  constructor
  · unfold packed hasPrecision keep
    simp [hs]
  · rw [e1]
    refine List.mem_append_left _ ?_
    simp only [List.flatMap_cons, List.flatMap_nil, List.append_nil]
    have hts : ¬ (v.type = .float ∨ v.type = .double) := by
      rintro (q | q)
      · exact ht.1 q
      · exact ht.2 q
    unfold scaling
    rw [if_neg hts, ← es, hs]
    simp

/-- C122: an attribute that is listed twice ends the reading, as one that is listed and comes from `precision`. -/
theorem C122_twice (k : Kept K) (mapping coords : String) (h : ¬ (k.attributes.map (·.name)).Nodup) (d : Declared K) :
    declare k mapping coords ≠ .ok d := by
  intro hd
  obtain ⟨-, hn, he⟩ := C122_declared hd
  rw [he, List.map_append, List.map_append, List.append_assoc] at hn
  exact h (List.nodup_append.1 hn).1

end

/-! ## Examples -/

/-- Functions for the examples. -/
def exEnv : Env ℚ where
  longs t := if t = "105" then .ok [105] else if t = "2,10" then .ok [2, 10] else if t = "1" then .ok [1] else .throws
  long t := if t = "33" then .ok 33 else if t = "11" then .ok 11 else .throws
  real t := if t = "0.1" then .ok (1 / 10) else if t = "273" then .ok 273 else if t = "0" then .ok 0 else .throws
  split t := [t]
  value t v := if t = "String" then .ok (.text v) else .throws

/-- The document of the examples. -/
def exDoc : Doc where
  roots := 1
  earth := []
  select := [[("value", "definedOnly")]]
  params := [
    ⟨[("name", "x_wind_10m"), ("type", "short")],
      [.vector [("direction", "x"), ("counterpart", "y_wind_10m")], .precision [("scale_factor", "0.1")],
        .listed [("name", "long_name"), ("type", "String"), ("value", "wind until %MAX_DATETIME%")]],
      [⟨[("indicatorOfParameter", "33"), ("typeOfLevel", "105"), ("levelNo", "2,10")], []⟩], []⟩,
    ⟨[("name", "x_wind")], [], [⟨[("indicatorOfParameter", "33")], [[("name", "localKey"), ("value", "1")]]⟩], []⟩]

/-- A message of wind. -/
def exMsg (level : ℤ) (other : List (String × ℤ)) : Msg := ⟨1, (33, 1, 88), 105, level, 0, 0, "instant", other, "10u"⟩

/-- The configuration is read: the first message gets the first parameter, one at another level the second, and none if its key differs. -/
example : (match configFromXML exEnv exDoc with
    | .ok c => [findVariableConfig c (exMsg 10 []), findVariableConfig c (exMsg 80 []), findVariableConfig c (exMsg 80 [("localKey", 2)])]
    | _ => []) = [some 0, some 1, none] := by decide +kernel

/-- That one is skipped. -/
example : (match configFromXML exEnv exDoc with
    | .ok c => [(chosen c (exMsg 80 [("localKey", 2)])).isNone, (chosen c (exMsg 80 [("localKey", 1)])).isNone]
    | _ => []) = [true, false] := by decide +kernel

/-- The variables. -/
example : (match configFromXML exEnv exDoc with
    | .ok c => c.vars.map fun v => (v.name, v.type)
    | _ => []) = [("x_wind_10m", .short), ("x_wind", .double)] := by decide +kernel

/-- The variable of the wind: a vector was configured, the dataset has none, and the template stays. -/
example : (match configFromXML exEnv exDoc with
    | .ok c => (match (loadAndBuild (fun _ => "wind until 2026") c (some 0) "projection_1" "").2 with
      | .ok d => some (d.counterpart, d.direction, d.attributes)
      | _ => none)
    | _ => none) = some ("", .none, [⟨"scale_factor", .num (1 / 10)⟩, ⟨"long_name", .text "wind until %MAX_DATETIME%"⟩,
      ⟨"grid_mapping", .text "projection_1"⟩]) := by decide +kernel

/-- The counterpart had been read. -/
example : (match configFromXML exEnv exDoc with
    | .ok c => c.vars.map fun v => (v.counterpart, v.direction, v.scale, v.offset)
    | _ => []) = [("y_wind_10m", "x", 1 / 10, 0), ("", "", 0, 0)] := by decide +kernel

/-- The hypotheses of `C122_scaling`, with an offset. -/
example : (match readVar exEnv ⟨[("name", "t"), ("type", "short")], [.precision [("scale_factor", "0.1"), ("add_offset", "273")]], [], []⟩ with
    | .ok v => some (v.scale, v.type, packed (keep (some v)) 283, numberOf v.attributes "scale_factor" 1, numberOf v.attributes "add_offset" 0)
    | _ => none) = some (1 / 10, .short, 100, 1 / 10, 273) := by decide +kernel

/-- And of `C122_factor_zero`. -/
example : (match readVar exEnv ⟨[("name", "t"), ("type", "short")], [.precision [("scale_factor", "0")]], [], []⟩ with
    | .ok v => some (v.scale, packed (keep (some v)) 283, v.attributes)
    | _ => none) = some (0, 283, [⟨"scale_factor", .num 0⟩]) := by decide +kernel

end Fimex.GribConfig
