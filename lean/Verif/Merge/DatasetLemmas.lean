import Verif.Merge.DatasetModel

/-!
# Lemmas on merged datasets
-/

namespace Fimex.Merged

open Cdm CoordSys Cf

variable {P V CS Pr α : Type}

theorem getDimension_ok {c : CDM P V CS} {n : String} (h : ∃ d ∈ c.dims, d.name = n) :
    ∃ d, getDimension c n = .ok d ∧ lengthOf c n = some d.length := by
  unfold getDimension lengthOf
  cases hf : c.dims.find? fun d => d.name == n with
  | none =>
    obtain ⟨d, hd, e⟩ := h
    have := List.find?_eq_none.1 hf d hd
    simp [e] at this
  | some d =>
    refine ⟨d, rfl, ?_⟩
    simp only [Option.map_some]

theorem getDimension_none {c : CDM P V CS} {n : String} (h : ¬ ∃ d ∈ c.dims, d.name = n) : getDimension c n = .throws := by
  unfold getDimension
  cases hf : c.dims.find? fun d => d.name == n with
  | none => rfl
  | some d => exact absurd ⟨d, List.mem_of_find?_eq_some hf, by simpa using List.find?_some hf⟩ h

theorem getVariable_ok {c : CDM P V CS} {n : String} (h : hasVariable c n = true) :
    ∃ v, getVariable c n = .ok v ∧ v ∈ c.vars ∧ v.name = n := by
  unfold getVariable
  cases hf : c.vars.find? fun d => d.name == n with
  | none =>
    obtain ⟨v, hv, e⟩ := List.mem_map.1 ((hasVariable_iff c n).1 h)
    have := List.find?_eq_none.1 hf v hv
    simp [e] at this
  | some v => exact ⟨v, rfl, List.mem_of_find?_eq_some hf, by simpa using List.find?_some hf⟩

/-! ## Shapes -/

/-- A dimension as the comparison of shapes sees it (C66). -/
def dimOf (c : CDM P V CS) (s : System Pr) (n : String) : Shapes.Dim :=
  ⟨(lengthOf c n).getD 0, (geoX s).any fun a => n == a.name, (geoY s).any fun a => n == a.name⟩

theorem hop_eq {c : CDM P V CS} (s : System Pr) : ∀ {sh : List String}, (∀ n ∈ sh, ∃ d ∈ c.dims, d.name = n) →
    ∃ l, hop c sh = .ok l ∧ l.map (dimOf c s) = Shapes.hop (sh.map (dimOf c s)) ∧ ∀ n ∈ l, n ∈ sh
  | [], _ => ⟨[], rfl, rfl, fun _ h => h⟩
  | n :: sh, h => by
    obtain ⟨d, h1, h2⟩ := getDimension_ok (h n (by simp))
    obtain ⟨l, i1, i2, i3⟩ := hop_eq s (sh := sh) fun m hm => h m (List.mem_cons_of_mem _ hm)
    unfold hop
    rw [h1, Res.ok_bind, List.map_cons]
    unfold Shapes.hop
    have e : (dimOf c s n).length = d.length := by simp [dimOf, h2]
    rw [e]
    by_cases hd : d.length = 1
    · rw [if_pos hd, if_pos hd]
      exact ⟨l, i1, i2, fun m hm => List.mem_cons_of_mem _ (i3 m hm)⟩
    · rw [if_neg hd, if_neg hd]
      exact ⟨n :: sh, rfl, rfl, fun _ h => h⟩

theorem checkDim_eq {cB cT : CDM P V CS} {sB sT : System Pr} {b t : String}
    (hx : (geoX sB).isSome ∧ (geoX sT).isSome ∧ (geoY sB).isSome ∧ (geoY sT).isSome)
    (hb : ∃ d ∈ cB.dims, d.name = b) (ht : ∃ d ∈ cT.dims, d.name = t) :
    checkDim cB cT sB sT b t = .ok (
      if (dimOf cB sB b).geoX ≠ (dimOf cT sT t).geoX ∨ (dimOf cB sB b).geoY ≠ (dimOf cT sT t).geoY then false
      else if ((dimOf cB sB b).geoX || (dimOf cB sB b).geoY) = false ∧ (dimOf cB sB b).length ≠ (dimOf cT sT t).length then false
      else true) := by
  obtain ⟨h1, h2, h3, h4⟩ := hx
  obtain ⟨xB, e1⟩ := Option.isSome_iff_exists.1 h1
  obtain ⟨xT, e2⟩ := Option.isSome_iff_exists.1 h2
  obtain ⟨yB, e3⟩ := Option.isSome_iff_exists.1 h3
  obtain ⟨yT, e4⟩ := Option.isSome_iff_exists.1 h4
  obtain ⟨dB, g1, g2⟩ := getDimension_ok hb
  obtain ⟨dT, g3, g4⟩ := getDimension_ok ht
  unfold checkDim dimOf
  rw [e1, e2, e3, e4]
  simp only [Option.any_some, g1, g3, g2, g4, Res.ok_bind, Option.getD_some]
  by_cases c1 : (b == xB.name) ≠ (t == xT.name) ∨ (b == yB.name) ≠ (t == yT.name)
  · rw [if_pos c1, if_pos c1]
  · rw [if_neg c1, if_neg c1]
    cases hxy : (b == xB.name || b == yB.name) with
    | true => simp
    | false =>
      simp only [Bool.not_false, if_true, true_and]
      by_cases hl : dB.length = dT.length <;> simp [hl]

theorem checkShapes_eq {cB cT : CDM P V CS} {sB sT : System Pr}
    (hx : (geoX sB).isSome ∧ (geoX sT).isSome ∧ (geoY sB).isSome ∧ (geoY sT).isSome) : ∀ (fuel : ℕ) (shB shT : List String),
    (∀ n ∈ shB, ∃ d ∈ cB.dims, d.name = n) → (∀ n ∈ shT, ∃ d ∈ cT.dims, d.name = n) →
    checkShapes cB cT sB sT fuel shB shT = .ok (Shapes.compatibleLoop fuel (shB.map (dimOf cB sB)) (shT.map (dimOf cT sT)))
  | _, [], shT, _, _ => by cases ‹ℕ› <;> simp [checkShapes, Shapes.compatibleLoop]
  | _, b :: shB, [], _, _ => by cases ‹ℕ› <;> simp [checkShapes, Shapes.compatibleLoop]
  | 0, b :: shB, t :: shT, _, _ => by simp [checkShapes, Shapes.compatibleLoop]
  | fuel + 1, b :: shB, t :: shT, hB, hT => by
    obtain ⟨l, l1, l2, l3⟩ := hop_eq sB hB
    obtain ⟨m, m1, m2, m3⟩ := hop_eq sT hT
    unfold checkShapes
    rw [l1, Res.ok_bind, m1, Res.ok_bind, List.map_cons, List.map_cons]
    unfold Shapes.compatibleLoop
    rw [← List.map_cons, ← List.map_cons, ← l2, ← m2]
    cases l with
    | nil => cases m <;> rfl
    | cons b' l =>
      cases m with
      | nil => rfl
      | cons t' m =>
        rw [List.map_cons, List.map_cons]
        dsimp only
        rw [checkDim_eq hx (hB b' (l3 _ (by simp))) (hT t' (m3 _ (by simp))), Res.ok_bind]
        have ih := checkShapes_eq hx fuel l m (fun n hn => hB n (l3 n (List.mem_cons_of_mem _ hn))) (fun n hn => hT n (m3 n (List.mem_cons_of_mem _ hn)))
        by_cases h1 : (dimOf cB sB b').geoX ≠ (dimOf cT sT t').geoX ∨ (dimOf cB sB b').geoY ≠ (dimOf cT sT t').geoY
        · rw [if_pos h1, if_pos h1]; rfl
        · rw [if_neg h1, if_neg h1]
          by_cases h2 : ((dimOf cB sB b').geoX || (dimOf cB sB b').geoY) = false ∧ (dimOf cB sB b').length ≠ (dimOf cT sT t').length
          · rw [if_pos h2, if_pos h2]; rfl
          · rw [if_neg h2, if_neg h2]; exact ih

/-! ## Axes -/

/-- Two axes that are looked at fit: the same length, or only one of them with length one. -/
inductive AxisFits : Option ℕ → Option ℕ → Prop
  | none : AxisFits none none
  | same (n : ℕ) : AxisFits (some n) (some n)
  | second : AxisFits none (some 1)
  | first : AxisFits (some 1) none

/-- The length of an axis of a type, if there is one. -/
def lengthOfType (c : CDM P V CS) (s : System Pr) (t : AxisType) : Option ℕ :=
  (findAxisOfType s.axes t).bind fun a => lengthOf c a.name

/-- The axes of the types are dimensions. -/
def AxesAreDims (c : CDM P V CS) (s : System Pr) (ts : List AxisType) : Prop :=
  ∀ t ∈ ts, ∀ a, findAxisOfType s.axes t = some a → ∃ d ∈ c.dims, d.name = a.name

theorem axisLength_eq {c : CDM P V CS} {a : Option Axis} (h : ∀ b, a = some b → ∃ d ∈ c.dims, d.name = b.name) :
    ∃ l, a.bind (fun b => lengthOf c b.name) = l ∧ axisLength c a = .ok (match l with | none => -2 | some n => (n : ℤ)) := by
  cases a with
  | none => exact ⟨none, rfl, rfl⟩
  | some b =>
    obtain ⟨d, h1, h2⟩ := getDimension_ok (h b rfl)
    refine ⟨some d.length, h2, ?_⟩
    show (getDimension c b.name >>= fun d => Res.ok (d.length : ℤ)) = _
    rw [h1]
    rfl

theorem checkAxis_ok {cB cT : CDM P V CS} {aB aT : Option Axis} (hB : ∀ b, aB = some b → ∃ d ∈ cB.dims, d.name = b.name)
    (hT : ∀ b, aT = some b → ∃ d ∈ cT.dims, d.name = b.name) :
    ∃ r, checkAxis cB cT aB aT = .ok r ∧
      (r = true ↔ AxisFits (aB.bind fun a => lengthOf cB a.name) (aT.bind fun a => lengthOf cT a.name)) := by
  obtain ⟨b, b1, b2⟩ := axisLength_eq hB
  obtain ⟨t, t1, t2⟩ := axisLength_eq hT
  unfold checkAxis
  rw [b2, Res.ok_bind, t2, Res.ok_bind, b1, t1]
  refine ⟨_, rfl, ?_⟩
  cases b with
  | none =>
    cases t with
    | none => simp; exact .none
    | some t =>
      dsimp only
      by_cases ht : t = 1
      · subst ht; simp; exact .second
      · rw [if_neg (by omega), if_neg (by omega), if_pos (by omega)]
        simp only [Bool.false_eq_true, false_iff]
        intro h; cases h; exact ht rfl
  | some b =>
    cases t with
    | none =>
      dsimp only
      by_cases ht : b = 1
      · subst ht; simp; exact .first
      · rw [if_neg (by omega), if_neg (by omega), if_pos (by omega)]
        simp only [Bool.false_eq_true, false_iff]
        intro h; cases h; exact ht rfl
    | some t =>
      dsimp only
      by_cases ht : b = t
      · subst ht
        rw [if_neg (by omega), if_neg (by omega), if_neg (by omega)]
        simp only [true_iff]
        exact .same b
      · rw [if_pos (by omega)]
        simp only [Bool.false_eq_true, false_iff]
        intro h; cases h; exact ht rfl

theorem checkAxes_ok {cB cT : CDM P V CS} {sB sT : System Pr} : ∀ {ts : List AxisType}, AxesAreDims cB sB ts → AxesAreDims cT sT ts →
    ∃ r, checkAxes cB cT sB sT ts = .ok r ∧ (r = true ↔ ∀ t ∈ ts, AxisFits (lengthOfType cB sB t) (lengthOfType cT sT t))
  | [], _, _ => ⟨true, rfl, by simp⟩
  | t :: ts, hB, hT => by
    obtain ⟨r, r1, r2⟩ := checkAxis_ok (hB t (by simp)) (hT t (by simp))
    obtain ⟨q, q1, q2⟩ := checkAxes_ok (cB := cB) (cT := cT) (sB := sB) (sT := sT) (ts := ts) (fun u hu => hB u (List.mem_cons_of_mem _ hu))
      (fun u hu => hT u (List.mem_cons_of_mem _ hu))
    unfold checkAxes
    rw [r1, Res.ok_bind]
    cases r with
    | false =>
      refine ⟨false, rfl, ?_⟩
      simp only [Bool.false_eq_true, false_iff] at r2 ⊢
      exact fun h => r2 (h t (by simp))
    | true =>
      refine ⟨q, q1, ?_⟩
      rw [q2, List.forall_mem_cons]
      exact ⟨fun h => ⟨r2.1 rfl, h⟩, fun h => h.2⟩

/-! ## Editing -/

theorem removeOthers_spec (kept : List String) : ∀ (names : List String) (c : CDM P V CS),
    (removeOthers kept c names).vars = c.vars.filter (fun v => ¬ (v.name ∈ names ∧ v.name ∉ kept)) ∧
    (removeOthers kept c names).dims = c.dims ∧
    (∀ n, (removeOthers kept c names).attrs n = if n ∈ names ∧ n ∉ kept then none else c.attrs n)
  | [], c => by simp [removeOthers]
  | m :: names, c => by
    have hstep : removeOthers kept c (m :: names) = removeOthers kept (if kept.contains m then c else removeVariable c m) names := rfl
    rw [hstep]
    obtain ⟨h1, h2, h3⟩ := removeOthers_spec kept names (if kept.contains m then c else removeVariable c m)
    rw [h1, h2]
    by_cases hm : m ∈ kept
    · have e : (if kept.contains m then c else removeVariable c m) = c := if_pos (by simpa using hm)
      refine ⟨?_, by rw [e], fun n => ?_⟩
      · rw [e]
        refine List.filter_congr fun v _ => ?_
        simp only [List.mem_cons, decide_eq_decide]
        constructor
        · rintro h ⟨rfl | h', h''⟩
          · exact h'' hm
          · exact h ⟨h', h''⟩
        · exact fun h h' => h ⟨.inr h'.1, h'.2⟩
      · rw [h3 n, e]
        by_cases hn : n ∈ kept
        · rw [if_neg (by tauto), if_neg (by tauto)]
        · have : n ≠ m := fun e => hn (e ▸ hm)
          simp [this]
    · have e : (if kept.contains m then c else removeVariable c m) = removeVariable c m := if_neg (by simpa using hm)
      refine ⟨?_, by rw [e]; rfl, fun n => ?_⟩
      · rw [e]
        show (c.vars.filter fun v => !(v.name == m)).filter _ = _
        rw [List.filter_filter]
        refine List.filter_congr fun v _ => ?_
        by_cases hv : v.name = m
        · simp [hv, hm]
        · simp [hv]
      · rw [h3 n, e]
        show (if _ then none else if n = m then none else c.attrs n) = _
        by_cases hn : n = m
        · subst hn; simp [hm]
        · simp [hn]

theorem addDims_spec : ∀ (l : List Dim) (c : CDM P V CS), (l.map (·.name)).Nodup →
    ∃ c', addDims l c = .ok c' ∧ c'.vars = c.vars ∧ c'.attrs = c.attrs ∧ c'.dims = c.dims ++ l.filter (fun d => d.name ∉ c.dims.map (·.name))
  | [], c, _ => ⟨c, rfl, rfl, rfl, by simp⟩
  | d :: l, c, h => by
    rw [List.map_cons, List.nodup_cons] at h
    unfold addDims
    by_cases hd : d.name ∈ c.dims.map (·.name)
    · obtain ⟨c', h1, h2, h3, h4⟩ := addDims_spec l c h.2
      rw [if_neg (by rw [(hasDimension_iff c d.name).2 hd]; decide)]
      exact ⟨c', h1, h2, h3, by rw [h4, List.filter_cons_of_neg (by simpa using hd)]⟩
    · have hf : hasDimension c d.name = false := by
        rw [Bool.eq_false_iff]; exact fun h => hd ((hasDimension_iff _ _).1 h)
      have hf' : hasDimension { c with coordsInitialized := false } d.name = false := hf
      rw [if_pos (by rw [hf]; rfl)]
      unfold addDimension
      simp only [hf', Bool.not_false, if_true]
      obtain ⟨c', h1, h2, h3, h4⟩ := addDims_spec l { c with coordsInitialized := false, dims := c.dims ++ [d] } h.2
      refine ⟨c', h1, h2, h3, ?_⟩
      rw [h4, List.filter_cons_of_pos (by simpa using hd), List.append_assoc, List.singleton_append]
      congr 2
      refine List.filter_congr fun e he => ?_
      simp only [List.map_append, List.mem_append, decide_eq_decide]
      have : e.name ≠ d.name := fun hc => h.1 (hc ▸ List.mem_map_of_mem he)
      simp [this]

theorem addVars_spec {inner outer : CDM P V CS} (ho : Inv outer) : ∀ (l : List (Var P)) (c : CDM P V CS), (l.map (·.name)).Nodup →
    (∀ v ∈ l, v.name ∉ inner.vars.map (·.name) → hasVariable c v.name = false ∧ c.attrs v.name = none) →
    ∃ c', addVars inner outer l c = .ok c' ∧ c'.dims = c.dims ∧
      c'.vars = c.vars ++ l.filter (fun v => v.name ∉ inner.vars.map (·.name)) ∧
      (∀ n, getAttributes c' n =
        if n ∈ l.map (·.name) ∧ n ∉ inner.vars.map (·.name) then getAttributes outer n else getAttributes c n)
  | [], c, _, _ => ⟨c, rfl, rfl, by simp, by simp⟩
  | v :: l, c, h, hc => by
    rw [List.map_cons, List.nodup_cons] at h
    unfold addVars
    by_cases hv : v.name ∈ inner.vars.map (·.name)
    · obtain ⟨c', h1, h2, h3, h4⟩ := addVars_spec ho (inner := inner) l c h.2 (fun w hw => hc w (List.mem_cons_of_mem _ hw))
      rw [if_neg (by rw [(hasVariable_iff inner v.name).2 hv]; decide)]
      refine ⟨c', h1, h2, by rw [h3, List.filter_cons_of_neg (by simpa using hv)], fun n => ?_⟩
      rw [h4 n]
      by_cases hn : n ∈ inner.vars.map (·.name)
      · rw [if_neg (by tauto), if_neg (by tauto)]
      · have : n ≠ v.name := fun e => hn (e ▸ hv)
        simp only [List.map_cons, List.mem_cons, this, false_or]
    · have hf : hasVariable inner v.name = false := by
        rw [Bool.eq_false_iff]; exact fun h => hv ((hasVariable_iff _ _).1 h)
      obtain ⟨g1, g2⟩ := hc v (by simp) hv
      have g1' : hasVariable { c with coordsInitialized := false } v.name = false := g1
      rw [if_pos (by rw [hf]; rfl)]
      unfold addVariable
      simp only [g1', Bool.not_false, if_true, done, Res.ok_bind]
      obtain ⟨c1, e1, e2, e3, -, e4, e5, -⟩ := addAttributes_ok v.name (getAttributes outer v.name)
        { c with coordsInitialized := false, vars := c.vars ++ [v] } (.inr (by simp [hasVariable]))
        (by
          have : getAttributes { c with coordsInitialized := false, vars := c.vars ++ [v] } v.name = [] := by
            simp [getAttributes, g2]
          rw [this, List.nil_append]
          exact nodup_getAttributes outer ho v.name)
      rw [e1]
      simp only [Res.ok_bind]
      have e5' : ∀ m, m ≠ v.name → c1.attrs m = c.attrs m := e5
      have e4' : getAttributes c1 v.name = getAttributes outer v.name := by
        rw [e4]
        simp [getAttributes, g2]
      obtain ⟨c', h1, h2, h3, h4⟩ := addVars_spec ho (inner := inner) l c1 h.2 (fun w hw hw' => by
        obtain ⟨k1, k2⟩ := hc w (List.mem_cons_of_mem _ hw) hw'
        have hne : w.name ≠ v.name := fun e => h.1 (e ▸ List.mem_map_of_mem hw)
        refine ⟨?_, by rw [e5' _ hne]; exact k2⟩
        rw [Bool.eq_false_iff] at k1 ⊢
        intro hh
        rw [hasVariable_iff, e2] at hh
        simp only [List.map_append, List.mem_append, List.map_cons, List.map_nil, List.mem_singleton] at hh
        rcases hh with hh | hh
        · exact k1 ((hasVariable_iff _ _).2 hh)
        · exact hne hh)
      refine ⟨c', h1, by rw [h2, e3], ?_, fun n => ?_⟩
      · rw [h3, e2, List.filter_cons_of_pos (by simpa using hv)]
        simp
      · rw [h4 n]
        by_cases hn : n = v.name
        · subst hn
          rw [if_neg (fun hh => h.1 hh.1), if_pos ⟨by simp, hv⟩]
          exact e4'
        · simp only [List.map_cons, List.mem_cons, hn, false_or]
          split
          · rfl
          · show (c1.attrs n).getD [] = (c.attrs n).getD []
            rw [e5' n hn]

theorem compatibleNames_ok {cI cO : CDM P V CS} {sysI sysO : List (System Pr)} : ∀ {l r : List String},
    compatibleNames cI cO sysI sysO l = .ok r →
    r.Sublist l ∧ (∀ n ∈ l, ∃ b, isCompatible cI cO sysI sysO n = .ok b ∧ (n ∈ r ↔ b = true))
  | [], r, h => by
    cases h
    exact ⟨List.Sublist.slnil, by simp⟩
  | n :: l, r, h => by
    unfold compatibleNames at h
    obtain ⟨b, hb, h⟩ := Res.bind_eq_ok.1 h
    obtain ⟨q, hq, h⟩ := Res.bind_eq_ok.1 h
    obtain ⟨i1, i2⟩ := compatibleNames_ok hq
    cases h
    have key : ∀ m, isCompatible cI cO sysI sysO m = .ok true → m = n → b = true := by
      rintro m hm rfl
      rw [hb] at hm
      exact Res.ok.inj hm
    refine ⟨by cases b <;> simp [i1], fun m hm => ?_⟩
    by_cases hmn : m = n
    · subst hmn
      refine ⟨b, hb, ?_⟩
      cases b with
      | true => simp
      | false =>
        simp only [Bool.false_eq_true, if_false, iff_false]
        intro hq'
        obtain ⟨b', hb', hiff⟩ := i2 m (i1.subset hq')
        rw [hb] at hb'
        cases hb'
        exact absurd (hiff.1 hq') (by simp)
    · obtain ⟨b', hb', hiff⟩ := i2 m (by simpa [hmn] using hm)
      refine ⟨b', hb', ?_⟩
      rw [← hiff]
      cases b <;> simp [hmn]

end Fimex.Merged
