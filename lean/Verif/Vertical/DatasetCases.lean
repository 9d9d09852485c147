import Verif.Vertical.DatasetReads

/-!
# C107: datasets with new levels, exceptions and cases
-/

namespace Fimex.NewLevels

open Cdm Cf CoordSys

variable {V CS Pr K : Type} {L : Lib V Pr} {mk : String → V} {r : CDM (Data K) V CS} {S : List (System Pr)}

/-! ## Exceptions -/

theorem addAttribute_vars (c : CDM (Data K) V CS) (n : String) (a : Attr V) : (addAttribute c n a).1.vars = c.vars ∧ (addAttribute c n a).2 ≠ .ub := by
  unfold addAttribute
  simp only
  split
  · exact ⟨rfl, by simp⟩
  · split <;> exact ⟨rfl, by simp⟩

theorem setShape_get (c : CDM (Data K) V CS) {n m : String} (h : m ≠ n) (sh : List String) : getVariable (setShape c m sh) n = getVariable c n := by
  have : (setShape c m sh).vars.find? (fun v => v.name == n) = c.vars.find? fun v => v.name == n := by
    unfold setShape
    simp only
    induction c.vars with
    | nil => rfl
    | cons v l ih =>
      rw [List.map_cons]
      by_cases hv : v.name = n
      · have hm : v.name ≠ m := fun e => h (e.symm.trans hv)
        rw [if_neg hm, List.find?_cons_of_pos (by simpa using hv), List.find?_cons_of_pos (by simpa using hv)]
      · rw [List.find?_cons_of_neg (by split <;> simpa using hv), List.find?_cons_of_neg (by simpa using hv), ih]
  unfold getVariable
  rw [this]

/-- A variable that is not of the system is not changed, and nothing is undefined. -/
theorem replaceZ_keeps {s : System Pr} {a : Axis} {d : String} (ha : geoZ s = some a) (hd : a.shape = [d]) (z : String) {n m : String}
    (hn : m ≠ n ∨ isCSAndCompleteFor s m = false) (c : CDM (Data K) V CS) :
    getVariable (replaceZ L mk s z m c).1 n = getVariable c n ∧ (replaceZ L mk s z m c).2 ≠ .ub := by
  unfold replaceZ
  by_cases hc : isCSAndCompleteFor s m = false
  · rw [if_pos hc]
    exact ⟨rfl, by simp⟩
  · have hne : m ≠ n := hn.resolve_right hc
    rw [if_neg hc, ha]
    simp only [hd]
    cases hg : getVariable c m with
    | ok v =>
      simp only
      split
      · have key := setShape_get c hne (v.shape.replace d z)
        split
        · obtain ⟨h1, h2⟩ := addAttribute_vars (removeAttribute (setShape c m (v.shape.replace d z)) m "coordinates") m
            ⟨"coordinates", mk (String.ofList (dropWord a.name.toList none (L.text (by assumption : Attr V).value).toList))⟩
          refine ⟨?_, h2⟩
          rw [← key]
          unfold getVariable
          rw [h1]
          rfl
        · exact ⟨key, by simp⟩
      · exact ⟨rfl, by simp⟩
    | throws => exact ⟨rfl, by simp⟩
    | ub => exact absurd hg (by unfold getVariable; split <;> simp)

theorem replaceAll_keeps {s : System Pr} {a : Axis} {d : String} (ha : geoZ s = some a) (hd : a.shape = [d]) (z : String) {n : String}
    (hn : isCSAndCompleteFor s n = false) : ∀ (ns : List String) (c : CDM (Data K) V CS),
    getVariable (replaceAll L mk s z ns c).1 n = getVariable c n ∧ (replaceAll L mk s z ns c).2 ≠ .ub
  | [], c => ⟨rfl, by simp [replaceAll]⟩
  | m :: ns, c => by
    have h := replaceZ_keeps (L := L) (mk := mk) ha hd z (n := n) (m := m)
      (by by_cases e : m = n
          · exact Or.inr (e ▸ hn)
          · exact Or.inl e) c
    unfold replaceAll
    rcases e : replaceZ L mk s z m c with ⟨c1, o⟩
    rw [e] at h
    cases o with
    | ok u =>
      have := replaceAll_keeps ha hd z hn ns c1
      exact ⟨this.1.trans h.1, this.2⟩
    | throws => exact ⟨h.1, by simp [andThen]⟩
    | ub => exact absurd rfl h.2

theorem replaceAll_refuses {s : System Pr} {a : Axis} {d : String} (ha : geoZ s = some a) (hd : a.shape = [d]) (z : String) {n : String} {v : Var (Data K)}
    (hn : isCSAndCompleteFor s n = true) (hv : d ∉ v.shape) : ∀ (ns : List String) (c : CDM (Data K) V CS), n ∈ ns → getVariable c n = .ok v →
    (replaceAll L mk s z ns c).2 = .throws
  | [], c, h, _ => by cases h
  | m :: ns, c, h, hg => by
    unfold replaceAll
    by_cases hmn : m = n
    · subst hmn
      have : replaceZ L mk s z m c = (c, .throws) := by
        unfold replaceZ
        rw [if_neg (by rw [hn]; decide), ha]
        simp only [hd, hg]
        rw [if_neg hv]
      rw [this]
      rfl
    · have hk := replaceZ_keeps (L := L) (mk := mk) ha hd z (Or.inl hmn) c
      have hm : n ∈ ns := by
        rcases List.mem_cons.1 h with h | h
        · exact absurd h.symm hmn
        · exact h
      rcases e : replaceZ L mk s z m c with ⟨c1, o⟩
      rw [e] at hk
      cases o with
      | ok u => exact replaceAll_refuses ha hd z hn hv ns c1 hm (hk.1.trans hg)
      | throws => rfl
      | ub => exact absurd rfl hk.2

theorem removeVariable_get (c : CDM (Data K) V CS) {n m : String} (h : m ≠ n) : getVariable (removeVariable c m) n = getVariable c n := by
  have : (removeVariable c m).vars.find? (fun v => v.name == n) = c.vars.find? fun v => v.name == n := by
    unfold removeVariable
    simp only
    induction c.vars with
    | nil => rfl
    | cons v l ih =>
      by_cases hv : v.name = n
      · have hm : v.name ≠ m := fun e => h (e.symm.trans hv)
        rw [List.filter_cons_of_pos (by simpa using hm), List.find?_cons_of_pos (by simpa using hv), List.find?_cons_of_pos (by simpa using hv)]
      · by_cases hm : v.name = m
        · rw [List.filter_cons_of_neg (by simpa using hm), ih, List.find?_cons_of_neg (by simpa using hv)]
        · rw [List.filter_cons_of_pos (by simpa using hm), List.find?_cons_of_neg (by simpa using hv), List.find?_cons_of_neg (by simpa using hv), ih]
  unfold getVariable
  rw [this]

theorem fixedLoop_refuses {s : System Pr} {a : Axis} {d : String} (ha : geoZ s = some a) (hd : a.shape = [d]) {n : String} {v : Var (Data K)}
    (hn : isCSAndCompleteFor s n = true) (hv : d ∉ v.shape) (hr : n ∈ r.vars.map (·.name)) (S2 : List (System Pr)) :
    ∀ (S1 : List (System Pr)) (st : State V CS Pr K), simpleZ st.cdm s = true → getVariable st.cdm n = .ok v →
    (∀ t ∈ S1, simpleZ st.cdm t = true → ∃ b e, geoZ t = some b ∧ b.shape = [e] ∧ b.name ≠ n ∧ isCSAndCompleteFor t n = false) →
    (fixedLoop L mk r (S1 ++ s :: S2) st).2 = .throws := by
  intro S1
  induction S1 with
  | nil =>
    intro st hs hg _
    rw [List.nil_append]
    unfold fixedLoop
    rw [if_pos hs]
    have h := replaceAll_refuses (L := L) (mk := mk) ha hd st.vAxis hn hv (r.vars.map (·.name)) st.cdm hr hg
    rcases e : replaceAll L mk s st.vAxis (r.vars.map (·.name)) st.cdm with ⟨c1, o⟩
    rw [e] at h
    have h : o = .throws := h
    subst h
    simp only [e]
    rfl
  | cons t S1 ih =>
    intro st hs hg hall
    rw [List.cons_append]
    unfold fixedLoop
    by_cases ht : simpleZ st.cdm t = true
    · rw [if_pos ht]
      obtain ⟨b, e, hb, hbs, hbn, hbc⟩ := hall t List.mem_cons_self ht
      have hk := replaceAll_keeps (L := L) (mk := mk) hb hbs st.vAxis hbc (r.vars.map (·.name)) st.cdm
      have hdim := replaceAll_dims (L := L) (mk := mk) t st.vAxis (r.vars.map (·.name)) st.cdm
      rcases e : replaceAll L mk t st.vAxis (r.vars.map (·.name)) st.cdm with ⟨c1, o⟩
      rw [e] at hk hdim
      cases o with
      | throws => simp only [e]; rfl
      | ub => exact absurd rfl hk.2
      | ok u =>
        cases u
        simp only [e, andThen_run, hb]
        have hdim' : (removeVariable c1 b.name).dims = st.cdm.dims := hdim
        refine ih { st with cdm := removeVariable c1 b.name, changed := st.changed ++ [t] } ?_ ?_ fun t' ht' hts => ?_
        · rw [← hs]; exact simpleZ_congr hdim' s
        · show getVariable (removeVariable c1 b.name) n = _
          rw [removeVariable_get _ hbn, hk.1, hg]
        · exact hall t' (List.mem_cons_of_mem _ ht') (by rw [← hts]; exact (simpleZ_congr hdim' t').symm)
    · rw [if_neg ht]
      exact ih st hs hg fun t' ht' => hall t' (List.mem_cons_of_mem _ ht')

/-- **C107.** A variable of a system that does not have the dimension of the vertical axis: an exception. -/
theorem C107_refused (hi : Inv r) {kind method : String} {k : Kind} {m : Method} {st : State V CS Pr K}
    (hst : start r kind method = .ok (k, m, st)) (levels : List K)
    (haxes : ∀ s ∈ S, ∀ a, geoZ s = some a → a.isExplicit = true → ∀ d ∈ a.shape, d ∈ r.dims.map (·.name))
    {S1 S2 : List (System Pr)} {s : System Pr} (hS : S = S1 ++ s :: S2) {a : Axis} {d : String} (hs : SimpleZ r s a d)
    {v : Var (Data K)} (hv : v ∈ r.vars) (h1 : v.name ∈ s.isFor) (h2 : v.name ∈ s.complete) (hd : d ∉ v.shape)
    (hbefore : ∀ t ∈ S1, ∀ b e, SimpleZ r t b e → b.name ≠ v.name ∧ (v.name ∈ t.isFor → v.name ∉ t.complete)) :
    (toFixed L mk r S k levels st).2 = .throws := by
  obtain ⟨-, -, rfl⟩ := ((C107_start r kind method).1 k m st).1 hst
  unfold toFixed
  cases hn : Names.findUniqueDimVarName (r.vars.map (·.name)) (r.dims.map (·.name)) (baseName k) with
  | throws => rfl
  | ub => exact absurd hn (Names.C45_fresh_dim_var_name _ _ _).2.2
  | ok n =>
    obtain ⟨f1, f2, -⟩ := (Names.C45_fresh_dim_var_name _ _ _).1 n hn
    obtain ⟨c0, e0, g1, g2, g3, g4⟩ := newAxis_run (mk := mk) hi k hn levels { r with vars := r.vars.map fun v => { v with payload := none } } rfl
    simp only [e0, andThen_run]
    have hnd : (c0.dims.map (·.name)).Nodup := by
      rw [g1, List.map_append, List.nodup_append]
      refine ⟨hi.dims, by simp, fun a ha b hb => ?_⟩
      have hb : b = n := by simpa using hb
      rw [hb]
      exact fun e => f2 (e ▸ ha)
    have hback : ∀ t ∈ S, ∀ b e, SimpleZ c0 t b e → SimpleZ r t b e := by
      intro t ht b e h
      refine ⟨h.z, h.x, h.y, h.explicit, h.shape, ?_⟩
      obtain ⟨x, hx, hxn, hxl⟩ := h.long
      rw [g1] at hx
      rcases List.mem_append.1 hx with hx | hx
      · exact ⟨x, hx, hxn, hxl⟩
      · have hx : x = ⟨n, levels.length, false⟩ := by simpa using hx
        rw [hx] at hxn
        exact absurd (haxes t ht b h.z h.explicit e (by rw [h.shape]; simp)) (by rw [← hxn]; exact f2)
    rw [hS]
    refine fixedLoop_refuses (n := v.name) (v := { v with payload := none }) hs.z hs.shape ((complete_iff s v.name).2 ⟨h1, h2⟩) hd
      (List.mem_map_of_mem hv) S2 S1 _ ?_ ?_ fun t ht hts => ?_
    · show simpleZ c0 s = true
      rw [simpleZ_iff hnd]
      obtain ⟨x, hx, hxn, hxl⟩ := hs.long
      exact ⟨a, d, hs.z, hs.x, hs.y, hs.explicit, hs.shape, x, by rw [g1]; exact List.mem_append_left _ hx, hxn, hxl⟩
    · have hnd0 : (c0.vars.map (·.name)).Nodup := by
        rw [g2, List.map_append, List.map_map, List.nodup_append]
        refine ⟨hi.vars, by simp, fun x hx y hy => ?_⟩
        have hy : y = n := by simpa using hy
        rw [hy]
        exact fun e => f1 (e ▸ hx)
      exact find_edited (v := { v with payload := none }) hnd0 (edited_start L mk n c0)
        (by rw [g2]; exact List.mem_append_left _ (List.mem_map.2 ⟨v, hv, rfl⟩)) rfl (by simp) rfl
    · obtain ⟨b, e, hb⟩ := (simpleZ_iff hnd t).1 hts
      have hb' := hback t (by rw [hS]; exact List.mem_append_left _ ht) b e hb
      obtain ⟨q1, q2⟩ := hbefore t ht b e hb'
      refine ⟨b, e, hb.z, hb.shape, q1, ?_⟩
      by_contra hcon
      rw [Bool.not_eq_false, complete_iff] at hcon
      exact q2 hcon.1 hcon.2

/-! ## Cases -/

/-- A dataset for the cases. -/
def made (dims : List (String × Nat)) (vars : List (String × List String × List (String × String))) : CDM (Data ℕ) String Unit where
  attrs n := (vars.find? fun v => v.1 == n).map fun v => v.2.2.map fun a => ⟨a.1, a.2⟩
  vars := vars.map fun v => ⟨v.1, v.2.1, none⟩
  dims := dims.map fun d => ⟨d.1, d.2, false⟩
  coordsInitialized := false
  coordSystems := ()

theorem made_inv {dims : List (String × Nat)} {vars : List (String × List String × List (String × String))} (h1 : (vars.map (·.1)).Nodup)
    (h2 : (dims.map (·.1)).Nodup) (h3 : ∀ v ∈ vars, (v.2.2.map (·.1)).Nodup) : Inv (made dims vars) := by
  refine ⟨by simpa [made, Function.comp_def] using h1, by simpa [made, Function.comp_def] using h2, fun n l hl => ?_, fun n hn => ?_⟩
  · obtain ⟨v, hv, rfl⟩ := Option.map_eq_some_iff.1 hl
    simpa [Function.comp_def] using h3 v (List.mem_of_find?_eq_some hv)
  · right
    rw [hasVariable_iff]
    cases hf : vars.find? fun v => v.1 == n with
    | none => exact absurd (by simp [made, hf]) hn
    | some v =>
      have : v.1 = n := by simpa using List.find?_some hf
      refine List.mem_map.2 ⟨⟨v.1, v.2.1, none⟩, List.mem_map.2 ⟨v, List.mem_of_find?_eq_some hf, rfl⟩, this⟩

/-- A temperature on three levels with time, a humidity on two other levels, and a pressure. -/
def levelCdm (coordinates : String) : CDM (Data ℕ) String Unit :=
  made [("x", 3), ("y", 4), ("lev", 3), ("lev2", 2), ("time", 2)]
    [("x", ["x"], [("axis", "X")]), ("y", ["y"], [("axis", "Y")]), ("lev", ["lev"], [("axis", "Z")]), ("lev2", ["lev2"], [("units", "hPa")]),
     ("time", ["time"], [("units", "hours")]),
     ("T", ["x", "y", "lev", "time"], [("coordinates", coordinates), ("units", "K")]),
     ("H", ["x", "y", "lev2"], [("units", "1")]), ("P", ["x", "y"], [])]

/-- What is shown of a state. -/
structure Shown where
  dims : List (String × ℕ)
  vars : List (String × List String × List (String × String))
deriving DecidableEq

/-- A dataset as shown. -/
def shown (c : CDM (Data ℕ) String Unit) : Shown :=
  ⟨c.dims.map fun d => (d.name, d.length), c.vars.map fun v => (v.name, v.shape, (getAttributes c v.name).map fun a => (a.name, a.value))⟩

/-- A call on a new interpolator: whether it returns, and the dataset. -/
def tried (c : CDM (Data ℕ) String Unit) (kind : String)
    (f : List (System String) → Kind → State String Unit String ℕ → State String Unit String ℕ × Res Unit) : Option (Bool × Shown) :=
  match listCF Cf.toyLib c, start c kind "linear" with
  | .ok S, .ok (k, _, st) =>
    match f S k st with
    | (st, .ok ()) => some (true, shown st.cdm)
    | (st, .throws) => some (false, shown st.cdm)
    | (_, .ub) => none
  | _, _ => none

/-- Two fixed heights. -/
theorem C107_example : tried (levelCdm "lev") "height" (fun S k st => toFixed Cf.toyLib id (levelCdm "lev") S k [10, 20] st) = some (true,
    { dims := [("x", 3), ("y", 4), ("lev", 3), ("lev2", 2), ("time", 2), ("height", 2)]
      vars :=
        [("x", ["x"], [("axis", "X")]), ("y", ["y"], [("axis", "Y")]), ("time", ["time"], [("units", "hours")]),
         ("T", ["x", "y", "height", "time"], [("units", "K"), ("coordinates", "")]),
         ("H", ["x", "y", "height"], [("units", "1")]), ("P", ["x", "y"], []),
         ("height", ["height"], [("units", "m"), ("positive", "up"), ("long_name", "height above ground")])] }) := by decide +kernel

/-- The levels of `H` for `T`. -/
theorem C107_axis_example : tried (levelCdm "lev") "height" (fun S _ st => toAxis Cf.toyLib id (levelCdm "lev") S "lev2" st) = some (true,
    { dims := [("x", 3), ("y", 4), ("lev", 3), ("lev2", 2), ("time", 2)]
      vars :=
        [("x", ["x"], [("axis", "X")]), ("y", ["y"], [("axis", "Y")]), ("lev2", ["lev2"], [("units", "hPa")]), ("time", ["time"], [("units", "hours")]),
         ("T", ["x", "y", "lev2", "time"], [("units", "K"), ("coordinates", "")]),
         ("H", ["x", "y", "lev2"], [("units", "1")]), ("P", ["x", "y"], [])] }) := by decide +kernel

/-- The levels of `H` as template; the axis of `T` stays. -/
theorem C107_template_example : tried (levelCdm "lev") "pressure" (fun S _ st => toTemplate Cf.toyLib id (levelCdm "lev") S "H" st) = some (true,
    { dims := [("x", 3), ("y", 4), ("lev", 3), ("lev2", 2), ("time", 2)]
      vars :=
        [("x", ["x"], [("axis", "X")]), ("y", ["y"], [("axis", "Y")]), ("lev", ["lev"], [("axis", "Z")]),
         ("lev2", ["lev2"], [("units", "hPa")]), ("time", ["time"], [("units", "hours")]),
         ("T", ["x", "y", "lev2", "time"], [("units", "K"), ("coordinates", "")]),
         ("H", ["x", "y", "lev2"], [("units", "1")]), ("P", ["x", "y"], [])] }) := by decide +kernel

/-- The dataset meets the assumptions of the theorems. -/
theorem C107_example_fits : Inv (levelCdm "lev") ∧ ShapesExist (levelCdm "lev") ∧
    ∃ S, listCF Cf.toyLib (levelCdm "lev") = .ok S ∧ Fits (levelCdm "lev") S := by
  have hi : Inv (levelCdm "lev") := made_inv (by decide +kernel) (by decide +kernel) (by decide +kernel)
  refine ⟨hi, ?_, ?_⟩
  · show ∀ v ∈ (levelCdm "lev").vars, ∀ s ∈ v.shape, ∃ d ∈ (levelCdm "lev").dims, d.name = s
    decide +kernel
  · cases hl : listCF Cf.toyLib (levelCdm "lev") with
    | ok S =>
      refine ⟨S, rfl, C107_cf hi (fun n hn => ?_) hl ?_ fun v hv n hn hd => ?_⟩
      · have : ∀ n ∈ allAxesNames Cf.toyLib (levelCdm "lev"), n ≠ "" ∧ ',' ∉ n.toList := by decide +kernel
        exact this n (mem_allAxesNames.2 hn)
      · decide +kernel
      · have : ∀ v ∈ (levelCdm "lev").vars, ∀ n ∈ coordinateNames Cf.toyLib (levelCdm "lev") v.name, n ∈ v.shape := by decide +kernel
        exact this v hv n (mem_coordinateNames.2 hn)
    | throws =>
      exact absurd (show (match listCF Cf.toyLib (levelCdm "lev") with | .ok _ => true | _ => false) = true from by decide +kernel)
        (by rw [hl]; decide)
    | ub =>
      exact absurd (show (match listCF Cf.toyLib (levelCdm "lev") with | .ok _ => true | _ => false) = true from by decide +kernel)
        (by rw [hl]; decide)

/-! ## Violations -/

/-- Levels of an axis that does not exist: the call returns, and the dataset has shapes without dimension. -/
theorem C107_axis_unknown :
    (tried (levelCdm "lev") "height" fun S _ st => toAxis Cf.toyLib id (levelCdm "lev") S "none" st).map
      (fun p => (p.1, p.2.dims.map (·.1), (p.2.vars.find? fun v => v.1 = "T").map (·.2.1))) =
    some (true, ["x", "y", "lev", "lev2", "time"], some ["x", "y", "none", "time"]) := by decide +kernel

/-- The name of the axis is also removed from inside of another name: the coordinate `lev-a` is now called `-a`. -/
theorem C107_coordinates_cut :
    (tried (levelCdm "lev-a") "height" fun S k st => toFixed Cf.toyLib id (levelCdm "lev-a") S k [10, 20] st).map
      (fun p => (p.1, (p.2.vars.find? fun v => v.1 = "T").map (·.2.2))) =
    some (true, some [("units", "K"), ("coordinates", "-a")]) := by decide +kernel

/-- A vertical axis named as coordinate of a variable without that dimension: the call raises, and leaves a dataset
with the new axis and some of the variables changed. -/
theorem C107_half_changed :
    let c := made [("x", 3), ("y", 4), ("lev", 3)]
      [("x", ["x"], [("axis", "X")]), ("y", ["y"], [("axis", "Y")]), ("lev", ["lev"], [("axis", "Z")]), ("T", ["x", "y", "lev"], []),
       ("P", ["x", "y"], [("coordinates", "lev")])]
    (tried c "height" fun S k st => toFixed Cf.toyLib id c S k [10, 20] st).map (fun p => (p.1, p.2.vars.map fun v => (v.1, v.2.1))) =
    some (false, [("x", ["x"]), ("y", ["y"]), ("lev", ["lev"]), ("T", ["x", "y", "height"]), ("P", ["x", "y"]), ("height", ["height"])]) := by
  decide +kernel

end Fimex.NewLevels
