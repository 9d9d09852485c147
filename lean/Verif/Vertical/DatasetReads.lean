import Verif.Vertical.DatasetProps
import Verif.CoordSys.CfProps

/-!
# C107: datasets with new levels, the calls
-/

namespace Fimex.NewLevels

open Cdm Cf CoordSys

variable {V CS Pr K : Type} {L : Lib V Pr} {mk : String → V} {r : CDM (Data K) V CS} {S : List (System Pr)}

/-! ## Choices -/

/-- The types, with the name of the new axis and its attributes. -/
def kinds : List (String × Kind × String × List (String × String)) :=
  [("pressure", .pressure, "pressure", [("units", "hPa")]),
   ("height", .height, "height", [("units", "m"), ("positive", "up"), ("long_name", "height above ground")]),
   ("altitude", .altitude, "height_above_msl", [("units", "m"), ("positive", "up"), ("standard_name", "height_above_msl")]),
   ("depth", .depth, "depth", [("units", "m"), ("positive", "down")])]

/-- The methods. -/
def methods : List (String × Method) :=
  [("linear", .lin), ("linear_weak_extra", .linWeakExtra), ("linear_no_extra", .linNoExtra), ("linear_const_extra", .linConstExtra),
   ("log", .log), ("loglog", .loglog), ("nearestneighbor", .nn)]

theorem kindOf_iff (s : String) (k : Kind) : kindOf s = .ok k ↔ (s, k, baseName k, axisAttributes k) ∈ kinds := by
  unfold kindOf kinds
  cases k <;> simp only [baseName, axisAttributes, List.mem_cons, Prod.mk.injEq, List.not_mem_nil, or_false] <;>
    by_cases h1 : s = "pressure" <;> by_cases h2 : s = "height" <;> by_cases h3 : s = "altitude" <;> by_cases h4 : s = "depth" <;> simp_all

theorem methodOf_iff (s : String) (m : Method) : methodOf s = .ok m ↔ (s, m) ∈ methods := by
  unfold methodOf methods
  cases m <;> simp only [List.mem_cons, Prod.mk.injEq, List.not_mem_nil, or_false] <;>
    by_cases h1 : s = "linear" <;> by_cases h2 : s = "linear_weak_extra" <;> by_cases h3 : s = "linear_no_extra" <;>
    by_cases h4 : s = "linear_const_extra" <;> by_cases h5 : s = "log" <;> by_cases h6 : s = "loglog" <;> by_cases h7 : s = "nearestneighbor" <;> simp_all

/-- **C107.** The four types and the seven methods are accepted, and everything else is refused.  The first dataset is the one of the reader,
without data. -/
theorem C107_start (r : CDM (Data K) V CS) (kind method : String) :
    (∀ k m st, start (Pr := Pr) r kind method = .ok (k, m, st) ↔
      (∃ b a, (kind, k, b, a) ∈ kinds) ∧ (method, m) ∈ methods ∧
        st = { cdm := { r with vars := r.vars.map fun v => { v with payload := none } } }) ∧
    (((∀ k b a, (kind, k, b, a) ∉ kinds) ∨ ∀ m, (method, m) ∉ methods) → start (Pr := Pr) r kind method = .throws) := by
  have hk : ∀ k b a, (kind, k, b, a) ∈ kinds → kindOf kind = .ok k := by
    intro k b a h
    unfold kinds at h
    simp only [List.mem_cons, Prod.mk.injEq, List.not_mem_nil, or_false] at h
    rcases h with ⟨rfl, rfl, -⟩ | ⟨rfl, rfl, -⟩ | ⟨rfl, rfl, -⟩ | ⟨rfl, rfl, -⟩ <;> rfl
  constructor
  · intro k m st
    unfold start
    constructor
    · intro h
      obtain ⟨k', h1, h⟩ := Res.bind_eq_ok.1 h
      obtain ⟨m', h2, h⟩ := Res.bind_eq_ok.1 h
      cases h
      exact ⟨⟨_, _, (kindOf_iff _ _).1 h1⟩, (methodOf_iff _ _).1 h2, rfl⟩
    · rintro ⟨⟨b, a, h1⟩, h2, rfl⟩
      rw [hk k b a h1, (methodOf_iff _ _).2 h2]
      rfl
  · intro h
    unfold start
    cases e1 : kindOf kind with
    | ok k =>
      rcases h with h | h
      · exact absurd ((kindOf_iff _ _).1 e1) (h _ _ _)
      · cases e2 : methodOf method with
        | ok m => exact absurd ((methodOf_iff _ _).1 e2) (h m)
        | throws => rfl
        | ub => exfalso; unfold methodOf at e2; revert e2; repeat' split
                all_goals (intro e2; cases e2)
    | throws => rfl
    | ub => exfalso; unfold kindOf at e1; revert e1; repeat' split
            all_goals (intro e1; cases e1)

/-! ## The new axis -/

theorem addAll_run (mk : String → V) (n : String) : ∀ (as : List (String × String)) (c : CDM (Data K) V CS), hasVariable c n = true →
    (∀ a ∈ as, ∀ b ∈ getAttributes c n, b.name ≠ a.1) → (as.map (·.1)).Nodup →
    ∃ c', addAll mk n as c = (c', .ok ()) ∧ c'.dims = c.dims ∧ c'.vars = c.vars ∧ (∀ m, m ≠ n → c'.attrs m = c.attrs m) ∧
      getAttributes c' n = getAttributes c n ++ as.map fun a => ⟨a.1, mk a.2⟩ := by
  intro as
  induction as with
  | nil => intro c _ _ _; exact ⟨c, rfl, rfl, rfl, fun _ _ => rfl, by simp⟩
  | cons a as ih =>
    intro c hv hn hnd
    rw [List.map_cons, List.nodup_cons] at hnd
    have e : ∃ c1, addAttribute c n ⟨a.1, mk a.2⟩ = (c1, .ok ()) ∧ c1.dims = c.dims ∧ c1.vars = c.vars ∧ (∀ m, m ≠ n → c1.attrs m = c.attrs m) ∧
        getAttributes c1 n = getAttributes c n ++ [⟨a.1, mk a.2⟩] := by
      unfold addAttribute
      simp only
      have hv' : hasVariable { c with coordsInitialized := false } n = true := hv
      rw [if_neg (by rw [hv']; simp), if_neg]
      · refine ⟨_, rfl, rfl, rfl, fun m hm => ?_, ?_⟩
        · simp [hm]
        · simp [getAttributes]
      · simp only [getAttributes, if_true, Option.getD_some]
        intro h
        obtain ⟨b, hb, hbn⟩ := List.any_eq_true.1 h
        exact hn a List.mem_cons_self b hb (by simpa using hbn)
    obtain ⟨c1, e1, hd, hvs, ho, hga⟩ := e
    obtain ⟨c2, e2, hd2, hv2, ho2, hg2⟩ := ih c1 (by unfold hasVariable; rw [hvs]; exact hv) (fun a' ha' b hb => by
        rw [hga] at hb
        rcases List.mem_append.1 hb with hb | hb
        · exact hn a' (List.mem_cons_of_mem _ ha') b hb
        · have hb : b = ⟨a.1, mk a.2⟩ := by simpa using hb
          subst hb
          intro e
          have e : a.1 = a'.1 := e
          exact hnd.1 (e ▸ List.mem_map_of_mem ha')) hnd.2
    refine ⟨c2, ?_, hd2.trans hd, hv2.trans hvs, fun m hm => (ho2 m hm).trans (ho m hm), ?_⟩
    · unfold addAll
      rw [e1, andThen_run, e2]
    · rw [hg2, hga]
      simp

theorem not_global (k : Kind) (t : String) : baseName k ++ t ≠ globalNS := by
  intro h
  have := congrArg (fun s => s.toList.head?) h
  simp only [String.toList_append] at this
  cases k <;> simp [baseName, globalNS] at this

/-- The dataset of the reader with the new axis. -/
theorem newAxis_run (hi : Inv r) (k : Kind) {n : String} (hn : Names.findUniqueDimVarName (r.vars.map (·.name)) (r.dims.map (·.name)) (baseName k) = .ok n)
    (levels : List K) (c : CDM (Data K) V CS) (hc : c = { r with vars := r.vars.map fun v => { v with payload := none } }) :
    ∃ c', (andThen (addDimension c ⟨n, levels.length, false⟩) fun c =>
        andThen (addVariable c ⟨n, [n], some levels⟩) (addAll mk n (axisAttributes k))) = (c', .ok ()) ∧
      c'.dims = r.dims ++ [⟨n, levels.length, false⟩] ∧ c'.vars = (r.vars.map fun v => { v with payload := none }) ++ [⟨n, [n], some levels⟩] ∧
      (∀ m, m ≠ n → c'.attrs m = r.attrs m) ∧ getAttributes c' n = (axisAttributes k).map fun a => ⟨a.1, mk a.2⟩ := by
  obtain ⟨h1, h2, h3⟩ := (Names.C45_fresh_dim_var_name _ _ _).1 n hn
  have hnone : r.attrs n = none := by
    by_contra hcon
    rcases hi.owners n hcon with h | h
    · rcases h3 with h3 | ⟨-, j, -, h3, -⟩
      · exact not_global k "" (by rw [String.append_empty, ← h3, h])
      · exact not_global k _ (h3.symm.trans h)
    · exact h1 ((hasVariable_iff r n).1 h)
  have hd : hasDimension { c with coordsInitialized := false } n = false := by
    rw [Bool.eq_false_iff]
    intro h
    rw [hasDimension_iff, hc] at h
    exact h2 h
  have e1 : addDimension c ⟨n, levels.length, false⟩ =
      ({ c with coordsInitialized := false, dims := c.dims ++ [⟨n, levels.length, false⟩] }, .ok ()) := by
    unfold addDimension
    simp only [hd, Bool.not_false, if_true]
  have hv : hasVariable { c with coordsInitialized := false, dims := c.dims ++ [⟨n, levels.length, false⟩] } n = false := by
    rw [Bool.eq_false_iff]
    intro h
    rw [hasVariable_iff, hc] at h
    simp only [List.map_map] at h
    exact h1 h
  have e2 : addVariable { c with coordsInitialized := false, dims := c.dims ++ [⟨n, levels.length, false⟩] } ⟨n, [n], some levels⟩ =
      ({ c with coordsInitialized := false, dims := c.dims ++ [⟨n, levels.length, false⟩], vars := c.vars ++ [⟨n, [n], some levels⟩] }, .ok ()) := by
    unfold addVariable
    simp only
    rw [if_pos (by rw [hv]; rfl)]
  rw [e1, andThen_run, e2, andThen_run]
  have hga : getAttributes (P := Data K)
      { c with coordsInitialized := false, dims := c.dims ++ [⟨n, levels.length, false⟩], vars := c.vars ++ [⟨n, [n], some levels⟩] } n = [] := by
    unfold getAttributes
    show (c.attrs n).getD [] = []
    rw [hc]
    show (r.attrs n).getD [] = []
    rw [hnone]
    rfl
  obtain ⟨c', e, g1, g2, g3, g4⟩ := addAll_run mk n (axisAttributes k)
    ({ c with coordsInitialized := false, dims := c.dims ++ [⟨n, levels.length, false⟩], vars := c.vars ++ [⟨n, [n], some levels⟩] } : CDM (Data K) V CS)
    (by rw [hasVariable_iff]; simp) (fun a _ b hb => by rw [hga] at hb; cases hb) (by cases k <;> decide)
  refine ⟨c', e, ?_, ?_, fun m hm => ?_, ?_⟩
  · rw [g1, hc]
  · rw [g2, hc]
  · rw [g3 m hm, hc]
  · rw [g4, hga]
    rfl

/-- A new dimension does not make an axis simple. -/
theorem simpleZ_new (hi : Inv r) (hf : Fits r S) {c : CDM (Data K) V CS} {n : String} {e : ℕ} (hn : n ∉ r.dims.map (·.name))
    (hd : c.dims = r.dims ++ [⟨n, e, false⟩]) : ∀ s ∈ S, (simpleZ c s = true ↔ ∃ a d, SimpleZ r s a d ∧ True) := by
  intro s hs
  have hnd : (c.dims.map (·.name)).Nodup := by
    rw [hd, List.map_append, List.nodup_append]
    refine ⟨hi.dims, by simp, fun a ha b hb => ?_⟩
    have hb : b = n := by simpa using hb
    rw [hb]
    exact fun e => hn (e ▸ ha)
  rw [simpleZ_iff hnd]
  constructor
  · rintro ⟨a, d, h⟩
    refine ⟨a, d, ⟨h.z, h.x, h.y, h.explicit, h.shape, ?_⟩, trivial⟩
    obtain ⟨e', he, hen, hlen⟩ := h.long
    rw [hd] at he
    rcases List.mem_append.1 he with he | he
    · exact ⟨e', he, hen, hlen⟩
    · have he : e' = ⟨n, e, false⟩ := by simpa using he
      rw [he] at hen
      exact absurd ((hf.axes s hs a h.z h.explicit).2 d (by rw [h.shape]; simp)) (by rw [← hen]; exact hn)
  · rintro ⟨a, d, h, -⟩
    obtain ⟨e', he, hen, hlen⟩ := h.long
    exact ⟨a, d, ⟨h.z, h.x, h.y, h.explicit, h.shape, e', by rw [hd]; exact List.mem_append_left _ he, hen, hlen⟩⟩

/-! ## Fixed levels -/

/-- The data of the variables that can be read after a call. -/
structure Reads (r : CDM (Data K) V CS) (S : List (System Pr)) (Q : Axis → Prop) (old : List String) (st : State V CS Pr K) : Prop where
  levels : ∀ n s a d, n ∉ old → Gets r S Q n s a d → source st n = .ok (.levels s)
  reader : ∀ n, n ∉ old → n ∈ r.vars.map (·.name) → (¬ ∃ s a d, Gets r S Q n s a d) → source st n = .ok .reader
  gone : ∀ n ∈ old, n ∉ st.cdm.vars.map (·.name) → source st n = .throws

/-- What is read is what the variables are presented as. -/
theorem reads_of_edited {Q : Axis → Prop} {p : System Pr → Bool} {z : String} (hvn : (r.vars.map (·.name)).Nodup)
    (ho : S.Pairwise fun s t => ∀ n ∈ r.vars.map (·.name), n ∈ s.isFor → n ∈ s.complete → n ∈ t.isFor → n ∉ t.complete)
    (hp : ∀ s ∈ S, (p s = true ↔ ∃ a d, SimpleZ r s a d ∧ Q a))
    {c₀ : CDM (Data K) V CS} {R : List String} {extra : List (Var (Data K))} {st : State V CS Pr K}
    (hv : c₀.vars = (r.vars.map fun v => { v with payload := none }) ++ extra)
    (hst : st.changed = S.filter p)
    (h : Edited L mk z (plan (r.vars.map (·.name)) (S.filter p)) R c₀ st.cdm) : Reads r S Q R st := by
  have hget : ∀ v ∈ r.vars, v.name ∉ R → ∃ w, getVariable st.cdm v.name = .ok w ∧ w.payload = none := by
    intro v hvm hR
    have key : ∀ l : List (Var (Data K)), (l.map (·.name)).Nodup → v ∈ l → ∃ w,
        (((l.map fun v => ({ v with payload := none } : Var (Data K))) ++ extra).filter (fun v => !(R.contains v.name)) |>.map fun v =>
          match plan (r.vars.map (·.name)) (S.filter p) v.name with
          | none => v
          | some s => { v with shape := newShape s z v.shape }).find? (fun w => w.name == v.name) = some w ∧ w.payload = none := by
      intro l
      induction l with
      | nil => intro _ hm; cases hm
      | cons u l ih =>
        intro hl hm
        rw [List.map_cons, List.nodup_cons] at hl
        rw [List.map_cons, List.cons_append]
        rcases List.mem_cons.1 hm with rfl | hm
        · rw [List.filter_cons_of_pos (by simpa using hR), List.map_cons, List.find?_cons_of_pos]
          · refine ⟨_, rfl, ?_⟩
            split <;> rfl
          · split <;> simp
        · have hne : u.name ≠ v.name := fun e => hl.1 (by rw [e]; exact List.mem_map_of_mem hm)
          by_cases huR : R.contains u.name
          · rw [List.filter_cons_of_neg (by simpa using huR)]
            exact ih hl.2 hm
          · rw [List.filter_cons_of_pos (by simpa using huR), List.map_cons, List.find?_cons_of_neg]
            · exact ih hl.2 hm
            · split <;> simpa using hne
    obtain ⟨w, hw, hwp⟩ := key r.vars hvn hvm
    have hw' : st.cdm.vars.find? (fun w => w.name == v.name) = some w := by
      rw [h.vars, hv]
      exact hw
    refine ⟨w, ?_, hwp⟩
    unfold getVariable
    rw [hw']
  have hplan : ∀ n ∈ r.vars.map (·.name), findComplete st.changed n = plan (r.vars.map (·.name)) (S.filter p) n := by
    intro n hn
    unfold plan
    rw [if_pos hn, hst]
  refine ⟨fun n s a d hn hg => ?_, fun n hn hnv hno => ?_, fun n _ hn => ?_⟩
  · obtain ⟨v, hvm, rfl⟩ := List.mem_map.1 hg.var
    obtain ⟨w, hw, hwp⟩ := hget v hvm hn
    unfold source
    simp only [hw, hwp, hplan _ hg.var, plan_of_gets ho hp hg]
  · obtain ⟨v, hvm, rfl⟩ := List.mem_map.1 hnv
    obtain ⟨w, hw, hwp⟩ := hget v hvm hn
    unfold source
    simp only [hw, hwp, hplan _ hnv, plan_none hp hno]
  · unfold source getVariable
    have : st.cdm.vars.find? (fun v => v.name == n) = none := by
      rw [List.find?_eq_none]
      intro v hv he
      exact hn (List.mem_map.2 ⟨v, hv, by simpa using he⟩)
    rw [this]

theorem edited_names {P : String → Option (System Pr)} {z : String} {R : List String} {c₀ c : CDM (Data K) V CS} (h : Edited L mk z P R c₀ c) (n : String) :
    n ∈ c.vars.map (·.name) ↔ n ∈ c₀.vars.map (·.name) ∧ n ∉ R := by
  have : c.vars.map (·.name) = (c₀.vars.filter fun v => !(R.contains v.name)).map (·.name) := by
    rw [h.vars, List.map_map]
    apply List.map_congr_left
    intro v _
    simp only [Function.comp_apply]
    split <;> rfl
  rw [this]
  constructor
  · intro h
    obtain ⟨v, hv, rfl⟩ := List.mem_map.1 h
    obtain ⟨h1, h2⟩ := List.mem_filter.1 hv
    exact ⟨List.mem_map_of_mem h1, by simpa using h2⟩
  · rintro ⟨h1, h2⟩
    obtain ⟨v, hv, rfl⟩ := List.mem_map.1 h1
    exact List.mem_map_of_mem (List.mem_filter.2 ⟨hv, by simpa using h2⟩)

/-- Names stay unique. -/
theorem inv_of_edited {P : String → Option (System Pr)} {z : String} {R : List String} {c₀ c : CDM (Data K) V CS} (hi : Inv c₀)
    (h : Edited L mk z P R c₀ c) : Inv c := by
  refine ⟨?_, by rw [h.dims]; exact hi.dims, fun n l hl => ?_, fun n hn => ?_⟩
  · have : c.vars.map (·.name) = (c₀.vars.filter fun v => !(R.contains v.name)).map (·.name) := by
      rw [h.vars, List.map_map]
      apply List.map_congr_left
      intro v _
      simp only [Function.comp_apply]
      split <;> rfl
    rw [this]
    exact nodup_filter_map _ _ hi.vars
  · rw [h.attrs] at hl
    by_cases hR : n ∈ R
    · rw [if_pos hR] at hl
      cases hl
    · rw [if_neg hR] at hl
      cases hP : P n with
      | none =>
        rw [hP] at hl
        exact hi.attrNames n l hl
      | some s =>
        rw [hP] at hl
        obtain ⟨l0, hl0, rfl⟩ := Option.map_eq_some_iff.1 hl
        have h0 := hi.attrNames n l0 hl0
        unfold newAttrs
        split
        · exact h0
        · split
          · exact h0
          · rw [List.map_append, List.nodup_append]
            refine ⟨nodup_filter_map _ _ h0, by simp, fun x hx y hy => ?_⟩
            have hy : y = "coordinates" := by simpa using hy
            rw [hy]
            rintro rfl
            obtain ⟨b, hb, hbn⟩ := List.mem_map.1 hx
            have := (List.mem_filter.1 hb).2
            rw [hbn] at this
            simp at this
  · rw [h.attrs] at hn
    by_cases hR : n ∈ R
    · rw [if_pos hR] at hn
      exact absurd rfl hn
    · rw [if_neg hR] at hn
      have h0 : c₀.attrs n ≠ none := by
        intro h0
        apply hn
        cases P n <;> simp [h0]
      rcases hi.owners n h0 with h1 | h1
      · exact Or.inl h1
      · exact Or.inr ((hasVariable_iff c n).2 ((edited_names h n).2 ⟨(hasVariable_iff c₀ n).1 h1, hR⟩))

theorem inv_clear (hi : Inv r) : Inv ({ r with vars := r.vars.map fun v => { v with payload := none } } : CDM (Data K) V CS) := by
  refine ⟨by rw [List.map_map]; exact hi.vars, hi.dims, hi.attrNames, fun n hn => ?_⟩
  rcases hi.owners n hn with h | h
  · exact Or.inl h
  · refine Or.inr ((hasVariable_iff _ n).2 ?_)
    rw [List.map_map]
    exact (hasVariable_iff r n).1 h

theorem mem_replace {n d z : String} : ∀ {l : List String}, n ∈ l.replace d z → n ∈ l ∨ n = z
  | [], h => by simp at h
  | x :: l, h => by
    rw [List.replace_cons] at h
    cases hx : d == x with
    | true =>
      rw [hx] at h
      rcases List.mem_cons.1 h with h | h
      · exact Or.inr h
      · exact Or.inl (List.mem_cons_of_mem _ h)
    | false =>
      rw [hx] at h
      rcases List.mem_cons.1 h with h | h
      · exact Or.inl (h ▸ List.mem_cons_self)
      · rcases mem_replace h with h | h
        · exact Or.inl (List.mem_cons_of_mem _ h)
        · exact Or.inr h

/-- Shapes name dimensions, if the new level is one. -/
theorem shapes_of_changed {Q : Axis → Prop} {z : String} {old : List String} {extra : List (Var (Data K))} {c : CDM (Data K) V CS} (hs : ShapesExist r)
    (hc : Changed L mk r S Q z old extra c) (hd : ∀ d ∈ r.dims, d ∈ c.dims) (hz : ∃ d ∈ c.dims, d.name = z)
    (he : ∀ v ∈ extra, ∀ n ∈ v.shape, ∃ d ∈ c.dims, d.name = n) : ShapesExist c := by
  obtain ⟨ws, e, hws⟩ := hc.vars
  intro w hw n hn
  rw [e] at hw
  rcases List.mem_append.1 hw with hw | hw
  · obtain ⟨v, hv, hvw⟩ : ∃ v ∈ r.vars, NewVar r S Q z v w := by
      have : ∀ {l : List (Var (Data K))} {ws : List (Var (Data K))}, List.Forall₂ (NewVar r S Q z) l ws → w ∈ ws → ∃ v ∈ l, NewVar r S Q z v w := by
        intro l ws h
        induction h with
        | nil => intro h; cases h
        | cons h1 _ ih =>
          intro h
          rcases List.mem_cons.1 h with rfl | h
          · exact ⟨_, List.mem_cons_self, h1⟩
          · obtain ⟨v, hv, h2⟩ := ih h
            exact ⟨v, List.mem_cons_of_mem _ hv, h2⟩
      obtain ⟨v, hv, h⟩ := this hws hw
      exact ⟨v, List.mem_of_mem_filter hv, h⟩
    by_cases hg : ∃ s a d, Gets r S Q v.name s a d
    · obtain ⟨s, a, d, hg⟩ := hg
      rw [hvw.shape s a d hg] at hn
      rcases mem_replace hn with hn | rfl
      · obtain ⟨d, hd1, hd2⟩ := hs v hv n hn
        exact ⟨d, hd d hd1, hd2⟩
      · exact hz
    · rw [hvw.same hg] at hn
      obtain ⟨d, hd1, hd2⟩ := hs v hv n hn
      exact ⟨d, hd d hd1, hd2⟩
  · exact he w hw n hn

/-- **C107.** Fixed levels: the dataset gets a dimension and a variable of a new name, with the levels and the attributes of the type.  The
variables of the systems with a vertical axis of more than one level have the new dimension instead of that of the axis, and no longer the axis in
`coordinates`; the axes are removed.  All other variables, attributes and dimensions are the ones of the reader. -/
theorem C107_fixed (hi : Inv r) (hf : Fits r S) {kind method : String} {k : Kind} {m : Method} {st : State V CS Pr K}
    (hst : start r kind method = .ok (k, m, st)) (levels : List K) :
    (Names.findUniqueDimVarName (r.vars.map (·.name)) (r.dims.map (·.name)) (baseName k) = .throws → (toFixed L mk r S k levels st).2 = .throws) ∧
    ∀ n, Names.findUniqueDimVarName (r.vars.map (·.name)) (r.dims.map (·.name)) (baseName k) = .ok n →
    ∃ st' old, toFixed L mk r S k levels st = (st', .ok ()) ∧
      n ∉ r.vars.map (·.name) ∧ n ∉ r.dims.map (·.name) ∧ st'.vAxis = n ∧ st'.levels = levels ∧ st'.toAxis = false ∧ st'.template = none ∧
      (∀ o, o ∈ old ↔ ∃ s ∈ S, ∃ a d, SimpleZ r s a d ∧ a.name = o) ∧
      st'.cdm.dims = r.dims ++ [⟨n, levels.length, false⟩] ∧
      Changed L mk r S (fun _ => True) n old [⟨n, [n], some levels⟩] st'.cdm ∧
      (∃ b as, (kind, k, b, as) ∈ kinds ∧ getAttributes st'.cdm n = as.map fun a => ⟨a.1, mk a.2⟩) ∧
      Reads r S (fun _ => True) old st' ∧ source st' n = .ok (.memory levels) ∧ (∀ o ∈ old, source st' o = .throws) ∧
      Inv st'.cdm ∧ (ShapesExist r → ShapesExist st'.cdm) := by
  obtain ⟨⟨b, as, hk⟩, hm, rfl⟩ := ((C107_start r kind method).1 k m st).1 hst
  constructor
  · intro h
    unfold toFixed
    simp only [h]
  · intro n hn
    obtain ⟨h1, h2, -⟩ := (Names.C45_fresh_dim_var_name _ _ _).1 n hn
    obtain ⟨c0, e0, g1, g2, g3, g4⟩ := newAxis_run (mk := mk) hi k hn levels { r with vars := r.vars.map fun v => { v with payload := none } } rfl
    have hp := simpleZ_new hi hf h2 g1
    have hnd : (c0.vars.map (·.name)).Nodup := by
      rw [g2, List.map_append, List.map_map, List.nodup_append]
      refine ⟨hi.vars, by simp, fun x hx y hy => ?_⟩
      have hy : y = n := by simpa using hy
      rw [hy]
      exact fun e => h1 (e ▸ hx)
    have hgood : Good c0 (r.vars.map (·.name)) true ([] ++ S.filter fun s => simpleZ c0 s) := good_of_fits hf hp g2 true
    obtain ⟨c', e', he'⟩ := fixedLoop_run (L := L) (mk := mk) (z := n) (r := r) hnd hi.vars S []
      { cdm := c0, levels := levels, vAxis := n } rfl hgood
      (edited_congr (edited_start L mk n c0) (fun x => by unfold plan; simp [findComplete]) fun _ => Iff.rfl)
    rw [List.nil_append] at he'
    have hold : ∀ o, o ∈ zNames (S.filter fun s => simpleZ c0 s) ↔ ∃ s ∈ S, ∃ a d, SimpleZ r s a d ∧ a.name = o := by
      intro o
      rw [mem_zNames hp]
      simp
    have hnold : n ∉ zNames (S.filter fun s => simpleZ c0 s) := by
      intro hcon
      obtain ⟨s, hs, a, d, ha, rfl⟩ := (hold _).1 hcon
      rcases (hf.axes s hs a ha.z ha.explicit).1 with h | h
      · exact h1 h
      · exact h2 h
    have hreads := reads_of_edited (st := { cdm := c', levels := levels, vAxis := n, changed := S.filter fun s => simpleZ c0 s }) hi.vars hf.once hp g2 rfl he'
    have hch : Changed L mk r S (fun _ => True) n (zNames (S.filter fun s => simpleZ c0 s)) [⟨n, [n], some levels⟩] c' := by
      refine changed_of_edited hi.attrNames hf.once hp g2 (fun m hm => g3 m (by simpa using hm)) (fun v hv => ?_) he'
      have hv : v = ⟨n, [n], some levels⟩ := by simpa using hv
      rw [hv]
      exact ⟨hnold, h1⟩
    have hinv : Inv c0 := by
      refine ⟨hnd, ?_, fun m l hl => ?_, fun m hm => ?_⟩
      · rw [g1, List.map_append, List.nodup_append]
        refine ⟨hi.dims, by simp, fun x hx y hy => ?_⟩
        have hy : y = n := by simpa using hy
        rw [hy]
        exact fun e => h2 (e ▸ hx)
      · by_cases hmn : m = n
        · subst hmn
          unfold getAttributes at g4
          rw [hl] at g4
          have g4 : l = (axisAttributes k).map fun a => ⟨a.1, mk a.2⟩ := g4
          rw [g4, List.map_map]
          cases k <;> simp [axisAttributes]
        · rw [g3 m hmn] at hl
          exact hi.attrNames m l hl
      · by_cases hmn : m = n
        · subst hmn
          refine Or.inr ((hasVariable_iff _ _).2 ?_)
          rw [g2]
          simp
        · rw [g3 m hmn] at hm
          rcases hi.owners m hm with h | h
          · exact Or.inl h
          · refine Or.inr ((hasVariable_iff _ _).2 ?_)
            rw [g2, List.map_append, List.map_map]
            exact List.mem_append_left _ ((hasVariable_iff _ _).1 h)
    refine ⟨{ cdm := c', levels := levels, vAxis := n, changed := S.filter fun s => simpleZ c0 s }, zNames (S.filter fun s => simpleZ c0 s), ?_, h1, h2, rfl, rfl,
      rfl, rfl, hold, he'.dims.trans g1, hch, ?_, hreads, ?_, ?_, inv_of_edited hinv he', fun hs => ?_⟩
    · unfold toFixed
      simp only [hn, e0, andThen_run]
      rw [e']
      simp
    · refine ⟨baseName k, axisAttributes k, (kindOf_iff _ _).1 ?_, ?_⟩
      · obtain ⟨k', e1, e2⟩ := Res.bind_eq_ok.1 hst
        obtain ⟨m', e3, e4⟩ := Res.bind_eq_ok.1 e2
        cases e4
        exact e1
      · unfold getAttributes
        rw [he'.attrs, if_neg hnold]
        have : plan (r.vars.map (·.name)) (S.filter fun s => simpleZ c0 s) n = none := by
          unfold plan
          rw [if_neg h1]
        rw [this]
        exact g4
    · have hz : n ∈ c'.vars.map (·.name) := (edited_names he' n).2 ⟨by rw [g2]; simp, hnold⟩
      have hgv : getVariable c' n = .ok ⟨n, [n], some levels⟩ :=
        find_edited (v := ⟨n, [n], some levels⟩) hnd he' (by rw [g2]; simp) rfl hnold (by unfold plan; rw [if_neg h1])
      unfold source
      simp only [hgv]
    · intro o ho
      exact hreads.gone o ho fun hcon => ((edited_names he' o).1 hcon).2 ho
    · have hd : c'.dims = r.dims ++ [⟨n, levels.length, false⟩] := he'.dims.trans g1
      refine shapes_of_changed hs hch (fun d hd' => by show d ∈ c'.dims; rw [hd]; exact List.mem_append_left _ hd')
        ⟨⟨n, levels.length, false⟩, by show _ ∈ c'.dims; rw [hd]; simp, rfl⟩ (fun v hv x hx => ?_)
      have hv : v = ⟨n, [n], some levels⟩ := by simpa using hv
      rw [hv] at hx
      have hx : x = n := by simpa using hx
      exact ⟨⟨n, levels.length, false⟩, by show _ ∈ c'.dims; rw [hd]; simp, hx.symm⟩

theorem addAttribute_dims (c : CDM (Data K) V CS) (n : String) (a : Attr V) : (addAttribute c n a).1.dims = c.dims := by
  unfold addAttribute
  simp only
  split
  · rfl
  · split <;> rfl

theorem replaceZ_dims (s : System Pr) (z n : String) (c : CDM (Data K) V CS) : (replaceZ L mk s z n c).1.dims = c.dims := by
  unfold replaceZ
  split
  · rfl
  · split
    · rfl
    · split
      · rfl
      · split
        · split
          · simp only
            split
            · rw [addAttribute_dims]
              rfl
            · rfl
          · rfl
        · rfl
        · rfl

theorem replaceAll_dims (s : System Pr) (z : String) : ∀ (ns : List String) (c : CDM (Data K) V CS), (replaceAll L mk s z ns c).1.dims = c.dims
  | [], c => rfl
  | n :: ns, c => by
    unfold replaceAll
    have h := replaceZ_dims (L := L) (mk := mk) s z n c
    rcases e : replaceZ L mk s z n c with ⟨c1, o⟩
    rw [e] at h
    cases o with
    | ok u => exact (replaceAll_dims s z ns c1).trans h
    | throws => exact h
    | ub => exact h

theorem fixedLoop_dims (r : CDM (Data K) V CS) : ∀ (S : List (System Pr)) (st : State V CS Pr K),
    (fixedLoop L mk r S st).1.cdm.dims = st.cdm.dims ∧ (fixedLoop L mk r S st).1.vAxis = st.vAxis := by
  intro S
  induction S with
  | nil => intro st; exact ⟨rfl, rfl⟩
  | cons s S ih =>
    intro st
    unfold fixedLoop
    split
    · have h := replaceAll_dims (L := L) (mk := mk) s st.vAxis (r.vars.map (·.name)) st.cdm
      rcases e : replaceAll L mk s st.vAxis (r.vars.map (·.name)) st.cdm with ⟨c1, o⟩
      rw [e] at h
      simp only [e]
      cases o with
      | ok u =>
        cases u
        simp only [andThen_run]
        obtain ⟨i1, i2⟩ := ih { st with cdm := match geoZ s with | some a => removeVariable c1 a.name | none => c1, changed := st.changed ++ [s] }
        refine ⟨i1.trans ?_, i2⟩
        simp only
        split
        · exact h
        · exact h
      | throws => exact ⟨h, rfl⟩
      | ub => exact ⟨h, rfl⟩
    · exact ih st

theorem addAll_dims (n : String) : ∀ (as : List (String × String)) (c : CDM (Data K) V CS), (addAll mk n as c).1.dims = c.dims
  | [], c => rfl
  | a :: as, c => by
    unfold addAll
    have h := addAttribute_dims c n ⟨a.1, mk a.2⟩
    rcases e : addAttribute c n ⟨a.1, mk a.2⟩ with ⟨c1, o⟩
    rw [e] at h
    cases o with
    | ok u => exact (addAll_dims n as c1).trans h
    | throws => exact h
    | ub => exact h

/-- **C107.** Fixed levels cannot be changed by a second call: it raises, and leaves the dataset as it is, but not the levels that are used
when data are read. -/
theorem C107_second_call (k : Kind) (levels : List K) {st st' : State V CS Pr K} (h : toFixed L mk r S k levels st = (st', .ok ())) (levels' : List K) :
    ∃ st'', toFixed L mk r S k levels' st' = (st'', .throws) ∧ st''.cdm.vars = st'.cdm.vars ∧ st''.cdm.dims = st'.cdm.dims ∧
      st''.cdm.attrs = st'.cdm.attrs ∧ st''.changed = st'.changed ∧ st''.vAxis = st'.vAxis ∧ st''.levels = levels' := by
  unfold toFixed at h ⊢
  cases hn : Names.findUniqueDimVarName (r.vars.map (·.name)) (r.dims.map (·.name)) (baseName k) with
  | throws => simp [hn] at h
  | ub => simp [hn] at h
  | ok n =>
    simp only [hn] at h
    -- the first call has added the dimension
    have key : n ∈ st'.cdm.dims.map (·.name) ∧ st'.vAxis = n := by
      unfold addDimension at h
      simp only at h
      by_cases hd : hasDimension ({ st.cdm with coordsInitialized := false } : CDM (Data K) V CS) n = true
      · rw [hd] at h
        simp [andThen] at h
      · have hd' : hasDimension ({ st.cdm with coordsInitialized := false } : CDM (Data K) V CS) n = false := by simpa using hd
        rw [hd'] at h
        simp only [Bool.not_false, if_true, andThen_run] at h
        set c1 : CDM (Data K) V CS := { st.cdm with coordsInitialized := false, dims := st.cdm.dims ++ [⟨n, levels.length, false⟩] } with hc1
        have hav : (addVariable c1 ⟨n, [n], some levels⟩).1.dims = c1.dims := by
          unfold addVariable
          simp only
          split <;> rfl
        rcases e2 : addVariable c1 ⟨n, [n], some levels⟩ with ⟨c2, o2⟩
        rw [e2] at h hav
        cases o2 with
        | throws => simp [andThen] at h
        | ub => simp [andThen] at h
        | ok u =>
          cases u
          simp only [andThen_run] at h
          have haa := addAll_dims (mk := mk) n (axisAttributes k) c2
          rcases e3 : addAll mk n (axisAttributes k) c2 with ⟨c3, o3⟩
          rw [e3] at h haa
          cases o3 with
          | throws => simp [andThen] at h
          | ub => simp [andThen] at h
          | ok u =>
            cases u
            have hf := fixedLoop_dims (L := L) (mk := mk) r S ({ cdm := c3, levels := levels, vAxis := n, changed := st.changed, toAxis := st.toAxis, template := st.template } : State V CS Pr K)
            have h : fixedLoop L mk r S _ = _ := h
            rw [h] at hf
            refine ⟨?_, hf.2⟩
            rw [hf.1]
            show n ∈ List.map _ c3.dims
            rw [haa, hav]
            simp [hc1]
    have hd : hasDimension ({ st'.cdm with coordsInitialized := false } : CDM (Data K) V CS) n = true := (hasDimension_iff _ n).2 key.1
    refine ⟨{ st' with cdm := { st'.cdm with coordsInitialized := false }, levels := levels', vAxis := n }, ?_, rfl, rfl, rfl, rfl, key.2.symm, rfl⟩
    simp only
    unfold addDimension
    simp only [hd, Bool.not_true, Bool.false_eq_true, if_false]
    rfl

/-! ## The levels of an axis, or of a variable -/

theorem simpleZ_other (hi : Inv r) (z : String) : ∀ s ∈ S,
    (other ({ r with vars := r.vars.map fun v => { v with payload := none } } : CDM (Data K) V CS) z s = true ↔ ∃ a d, SimpleZ r s a d ∧ a.name ≠ z) := by
  intro s _
  unfold other
  have e : simpleZ ({ r with vars := r.vars.map fun v => { v with payload := none } } : CDM (Data K) V CS) s = simpleZ r s := simpleZ_congr rfl s
  rw [Bool.and_eq_true, decide_eq_true_eq, e, simpleZ_iff hi.dims]
  constructor
  · rintro ⟨⟨a, d, h⟩, hne⟩
    exact ⟨a, d, h, fun e => hne (by rw [h.z, ← e]; rfl)⟩
  · rintro ⟨a, d, h, hne⟩
    exact ⟨⟨a, d, h⟩, by rw [h.z]; simpa using hne⟩

/-- **C107.** The levels of an axis: the variables of the systems with another vertical axis of more than one level have the dimension of the
name of the axis instead; the other axes are removed. -/
theorem C107_axis (hi : Inv r) (hf : Fits r S) {kind method : String} {k : Kind} {m : Method} {st : State V CS Pr K}
    (hst : start r kind method = .ok (k, m, st)) (z : String) :
    (z = "" → toAxis L mk r S z st = (st, .throws)) ∧
    (z ≠ "" → ∃ st' old, toAxis L mk r S z st = (st', .ok ()) ∧ st'.vAxis = z ∧ st'.toAxis = true ∧ st'.template = none ∧
      (∀ o, o ∈ old ↔ ∃ s ∈ S, ∃ a d, SimpleZ r s a d ∧ a.name ≠ z ∧ a.name = o) ∧ st'.cdm.dims = r.dims ∧
      Changed L mk r S (fun a => a.name ≠ z) z old [] st'.cdm ∧ Reads r S (fun a => a.name ≠ z) old st' ∧ (∀ o ∈ old, source st' o = .throws) ∧
      Inv st'.cdm ∧ (ShapesExist r → (∃ d ∈ r.dims, d.name = z) → ShapesExist st'.cdm)) := by
  obtain ⟨-, -, rfl⟩ := ((C107_start r kind method).1 k m st).1 hst
  constructor
  · intro hz
    unfold toAxis
    rw [if_pos hz]
  · intro hz
    have hp := simpleZ_other (S := S) hi z
    set c0 : CDM (Data K) V CS := { r with vars := r.vars.map fun v => { v with payload := none } } with hc0
    have hv : c0.vars = (r.vars.map fun v => { v with payload := none }) ++ [] := by rw [List.append_nil]
    have hnd : (c0.vars.map (·.name)).Nodup := (inv_clear hi).vars
    obtain ⟨c', rs, e, he, hrs⟩ := axisLoop_run (L := L) (mk := mk) (z := z) (r := r) (c₀ := c0) hnd hi.vars S []
      { cdm := c0, toAxis := true, vAxis := z } [] (good_of_fits hf hp hv false)
      (edited_congr (edited_start L mk z c0) (fun x => by unfold plan; simp [findComplete]) fun _ => Iff.rfl) (by simp [zNames])
    rw [List.nil_append] at he hrs
    have he' := remove_all rs c' [] he
    rw [List.append_nil] at he'
    have hold : ∀ o, o ∈ rs ↔ ∃ s ∈ S, ∃ a d, SimpleZ r s a d ∧ a.name ≠ z ∧ a.name = o := fun o => (hrs o).trans (mem_zNames hp o)
    have hch : Changed L mk r S (fun a => a.name ≠ z) z rs [] (rs.foldl (fun c n => removeVariable c n) c') :=
      changed_of_edited hi.attrNames hf.once hp hv (fun _ _ => rfl) (fun v hv => by cases hv) he'
    have hreads := reads_of_edited (st := { cdm := rs.foldl (fun c n => removeVariable c n) c', toAxis := true, vAxis := z, changed := S.filter (other c0 z) })
      hi.vars hf.once hp hv rfl he'
    refine ⟨_, rs, ?_, ?_, ?_, ?_, hold, ?_, hch, hreads, fun o ho => ?_, inv_of_edited (inv_clear hi) he', fun hs hz => ?_⟩
    · unfold toAxis
      rw [if_neg hz]
      simp only [e, andThen_run]
      simp
    · rfl
    · rfl
    · rfl
    · exact he'.dims
    · exact hreads.gone o ho fun hcon => ((edited_names he' o).1 hcon).2 ho
    · have hd : (rs.foldl (fun c n => removeVariable c n) c').dims = r.dims := he'.dims
      obtain ⟨d, hd1, hd2⟩ := hz
      exact shapes_of_changed hs hch (fun d h => by rw [hd]; exact h) ⟨d, by rw [hd]; exact hd1, hd2⟩ (fun v hv => by cases hv)

theorem find_once (ho : S.Pairwise fun s t => ∀ n ∈ r.vars.map (·.name), n ∈ s.isFor → n ∈ s.complete → n ∈ t.isFor → n ∉ t.complete)
    {n : String} (hn : n ∈ r.vars.map (·.name)) {t : System Pr} (ht : t ∈ S) (h1 : n ∈ t.isFor) (h2 : n ∈ t.complete) : findComplete S n = some t := by
  unfold findComplete
  induction S with
  | nil => cases ht
  | cons s S ih =>
    rw [List.pairwise_cons] at ho
    rcases List.mem_cons.1 ht with rfl | ht
    · exact List.find?_cons_of_pos (p := fun t => isCSAndCompleteFor t n) ((complete_iff t n).2 ⟨h1, h2⟩)
    · rw [List.find?_cons_of_neg]
      · exact ih ho.2 ht
      · intro hs
        obtain ⟨c1, c2⟩ := (complete_iff s n).1 hs
        exact ho.1 t ht n hn c1 c2 h1 h2

/-- **C107.** The levels of a variable: the variables of the systems with another vertical axis of more than one level have the dimension of the
vertical axis of the variable instead.  No variable is removed. -/
theorem C107_template (hi : Inv r) (hf : Fits r S) {kind method : String} {k : Kind} {m : Method} {st : State V CS Pr K}
    (hst : start r kind method = .ok (k, m, st)) {tv : String} (htv : tv ∈ r.vars.map (·.name)) :
    (∀ t ∈ S, tv ∈ t.isFor → tv ∈ t.complete → ∀ a z, SimpleZ r t a z → t.vtran ≠ none →
      ∃ st', toTemplate L mk r S tv st = (st', .ok ()) ∧ st'.template = some t ∧ st'.toAxis = false ∧ st'.cdm.dims = r.dims ∧
        Changed L mk r S (fun b => b.name ≠ a.name) z [] [] st'.cdm ∧ Reads r S (fun b => b.name ≠ a.name) [] st' ∧ Inv st'.cdm ∧
        (ShapesExist r → ShapesExist st'.cdm)) ∧
    ((∀ t ∈ S, tv ∈ t.isFor → tv ∈ t.complete → ∀ a z, SimpleZ r t a z → t.vtran = none) →
      ∃ st', toTemplate L mk r S tv st = (st', .throws) ∧ st'.cdm = st.cdm ∧ st'.changed = []) := by
  obtain ⟨-, -, rfl⟩ := ((C107_start r kind method).1 k m st).1 hst
  have hs0 : ∀ s : System Pr, simpleZ ({ r with vars := r.vars.map fun v => { v with payload := none } } : CDM (Data K) V CS) s = simpleZ r s :=
    fun s => simpleZ_congr rfl s
  constructor
  · intro t ht h1 h2 a z hs hvt
    have hfind : findComplete S tv = some t := find_once hf.once htv ht h1 h2
    have hp := simpleZ_other (S := S) hi a.name
    set c0 : CDM (Data K) V CS := { r with vars := r.vars.map fun v => { v with payload := none } } with hc0
    have hv : c0.vars = (r.vars.map fun v => { v with payload := none }) ++ [] := by rw [List.append_nil]
    obtain ⟨c', e, he⟩ := templateLoop_run (L := L) (mk := mk) (z := z) (r := r) (c₀ := c0) (zt := a) (inv_clear hi).vars hi.vars S []
      { cdm := c0, template := some t } (good_of_fits hf hp hv false)
      (edited_congr (edited_start L mk z c0) (fun x => by unfold plan; simp [findComplete]) fun _ => Iff.rfl)
    rw [List.nil_append] at he
    have hch : Changed L mk r S (fun b => b.name ≠ a.name) z [] [] c' :=
      changed_of_edited hi.attrNames hf.once hp hv (fun _ _ => rfl) (fun v hv => by cases hv) he
    refine ⟨{ cdm := c', template := some t, changed := S.filter (other c0 a.name) }, ?_, rfl, rfl, he.dims, hch,
      reads_of_edited hi.vars hf.once hp hv rfl he, inv_of_edited (inv_clear hi) he, fun hsx => ?_⟩
    · unfold toTemplate
      simp only [hfind]
      rw [hs0, if_neg (by rw [(simpleZ_iff hi.dims t).2 ⟨a, z, hs⟩]; decide), if_neg (by simpa using hvt)]
      simp only [hs.z, hs.shape]
      rw [e]
      simp
    · have hd : c'.dims = r.dims := he.dims
      obtain ⟨d, hd1, hd2, -⟩ := hs.long
      exact shapes_of_changed hsx hch (fun d h => by rw [hd]; exact h) ⟨d, by rw [hd]; exact hd1, hd2⟩ (fun v hv => by cases hv)
  · intro h
    unfold toTemplate
    cases hfc : findComplete S tv with
    | none => exact ⟨_, rfl, rfl, rfl⟩
    | some t =>
      have ht : t ∈ S := List.mem_of_find?_eq_some hfc
      have hc := (complete_iff t tv).1 (by simpa using List.find?_some hfc)
      simp only
      rw [hs0]
      by_cases hs : simpleZ r t = false
      · rw [if_pos hs]
        exact ⟨_, rfl, rfl, rfl⟩
      · obtain ⟨a, z, hz⟩ := (simpleZ_iff hi.dims t).1 (by simpa using hs)
        rw [if_neg hs, if_pos (by rw [h t ht hc.1 hc.2 a z hz]; rfl)]
        exact ⟨_, rfl, rfl, rfl⟩

/-! ## Texts -/

/-- **C107.** Names separated by blanks: what is left in `coordinates` are the other names. -/
theorem C107_coordinates {z t t' : String} (h : Without z t t') (hz : z ≠ "") (hw : ∀ c ∈ z.toList, isWord c = true)
    (ht : ∀ c ∈ t.toList, isWord c = true ∨ c = ' ') (n : String) : Word t' n ↔ Word t n ∧ n ≠ z := by
  obtain ⟨h1, h2⟩ := h hz hw
  have hb : ∀ c : Char, isWord c = true ∨ c = ' ' → [' '].contains c = gap c := by
    rintro c (hc | rfl)
    · have hne : c ≠ ' ' := by rintro rfl; revert hc; decide
      simp [gap, hc, hne]
    · decide
  have ht' : ∀ c ∈ t'.toList, isWord c = true ∨ c = ' ' := by
    intro c hc
    by_cases hg : isWord c = true
    · exact Or.inl hg
    · have : c ∈ t'.toList.filter gap := List.mem_filter.2 ⟨hc, by simp [gap, hg]⟩
      rw [h2] at this
      exact ht c (List.mem_of_mem_filter this)
  unfold Word Text.words
  rw [pieces_congr fun c hc => hb c (ht c hc), pieces_congr fun c hc => hb c (ht' c hc)]
  show n.toList ∈ Text.words gap _ ↔ n.toList ∈ Text.words gap _ ∧ _
  rw [h1, List.mem_filter, decide_eq_true_eq]
  refine and_congr_right fun _ => not_congr ?_
  exact String.toList_inj

/-! ## CF datasets -/

theorem axis_type {cs : CoordSys.CS} : ∀ {ts : List AxisType} {a : Axis}, findAxisOfTypes cs ts = some a → a ∈ getAxes cs ∧ a.type ∈ ts
  | [], a, h => by simp [findAxisOfTypes] at h
  | t :: ts, a, h => by
    unfold findAxisOfTypes at h
    cases hf : findAxisOfType cs t with
    | none =>
      rw [hf] at h
      obtain ⟨h1, h2⟩ := axis_type h
      exact ⟨h1, List.mem_cons_of_mem _ h2⟩
    | some b =>
      rw [hf] at h
      cases h
      unfold findAxisOfType at hf
      cases h1 : findType t cs.axes with
      | some b =>
        rw [h1] at hf
        cases hf
        have := List.find?_some h1
        exact ⟨List.mem_append_left _ (List.mem_of_find?_eq_some h1), by simpa using Or.inl (by simpa using this)⟩
      | none =>
        rw [h1] at hf
        have := List.find?_some hf
        exact ⟨List.mem_append_right _ (List.mem_of_find?_eq_some hf), by simpa using Or.inl (by simpa using this)⟩

/-- **C107.** The coordinate systems of a CF dataset fit, if variables with the name of a dimension are along that dimension and have no
`coordinates`, and if dimensions in `coordinates` are dimensions of the variable. -/
theorem C107_cf (hi : Inv r) (hn : PlainNames L r) (hl : listCF L r = .ok S)
    (hcv : ∀ v ∈ r.vars, (∃ d ∈ r.dims, d.name = v.name) → v.shape = [v.name] ∧ attrText L r v.name "coordinates" = none)
    (hco : ∀ v ∈ r.vars, ∀ n, Listed L r v.name n → (∃ d ∈ r.dims, d.name = n) → n ∈ v.shape) : Fits r S := by
  have hmark := C95_marks hi.vars hl
  -- an explicit axis is along the dimension of its name
  have hex : ∀ s ∈ S, ∀ a ∈ getAxes s.axes, a.isExplicit = true → (∃ d ∈ r.dims, d.name = a.name) ∧ a.shape = [a.name] := by
    intro s hsm a ha he
    obtain ⟨-, v, hv, -, hax⟩ := C95_axes hi.vars hl s hsm
    have hk := hax.known a ha
    have hd := hk.isExplicit.1 he
    refine ⟨hd, ?_⟩
    by_cases hw : ∃ w ∈ r.vars, w.name = a.name
    · obtain ⟨w, hw, hwn⟩ := hw
      rw [hk.shapeVar w hw hwn, (hcv w hw (hwn ▸ hd)).1, hwn]
    · exact hk.shapeNone fun w hw' hwn => hw ⟨w, hw', hwn⟩
  refine ⟨fun s hsm a ha he => ?_, fun s hsm a d h v hv h1 h2 => ?_, ?_, fun s hsm a d h t ht b e h' h1 h2 => ?_⟩
  · obtain ⟨⟨d, hd, hdn⟩, hsh⟩ := hex s hsm a (axis_type ha).1 he
    have hm : a.name ∈ r.dims.map (·.name) := List.mem_map.2 ⟨d, hd, hdn⟩
    refine ⟨Or.inr hm, fun x hx => ?_⟩
    rw [hsh] at hx
    have hx : x = a.name := by simpa using hx
    exact hx ▸ hm
  · obtain ⟨hd, hsh⟩ := hex s hsm a (axis_type h.z).1 h.explicit
    have hda : d = a.name := by
      have := h.shape.symm.trans hsh
      simpa using this
    rw [hda]
    rcases ((hmark s hsm).complete v hv).1 h2 a.name ⟨a, (axis_type h.z).1, rfl⟩ with hx | hx
    · exact hx
    · exact hco v hv a.name hx hd
  · have hsort := C95_sorted hi.vars hl
    have hu := (C95_unique hi.vars hn hl).2
    have key : ∀ l : List (System Pr), (∀ s ∈ l, s ∈ S) → (l.map (·.id)).Pairwise (· < ·) →
        l.Pairwise fun s t => ∀ n ∈ r.vars.map (·.name), n ∈ s.isFor → n ∈ s.complete → n ∈ t.isFor → n ∉ t.complete := by
      intro l
      induction l with
      | nil => intro _ _; exact List.Pairwise.nil
      | cons s l ih =>
        intro hm hp
        rw [List.map_cons, List.pairwise_cons] at hp
        refine List.pairwise_cons.2 ⟨fun t ht n hn h1 h2 h3 h4 => ?_, ih (fun x hx => hm x (List.mem_cons_of_mem _ hx)) hp.2⟩
        obtain ⟨v, hv, rfl⟩ := List.mem_map.1 hn
        have : s = t := hu v hv s (hm s List.mem_cons_self) t (hm t (List.mem_cons_of_mem _ ht)) ((complete_iff _ _).2 ⟨h1, h2⟩)
          ((complete_iff _ _).2 ⟨h3, h4⟩)
        have hlt := hp.1 t.id (List.mem_map_of_mem ht)
        rw [this] at hlt
        exact lt_irrefl _ hlt
    exact key S (fun _ h => h) hsort
  · obtain ⟨hd, -⟩ := hex s hsm a (axis_type h.z).1 h.explicit
    by_cases hw : ∃ w ∈ r.vars, w.name = a.name
    · obtain ⟨w, hw, hwn⟩ := hw
      obtain ⟨g1, g2⟩ := hcv w hw (hwn ▸ hd)
      have honly : ∀ n, HasAxis t n → n = a.name := by
        intro n hnx
        rw [← hwn] at h2
        rcases ((hmark t ht).complete w hw).1 h2 n hnx with hx | ⟨tt, hx, -⟩
        · rw [g1, hwn] at hx
          simpa using hx
        · rw [g2] at hx
          cases hx
      obtain ⟨bx, hbx⟩ := h'.x
      obtain ⟨x1, x2⟩ := axis_type hbx
      obtain ⟨z1, z2⟩ := axis_type h'.z
      obtain ⟨-, v, hv, -, hax⟩ := C95_axes hi.vars hl t ht
      have e1 : bx.name = a.name := honly _ ⟨bx, x1, rfl⟩
      have e2 : b.name = a.name := honly _ ⟨b, z1, rfl⟩
      have e3 : bx.type = b.type := by
        rw [(hax.known bx x1).type, (hax.known b z1).type, e1, e2]
      rw [e3] at x2
      revert x2 z2
      cases b.type <;> decide
    · exact (hmark t ht).completeOther a.name (fun w hw' hwn => hw ⟨w, hw', hwn⟩) h2

end Fimex.NewLevels
