import Verif.Grib.Messages
import Verif.Grib.GridLemmas

/-!
# Messages of a GRIB file that is written (C112)
-/

namespace Fimex.GribRun
open Fimex.GribGrid

set_option linter.unusedSectionVars false

variable {K : Type}

/-! ## Specification -/

/-- A field that is to be written: reference time, time, unit of steps, variable, level, position of the level, place of the data. -/
structure Job (K : Type) where
  r : Option ℤ
  t : Option ℤ
  unit : String
  v : String
  lv : Option K
  pos : ℕ
  sl : Slice

/-- The settings name the key. -/
def Touch (s : Sets K) (k : String) : Prop := ∃ kv ∈ s.keys, canon kv.1 = canon k

/-- No key is set by both. -/
def Apart (s s' : Sets K) : Prop := ∀ k, Touch s k → ¬ Touch s' k

/-- The last value the settings give to a key. -/
def last (s : Sets K) (k : String) : Option (Val K) := (s.keys.reverse.find? fun kv => canon kv.1 = canon k).map (·.2)

/-- A message has what the settings say. -/
def Has (h : Handle K) (s : Sets K) : Prop := ∀ k v, last s k = some v → get h k = some v

/-- A field can be written, with these values: its level and parameter are known; there are data, which if empty fields are to be omitted are
not all the fill value; they can be converted. -/
def Good (E : Env K) (j : Job K) (vals : List (Option K)) : Prop :=
  (E.level j.v j.lv j.pos).out = .ok () ∧ (E.parameter j.v j.lv).out = .ok () ∧ ∃ d f, E.data j.v j.sl = .ok d ∧ d ≠ [] ∧ E.fill j.v = .ok f ∧
    (E.omitEmpty = true → f = none ∨ ∃ x ∈ d, x ≠ f) ∧ (E.missing j.v).out = .ok () ∧ E.values j.v j.lv d = .ok vals

/-- A message for a field: its values, and the keys for the grid, the time, the level, the parameter and missing values. -/
def Fits (E : Env K) (vj : String × Job K) (m : Msg K) : Prop :=
  Good E vj.2 m.values ∧ Has m.keys (E.projection vj.1) ∧ Has m.keys (E.time vj.2.r vj.2.t vj.2.unit) ∧
  Has m.keys (E.level vj.2.v vj.2.lv vj.2.pos) ∧ Has m.keys (E.parameter vj.2.v vj.2.lv) ∧ Has m.keys (E.missing vj.2.v)

/-- The settings of different kind have no key in common. -/
structure Separate (E : Env K) : Prop where
  time_proj : ∀ r t u p, Apart (E.projection p) (E.time r t u)
  level_proj : ∀ v l n p, Apart (E.projection p) (E.level v l n)
  par_proj : ∀ v l p, Apart (E.projection p) (E.parameter v l)
  miss_proj : ∀ v p, Apart (E.projection p) (E.missing v)
  level_time : ∀ v l n r t u, Apart (E.time r t u) (E.level v l n)
  par_time : ∀ v l r t u, Apart (E.time r t u) (E.parameter v l)
  miss_time : ∀ v r t u, Apart (E.time r t u) (E.missing v)
  par_level : ∀ v l n v' l', Apart (E.level v l n) (E.parameter v' l')
  miss_level : ∀ v l n v', Apart (E.level v l n) (E.missing v')
  miss_par : ∀ v l v', Apart (E.parameter v l) (E.missing v')

/-- No undefined behaviour in the parts. -/
structure Defined (E : Env K) : Prop where
  proj : ∀ v, (E.projection v).out ≠ .ub
  level : ∀ v l n, (E.level v l n).out ≠ .ub
  par : ∀ v l, (E.parameter v l).out ≠ .ub
  data : ∀ v s, E.data v s ≠ .ub
  fill : ∀ v, E.fill v ≠ .ub
  missing : ∀ v, (E.missing v).out ≠ .ub
  values : ∀ v l d, E.values v l d ≠ .ub

/-- The fields at a time, in the order of variables and levels; `ref` and `time` are the places of the data. -/
def fieldsAt (S : System K) (levels : List (Option K)) (r t : Option ℤ) (unit : String) (ref time : ℕ) : List (Job K) :=
  S.vars.flatMap fun v => levels.zipIdx.map fun lp => ⟨r, t, unit, v, lp.1, lp.2, ⟨ref, time, if S.hasZ then some lp.2 else none⟩⟩

/-- The fields at times. -/
def fieldsOver (S : System K) (levels : List (Option K)) (r : Option ℤ) (u : String) (ts : List (Option ℤ)) (ref : ℕ) : List (Job K) :=
  ts.zipIdx.flatMap fun tp => fieldsAt S levels r tp.1 u ref tp.2

/-- The unit of steps: by the first two times. -/
def unitOf (E : Env K) (ts : List ℤ) : String :=
  match ts with
  | a :: b :: _ => E.unit (b - a)
  | _ => "s"

/-- All fields of a system: those of all variables at all levels, for all reference times, and for each of these all its times. -/
def wanted (E : Env K) (S : System K) (levels : List (Option K)) : List (Job K) :=
  S.refs.zipIdx.flatMap fun rp =>
    if S.hasTime then fieldsOver S levels rp.1 (unitOf E (S.times rp.2)) ((S.times rp.2).map some) rp.2
    else fieldsOver S levels rp.1 "s" [rp.1] rp.2

/-- The system is to be written: it has a grid, configured variables and a known projection, that of its first variable. -/
def Takes (E : Env K) (S : System K) (v0 : String) : Prop := S.simple = true ∧ S.vars.head? = some v0 ∧ (E.projection v0).out = .ok ()

/-! ## Messages as stores -/

theorem get_apply (s : Sets K) : ∀ (h : Handle K) (k : String), get (apply h s) k = (last s k).or (get h k) := by
  obtain ⟨keys, out⟩ := s
  unfold apply last
  simp only
  induction keys with
  | nil => intro h k; rfl
  | cons kv rest ih =>
    intro h k
    rw [List.foldl_cons, ih, List.reverse_cons, List.find?_append]
    cases hf : rest.reverse.find? (fun kv => decide (canon kv.1 = canon k)) with
    | some x => rfl
    | none =>
      simp only [Option.map_none, Option.none_or]
      by_cases hk : canon kv.1 = canon k
      · simp [GribGrid.get, GribGrid.set, hk]
      · have : (canon k == canon kv.1) = false := by simpa using fun e => hk e.symm
        simp [GribGrid.get, GribGrid.set, hk, List.lookup_cons, this]

theorem last_touch (s : Sets K) (k : String) (v : Val K) (h : last s k = some v) : Touch s k := by
  unfold last at h
  cases hf : s.keys.reverse.find? (fun kv => decide (canon kv.1 = canon k)) with
  | none => rw [hf] at h; cases h
  | some x =>
    have h1 := List.mem_of_find?_eq_some hf
    have h2 := List.find?_some hf
    exact ⟨x, by simpa using h1, by simpa using h2⟩

theorem has_apply (h : Handle K) (s : Sets K) : Has (apply h s) s := by
  intro k v hk
  rw [get_apply, hk]
  rfl

theorem has_keep (h : Handle K) (s s' : Sets K) (ha : Apart s s') (hh : Has h s) : Has (apply h s') s := by
  intro k v hk
  have : last s' k = none := by
    cases hl : last s' k with
    | none => rfl
    | some w => exact absurd (last_touch _ _ _ hl) (ha k (last_touch _ _ _ hk))
  rw [get_apply, this]
  exact hh k v hk

/-! ## Actions -/

open Classical in
/-- An action writes messages for the fields that can be written, in order, and ends well. -/
def Writes (E : Env K) (P : Handle K → Prop) (a : Act K) (js : List (String × Job K)) : Prop :=
  ∀ st, P st.h → ∃ st', a st = (st', .ok ()) ∧ P st'.h ∧ ∃ msgs, st'.file = st.file ++ msgs ∧
    List.Forall₂ (Fits E) (js.filter fun j => decide (∃ vals, Good E j.2 vals)) msgs

theorem forall2_append {α β : Type} {R : α → β → Prop} {a c : List α} {b d : List β} (h : List.Forall₂ R a b) (h' : List.Forall₂ R c d) :
    List.Forall₂ R (a ++ c) (b ++ d) := by
  induction h with
  | nil => exact h'
  | cons hd _ ih => exact .cons hd ih

theorem writes_seq (E : Env K) (P : Handle K → Prop) {α : Type} (f : α → Act K) (js : α → List (String × Job K)) :
    ∀ l : List α, (∀ x ∈ l, Writes E P (f x) (js x)) → Writes E P (seq (l.map f)) (l.flatMap js) := by
  intro l
  induction l with
  | nil => exact fun _ st hP => ⟨st, rfl, hP, [], by simp, .nil⟩
  | cons x xs ih =>
    intro h st hP
    obtain ⟨st1, e1, P1, m1, f1, r1⟩ := h x (by simp) st hP
    obtain ⟨st2, e2, P2, m2, f2, r2⟩ := ih (fun y hy => h y (by simp [hy])) st1 P1
    refine ⟨st2, ?_, P2, m1 ++ m2, by rw [f2, f1, List.append_assoc], ?_⟩
    · simp only [List.map_cons, seq, e1, e2]
    · rw [List.flatMap_cons, List.filter_append]
      exact forall2_append r1 r2

section
variable [DecidableEq K]

theorem allFill_iff (f : Option K) (d : List (Option K)) : allFill f d = true ↔ f ≠ none ∧ ∀ x ∈ d, x = f := by
  cases f with
  | none => simp [allFill]
  | some f => simp [allFill]

/-- What is kept while the fields of a system at a time are written. -/
def Kept (E : Env K) (v0 : String) (r t : Option ℤ) (u : String) (h : Handle K) : Prop := Has h (E.projection v0) ∧ Has h (E.time r t u)

theorem field_writes (E : Env K) (hS : Separate E) (hD : Defined E) (v0 : String) (j : Job K) :
    Writes E (Kept E v0 j.r j.t j.unit) (field E j.v j.lv j.pos j.sl) [(v0, j)] := by
  classical
  intro st hP
  obtain ⟨p1, p2⟩ := hP
  have q1 := has_keep _ _ _ (hS.level_proj j.v j.lv j.pos v0) p1
  have q2 := has_keep _ _ _ (hS.level_time j.v j.lv j.pos j.r j.t j.unit) p2
  have q3 := has_apply st.h (E.level j.v j.lv j.pos)
  have r1 := has_keep _ _ _ (hS.par_proj j.v j.lv v0) q1
  have r2 := has_keep _ _ _ (hS.par_time j.v j.lv j.r j.t j.unit) q2
  have r3 := has_keep _ _ _ (hS.par_level j.v j.lv j.pos j.v j.lv) q3
  have r4 := has_apply (apply st.h (E.level j.v j.lv j.pos)) (E.parameter j.v j.lv)
  have s1 := has_keep _ _ _ (hS.miss_proj j.v v0) r1
  have s2 := has_keep _ _ _ (hS.miss_time j.v j.r j.t j.unit) r2
  have s3 := has_keep _ _ _ (hS.miss_level j.v j.lv j.pos j.v) r3
  have s4 := has_keep _ _ _ (hS.miss_par j.v j.lv j.v) r4
  have s5 := has_apply (apply (apply st.h (E.level j.v j.lv j.pos)) (E.parameter j.v j.lv)) (E.missing j.v)
  have none : ∀ st' : St K, (¬ ∃ vals, Good E j vals) → st'.file = st.file → Kept E v0 j.r j.t j.unit st'.h →
      field E j.v j.lv j.pos j.sl st = (st', .ok ()) → ∃ st', field E j.v j.lv j.pos j.sl st = (st', .ok ()) ∧ Kept E v0 j.r j.t j.unit st'.h ∧
        ∃ msgs, st'.file = st.file ++ msgs ∧
          List.Forall₂ (Fits E) ([(v0, j)].filter fun j => decide (∃ vals, Good E j.2 vals)) msgs := by
    intro st' hn hf hk e
    refine ⟨st', e, hk, [], by simp [hf], ?_⟩
    have : ([(v0, j)].filter fun j => decide (∃ vals, Good E j.2 vals)) = [] := by
      rw [List.filter_cons, if_neg (by simpa using hn), List.filter_nil]
    rw [this]
    exact .nil
  cases hl : (E.level j.v j.lv j.pos).out with
  | ub => exact absurd hl (hD.level _ _ _)
  | throws =>
    refine none ⟨apply st.h (E.level j.v j.lv j.pos), st.file⟩ ?_ rfl ⟨q1, q2⟩ (by simp only [field, attempt, hl])
    rintro ⟨vals, h, -⟩
    rw [hl] at h
    cases h
  | ok _ =>
    cases hp : (E.parameter j.v j.lv).out with
    | ub => exact absurd hp (hD.par _ _)
    | throws =>
      refine none ⟨apply (apply st.h (E.level j.v j.lv j.pos)) (E.parameter j.v j.lv), st.file⟩ ?_ rfl ⟨r1, r2⟩ (by simp only [field, attempt, hl, hp])
      rintro ⟨vals, -, h, -⟩
      rw [hp] at h
      cases h
    | ok _ =>
      cases hd : E.data j.v j.sl with
      | ub => exact absurd hd (hD.data _ _)
      | throws =>
        refine none ⟨apply (apply st.h (E.level j.v j.lv j.pos)) (E.parameter j.v j.lv), st.file⟩ ?_ rfl ⟨r1, r2⟩ (by simp only [field, attempt, attemptRes, hl, hp, hd])
        rintro ⟨vals, -, -, d, f, h, -⟩
        rw [hd] at h
        cases h
      | ok d =>
        by_cases hd0 : d = []
        · refine none ⟨apply (apply st.h (E.level j.v j.lv j.pos)) (E.parameter j.v j.lv), st.file⟩ ?_ rfl ⟨r1, r2⟩ (by simp only [field, attempt, attemptRes, hl, hp, hd]; rw [if_pos hd0])
          rintro ⟨vals, -, -, d', f, h, h', -⟩
          rw [hd] at h
          obtain rfl : d = d' := by simpa using h
          exact h' hd0
        · cases hf : E.fill j.v with
          | ub => exact absurd hf (hD.fill _)
          | throws =>
            refine none ⟨apply (apply st.h (E.level j.v j.lv j.pos)) (E.parameter j.v j.lv), st.file⟩ ?_ rfl ⟨r1, r2⟩ (by simp only [field, attempt, attemptRes, hl, hp, hd]; rw [if_neg hd0]; simp only [hf, attemptRes])
            rintro ⟨vals, -, -, d', f, -, -, h, -⟩
            rw [hf] at h
            cases h
          | ok f =>
            by_cases ho : E.omitEmpty ∧ allFill f d
            · refine none ⟨apply (apply st.h (E.level j.v j.lv j.pos)) (E.parameter j.v j.lv), st.file⟩ ?_ rfl ⟨r1, r2⟩
                (by simp only [field, attempt, attemptRes, hl, hp, hd]; rw [if_neg hd0]; simp only [hf, attemptRes]; rw [if_pos ho])
              rintro ⟨vals, -, -, d', f', h1, -, h2, h3, -⟩
              rw [hd] at h1
              rw [hf] at h2
              obtain rfl : d = d' := by simpa using h1
              obtain rfl : f = f' := by simpa using h2
              obtain ⟨a1, a2⟩ := (allFill_iff f d).1 ho.2
              rcases h3 ho.1 with h | ⟨x, hx, hne⟩
              · exact a1 h
              · exact hne (a2 x hx)
            · cases hm : (E.missing j.v).out with
              | ub => exact absurd hm (hD.missing _)
              | throws =>
                refine none ⟨apply (apply (apply st.h (E.level j.v j.lv j.pos)) (E.parameter j.v j.lv)) (E.missing j.v), st.file⟩ ?_ rfl ⟨s1, s2⟩
                  (by simp only [field, attempt, attemptRes, hl, hp, hd]; rw [if_neg hd0]; simp only [hf, attemptRes]; rw [if_neg ho]; simp only [hm, attempt])
                rintro ⟨vals, -, -, d', f', -, -, -, -, h, -⟩
                rw [hm] at h
                cases h
              | ok _ =>
                cases hv : E.values j.v j.lv d with
                | ub => exact absurd hv (hD.values _ _ _)
                | throws =>
                  refine none ⟨apply (apply (apply st.h (E.level j.v j.lv j.pos)) (E.parameter j.v j.lv)) (E.missing j.v), st.file⟩ ?_ rfl ⟨s1, s2⟩
                    (by simp only [field, attempt, attemptRes, hl, hp, hd]; rw [if_neg hd0]; simp only [hf, attemptRes]; rw [if_neg ho]; simp only [hm, hv, attempt, attemptRes])
                  rintro ⟨vals, -, -, d', f', h1, -, -, -, -, h⟩
                  rw [hd] at h1
                  obtain rfl : d = d' := by simpa using h1
                  rw [hv] at h
                  cases h
                | ok vals =>
                  have hg : Good E j vals := by
                    refine ⟨hl, hp, d, f, hd, hd0, hf, fun homit => ?_, hm, hv⟩
                    by_contra hcon
                    push Not at hcon
                    exact ho ⟨homit, (allFill_iff f d).2 hcon⟩
                  refine ⟨⟨apply (apply (apply st.h (E.level j.v j.lv j.pos)) (E.parameter j.v j.lv)) (E.missing j.v), st.file ++ [⟨apply (apply (apply st.h (E.level j.v j.lv j.pos)) (E.parameter j.v j.lv)) (E.missing j.v), vals⟩]⟩, by simp only [field, attempt, attemptRes, hl, hp, hd]; rw [if_neg hd0]; simp only [hf, attemptRes]; rw [if_neg ho]; simp only [hm, hv, attempt, attemptRes],
                    ⟨s1, s2⟩, [⟨_, vals⟩], rfl, ?_⟩
                  rw [List.filter_cons, if_pos (by simpa using ⟨vals, hg⟩), List.filter_nil]
                  exact .cons ⟨hg, s1, s2, s3, s4, s5⟩ .nil

theorem overLevels_writes (E : Env K) (hS : Separate E) (hD : Defined E) (S : System K) (levels : List (Option K)) (v0 v : String)
    (r t : Option ℤ) (u : String) (time : ℕ) :
    Writes E (Kept E v0 r t u) (overLevels E S levels v 0 time)
      (levels.zipIdx.map fun lp => (v0, ⟨r, t, u, v, lp.1, lp.2, ⟨0, time, if S.hasZ then some lp.2 else none⟩⟩)) := by
  have := writes_seq E (Kept E v0 r t u) (fun lp : Option K × ℕ => field E v lp.1 lp.2 ⟨0, time, if S.hasZ then some lp.2 else none⟩)
    (fun lp => [(v0, ⟨r, t, u, v, lp.1, lp.2, ⟨0, time, if S.hasZ then some lp.2 else none⟩⟩)]) levels.zipIdx
    (fun lp _ => field_writes E hS hD v0 ⟨r, t, u, v, lp.1, lp.2, ⟨0, time, if S.hasZ then some lp.2 else none⟩⟩)
  have e : levels.zipIdx.flatMap (fun lp => [((v0, ⟨r, t, u, v, lp.1, lp.2, ⟨0, time, if S.hasZ then some lp.2 else none⟩⟩) : String × Job K)]) =
      levels.zipIdx.map fun lp => (v0, ⟨r, t, u, v, lp.1, lp.2, ⟨0, time, if S.hasZ then some lp.2 else none⟩⟩) := by
    rw [List.map_eq_flatMap]
  rw [e] at this
  exact this

theorem must_writes (E : Env K) (hS : Separate E) (v0 : String) (r t : Option ℤ) (u : String) (ht : (E.time r t u).out = .ok ()) (a : Act K)
    (js : List (String × Job K)) (h : Writes E (Kept E v0 r t u) a js) :
    Writes E (fun h => Has h (E.projection v0)) (must (E.time r t u) a) js := by
  intro st hP
  have h1 : Kept E v0 r t u (apply st.h (E.time r t u)) := ⟨has_keep _ _ _ (hS.time_proj r t u v0) hP, has_apply _ _⟩
  obtain ⟨st', e, k, m, f, w⟩ := h ⟨apply st.h (E.time r t u), st.file⟩ h1
  exact ⟨st', by simp only [must, ht, e], k.1, m, f, w⟩

theorem overVars_writes (E : Env K) (hS : Separate E) (hD : Defined E) (S : System K) (levels : List (Option K)) (v0 : String)
    (r t : Option ℤ) (u : String) (ht : (E.time r t u).out = .ok ()) (time : ℕ) :
    Writes E (fun h => Has h (E.projection v0)) (overVars E S levels r t u 0 time) ((fieldsAt S levels r t u 0 time).map fun j => (v0, j)) := by
  have := writes_seq E (fun h => Has h (E.projection v0)) (fun v => must (E.time r t u) (overLevels E S levels v 0 time))
    (fun v => levels.zipIdx.map fun lp => (v0, ⟨r, t, u, v, lp.1, lp.2, ⟨0, time, if S.hasZ then some lp.2 else none⟩⟩)) S.vars
    (fun v _ => must_writes E hS v0 r t u ht _ _ (overLevels_writes E hS hD S levels v0 v r t u time))
  simpa [overVars, fieldsAt, List.map_flatMap, List.map_map, Function.comp_def] using this

theorem overTimes_writes (E : Env K) (hS : Separate E) (hD : Defined E) (S : System K) (levels : List (Option K)) (v0 : String)
    (r : Option ℤ) (u : String) (ts : List (Option ℤ)) (ht : ∀ t ∈ ts, (E.time r t u).out = .ok ()) :
    Writes E (fun h => Has h (E.projection v0)) (overTimes E S levels r u ts 0 0) ((fieldsOver S levels r u ts 0).map fun j => (v0, j)) := by
  have := writes_seq E (fun h => Has h (E.projection v0)) (fun tp : Option ℤ × ℕ => overVars E S levels r tp.1 u 0 (if 1 < ts.length then tp.2 else 0))
    (fun tp => (fieldsAt S levels r tp.1 u 0 tp.2).map fun j => (v0, j)) ts.zipIdx
    (fun tp htp => by
      have h1 : tp.1 ∈ ts := by
        rw [List.mem_zipIdx_iff_getElem?] at htp
        exact List.mem_of_getElem? htp
      have h2 : (if 1 < ts.length then tp.2 else 0) = tp.2 := by
        by_cases hl : 1 < ts.length
        · rw [if_pos hl]
        · rw [if_neg hl]
          rw [List.mem_zipIdx_iff_getElem?] at htp
          have := (List.getElem?_eq_some_iff.1 htp).1
          omega
      rw [h2]
      exact overVars_writes E hS hD S levels v0 r tp.1 u (ht _ h1) tp.2)
  simpa [overTimes, fieldsOver, List.map_flatMap] using this

/-! ## Systems -/

/-- What goes wrong with no field of the system: it has times, its times can be set, its levels are known. -/
structure Ready (E : Env K) (S : System K) (levels : List (Option K)) : Prop where
  levels_ok : S.levels = .ok levels
  refs : S.refs ≠ []
  times : S.hasTime = true → S.times 0 ≠ []
  noTime : S.hasTime = false → S.refs.length = 1
  time : ∀ r t u, (E.time r t u).out = .ok ()

/-- The fields of a system with one reference time: all times, variables and levels. -/
def oneReference (E : Env K) (S : System K) (levels : List (Option K)) (r : Option ℤ) : List (Job K) :=
  if S.hasTime then fieldsOver S levels r (unitOf E (S.times 0)) ((S.times 0).map some) 0 else fieldsOver S levels r "s" [r] 0

/-- The fields that are written for a system with several reference times: for each of them those of the first time of the first. -/
def manyReferences (E : Env K) (S : System K) (levels : List (Option K)) : List (Job K) :=
  S.refs.flatMap fun r => fieldsAt S levels r ((S.times 0).head?) (unitOf E (S.times 0)) 0 0

theorem overRefs_many (E : Env K) (hS : Separate E) (hD : Defined E) (S : System K) (levels : List (Option K)) (v0 : String)
    (hr : Ready E S levels) (h1 : 1 < S.refs.length) (t : ℤ) (ht : (S.times 0)[0]? = some t) (ts : List (Option ℤ)) (u : String) :
    ∀ rs : List (Option ℤ), Writes E (fun h => Has h (E.projection v0)) (overRefs E S levels ts rs u 0)
      ((rs.flatMap fun r => fieldsAt S levels r (some t) u 0 0).map fun j => (v0, j)) := by
  intro rs
  induction rs with
  | nil => exact fun st hP => ⟨st, rfl, hP, [], by simp, by simp⟩
  | cons r rs ih =>
    intro st hP
    obtain ⟨st1, e1, P1, m1, f1, w1⟩ := overTimes_writes E hS hD S levels v0 r u [some t] (fun t _ => hr.time _ _ _) st hP
    obtain ⟨st2, e2, P2, m2, f2, w2⟩ := ih st1 P1
    refine ⟨st2, ?_, P2, m1 ++ m2, by rw [f2, f1, List.append_assoc], ?_⟩
    · rw [overRefs]
      simp only [h1, if_true, ht, stepUnit]
      rw [e1]
      simpa [lastTime] using e2
    · rw [List.flatMap_cons, List.map_append, List.filter_append]
      refine forall2_append ?_ w2
      simpa [fieldsOver] using w1

theorem overRefs_one (E : Env K) (hS : Separate E) (hD : Defined E) (S : System K) (levels : List (Option K)) (v0 : String)
    (hr : Ready E S levels) (r : Option ℤ) (h1 : S.refs = [r]) (ts : List (Option ℤ)) (u : String) :
    Writes E (fun h => Has h (E.projection v0)) (overRefs E S levels ts S.refs u 0) ((fieldsOver S levels r u ts 0).map fun j => (v0, j)) := by
  intro st hP
  obtain ⟨st1, e1, P1, m1, f1, w1⟩ := overTimes_writes E hS hD S levels v0 r u ts (fun t _ => hr.time _ _ _) st hP
  refine ⟨st1, ?_, P1, m1, f1, w1⟩
  rw [h1, overRefs]
  simp only [h1, List.length_singleton, lt_irrefl, if_false, e1, overRefs]

theorem stepUnit_eq (E : Env K) (ts : List ℤ) : stepUnit E ts "s" = unitOf E ts := by
  unfold stepUnit unitOf
  rcases ts with _ | ⟨a, _ | ⟨b, l⟩⟩ <;> rfl

/-- The fields of a system that are written, with the variable that gives the grid. -/
def planned (E : Env K) (S : System K) (levels : List (Option K)) : List (String × Job K) :=
  match S.simple, S.vars with
  | true, v0 :: _ =>
    if (E.projection v0).out = .ok () then
      match S.refs with
      | [r] => (oneReference E S levels r).map fun j => (v0, j)
      | _ => (manyReferences E S levels).map fun j => (v0, j)
    else []
  | _, _ => []

theorem system_writes (E : Env K) (hS : Separate E) (hD : Defined E) (S : System K) (levels : List (Option K))
    (hr : S.simple = true → S.vars ≠ [] → Ready E S levels) : Writes E (fun _ => True) (system E S) (planned E S levels) := by
  intro st _
  have skip : ∀ st', system E S st = (st', .ok ()) → st'.file = st.file → planned E S levels = [] →
      ∃ st', system E S st = (st', .ok ()) ∧ True ∧ ∃ msgs, st'.file = st.file ++ msgs ∧
        List.Forall₂ (Fits E) ((planned E S levels).filter fun j => @decide (∃ vals, Good E j.2 vals) (Classical.propDecidable _)) msgs := by
    intro st' e f p
    exact ⟨st', e, trivial, [], by simp [f], by rw [p]; exact .nil⟩
  cases hs : S.simple with
  | false => exact skip st (by simp [system, hs]) rfl (by simp [planned, hs])
  | true =>
    cases hv : S.vars with
    | nil => exact skip st (by simp [system, hs, hv]) rfl (by simp [planned, hs, hv])
    | cons v0 rest =>
      have hr := hr hs (by rw [hv]; simp)
      cases hp : (E.projection v0).out with
      | ub => exact absurd hp (hD.proj _)
      | throws =>
        exact skip ⟨apply st.h (E.projection v0), st.file⟩ (by simp [system, hs, hv, attempt, hp]) rfl (by simp [planned, hs, hv, hp])
      | ok _ =>
        have hP : Has (apply st.h (E.projection v0)) (E.projection v0) := has_apply _ _
        rcases hrefs : S.refs with _ | ⟨r, _ | ⟨r', more⟩⟩
        · exact absurd hrefs hr.refs
        · cases ht : S.hasTime with
          | true =>
            obtain ⟨st', e, -, m, f, w⟩ := overRefs_one E hS hD S levels v0 hr r hrefs ((S.times 0).map some) (unitOf E (S.times 0))
              ⟨apply st.h (E.projection v0), st.file⟩ hP
            refine ⟨st', ?_, trivial, m, f, ?_⟩
            · simp only [system, hs, hv, if_true, attempt, hp, initialTimes, ht, hrefs, hr.levels_ok]
              simp only [List.cons_ne_nil, if_false, hr.times ht, stepUnit_eq]
              rw [← hrefs]
              exact e
            · have : planned E S levels = (fieldsOver S levels r (unitOf E (S.times 0)) ((S.times 0).map some) 0).map fun j => (v0, j) := by
                simp [planned, hs, hv, hp, hrefs, oneReference, ht]
              rw [this]
              exact w
          | false =>
            obtain ⟨st', e, -, m, f, w⟩ := overRefs_one E hS hD S levels v0 hr r hrefs [r] "s" ⟨apply st.h (E.projection v0), st.file⟩ hP
            refine ⟨st', ?_, trivial, m, f, ?_⟩
            · simp only [system, hs, hv, if_true, attempt, hp, initialTimes, ht, hrefs, hr.levels_ok]
              simp only [Bool.false_eq_true, if_false, List.take_succ_cons, List.take_zero]
              rw [hrefs] at e
              exact e
            · have : planned E S levels = (fieldsOver S levels r "s" [r] 0).map fun j => (v0, j) := by
                simp [planned, hs, hv, hp, hrefs, oneReference, ht]
              rw [this]
              exact w
        · have h1 : 1 < S.refs.length := by rw [hrefs]; simp
          have ht : S.hasTime = true := by
            cases ht : S.hasTime with
            | true => rfl
            | false => have := hr.noTime ht; omega
          obtain ⟨t, tl, htt⟩ : ∃ t tl, S.times 0 = t :: tl := by
            cases hh : S.times 0 with
            | nil => exact absurd hh (hr.times ht)
            | cons t tl => exact ⟨t, tl, rfl⟩
          obtain ⟨st', e, -, m, f, w⟩ := overRefs_many E hS hD S levels v0 hr h1 t (by rw [htt]; rfl) ((S.times 0).map some) (unitOf E (S.times 0))
            S.refs ⟨apply st.h (E.projection v0), st.file⟩ hP
          refine ⟨st', ?_, trivial, m, f, ?_⟩
          · simp only [system, hs, hv, if_true, attempt, hp, initialTimes, ht, hr.levels_ok]
            simp only [hr.refs, if_false, hr.times ht, stepUnit_eq]
            exact e
          · have : planned E S levels = (S.refs.flatMap fun r => fieldsAt S levels r (some t) (unitOf E (S.times 0)) 0 0).map fun j => (v0, j) := by
              simp [planned, hs, hv, hp, hrefs, manyReferences, htt]
            rw [this]
            exact w

theorem run_writes (E : Env K) (hS : Separate E) (hD : Defined E) (globals : Sets K) (hg : globals.out = .ok ())
    (systems : List (System K × List (Option K)))
    (hr : ∀ S ∈ systems, S.1.simple = true → S.1.vars ≠ [] → Ready E S.1 S.2) :
    Writes E (fun _ => True) (run E globals (systems.map (·.1))) (systems.flatMap fun S => planned E S.1 S.2) := by
  have := writes_seq E (fun _ => True) (fun S : System K × List (Option K) => system E S.1) (fun S => planned E S.1 S.2) systems
    (fun S hS' => system_writes E hS hD S.1 S.2 (hr S hS'))
  intro st _
  obtain ⟨st', e, -, m, f, w⟩ := this ⟨apply st.h globals, st.file⟩ trivial
  refine ⟨st', ?_, trivial, m, f, w⟩
  simp only [run, must, hg, List.map_map]
  exact e

theorem planned_of_not (E : Env K) (S : System K) (levels : List (Option K)) (h : ¬ ∃ v0, Takes E S v0) : planned E S levels = [] := by
  unfold planned
  cases hs : S.simple with
  | false => rfl
  | true =>
    cases hv : S.vars with
    | nil => rfl
    | cons v0 rest =>
      refine if_neg fun hp => h ⟨v0, hs, by rw [hv]; rfl, hp⟩

theorem planned_one (E : Env K) (S : System K) (levels : List (Option K)) (v0 : String) (h : Takes E S v0) (r : Option ℤ) (hr : S.refs = [r]) :
    planned E S levels = (wanted E S levels).map fun j => (v0, j) := by
  obtain ⟨hs, hv, hp⟩ := h
  cases hv' : S.vars with
  | nil => rw [hv'] at hv; cases hv
  | cons w rest =>
    rw [hv'] at hv
    obtain rfl : w = v0 := by simpa using hv
    simp [planned, hs, hv', hp, hr, wanted, oneReference]

theorem planned_many (E : Env K) (S : System K) (levels : List (Option K)) (v0 : String) (h : Takes E S v0) (hr : 1 < S.refs.length) :
    planned E S levels = (manyReferences E S levels).map fun j => (v0, j) := by
  obtain ⟨hs, hv, hp⟩ := h
  cases hv' : S.vars with
  | nil => rw [hv'] at hv; cases hv
  | cons w rest =>
    rw [hv'] at hv
    obtain rfl : w = v0 := by simpa using hv
    rcases hrr : S.refs with _ | ⟨r, _ | ⟨r', more⟩⟩
    · rw [hrr] at hr; simp at hr
    · rw [hrr] at hr; simp at hr
    · simp [planned, hs, hv', hp, hrr]

/-! ## Theorems -/

open Classical in
/-- The fields of a system that are to be written, with the variable that gives the grid. -/
noncomputable def chosen (E : Env K) (S : System K) (levels : List (Option K)) : List (String × Job K) :=
  if h : ∃ v0, Takes E S v0 then (wanted E S levels).map fun j => (h.choose, j) else []

open Classical in
/-- **C112.** A run over any systems with one reference time (or none known), each of them ready if it is to be written at all, ends well;
the messages of the file are, in order, exactly those of the fields that can be written: system by system, and within a system by time,
variable and level. Each holds the values of its field and the keys of its grid, time, level, parameter and missing values. Fields without
data, without a known level or parameter, and (if they are to be omitted) with nothing but fill values are left out; so are systems
without grid or configured variables or with an unknown projection. -/
theorem C112_messages (E : Env K) (hS : Separate E) (hD : Defined E) (globals : Sets K) (hg : globals.out = .ok ())
    (systems : List (System K × List (Option K)))
    (hr : ∀ S ∈ systems, S.1.simple = true → S.1.vars ≠ [] → Ready E S.1 S.2 ∧ S.1.refs.length = 1) (h : Handle K) :
    ∃ st', run E globals (systems.map (·.1)) ⟨h, []⟩ = (st', .ok ()) ∧
      List.Forall₂ (Fits E) ((systems.flatMap fun S => chosen E S.1 S.2).filter fun j => decide (∃ vals, Good E j.2 vals)) st'.file := by
  obtain ⟨st', e, -, m, f, w⟩ := run_writes E hS hD globals hg systems (fun S hS' a b => (hr S hS' a b).1) ⟨h, []⟩ trivial
  refine ⟨st', e, ?_⟩
  rw [f]
  have : systems.flatMap (fun S => chosen E S.1 S.2) = systems.flatMap fun S => planned E S.1 S.2 := by
    refine List.flatMap_congr fun S hS' => ?_
    unfold chosen
    by_cases ht : ∃ v0, Takes E S.1 v0
    · rw [dif_pos ht]
      have hc := ht.choose_spec
      have hne : S.1.vars ≠ [] := by
        intro hn
        have := hc.2.1
        rw [hn] at this
        cases this
      obtain ⟨r, hr1⟩ := List.length_eq_one_iff.1 (hr S hS' hc.1 hne).2
      exact (planned_one E S.1 S.2 _ hc r hr1).symm
    · rw [dif_neg ht, planned_of_not E S.1 S.2 ht]
  rw [this]
  exact w

open Classical in
/-- **C112, not met.** With two or more reference times the data of the first time of the first reference time are written for each of them,
and nothing else: the other times and the data of the other reference times are lost. -/
theorem C112_reference_times (E : Env K) (hS : Separate E) (hD : Defined E) (S : System K) (levels : List (Option K)) (v0 : String)
    (ht : Takes E S v0) (hr : Ready E S levels) (h2 : 1 < S.refs.length) (st : St K) :
    ∃ st' msgs, system E S st = (st', .ok ()) ∧ st'.file = st.file ++ msgs ∧ msgs.length ≤ S.refs.length * (S.vars.length * levels.length) ∧
      ∀ m ∈ msgs, ∃ j, Fits E (v0, j) m ∧ j.r ∈ S.refs ∧ j.v ∈ S.vars ∧ j.t = (S.times 0).head? ∧ j.sl.ref = 0 ∧ j.sl.time = 0 := by
  obtain ⟨st', e, -, m, f, w⟩ := system_writes E hS hD S levels (fun _ _ => hr) st trivial
  rw [planned_many E S levels v0 ht h2] at w
  refine ⟨st', m, e, f, ?_, ?_⟩
  · rw [← w.length_eq]
    refine (List.length_filter_le _ _).trans ?_
    rw [List.length_map, manyReferences, List.length_flatMap]
    simp [fieldsAt, List.length_flatMap]
  · intro x hx
    obtain ⟨j, hj, hfit⟩ : ∃ j ∈ (manyReferences E S levels).map (fun j => (v0, j)), Fits E j x := by
      have := List.forall₂_iff_get.1 w
      obtain ⟨i, hi, rfl⟩ := List.getElem_of_mem hx
      exact ⟨_, List.mem_of_mem_filter (List.get_mem _ ⟨i, by rw [this.1]; exact hi⟩), this.2 i (by rw [this.1]; exact hi) hi⟩
    obtain ⟨j, hj', rfl⟩ := List.mem_map.1 hj
    obtain ⟨r, hr', hj''⟩ := List.mem_flatMap.1 hj'
    obtain ⟨v, hv, hj3⟩ := List.mem_flatMap.1 hj''
    obtain ⟨lp, -, rfl⟩ := List.mem_map.1 hj3
    exact ⟨_, hfit, hr', hv, rfl, rfl, rfl⟩

theorem seq_append (l l' : List (Act K)) (st : St K) :
    seq (l ++ l') st = match seq l st with | (st', .ok _) => seq l' st' | r => r := by
  induction l generalizing st with
  | nil => rfl
  | cons a as ih =>
    rw [List.cons_append, seq, seq]
    rcases h : a st with ⟨st', r⟩
    cases r <;> simp [ih]

open Classical in
/-- **C112, not met.** Not every trouble is limited to a field or a system: if the times or levels of a system can not be had, the run ends
there. The messages of the systems before are in the file, those after are lost. -/
theorem C112_stops (E : Env K) (hS : Separate E) (hD : Defined E) (globals : Sets K) (hg : globals.out = .ok ())
    (before : List (System K × List (Option K))) (hr : ∀ S ∈ before, S.1.simple = true → S.1.vars ≠ [] → Ready E S.1 S.2)
    (S : System K) (v0 : String) (ht : Takes E S v0)
    (hbad : (S.hasTime = true ∧ (S.refs = [] ∨ S.times 0 = []) ∧ S.levels ≠ .ub) ∨ S.levels = .throws) (after : List (System K)) (h : Handle K) :
    ∃ st', run E globals (before.map (·.1) ++ S :: after) ⟨h, []⟩ = (st', .throws) ∧
      List.Forall₂ (Fits E) ((before.flatMap fun S => planned E S.1 S.2).filter fun j => decide (∃ vals, Good E j.2 vals)) st'.file := by
  have := writes_seq E (fun _ => True) (fun S : System K × List (Option K) => system E S.1) (fun S => planned E S.1 S.2) before
    (fun S hS' => system_writes E hS hD S.1 S.2 (hr S hS'))
  obtain ⟨st1, e, -, m, f, w⟩ := this ⟨apply h globals, []⟩ trivial
  obtain ⟨hs, hv, hp⟩ := ht
  refine ⟨⟨apply st1.h (E.projection v0), st1.file⟩, ?_, by rw [f]; exact w⟩
  cases hv' : S.vars with
  | nil => rw [hv'] at hv; cases hv
  | cons w' rest =>
    rw [hv'] at hv
    obtain rfl : w' = v0 := by simpa using hv
    have hsys : system E S st1 = (⟨apply st1.h (E.projection w'), st1.file⟩, .throws) := by
      simp only [system, hs, hv', if_true, attempt, hp]
      unfold initialTimes
      rcases hbad with ⟨h1, h2, h3⟩ | h1
      · rw [if_pos h1]
        by_cases ha : S.refs = []
        · rw [if_pos ha]
        · rw [if_neg ha, if_pos (h2.resolve_left ha)]
      · rw [h1]
        split_ifs <;> rfl
    simp only [run, must, hg, List.map_append, List.map_cons, List.map_map]
    rw [seq_append]
    have e' : seq (List.map (system E ∘ fun x : System K × List (Option K) => x.1) before) ⟨apply h globals, []⟩ = (st1, .ok ()) := e
    rw [e']
    simp only [seq, hsys]

end

/-! ## Cases -/

/-- Two variables on two levels: `t` has an attribute of its own, `w` has no level 500. -/
def toyEnv : Env ℕ where
  projection _ := ⟨[("gridType", .text "regular_ll")], .ok ()⟩
  time _ t _ := ⟨[("dataTime", .long (t.getD 0))], .ok ()⟩
  level _ l _ := ⟨[("level", .dbl l)], .ok ()⟩
  parameter v l := if v = "t" then ⟨[("paramId", .long 11), ("typeOfStatistics", .long 2)], .ok ()⟩
    else if l = some 500 then ⟨[], .throws⟩ else ⟨[("paramId", .long 39)], .ok ()⟩
  data v s := .ok (if v = "t" ∧ s.time = 1 then [some 99, some 99] else [some s.time, some 99])
  fill _ := .ok (some 99)
  missing _ := ⟨[("missingValue", .dbl (some 99))], .ok ()⟩
  values _ _ d := .ok d
  unit _ := "h"
  omitEmpty := true

/-- Two times. -/
def toySystem : System ℕ := ⟨true, ["t", "w"], true, [some 0], fun _ => [3600, 7200], true, .ok [some 500, some 850]⟩

/-- The hypotheses of `C112_messages` can be met. -/
theorem toy_separate : Separate toyEnv := by
  constructor <;> intros <;> rintro k ⟨kv, hk, e⟩ ⟨kv', hk', e'⟩ <;> simp only [toyEnv] at hk hk' <;> (try split_ifs at hk) <;>
    (try split_ifs at hk') <;> simp at hk hk' <;> (try rcases hk with rfl | rfl) <;> (try rcases hk' with rfl | rfl) <;>
    rw [← e'] at e <;> dsimp only at e <;> revert e <;> decide

theorem toy_defined : Defined toyEnv := by
  constructor <;> intros <;> simp only [toyEnv] <;> (try split_ifs) <;> simp

theorem toy_ready : Ready toyEnv toySystem [some 500, some 850] := by
  constructor <;> simp [toySystem, toyEnv]

/-- What is seen of a message: time, parameter, level, the attribute, values. -/
structure Seen where
  time : Option (Val ℕ)
  par : Option (Val ℕ)
  level : Option (Val ℕ)
  stat : Option (Val ℕ)
  values : List (Option ℕ)
deriving DecidableEq

def look (m : Msg ℕ) : Seen := ⟨get m.keys "dataTime", get m.keys "paramId", get m.keys "level", get m.keys "typeOfStatistics", m.values⟩

/-- **C112, case.** `t` at the first time on both levels (it is empty at the second), `w` on the known level at both times. And **not met**:
the attribute of `t` remains in the messages of `w`. -/
theorem C112_attribute_kept :
    (run toyEnv ⟨[], .ok ()⟩ [toySystem] ⟨[], []⟩).1.file.map look =
      [⟨some (.long 3600), some (.long 11), some (.dbl (some 500)), some (.long 2), [some 0, some 99]⟩,
       ⟨some (.long 3600), some (.long 11), some (.dbl (some 850)), some (.long 2), [some 0, some 99]⟩,
       ⟨some (.long 3600), some (.long 39), some (.dbl (some 850)), some (.long 2), [some 0, some 99]⟩,
       ⟨some (.long 7200), some (.long 39), some (.dbl (some 850)), some (.long 2), [some 1, some 99]⟩] := by decide +kernel

/-- The same with reference times: two of them, with two times each. -/
def toyTwo : System ℕ := { toySystem with refs := [some 0, some 10], vars := ["w"], levels := .ok [some 850] }

/-- **C112, case of `C112_reference_times`.** Two of four messages, both with the first time and its data. -/
theorem C112_two_references :
    (run toyEnv ⟨[], .ok ()⟩ [toyTwo] ⟨[], []⟩).1.file.map (fun m => (get m.keys "dataTime", m.values)) =
      [(some (.long 3600), [some 0, some 99]), (some (.long 3600), [some 0, some 99])] ∧
    (wanted toyEnv toyTwo [some 850]).map (fun j => (j.t, j.sl.ref, j.sl.time)) = [(some 3600, 0, 0), (some 7200, 0, 1), (some 3600, 1, 0), (some 7200, 1, 1)] := by
  decide +kernel

/-- **C112, not met.** Empty fields are not omitted if the fill value is NaN, nor if they hold NaN and the fill value is a number. -/
theorem C112_empty_written :
    (run { toyEnv with fill := fun _ => .ok none, data := fun _ _ => .ok [none, none] } ⟨[], .ok ()⟩ [toyTwo] ⟨[], []⟩).1.file.map (·.values) =
      [[none, none], [none, none]] ∧
    (run { toyEnv with data := fun _ _ => .ok [none, none] } ⟨[], .ok ()⟩ [toyTwo] ⟨[], []⟩).1.file.map (·.values) = [[none, none], [none, none]] := by
  decide +kernel

end Fimex.GribRun
