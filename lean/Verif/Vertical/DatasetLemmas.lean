import Verif.Vertical.DatasetModel
import Verif.Cdm.Lemmas
import Verif.CoordSys.CfLemmas

/-!
# Datasets with new levels: what the loops do
-/

namespace Fimex.NewLevels

open Cdm Cf CoordSys

variable {V CS Pr K : Type}

/-! ## One statement after the other -/

theorem andThen_run {S : Type} {s : S} {f : S → S × Res Unit} : andThen (s, .ok ()) f = f s := rfl

/-! ## Shapes and attributes -/

/-- The new shape of a variable of a system. -/
def newShape (s : System Pr) (z : String) (shape : List String) : List String :=
  match geoZ s with
  | none => shape
  | some a => match a.shape with
    | [] => shape
    | d :: _ => shape.replace d z

/-- The new attributes of a variable of a system. -/
def newAttrs (L : Lib V Pr) (mk : String → V) (s : System Pr) (l : List (Attr V)) : List (Attr V) :=
  match geoZ s with
  | none => l
  | some a => match l.find? fun b => b.name == "coordinates" with
    | none => l
    | some t => (l.filter fun b => !(b.name == "coordinates")) ++
        [⟨"coordinates", mk (String.ofList (dropWord a.name.toList none (L.text t.value).toList))⟩]

/-- The dataset `c` is `c₀` with the variables in `R` removed, and the others changed as told by `P`. -/
structure Edited (L : Lib V Pr) (mk : String → V) (z : String) (P : String → Option (System Pr)) (R : List String)
    (c₀ c : CDM (Data K) V CS) : Prop where
  dims : c.dims = c₀.dims
  vars : c.vars = (c₀.vars.filter fun v => !(R.contains v.name)).map fun v =>
    match P v.name with
    | none => v
    | some s => { v with shape := newShape s z v.shape }
  attrs : ∀ n, c.attrs n = if n ∈ R then none else
    match P n with
    | none => c₀.attrs n
    | some s => (c₀.attrs n).map (newAttrs L mk s)

variable {L : Lib V Pr} {mk : String → V} {z : String} {P : String → Option (System Pr)} {R : List String} {c₀ c : CDM (Data K) V CS}

theorem edited_start (L : Lib V Pr) (mk : String → V) (z : String) (c₀ : CDM (Data K) V CS) : Edited L mk z (fun _ => none) [] c₀ c₀ where
  dims := rfl
  vars := by simp
  attrs := by simp

theorem edited_congr {Q : String → Option (System Pr)} {R' : List String} (h : Edited L mk z P R c₀ c) (hP : ∀ n, P n = Q n) (hR : ∀ n, n ∈ R ↔ n ∈ R') :
    Edited L mk z Q R' c₀ c := by
  have e : P = Q := funext hP
  subst e
  refine ⟨h.dims, ?_, fun n => ?_⟩
  · rw [h.vars]
    congr 1
    apply List.filter_congr
    intro v _
    rw [Bool.eq_iff_iff]
    simp [hR]
  · rw [h.attrs]
    simp only [hR]

theorem simpleZ_congr {c c' : CDM (Data K) V CS} (h : c.dims = c'.dims) (s : System Pr) : simpleZ c s = simpleZ c' s := by
  unfold simpleZ
  rw [h]

theorem find_edited {v : Var (Data K)} {n : String} (hnd : (c₀.vars.map (·.name)).Nodup) (h : Edited L mk z P R c₀ c) (hv : v ∈ c₀.vars)
    (hn : v.name = n) (hR : n ∉ R) (hP : P n = none) : getVariable c n = .ok v := by
  have key : ∀ l : List (Var (Data K)), (l.map (·.name)).Nodup → v ∈ l →
      ((l.filter fun v => !(R.contains v.name)).map fun v =>
        match P v.name with
        | none => v
        | some s => { v with shape := newShape s z v.shape }).find? (fun w => w.name == n) = some v := by
    intro l
    induction l with
    | nil => intro _ hm; cases hm
    | cons w l ih =>
      intro hl hm
      rw [List.map_cons, List.nodup_cons] at hl
      rcases List.mem_cons.1 hm with rfl | hm
      · rw [List.filter_cons_of_pos (by simpa [hn] using hR), List.map_cons, List.find?_cons_of_pos]
        · rw [hn, hP]
        · rw [hn, hP]; simp [hn]
      · have hne : w.name ≠ n := fun e => hl.1 (by rw [e, ← hn]; exact List.mem_map_of_mem hm)
        by_cases hwR : R.contains w.name
        · rw [List.filter_cons_of_neg (by simpa using hwR)]
          exact ih hl.2 hm
        · rw [List.filter_cons_of_pos (by simpa using hwR), List.map_cons, List.find?_cons_of_neg]
          · exact ih hl.2 hm
          · cases P w.name with
            | none => simpa using hne
            | some s => simpa using hne
  unfold getVariable
  rw [h.vars, key _ hnd hv]

/-- One variable of a system. -/
theorem replaceZ_step {s : System Pr} {n : String} {a : Axis} {d : String} {ds : List String} {v : Var (Data K)}
    (hnd : (c₀.vars.map (·.name)).Nodup) (h : Edited L mk z P R c₀ c) (hv : v ∈ c₀.vars) (hn : v.name = n) (hR : n ∉ R) (hP : P n = none)
    (hc : isCSAndCompleteFor s n = true) (ha : geoZ s = some a) (hd : a.shape = d :: ds) (hm : d ∈ v.shape) :
    ∃ c', replaceZ L mk s z n c = (c', .ok ()) ∧ Edited L mk z (fun m => if m = n then some s else P m) R c₀ c' := by
  have hget := find_edited hnd h hv hn hR hP
  have hvars : (c.vars.map fun w => if w.name = n then { w with shape := v.shape.replace d z } else w) =
      (c₀.vars.filter fun v => !(R.contains v.name)).map fun v =>
        match (fun m => if m = n then some s else P m) v.name with
        | none => v
        | some s => { v with shape := newShape s z v.shape } := by
    rw [h.vars, List.map_map]
    apply List.map_congr_left
    intro w hw
    have hw0 := List.mem_of_mem_filter hw
    by_cases hwn : w.name = n
    · have : w = v := by
        have hinj := List.inj_on_of_nodup_map hnd
        exact hinj hw0 hv (hwn.trans hn.symm)
      subst this
      simp only [Function.comp_apply, hn, hP]
      rw [if_pos trivial]
      simp only [if_true, newShape, ha, hd]
    · cases hPw : P w.name with
      | none => simp [Function.comp_apply, hPw, hwn]
      | some t => simp [Function.comp_apply, hPw, hwn]
  have hattr0 : (setShape c n (v.shape.replace d z)).attrs n = c₀.attrs n := by
    show c.attrs n = _
    rw [h.attrs, if_neg hR, hP]
  have hother : ∀ m, m ≠ n → c.attrs m = if m ∈ R then none else
      match (fun m => if m = n then some s else P m) m with
      | none => c₀.attrs m
      | some s => (c₀.attrs m).map (newAttrs L mk s) := by
    intro m hmn
    rw [h.attrs]
    simp only [if_neg hmn]
  unfold replaceZ
  rw [if_neg (by rw [hc]; decide), ha]
  simp only [hd, hget]
  rw [if_pos hm]
  cases hg : getAttribute (setShape c n (v.shape.replace d z)) n "coordinates" with
  | ok t =>
    obtain ⟨l, hl, hf⟩ : ∃ l, c₀.attrs n = some l ∧ l.find? (fun b => b.name == "coordinates") = some t := by
      unfold getAttribute at hg
      rw [hattr0] at hg
      cases hl : c₀.attrs n with
      | none => rw [hl] at hg; cases hg
      | some l =>
        rw [hl] at hg
        refine ⟨l, rfl, ?_⟩
        cases hf : l.find? (fun b => b.name == "coordinates") with
        | none => simp only [hf] at hg; cases hg
        | some b => simp only [hf] at hg; cases hg; rfl
    have hhas : hasVariable (removeAttribute (setShape c n (v.shape.replace d z)) n "coordinates") n = true := by
      rw [hasVariable_iff]
      show n ∈ List.map _ (setShape c n (v.shape.replace d z)).vars
      have hvc : v ∈ c.vars := by
        have := hget
        unfold getVariable at this
        cases hfind : c.vars.find? (fun w => w.name == n) with
        | none => rw [hfind] at this; cases this
        | some w =>
          rw [hfind] at this
          cases this
          exact List.mem_of_find?_eq_some hfind
      refine List.mem_map.2 ⟨{ v with shape := v.shape.replace d z }, List.mem_map.2 ⟨v, hvc, by rw [if_pos hn]⟩, hn⟩
    have hatt : (removeAttribute (setShape c n (v.shape.replace d z)) n "coordinates").attrs n =
        some (l.filter fun b => !(b.name == "coordinates")) := by
      show (if n = n then ((setShape c n (v.shape.replace d z)).attrs n).map _ else _) = _
      rw [if_pos rfl, hattr0, hl]
      rfl
    simp only
    unfold addAttribute
    simp only
    rw [if_neg]
    · rw [if_neg]
      · refine ⟨_, rfl, h.dims, hvars, fun m => ?_⟩
        by_cases hmn : m = n
        · subst hmn
          simp only [if_true]
          rw [if_neg hR, hl]
          simp only [getAttributes, if_true, hatt, Option.getD_some, Option.map_some, newAttrs, ha, hf]
        · simp only [if_neg hmn]
          show (if m = n then _ else c.attrs m) = _
          rw [if_neg hmn, hother m hmn]
          simp only [if_neg hmn]
      · simp [getAttributes, hatt]
    · rintro ⟨_, hne⟩
      have : hasVariable { removeAttribute (setShape c n (v.shape.replace d z)) n "coordinates" with coordsInitialized := false } n = true := hhas
      rw [this] at hne
      simp at hne
  | throws =>
    refine ⟨_, rfl, h.dims, hvars, fun m => ?_⟩
    by_cases hmn : m = n
    · subst hmn
      rw [hattr0, if_neg hR]
      simp only [if_true]
      cases hl : c₀.attrs m with
      | none => rfl
      | some l =>
        unfold getAttribute at hg
        rw [hattr0, hl] at hg
        cases hf : l.find? (fun b => b.name == "coordinates") with
        | none => simp [newAttrs, ha, hf]
        | some b => simp [hf] at hg
    · exact hother m hmn
  | ub =>
    exfalso
    unfold getAttribute at hg
    cases hl : (setShape c n (v.shape.replace d z)).attrs n with
    | none => rw [hl] at hg; cases hg
    | some l =>
      rw [hl] at hg
      cases hf : l.find? (fun b => b.name == "coordinates") <;> simp [hf] at hg

/-- All variables of a system. -/
theorem replaceAll_step {s : System Pr} {a : Axis} {d : String} {ds : List String}
    (hnd : (c₀.vars.map (·.name)).Nodup) (ha : geoZ s = some a) (hd : a.shape = d :: ds) :
    ∀ (ns : List String) (c : CDM (Data K) V CS) (P : String → Option (System Pr)), ns.Nodup → Edited L mk z P R c₀ c →
    (∀ n ∈ ns, isCSAndCompleteFor s n = true → n ∉ R ∧ P n = none ∧ ∃ v ∈ c₀.vars, v.name = n ∧ d ∈ v.shape) →
    ∃ c', replaceAll L mk s z ns c = (c', .ok ()) ∧
      Edited L mk z (fun m => if m ∈ ns ∧ isCSAndCompleteFor s m = true then some s else P m) R c₀ c' := by
  intro ns
  induction ns with
  | nil => intro c P _ h _; exact ⟨c, rfl, edited_congr h (fun n => by simp) fun _ => Iff.rfl⟩
  | cons n ns ih =>
    intro c P hns h hall
    rw [List.nodup_cons] at hns
    by_cases hc : isCSAndCompleteFor s n = true
    · obtain ⟨hR, hP, v, hv, hn, hm⟩ := hall n List.mem_cons_self hc
      obtain ⟨c1, e1, h1⟩ := replaceZ_step hnd h hv hn hR hP hc ha hd hm
      obtain ⟨c2, e2, h2⟩ := ih c1 _ hns.2 h1 (fun m hm' hcm => by
        obtain ⟨x1, x2, x3⟩ := hall m (List.mem_cons_of_mem _ hm') hcm
        refine ⟨x1, ?_, x3⟩
        have hmn : m ≠ n := fun e => hns.1 (e ▸ hm')
        show (if m = n then some s else P m) = none
        rw [if_neg hmn, x2])
      refine ⟨c2, ?_, edited_congr h2 (fun m => ?_) fun _ => Iff.rfl⟩
      · unfold replaceAll
        rw [e1, andThen_run, e2]
      · by_cases hmn : m = n
        · subst hmn
          rw [if_neg (fun x => hns.1 x.1), if_pos rfl, if_pos ⟨List.mem_cons_self, hc⟩]
        · simp only [List.mem_cons, hmn, false_or, if_false]
    · obtain ⟨c2, e2, h2⟩ := ih c P hns.2 h (fun m hm' => hall m (List.mem_cons_of_mem _ hm'))
      refine ⟨c2, ?_, edited_congr h2 (fun m => ?_) fun _ => Iff.rfl⟩
      · unfold replaceAll
        have : replaceZ L mk s z n c = (c, .ok ()) := by
          unfold replaceZ
          rw [if_pos (by simpa using hc)]
        rw [this, andThen_run, e2]
      · by_cases hmn : m = n
        · subst hmn
          rw [if_neg (fun x => hns.1 x.1), if_neg (fun x => hc x.2)]
        · simp only [List.mem_cons, hmn, false_or]

/-- Removing a variable. -/
theorem remove_step (h : Edited L mk z P R c₀ c) (n : String) : Edited L mk z P (n :: R) c₀ (removeVariable c n) where
  dims := h.dims
  vars := by
    show c.vars.filter _ = _
    rw [h.vars, List.filter_map, List.filter_filter]
    congr 1
    apply List.filter_congr
    intro v _
    have : (match P v.name with
        | none => v
        | some s => { v with shape := newShape s z v.shape }).name = v.name := by
      cases P v.name <;> rfl
    simp only [Function.comp_apply, this]
    rw [Bool.eq_iff_iff]
    simp
  attrs := fun m => by
    show (if m = n then none else c.attrs m) = _
    by_cases hmn : m = n
    · rw [if_pos hmn, if_pos (by simp [hmn])]
    · rw [if_neg hmn, h.attrs]
      simp [hmn]

theorem remove_all (ns : List String) : ∀ (c : CDM (Data K) V CS) (R : List String), Edited L mk z P R c₀ c →
    Edited L mk z P (ns ++ R) c₀ (ns.foldl (fun c n => removeVariable c n) c) := by
  induction ns with
  | nil => intro c R h; exact h
  | cons n ns ih =>
    intro c R h
    refine edited_congr (ih _ _ (remove_step h n)) (fun _ => rfl) fun m => ?_
    simp only [List.mem_append, List.mem_cons]
    tauto

/-! ## The loops over systems -/

/-- What is told by the systems that have been changed. -/
def plan (ns : List String) (T : List (System Pr)) (n : String) : Option (System Pr) := if n ∈ ns then findComplete T n else none

/-- The names of the vertical axes. -/
def zNames (T : List (System Pr)) : List String := T.filterMap fun s => (geoZ s).map (·.name)

/-- The systems `T` can be changed one after the other; `rm`: their axes are removed on the way. -/
structure Good (c₀ : CDM (Data K) V CS) (ns : List String) (rm : Bool) (T : List (System Pr)) : Prop where
  shape : ∀ s ∈ T, ∃ a d, geoZ s = some a ∧ a.shape = [d] ∧
    ∀ n ∈ ns, isCSAndCompleteFor s n = true → ∃ v ∈ c₀.vars, v.name = n ∧ d ∈ v.shape
  once : T.Pairwise fun s t => ∀ n ∈ ns, isCSAndCompleteFor s n = true → isCSAndCompleteFor t n = false
  apart : rm = true → ∀ s ∈ T, ∀ n ∈ zNames T, n ∈ ns → isCSAndCompleteFor s n = false

theorem findComplete_append (T : List (System Pr)) (s : System Pr) (n : String) :
    findComplete (T ++ [s]) n = (findComplete T n).or (if isCSAndCompleteFor s n = true then some s else none) := by
  unfold findComplete
  rw [List.find?_append]
  congr 1
  cases h : isCSAndCompleteFor s n <;> simp [h]

theorem zNames_append (T U : List (System Pr)) : zNames (T ++ U) = zNames T ++ zNames U := List.filterMap_append

theorem system_step {ns : List String} {T rest : List (System Pr)} {s : System Pr} (hnd : (c₀.vars.map (·.name)).Nodup) (hns : ns.Nodup)
    {rm : Bool} (hg : Good c₀ ns rm (T ++ s :: rest)) (hR : rm = true ∧ (∀ n ∈ R, n ∈ zNames T) ∨ R = [])
    (h : Edited L mk z (plan ns T) R c₀ c) :
    ∃ c', replaceAll L mk s z ns c = (c', .ok ()) ∧ Edited L mk z (plan ns (T ++ [s])) R c₀ c' := by
  have hs : s ∈ T ++ s :: rest := by simp
  obtain ⟨a, d, ha, hd, hv⟩ := hg.shape s hs
  have hT : ∀ n ∈ ns, isCSAndCompleteFor s n = true → findComplete T n = none := by
    intro n hn hc
    unfold findComplete
    rw [List.find?_eq_none]
    intro t ht htc
    have := (List.pairwise_append.1 hg.once).2.2 t ht s List.mem_cons_self n hn htc
    rw [this] at hc
    cases hc
  obtain ⟨c', e, h'⟩ := replaceAll_step hnd ha hd ns c _ hns h (fun n hn hc => by
    refine ⟨fun hnR => ?_, ?_, hv n hn hc⟩
    · rcases hR with ⟨hrm, hR⟩ | hR
      · have := hg.apart hrm s hs n (by rw [zNames_append]; exact List.mem_append_left _ (hR n hnR)) hn
        rw [this] at hc
        cases hc
      · rw [hR] at hnR
        cases hnR
    · unfold plan
      rw [if_pos hn, hT n hn hc])
  refine ⟨c', e, edited_congr h' (fun n => ?_) fun _ => Iff.rfl⟩
  unfold plan
  by_cases hn : n ∈ ns
  · rw [findComplete_append]
    by_cases hc : isCSAndCompleteFor s n = true
    · rw [if_pos ⟨hn, hc⟩, if_pos hn, hT n hn hc, if_pos hc]
      rfl
    · rw [if_neg (fun x => hc x.2), if_pos hn, if_pos hn, if_neg hc, Option.or_none]
  · rw [if_neg (fun x => hn x.1), if_neg hn, if_neg hn]

theorem fixedLoop_run {r : CDM (Data K) V CS} (hnd : (c₀.vars.map (·.name)).Nodup) (hns : (r.vars.map (·.name)).Nodup) :
    ∀ (S T : List (System Pr)) (st : State V CS Pr K), st.vAxis = z → Good c₀ (r.vars.map (·.name)) true (T ++ S.filter fun s => simpleZ c₀ s) →
    Edited L mk z (plan (r.vars.map (·.name)) T) (zNames T) c₀ st.cdm →
    ∃ c', fixedLoop L mk r S st = ({ st with cdm := c', changed := st.changed ++ S.filter fun s => simpleZ c₀ s }, .ok ()) ∧
      Edited L mk z (plan (r.vars.map (·.name)) (T ++ S.filter fun s => simpleZ c₀ s)) (zNames (T ++ S.filter fun s => simpleZ c₀ s)) c₀ c' := by
  intro S
  induction S with
  | nil => intro T st _ _ h; exact ⟨st.cdm, by simp [fixedLoop], by simpa using h⟩
  | cons s S ih =>
    intro T st hz hg h
    unfold fixedLoop
    rw [simpleZ_congr h.dims]
    by_cases hs : simpleZ c₀ s = true
    · rw [List.filter_cons_of_pos hs] at hg
      obtain ⟨c1, e1, h1⟩ := system_step (L := L) (mk := mk) (z := z) hnd hns hg (Or.inl ⟨rfl, fun n hn => hn⟩) h
      obtain ⟨a, d, ha, hd, _⟩ := hg.shape s (by simp)
      rw [if_pos hs, hz]
      simp only [e1, andThen_run, ha]
      obtain ⟨c2, e2, h2⟩ := ih (T ++ [s]) { st with cdm := removeVariable c1 a.name, changed := st.changed ++ [s] } hz
        (by rw [List.append_assoc]; exact hg)
        (edited_congr (remove_step h1 a.name) (fun _ => rfl) fun n => by
          rw [zNames_append]
          simp only [zNames, List.filterMap_cons, ha, Option.map_some, List.filterMap_nil, List.mem_append, List.mem_cons, List.not_mem_nil, or_false]
          exact or_comm)
      refine ⟨c2, ?_, ?_⟩
      · subst hz
        rw [e2, List.filter_cons_of_pos hs]
        simp
      · rw [List.filter_cons_of_pos hs]
        rw [List.append_assoc] at h2
        exact h2
    · rw [if_neg hs, List.filter_cons_of_neg hs]
      rw [List.filter_cons_of_neg hs] at hg
      exact ih T st hz hg h

/-- The choice of `interpolateToAxis` and `interpolateByTemplateVariable`. -/
def other (c₀ : CDM (Data K) V CS) (z : String) (s : System Pr) : Bool := simpleZ c₀ s && decide ((geoZ s).map (·.name) ≠ some z)

theorem axisLoop_run {r : CDM (Data K) V CS} (hnd : (c₀.vars.map (·.name)).Nodup) (hns : (r.vars.map (·.name)).Nodup) :
    ∀ (S T : List (System Pr)) (st : State V CS Pr K) (rs : List String), Good c₀ (r.vars.map (·.name)) false (T ++ S.filter (other c₀ z)) →
    Edited L mk z (plan (r.vars.map (·.name)) T) [] c₀ st.cdm → (∀ n, n ∈ rs ↔ n ∈ zNames T) →
    ∃ c' rs', axisLoop L mk r z S (st, rs) = (({ st with cdm := c', changed := st.changed ++ S.filter (other c₀ z) }, rs'), .ok ()) ∧
      Edited L mk z (plan (r.vars.map (·.name)) (T ++ S.filter (other c₀ z))) [] c₀ c' ∧
      ∀ n, n ∈ rs' ↔ n ∈ zNames (T ++ S.filter (other c₀ z)) := by
  intro S
  induction S with
  | nil => intro T st rs _ h hr; exact ⟨st.cdm, rs, by simp [axisLoop], by simpa using h, by simpa using hr⟩
  | cons s S ih =>
    intro T st rs hg h hr
    unfold axisLoop
    by_cases hs : other c₀ z s = true
    · have hs' := hs
      unfold other at hs'
      rw [Bool.and_eq_true, decide_eq_true_eq] at hs'
      rw [List.filter_cons_of_pos hs] at hg
      obtain ⟨c1, e1, h1⟩ := system_step (L := L) (mk := mk) (z := z) hnd hns hg (Or.inr rfl) h
      obtain ⟨a, d, ha, hd, _⟩ := hg.shape s (by simp)
      have hne : a.name ≠ z := fun e => hs'.2 (by rw [ha, ← e]; rfl)
      simp only [ha]
      rw [if_neg hne, simpleZ_congr h.dims, if_neg (by rw [hs'.1]; decide), e1, andThen_run]
      obtain ⟨c2, rs2, e2, h2, hr2⟩ := ih (T ++ [s]) { st with cdm := c1, changed := st.changed ++ [s] } (setInsert a.name rs)
        (by rw [List.append_assoc]; exact hg) h1
        (fun n => by
          rw [mem_setInsert, hr, zNames_append]
          simp only [zNames, List.filterMap_cons, ha, Option.map_some, List.filterMap_nil, List.mem_append, List.mem_cons, List.not_mem_nil, or_false]
          exact or_comm)
      refine ⟨c2, rs2, ?_, ?_, ?_⟩
      · rw [e2, List.filter_cons_of_pos hs]
        simp
      · rw [List.filter_cons_of_pos hs]
        rw [List.append_assoc] at h2
        exact h2
      · rw [List.filter_cons_of_pos hs]
        intro n
        rw [hr2 n, List.append_assoc]
        rfl
    · rw [List.filter_cons_of_neg hs]
      rw [List.filter_cons_of_neg hs] at hg
      have e : axisLoop L mk r z (s :: S) (st, rs) = axisLoop L mk r z S (st, rs) := by
        conv_lhs => unfold axisLoop
        cases ha : geoZ s with
        | none => rfl
        | some a =>
          simp only
          by_cases hz : a.name = z
          · rw [if_pos hz]
          · rw [if_neg hz, if_pos]
            rw [simpleZ_congr h.dims]
            unfold other at hs
            rw [Bool.and_eq_true, decide_eq_true_eq, ha] at hs
            by_contra hc
            exact hs ⟨by simpa using hc, by simpa using hz⟩
      have hi := ih T st rs hg h hr
      rw [← e] at hi
      unfold axisLoop at hi
      exact hi

theorem templateLoop_run {r : CDM (Data K) V CS} {zt : Axis} (hnd : (c₀.vars.map (·.name)).Nodup) (hns : (r.vars.map (·.name)).Nodup) :
    ∀ (S T : List (System Pr)) (st : State V CS Pr K), Good c₀ (r.vars.map (·.name)) false (T ++ S.filter (other c₀ zt.name)) →
    Edited L mk z (plan (r.vars.map (·.name)) T) [] c₀ st.cdm →
    ∃ c', templateLoop L mk r zt z S st = ({ st with cdm := c', changed := st.changed ++ S.filter (other c₀ zt.name) }, .ok ()) ∧
      Edited L mk z (plan (r.vars.map (·.name)) (T ++ S.filter (other c₀ zt.name))) [] c₀ c' := by
  intro S
  induction S with
  | nil => intro T st _ h; exact ⟨st.cdm, by simp [templateLoop], by simpa using h⟩
  | cons s S ih =>
    intro T st hg h
    unfold templateLoop
    by_cases hs : other c₀ zt.name s = true
    · have hs' := hs
      unfold other at hs'
      rw [Bool.and_eq_true, decide_eq_true_eq] at hs'
      rw [List.filter_cons_of_pos hs] at hg
      obtain ⟨c1, e1, h1⟩ := system_step (L := L) (mk := mk) (z := z) hnd hns hg (Or.inr rfl) h
      rw [if_neg hs'.2, simpleZ_congr h.dims, if_neg (by rw [hs'.1]; decide), e1, andThen_run]
      obtain ⟨c2, e2, h2⟩ := ih (T ++ [s]) { st with cdm := c1, changed := st.changed ++ [s] } (by rw [List.append_assoc]; exact hg) h1
      refine ⟨c2, ?_, ?_⟩
      · rw [e2, List.filter_cons_of_pos hs]
        simp
      · rw [List.filter_cons_of_pos hs]
        rw [List.append_assoc] at h2
        exact h2
    · rw [List.filter_cons_of_neg hs]
      rw [List.filter_cons_of_neg hs] at hg
      unfold other at hs
      rw [Bool.and_eq_true, decide_eq_true_eq] at hs
      by_cases hz : (geoZ s).map (·.name) = some zt.name
      · rw [if_pos hz]
        exact ih T st hg h
      · rw [if_neg hz, simpleZ_congr h.dims, if_pos (by by_contra hc; exact hs ⟨by simpa using hc, hz⟩)]
        exact ih T st hg h

end Fimex.NewLevels
