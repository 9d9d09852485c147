import Verif.Vertical.DatasetLemmas
import Verif.Vertical.DatasetText
import Verif.Cdm.Props

/-!
# C107: datasets with new levels
-/

namespace Fimex.NewLevels

open Cdm Cf CoordSys

variable {V CS Pr K : Type}

/-! ## Specification -/

/-- A system with horizontal axes and a vertical axis `a` along a dimension `d` of more than one level. -/
structure SimpleZ (r : CDM (Data K) V CS) (s : System Pr) (a : Axis) (d : String) : Prop where
  z : geoZ s = some a
  x : ∃ b, geoX s = some b
  y : ∃ b, geoY s = some b
  explicit : a.isExplicit = true
  shape : a.shape = [d]
  long : ∃ e ∈ r.dims, e.name = d ∧ 1 < e.length

/-- The variable `n` gets new levels, because of the system `s` with the axis `a` along `d`; `Q` tells which axes are replaced. -/
structure Gets (r : CDM (Data K) V CS) (S : List (System Pr)) (Q : Axis → Prop) (n : String) (s : System Pr) (a : Axis) (d : String) : Prop where
  var : n ∈ r.vars.map (·.name)
  mem : s ∈ S
  simple : SimpleZ r s a d
  wanted : Q a
  isFor : n ∈ s.isFor
  complete : n ∈ s.complete

/-- The variable `v` of the reader is presented as `w`. -/
structure NewVar (r : CDM (Data K) V CS) (S : List (System Pr)) (Q : Axis → Prop) (z : String) (v w : Var (Data K)) : Prop where
  name : w.name = v.name
  data : w.payload = none
  shape : ∀ s a d, Gets r S Q v.name s a d → w.shape = v.shape.replace d z
  same : (¬ ∃ s a d, Gets r S Q v.name s a d) → w.shape = v.shape

/-- The text `t'` is the text `t` without the word `z`, and with everything between the words. -/
def Without (z t t' : String) : Prop :=
  z ≠ "" → (∀ c ∈ z.toList, isWord c = true) →
    Text.words gap t'.toList = (Text.words gap t.toList).filter (fun w => w ≠ z.toList) ∧ t'.toList.filter gap = t.toList.filter gap

/-- The attributes `l` of a variable that gets new levels instead of the axis `a` are presented as `l'`. -/
structure NewAttrs (L : Lib V Pr) (mk : String → V) (a : Axis) (l l' : List (Attr V)) : Prop where
  same : (∀ b ∈ l, b.name ≠ "coordinates") → l' = l
  coordinates : ∀ b ∈ l, b.name = "coordinates" →
    ∃ t, Without a.name (L.text b.value) t ∧ l' = (l.filter fun b => b.name ≠ "coordinates") ++ [⟨"coordinates", mk t⟩]

/-- The dataset `c` is the one of the reader, with the level `z` for the systems with axes in `Q`, without the variables in `old`, and with
the variables `extra`. -/
structure Changed (L : Lib V Pr) (mk : String → V) (r : CDM (Data K) V CS) (S : List (System Pr)) (Q : Axis → Prop) (z : String) (old : List String)
    (extra : List (Var (Data K))) (c : CDM (Data K) V CS) : Prop where
  vars : ∃ ws, c.vars = ws ++ extra ∧ List.Forall₂ (NewVar r S Q z) (r.vars.filter fun v => !old.contains v.name) ws
  gone : ∀ n ∈ old, c.attrs n = none
  attrs : ∀ n, n ∉ old → n ∉ extra.map (·.name) → (¬ ∃ s a d, Gets r S Q n s a d) → c.attrs n = r.attrs n
  newAttrs : ∀ n, n ∉ old → ∀ s a d, Gets r S Q n s a d →
    (r.attrs n = none → c.attrs n = none) ∧ ∀ l, r.attrs n = some l → ∃ l', c.attrs n = some l' ∧ NewAttrs L mk a l l'

/-- The vertical axes of the systems fit the dataset. -/
structure Fits (r : CDM (Data K) V CS) (S : List (System Pr)) : Prop where
  /-- a vertical axis is a variable or a dimension, along dimensions of the dataset -/
  axes : ∀ s ∈ S, ∀ a, geoZ s = some a → a.isExplicit = true →
    (a.name ∈ r.vars.map (·.name) ∨ a.name ∈ r.dims.map (·.name)) ∧ ∀ d ∈ a.shape, d ∈ r.dims.map (·.name)
  /-- a variable of a system has the dimension of its vertical axis -/
  shape : ∀ s ∈ S, ∀ a d, SimpleZ r s a d → ∀ v ∈ r.vars, v.name ∈ s.isFor → v.name ∈ s.complete → d ∈ v.shape
  /-- a variable has one system -/
  once : S.Pairwise fun s t => ∀ n ∈ r.vars.map (·.name), n ∈ s.isFor → n ∈ s.complete → n ∈ t.isFor → n ∉ t.complete
  /-- a vertical axis has no system with another vertical axis -/
  apart : ∀ s ∈ S, ∀ a d, SimpleZ r s a d → ∀ t ∈ S, ∀ b e, SimpleZ r t b e → a.name ∈ t.isFor → a.name ∉ t.complete

/-! ## Lemmas -/

theorem complete_iff (s : System Pr) (n : String) : isCSAndCompleteFor s n = true ↔ n ∈ s.isFor ∧ n ∈ s.complete := by
  simp [isCSAndCompleteFor]

theorem simpleZ_iff {r : CDM (Data K) V CS} (h : (r.dims.map (·.name)).Nodup) (s : System Pr) :
    simpleZ r s = true ↔ ∃ a d, SimpleZ r s a d := by
  unfold simpleZ
  constructor
  · intro hs
    cases ha : geoZ s with
    | none => simp [ha] at hs
    | some a =>
      simp only [ha, Bool.and_eq_true] at hs
      obtain ⟨⟨⟨hx, hy⟩, he⟩, hsh⟩ := hs
      cases hd : a.shape with
      | nil => simp [hd] at hsh
      | cons d ds =>
        cases ds with
        | cons d' ds => simp [hd] at hsh
        | nil =>
          simp only [hd] at hsh
          cases hf : r.dims.find? fun e => e.name == d with
          | none => simp [hf] at hsh
          | some e =>
            simp only [hf, decide_eq_true_eq] at hsh
            exact ⟨a, d, ⟨ha, Option.isSome_iff_exists.1 hx, Option.isSome_iff_exists.1 hy, he, hd, e, List.mem_of_find?_eq_some hf,
              by simpa using List.find?_some hf, hsh⟩⟩
  · rintro ⟨a, d, hs⟩
    obtain ⟨bx, hx⟩ := hs.x
    obtain ⟨bY, hy⟩ := hs.y
    obtain ⟨e, he, hen, hlen⟩ := hs.long
    simp only [hs.z, hx, hy, hs.explicit, hs.shape, Option.isSome_some, Bool.and_self, Bool.true_and]
    have hf : r.dims.find? (fun e => e.name == d) = some e := by
      cases hf : r.dims.find? fun e => e.name == d with
      | none =>
        rw [List.find?_eq_none] at hf
        exact absurd (by simpa using hen) (hf e he)
      | some e' =>
        have h1 := List.mem_of_find?_eq_some hf
        have h2 : e'.name = d := by simpa using List.find?_some hf
        have : e' = e := List.inj_on_of_nodup_map h h1 he (h2.trans hen.symm)
        rw [this]
    simp [hf, hlen]

theorem simpleZ_det {r : CDM (Data K) V CS} {s : System Pr} {a b : Axis} {d e : String} (h1 : SimpleZ r s a d) (h2 : SimpleZ r s b e) : a = b ∧ d = e := by
  have : a = b := by have := h1.z.symm.trans h2.z; exact Option.some.inj this
  subst this
  have := h1.shape.symm.trans h2.shape
  exact ⟨rfl, by simpa using this⟩

/-- The attributes are presented as told. -/
theorem newAttrs_spec (L : Lib V Pr) (mk : String → V) {s : System Pr} {a : Axis} (ha : geoZ s = some a) {l : List (Attr V)} (hn : (l.map (·.name)).Nodup) :
    NewAttrs L mk a l (newAttrs L mk s l) := by
  constructor
  · intro h
    unfold newAttrs
    have : l.find? (fun b => b.name == "coordinates") = none := by
      rw [List.find?_eq_none]
      intro b hb
      simpa using h b hb
    simp only [ha, this]
  · intro b hb hbn
    have hf : l.find? (fun b => b.name == "coordinates") = some b := by
      cases hf : l.find? fun b => b.name == "coordinates" with
      | none =>
        rw [List.find?_eq_none] at hf
        exact absurd (by simpa using hbn) (hf b hb)
      | some b' =>
        have h1 := List.mem_of_find?_eq_some hf
        have h2 : b'.name = "coordinates" := by simpa using List.find?_some hf
        rw [List.inj_on_of_nodup_map hn h1 hb (h2.trans hbn.symm)]
    refine ⟨String.ofList (dropWord a.name.toList none (L.text b.value).toList), fun hz hw => ?_, ?_⟩
    · rw [String.toList_ofList]
      exact dropWord_words (fun h => hz (String.toList_eq_nil_iff.1 h)) hw _ _ rfl none rfl
    · unfold newAttrs
      simp only [ha, hf]
      congr 1
      apply List.filter_congr
      intro x _
      rw [Bool.eq_iff_iff]
      simp

section
variable {r : CDM (Data K) V CS} {S : List (System Pr)} {Q : Axis → Prop} {p : System Pr → Bool} {L : Lib V Pr} {mk : String → V} {z : String}

theorem plan_of_gets (ho : S.Pairwise fun s t => ∀ n ∈ r.vars.map (·.name), n ∈ s.isFor → n ∈ s.complete → n ∈ t.isFor → n ∉ t.complete)
    (hp : ∀ s ∈ S, (p s = true ↔ ∃ a d, SimpleZ r s a d ∧ Q a)) {n : String} {s : System Pr} {a : Axis} {d : String} (h : Gets r S Q n s a d) :
    plan (r.vars.map (·.name)) (S.filter p) n = some s := by
  unfold plan findComplete
  rw [if_pos h.var]
  have hm : s ∈ S.filter p := List.mem_filter.2 ⟨h.mem, (hp s h.mem).2 ⟨a, d, h.simple, h.wanted⟩⟩
  have ho' := List.Pairwise.filter p ho
  have hc : isCSAndCompleteFor s n = true := (complete_iff s n).2 ⟨h.isFor, h.complete⟩
  generalize S.filter p = T at hm ho'
  induction T with
  | nil => cases hm
  | cons t T ih =>
    rw [List.pairwise_cons] at ho'
    rcases List.mem_cons.1 hm with rfl | hm
    · exact List.find?_cons_of_pos (p := fun t => isCSAndCompleteFor t n) hc
    · rw [List.find?_cons_of_neg]
      · exact ih hm ho'.2
      · intro ht
        obtain ⟨h1, h2⟩ := (complete_iff t n).1 ht
        exact ho'.1 s hm n h.var h1 h2 h.isFor h.complete

theorem gets_of_plan (hp : ∀ s ∈ S, (p s = true ↔ ∃ a d, SimpleZ r s a d ∧ Q a)) {n : String} {s : System Pr}
    (h : plan (r.vars.map (·.name)) (S.filter p) n = some s) : ∃ a d, Gets r S Q n s a d := by
  unfold plan findComplete at h
  by_cases hn : n ∈ r.vars.map (·.name)
  · rw [if_pos hn] at h
    have hm := List.mem_filter.1 (List.mem_of_find?_eq_some h)
    obtain ⟨a, d, h1, h2⟩ := (hp s hm.1).1 hm.2
    have hc := (complete_iff s n).1 (by simpa using List.find?_some h)
    exact ⟨a, d, hn, hm.1, h1, h2, hc.1, hc.2⟩
  · rw [if_neg hn] at h
    cases h

theorem plan_none (hp : ∀ s ∈ S, (p s = true ↔ ∃ a d, SimpleZ r s a d ∧ Q a)) {n : String} (h : ¬ ∃ s a d, Gets r S Q n s a d) :
    plan (r.vars.map (·.name)) (S.filter p) n = none := by
  cases hx : plan (r.vars.map (·.name)) (S.filter p) n with
  | none => rfl
  | some s =>
    obtain ⟨a, d, hg⟩ := gets_of_plan hp hx
    exact absurd ⟨s, a, d, hg⟩ h

theorem forall2_filter_map {α β : Type} {T : α → β → Prop} {f : α → β} {q : α → Bool} {l : List α} (h : ∀ a ∈ l, q a = true → T a (f a)) :
    List.Forall₂ T (l.filter q) ((l.filter q).map f) := by
  induction l with
  | nil => exact List.Forall₂.nil
  | cons a l ih =>
    have ih' := ih fun b hb => h b (List.mem_cons_of_mem _ hb)
    by_cases ha : q a = true
    · rw [List.filter_cons_of_pos ha, List.map_cons]
      exact List.Forall₂.cons (h a List.mem_cons_self ha) ih'
    · rw [List.filter_cons_of_neg ha]
      exact ih'

/-- What the loops do, as specified. -/
theorem changed_of_edited (hattr : ∀ n l, r.attrs n = some l → (l.map (·.name)).Nodup)
    (ho : S.Pairwise fun s t => ∀ n ∈ r.vars.map (·.name), n ∈ s.isFor → n ∈ s.complete → n ∈ t.isFor → n ∉ t.complete)
    (hp : ∀ s ∈ S, (p s = true ↔ ∃ a d, SimpleZ r s a d ∧ Q a))
    {c₀ c : CDM (Data K) V CS} {R : List String} {extra : List (Var (Data K))}
    (hv : c₀.vars = (r.vars.map fun v => { v with payload := none }) ++ extra) (ha : ∀ n, n ∉ extra.map (·.name) → c₀.attrs n = r.attrs n)
    (hx : ∀ v ∈ extra, v.name ∉ R ∧ v.name ∉ r.vars.map (·.name))
    (h : Edited L mk z (plan (r.vars.map (·.name)) (S.filter p)) R c₀ c) : Changed L mk r S Q z R extra c := by
  have hgx : ∀ n s a d, Gets r S Q n s a d → n ∉ extra.map (·.name) := by
    intro n s a d hg hn
    obtain ⟨w, hw, rfl⟩ := List.mem_map.1 hn
    exact (hx w hw).2 hg.var
  refine ⟨?_, fun n hn => ?_, fun n hn hnx hno => ?_, fun n hn s a d hg => ?_⟩
  · rw [h.vars, hv, List.filter_append, List.map_append, List.filter_map, List.map_map]
    refine ⟨(r.vars.filter fun v => !R.contains v.name).map ((fun v => match plan (r.vars.map (·.name)) (S.filter p) v.name with
        | none => v
        | some s => { v with shape := newShape s z v.shape }) ∘ fun v => { v with payload := none }), ?_, ?_⟩
    rotate_left
    · refine forall2_filter_map (fun v hv hq => ?_)
      simp only [Function.comp_apply]
      refine ⟨?_, ?_, fun s a d hg => ?_, fun hno => ?_⟩
      · split <;> rfl
      · split <;> rfl
      · rw [plan_of_gets ho hp hg]
        simp only [newShape, hg.simple.z, hg.simple.shape]
      · rw [plan_none hp hno]
    · congr 1
      have e1 : extra.filter (fun v => !R.contains v.name) = extra := by
        rw [List.filter_eq_self]
        intro v hv
        simpa using (hx v hv).1
      rw [e1]
      conv_rhs => rw [← List.map_id extra]
      apply List.map_congr_left
      intro v hv
      have : plan (r.vars.map (·.name)) (S.filter p) v.name = none := by
        unfold plan
        rw [if_neg (hx v hv).2]
      rw [this]
      rfl
  · rw [h.attrs, if_pos hn]
  · rw [h.attrs, if_neg hn, plan_none hp hno]
    exact ha n hnx
  · have e : c.attrs n = (r.attrs n).map (newAttrs L mk s) := by
      rw [h.attrs, if_neg hn, plan_of_gets ho hp hg, ha n (hgx n s a d hg)]
    refine ⟨fun h0 => by rw [e, h0]; rfl, fun l hl => ⟨newAttrs L mk s l, by rw [e, hl]; rfl, ?_⟩⟩
    exact newAttrs_spec L mk hg.simple.z (hattr n l hl)

/-- The hypotheses of the loops. -/
theorem good_of_fits (hf : Fits r S) (hp : ∀ s ∈ S, (p s = true ↔ ∃ a d, SimpleZ r s a d ∧ Q a)) {c₀ : CDM (Data K) V CS} {extra : List (Var (Data K))}
    (hv : c₀.vars = (r.vars.map fun v => { v with payload := none }) ++ extra) (rm : Bool) :
    Good c₀ (r.vars.map (·.name)) rm (S.filter p) := by
  refine ⟨fun s hs => ?_, ?_, fun _ s hs n hn hnr => ?_⟩
  · obtain ⟨hs, hps⟩ := List.mem_filter.1 hs
    obtain ⟨a, d, h1, -⟩ := (hp s hs).1 hps
    refine ⟨a, d, h1.z, h1.shape, fun n hn hc => ?_⟩
    obtain ⟨v, hvm, rfl⟩ := List.mem_map.1 hn
    obtain ⟨c1, c2⟩ := (complete_iff s v.name).1 hc
    refine ⟨{ v with payload := none }, ?_, rfl, hf.shape s hs a d h1 v hvm c1 c2⟩
    rw [hv]
    exact List.mem_append_left _ (List.mem_map.2 ⟨v, hvm, rfl⟩)
  · refine (hf.once.filter p).imp fun {s t} h n hn hc => ?_
    obtain ⟨c1, c2⟩ := (complete_iff s n).1 hc
    have := h n hn c1 c2
    by_contra hcon
    rw [Bool.not_eq_false, complete_iff] at hcon
    exact this hcon.1 hcon.2
  · obtain ⟨hs, hps⟩ := List.mem_filter.1 hs
    obtain ⟨b, e, h1, -⟩ := (hp s hs).1 hps
    obtain ⟨t, ht, htn⟩ := List.mem_filterMap.1 hn
    obtain ⟨ht, hpt⟩ := List.mem_filter.1 ht
    obtain ⟨a, d, h2, -⟩ := (hp t ht).1 hpt
    rw [h2.z] at htn
    have htn : a.name = n := by simpa using htn
    subst htn
    by_contra hcon
    rw [Bool.not_eq_false, complete_iff] at hcon
    exact hf.apart t ht a d h2 s hs b e h1 hcon.1 hcon.2

theorem mem_zNames (hp : ∀ s ∈ S, (p s = true ↔ ∃ a d, SimpleZ r s a d ∧ Q a)) (n : String) :
    n ∈ zNames (S.filter p) ↔ ∃ s ∈ S, ∃ a d, SimpleZ r s a d ∧ Q a ∧ a.name = n := by
  unfold zNames
  rw [List.mem_filterMap]
  constructor
  · rintro ⟨s, hs, hn⟩
    obtain ⟨hs, hps⟩ := List.mem_filter.1 hs
    obtain ⟨a, d, h1, h2⟩ := (hp s hs).1 hps
    rw [h1.z] at hn
    exact ⟨s, hs, a, d, h1, h2, by simpa using hn⟩
  · rintro ⟨s, hs, a, d, h1, h2, rfl⟩
    exact ⟨s, List.mem_filter.2 ⟨hs, (hp s hs).2 ⟨a, d, h1, h2⟩⟩, by rw [h1.z]; rfl⟩

end

end Fimex.NewLevels
