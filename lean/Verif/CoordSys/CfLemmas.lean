import Verif.CoordSys.CfModel
import Verif.Cdm.Lemmas
import Verif.Text.Props
import Mathlib.Data.String.Basic

/-! # Lemmas about sets of names and the axes of one coordinate system -/

namespace Fimex.Cf

open Cdm CoordSys

variable {P V CS Pr : Type}

/-! ## Sets -/

theorem mem_setInsert {a n : String} {l : List String} : n ∈ setInsert a l ↔ n = a ∨ n ∈ l := by
  induction l with
  | nil => simp [setInsert]
  | cons b l ih =>
    unfold setInsert
    by_cases h1 : a < b
    · rw [if_pos h1, List.mem_cons]
    · rw [if_neg h1]
      by_cases h2 : a = b
      · rw [if_pos h2, List.mem_cons]
        subst h2
        constructor
        · exact Or.inr
        · rintro (h | h)
          · exact Or.inl h
          · exact h
      · rw [if_neg h2, List.mem_cons, ih, List.mem_cons]
        constructor
        · rintro (h | h | h)
          · exact Or.inr (Or.inl h)
          · exact Or.inl h
          · exact Or.inr (Or.inr h)
        · rintro (h | h | h)
          · exact Or.inr (Or.inl h)
          · exact Or.inl h
          · exact Or.inr (Or.inr h)

theorem sorted_setInsert {a : String} {l : List String} (h : l.Pairwise (· < ·)) : (setInsert a l).Pairwise (· < ·) := by
  induction l with
  | nil => simp [setInsert]
  | cons b l ih =>
    have hb := List.pairwise_cons.1 h
    unfold setInsert
    by_cases h1 : a < b
    · rw [if_pos h1, List.pairwise_cons]
      refine ⟨fun x hx => ?_, h⟩
      rcases List.mem_cons.1 hx with rfl | hx
      · exact h1
      · exact lt_trans h1 (hb.1 x hx)
    · rw [if_neg h1]
      by_cases h2 : a = b
      · rw [if_pos h2]; exact h
      · rw [if_neg h2, List.pairwise_cons]
        refine ⟨fun x hx => ?_, ih hb.2⟩
        rcases mem_setInsert.1 hx with rfl | hx
        · exact lt_of_le_of_ne (not_lt.1 h1) (Ne.symm h2)
        · exact hb.1 x hx

theorem mem_insertAll {l s : List String} {n : String} : n ∈ l.foldl (fun s a => setInsert a s) s ↔ n ∈ l ∨ n ∈ s := by
  induction l generalizing s with
  | nil => simp
  | cons a l ih =>
    rw [List.foldl_cons, ih, mem_setInsert, List.mem_cons]
    constructor
    · rintro (h | h | h)
      · exact Or.inl (Or.inr h)
      · exact Or.inl (Or.inl h)
      · exact Or.inr h
    · rintro ((h | h) | h)
      · exact Or.inr (Or.inl h)
      · exact Or.inl h
      · exact Or.inr (Or.inr h)

theorem sorted_insertAll {l s : List String} (h : s.Pairwise (· < ·)) : (l.foldl (fun s a => setInsert a s) s).Pairwise (· < ·) := by
  induction l generalizing s with
  | nil => exact h
  | cons a l ih => exact ih (sorted_setInsert h)

theorem mem_toSet {l : List String} {n : String} : n ∈ toSet l ↔ n ∈ l := by
  unfold toSet
  rw [mem_insertAll]
  simp

theorem sorted_toSet (l : List String) : (toSet l).Pairwise (· < ·) := sorted_insertAll List.Pairwise.nil

theorem nodup_of_sorted {l : List String} (h : l.Pairwise (· < ·)) : l.Nodup := h.imp fun h => ne_of_lt h

/-- Sorted lists with the same elements are the same. -/
theorem sorted_ext {l m : List String} (hl : l.Pairwise (· < ·)) (hm : m.Pairwise (· < ·)) (h : ∀ n, n ∈ l ↔ n ∈ m) : l = m := by
  have hp : l.Perm m := (List.perm_ext_iff_of_nodup (nodup_of_sorted hl) (nodup_of_sorted hm)).2 h
  exact hp.eq_of_pairwise (fun a b _ _ h1 h2 => absurd (lt_trans h1 h2) (lt_irrefl _)) hl hm

theorem toSet_ext {l m : List String} (h : ∀ n, n ∈ l ↔ n ∈ m) : toSet l = toSet m :=
  sorted_ext (sorted_toSet l) (sorted_toSet m) fun n => by rw [mem_toSet, mem_toSet, h]

/-! ## Names -/

/-- The words of a text, separated by blanks. -/
def Word (t n : String) : Prop := n.toList ∈ Text.words [' '].contains t.toList

theorem mem_blankWords {t n : String} : n ∈ blankWords t ↔ Word t n := by
  unfold blankWords Word
  rw [Text.C26_tokenize_is_words _ _ _ (by rw [String.length_toList]; omega)]
  dsimp only
  rw [List.mem_map]
  constructor
  · rintro ⟨w, hw, rfl⟩
    rw [String.toList_ofList]
    exact hw
  · intro h
    exact ⟨_, h, String.ofList_toList⟩

theorem mem_coordinateNames {L : Lib V Pr} {c : CDM P V CS} {v n : String} :
    n ∈ coordinateNames L c v ↔ ∃ t, attrText L c v "coordinates" = some t ∧ Word t n := by
  unfold coordinateNames
  cases h : attrText L c v "coordinates" with
  | none => simp
  | some t =>
    dsimp only
    rw [mem_toSet, mem_blankWords]
    simp

theorem mem_axesNames {L : Lib V Pr} {c : CDM P V CS} {v : Var P} {n : String} :
    n ∈ axesNames L c v ↔ n ∈ v.shape ∨ ∃ t, attrText L c v.name "coordinates" = some t ∧ Word t n := by
  unfold axesNames
  rw [mem_insertAll, mem_coordinateNames, mem_toSet]
  exact or_comm

theorem sorted_axesNames (L : Lib V Pr) (c : CDM P V CS) (v : Var P) : (axesNames L c v).Pairwise (· < ·) :=
  sorted_insertAll (sorted_toSet _)

/-! ## The axes of one system -/

/-- An axis `a` in the list of found axes that is not dropped as auxiliary: no main axis before it has its type. -/
def Kept (mains : List Axis) (a : Axis) : Prop := a.type = .undefined ∨ ∀ b ∈ mains, b.type ≠ a.type

theorem removeAxis_fresh {l : List Axis} {n : String} (h : ∀ a ∈ l, a.name ≠ n) : removeAxis l n = l := by
  rw [removeAxis_eq, List.filter_eq_self]
  intro a ha
  simpa using h a ha

/-- Two axes have the same type, and it is known. -/
def SameType (a b : Axis) : Prop := a.type = b.type ∧ a.type ≠ .undefined

theorem addAxes_spec (find : String → Option Axis) (hfind : ∀ n a, find n = some a → a.name = n) (coords : List String)
    (ns : List String) : ∀ (cs : CoordSys.CS), ns.Nodup → (∀ a ∈ getAxes cs, a.name ∉ ns) →
    cs.axes.Pairwise (fun a b => ¬ SameType a b) →
    let mains := cs.axes ++ (ns.filterMap find).filter fun a => a.name ∉ coords
    (mains.Pairwise (fun a b => ¬ SameType a b) →
      ∃ cs', addAxes find coords cs ns = .ok cs' ∧ cs'.axes = mains ∧
        ∀ a, a ∈ cs'.aux ↔ a ∈ cs.aux ∨ ∃ pre post, ns = pre ++ a.name :: post ∧ find a.name = some a ∧ a.name ∈ coords ∧
          Kept (cs.axes ++ (pre.filterMap find).filter fun b => b.name ∉ coords) a) ∧
    (¬ mains.Pairwise (fun a b => ¬ SameType a b) → addAxes find coords cs ns = .throws) := by
  induction ns with
  | nil =>
    intro cs _ _ hp
    dsimp only [List.filterMap_nil, List.filter_nil]
    rw [List.append_nil]
    refine ⟨fun _ => ⟨cs, rfl, rfl, fun a => ?_⟩, fun h => absurd hp h⟩
    simp
  | cons n ns ih =>
    intro cs hnd hfresh hp
    obtain ⟨hn, hnd'⟩ := List.nodup_cons.1 hnd
    unfold addAxes
    cases hf : find n with
    | none =>
      dsimp only
      rw [List.filterMap_cons_none hf]
      obtain ⟨h1, h2⟩ := ih cs hnd' (fun a ha h => hfresh a ha (List.mem_cons_of_mem _ h)) hp
      refine ⟨fun h => ?_, h2⟩
      obtain ⟨cs', e, hm, ha⟩ := h1 h
      refine ⟨cs', e, hm, fun a => ?_⟩
      rw [ha a]
      refine or_congr_right ⟨?_, ?_⟩
      · rintro ⟨pre, post, rfl, hfa, hc, hk⟩
        exact ⟨n :: pre, post, rfl, hfa, hc, by rw [List.filterMap_cons_none hf]; exact hk⟩
      · rintro ⟨pre, post, he, hfa, hc, hk⟩
        cases pre with
        | nil =>
          cases he
          rw [hf] at hfa; cases hfa
        | cons p pre =>
          cases he
          rw [List.filterMap_cons_none hf] at hk
          exact ⟨pre, post, rfl, hfa, hc, hk⟩
    | some a =>
      have han := hfind n a hf
      subst han
      rw [List.filterMap_cons_some hf]
      dsimp only
      have fr1 : ∀ b ∈ cs.axes, b.name ≠ a.name := fun b hb he =>
        hfresh b (List.mem_append_left _ hb) (he ▸ List.mem_cons_self)
      have fr2 : ∀ b ∈ cs.aux, b.name ≠ a.name := fun b hb he =>
        hfresh b (List.mem_append_right _ hb) (he ▸ List.mem_cons_self)
      by_cases hc : a.name ∈ coords
      · -- auxiliary
        rw [if_pos hc, List.filter_cons_of_neg (by simpa using hc)]
        have hno : (cs.axes.find? fun x => x.name = a.name).isSome = false := by
          rw [Bool.eq_false_iff]
          intro h
          obtain ⟨x, hx, hxn⟩ := List.find?_isSome.1 h
          exact fr1 x hx (by simpa using hxn)
        have hset : ∃ aux', setAuxiliaryAxis cs a = (⟨cs.axes, aux'⟩, .ok ()) ∧
            ∀ b, b ∈ aux' ↔ b ∈ cs.aux ∨ b = a ∧ Kept cs.axes a := by
          unfold setAuxiliaryAxis
          rw [if_neg (by rw [hno]; decide)]
          by_cases ht : a.type ≠ .undefined ∧ (findType a.type cs.axes).isSome = true
          · rw [if_pos ht]
            refine ⟨cs.aux, rfl, fun b => ⟨Or.inl, ?_⟩⟩
            rintro (h | ⟨-, hk⟩)
            · exact h
            · obtain ⟨x, hx, hxt⟩ := findType_some.1 ht.2
              rcases hk with hk | hk
              · exact absurd hk ht.1
              · exact absurd hxt (hk x hx)
          · rw [if_neg ht, removeAxis_fresh fr2]
            refine ⟨cs.aux ++ [a], rfl, fun b => ?_⟩
            rw [List.mem_append, List.mem_singleton]
            refine or_congr_right ⟨fun h => ⟨h, ?_⟩, And.left⟩
            by_cases hu : a.type = .undefined
            · exact Or.inl hu
            · refine Or.inr fun x hx hxt => ht ⟨hu, findType_some.2 ⟨x, hx, hxt⟩⟩
        obtain ⟨aux', e, haux⟩ := hset
        rw [e]
        dsimp only
        have hfr' : ∀ b ∈ getAxes ⟨cs.axes, aux'⟩, b.name ∉ ns := by
          intro b hb
          rcases List.mem_append.1 hb with hb | hb
          · exact fun h => hfresh b (List.mem_append_left _ hb) (List.mem_cons_of_mem _ h)
          · rcases (haux b).1 hb with hb | ⟨rfl, -⟩
            · exact fun h => hfresh b (List.mem_append_right _ hb) (List.mem_cons_of_mem _ h)
            · exact hn
        obtain ⟨h1, h2⟩ := ih ⟨cs.axes, aux'⟩ hnd' hfr' hp
        refine ⟨fun h => ?_, h2⟩
        obtain ⟨cs', e, hm, ha⟩ := h1 h
        refine ⟨cs', e, hm, fun b => ?_⟩
        rw [ha b]
        constructor
        · rintro (hb | ⟨pre, post, rfl, hfa, hbc, hk⟩)
          · rcases (haux b).1 hb with hb | ⟨rfl, hk⟩
            · exact Or.inl hb
            · exact Or.inr ⟨[], ns, rfl, hf, hc, by simpa using hk⟩
          · refine Or.inr ⟨a.name :: pre, post, rfl, hfa, hbc, ?_⟩
            rw [List.filterMap_cons_some hf, List.filter_cons_of_neg (by simpa using hc)]
            exact hk
        · rintro (hb | ⟨pre, post, he, hfa, hbc, hk⟩)
          · exact Or.inl ((haux b).2 (Or.inl hb))
          · cases pre with
            | nil =>
              simp only [List.nil_append, List.cons.injEq] at he
              rw [← he.1, hf] at hfa
              cases hfa
              exact Or.inl ((haux a).2 (Or.inr ⟨rfl, by simpa using hk⟩))
            | cons p pre =>
              simp only [List.cons_append, List.cons.injEq] at he
              obtain ⟨rfl, rfl⟩ := he
              rw [List.filterMap_cons_some hf, List.filter_cons_of_neg (by simpa using hc)] at hk
              exact Or.inr ⟨pre, post, rfl, hfa, hbc, hk⟩
      · -- main axis
        rw [if_neg hc, List.filter_cons_of_pos (by simpa using hc)]
        have happ : cs.axes ++ a :: List.filter (fun a => decide (a.name ∉ coords)) (List.filterMap find ns) =
            (cs.axes ++ [a]) ++ List.filter (fun a => decide (a.name ∉ coords)) (List.filterMap find ns) := by simp
        by_cases ht : a.type ≠ .undefined ∧ (findType a.type cs.axes).isSome = true
        · have e : setAxis cs a = ({ cs with axes := cs.axes }, .throws) := by
            unfold setAxis
            dsimp only
            rw [removeAxis_fresh fr1, if_pos ht]
          rw [e]
          dsimp only
          refine ⟨fun h => ?_, fun _ => rfl⟩
          obtain ⟨x, hx, hxt⟩ := findType_some.1 ht.2
          exact absurd ⟨hxt, hxt ▸ ht.1⟩ ((List.pairwise_append.1 h).2.2 x hx a List.mem_cons_self)
        · have e : setAxis cs a = (⟨cs.axes ++ [a], cs.aux⟩, .ok ()) := by
            unfold setAxis
            dsimp only
            rw [removeAxis_fresh fr1, if_neg ht, removeAxis_fresh fr2]
          rw [e]
          dsimp only
          have hfr' : ∀ b ∈ getAxes ⟨cs.axes ++ [a], cs.aux⟩, b.name ∉ ns := by
            intro b hb
            unfold getAxes at hb
            rcases List.mem_append.1 hb with hb | hb
            · rcases List.mem_append.1 hb with hb | hb
              · exact fun h => hfresh b (List.mem_append_left _ hb) (List.mem_cons_of_mem _ h)
              · rw [List.mem_singleton.1 hb]; exact hn
            · exact fun h => hfresh b (List.mem_append_right _ hb) (List.mem_cons_of_mem _ h)
          have hp' : (cs.axes ++ [a]).Pairwise fun a b => ¬ SameType a b := by
            rw [List.pairwise_append]
            refine ⟨hp, List.pairwise_singleton _ _, fun x hx y hy hs => ?_⟩
            rw [List.mem_singleton.1 hy] at hs
            exact ht ⟨hs.1 ▸ hs.2, findType_some.2 ⟨x, hx, hs.1⟩⟩
          obtain ⟨h1, h2⟩ := ih ⟨cs.axes ++ [a], cs.aux⟩ hnd' hfr' hp'
          rw [happ]
          refine ⟨fun h => ?_, h2⟩
          obtain ⟨cs', e, hm, ha⟩ := h1 h
          refine ⟨cs', e, hm, fun b => ?_⟩
          rw [ha b]
          refine or_congr_right ⟨?_, ?_⟩
          · rintro ⟨pre, post, rfl, hfa, hbc, hk⟩
            refine ⟨a.name :: pre, post, rfl, hfa, hbc, ?_⟩
            rw [List.filterMap_cons_some hf, List.filter_cons_of_pos (by simpa using hc)]
            simpa using hk
          · rintro ⟨pre, post, he, hfa, hbc, hk⟩
            cases pre with
            | nil =>
              simp only [List.nil_append, List.cons.injEq] at he
              rw [he.1] at hc
              exact absurd hbc hc
            | cons p pre =>
              simp only [List.cons_append, List.cons.injEq] at he
              obtain ⟨rfl, rfl⟩ := he
              rw [List.filterMap_cons_some hf, List.filter_cons_of_pos (by simpa using hc)] at hk
              exact ⟨pre, post, rfl, hfa, hbc, by simpa using hk⟩

end Fimex.Cf
