import Verif.Pressure.Model
import Verif.Cdm.Invariant
import Mathlib.Tactic.Set
import Mathlib.Tactic.ByContra

/-! # Pressure conversions: lemmas -/

namespace Fimex.Pressure

open Fimex.Cdm

variable {P V : Type}

/-- `out'` is `out` with a new variable, that has exactly these attributes, and without the variable `gone`. -/
structure Made (out out' : CDM P V Unit) (v : Var P) (attrs : List (Attr V)) (gone : Option String) : Prop where
  vars : out'.vars = out.vars.filter (fun w => decide (gone ≠ some w.name)) ++ [v]
  dims : out'.dims = out.dims
  new : getAttributes out' v.name = attrs
  old : ∀ n, n ≠ v.name → gone ≠ some n → out'.attrs n = out.attrs n
  removed : ∀ n, gone = some n → out'.attrs n = none

/-! ## Sequences of attributes -/

theorem done_append (c : CDM P V Unit) (n : String) (l l' : List (Attr V)) :
    done (addAttributes c n (l ++ l')) = (done (addAttributes c n l) >>= fun c => done (addAttributes c n l')) := by
  induction l generalizing c with
  | nil => rfl
  | cons a l ih =>
    simp only [List.cons_append, addAttributes]
    rcases addAttribute_cases c n a with h | h | h
    · rw [h.2]; rfl
    · rw [h.2.2]; rfl
    · rw [h.2.2]; exact ih _

theorem done_one (c : CDM P V Unit) (n : String) (a : Attr V) :
    done (addAttribute c n a) = done (addAttributes c n [a]) := by
  rcases addAttribute_cases c n a with h | h | h
  · simp only [addAttributes, h.2]
  · simp only [addAttributes, h.2.2]
  · simp only [addAttributes, h.2.2]

theorem done_add {out : CDM P V Unit} {v : Var P} (hn : hasVariable out v.name = false) :
    done (addVariable out v) = .ok { out with vars := out.vars ++ [v], coordsInitialized := false } := by
  have h : hasVariable { out with coordsInitialized := false } v.name = false := hn
  simp [addVariable, done, h]

theorem attrs_none {c : CDM P V Unit} (hi : Inv c) {n : String} (hn : hasVariable c n = false) (hg : n ≠ globalNS) :
    c.attrs n = none := by
  by_contra h
  rcases hi.owners n h with h | h
  · exact hg h
  · rw [hn] at h; exact absurd h (by decide)

theorem make {out : CDM P V Unit} (hi : Inv out) {v : Var P} (hn : hasVariable out v.name = false) (hg : v.name ≠ globalNS)
    {l : List (Attr V)} (hl : (l.map (·.name)).Nodup) :
    ∃ c, (done (addVariable out v) >>= fun c => done (addAttributes c v.name l)) = .ok c ∧ Made out c v l none := by
  rw [done_add hn, Res.ok_bind]
  set c1 : CDM P V Unit := { out with vars := out.vars ++ [v], coordsInitialized := false } with hc1
  have ha : getAttributes c1 v.name = [] := by simp [getAttributes, hc1, attrs_none hi hn hg]
  obtain ⟨c', e, h1, h2, -, h4, h5, -⟩ := addAttributes_ok v.name l c1
    (.inr (by rw [hasVariable_iff]; simp [hc1])) (by rw [ha]; simpa using hl)
  refine ⟨c', by rw [e]; rfl, by rw [h1, List.filter_eq_self.2 (by simp)], by rw [h2], by rw [h4, ha]; simp, ?_, by simp⟩
  intro n hn' _
  rw [h5 n hn']

theorem Made.remove {out c : CDM P V Unit} {v : Var P} {l : List (Attr V)} (h : Made out c v l none) {n : String}
    (hn : n ≠ v.name) : Made out (removeVariable c n) v l (some n) := by
  refine ⟨?_, h.dims, ?_, ?_, ?_⟩
  · have hv := h.vars
    simp only [ne_eq, reduceCtorEq, not_false_eq_true, decide_true] at hv
    rw [List.filter_eq_self.2 (by simp)] at hv
    simp only [removeVariable, hv, List.filter_append]
    congr 1
    · apply List.filter_congr
      intro w _
      by_cases e : w.name = n
      · simp [e]
      · simp [e, Ne.symm e]
    · simp [Ne.symm hn]
  · rw [← h.new]
    simp [getAttributes, removeVariable, Ne.symm hn]
  · intro m h1 h2
    have : m ≠ n := fun e => h2 (by rw [e])
    rw [← h.old m h1 (by simp)]
    simp [removeVariable, this]
  · rintro m h
    obtain rfl := Option.some.inj h
    simp [removeVariable]

theorem Made.inv {out c : CDM P V Unit} {v : Var P} {l : List (Attr V)} {g : Option String} (h : Made out c v l g)
    (hi : Inv out) (hn : hasVariable out v.name = false) (hl : (l.map (·.name)).Nodup) : Inv c := by
  have hno : v.name ∉ out.vars.map (·.name) := by
    rw [← hasVariable_iff, hn]; decide
  refine ⟨?_, by rw [h.dims]; exact hi.dims, ?_, ?_⟩
  · rw [h.vars, List.map_append, List.nodup_append]
    refine ⟨nodup_filter_map _ _ hi.vars, by simp, ?_⟩
    intro a ha b hb e
    simp only [List.map_cons, List.map_nil, List.mem_singleton] at hb
    subst hb e
    rw [List.mem_map] at ha
    obtain ⟨w, hw, e⟩ := ha
    exact hno (List.mem_map.2 ⟨w, (List.mem_filter.1 hw).1, e⟩)
  · intro n l' hl'
    by_cases e : n = v.name
    · have := h.new
      subst e
      simp only [getAttributes, hl', Option.getD_some] at this
      rw [this]; exact hl
    · by_cases e' : g = some n
      · rw [h.removed n e'] at hl'; cases hl'
      · rw [h.old n e e'] at hl'
        exact hi.attrNames n l' hl'
  · intro n hn'
    by_cases e : n = v.name
    · right; rw [hasVariable_iff, h.vars]; simp [e]
    · have e' : g ≠ some n := fun e' => hn' (h.removed n e')
      rw [h.old n e e'] at hn'
      rcases hi.owners n hn' with h' | h'
      · exact .inl h'
      · right
        rw [hasVariable_iff, List.mem_map] at h'
        obtain ⟨w, hw, rfl⟩ := h'
        rw [hasVariable_iff, h.vars, List.map_append, List.mem_append]
        exact .inl (List.mem_map.2 ⟨w, List.mem_filter.2 ⟨hw, by simpa using e'⟩, rfl⟩)

/-! ## Maps -/

theorem find_insert {α : Type} (m : List (String × α)) (k n : String) (v : α) :
    find (insert m k v) n = match find m n with
      | some w => some w
      | none => if k = n then some v else none := by
  unfold insert
  split
  · rename_i h
    rw [List.any_eq_true] at h
    obtain ⟨p, hp, hk⟩ := h
    cases e : find m n with
    | some w => rfl
    | none =>
      simp only
      rw [if_neg]
      intro hkn
      subst hkn
      simp only [find, Option.map_eq_none_iff, List.find?_eq_none] at e
      exact e p hp hk
  · unfold find
    rw [List.find?_append]
    cases e : List.find? (fun p => p.1 == n) m with
    | some w => simp
    | none =>
      by_cases hk : k = n
      · simp [hk]
      · have : (k == n) = false := by simpa using hk
        simp [List.find?, this, hk]

/-! ## Text -/

theorem cut_append {c : Char} {a b : List Char} (h : c ∉ a) : cut c (a ++ c :: b) = some (a, b) := by
  induction a with
  | nil => simp [cut]
  | cons x a ih =>
    have h1 : x ≠ c := fun e => h (by simp [e])
    simp only [List.cons_append, cut, if_neg h1]
    rw [ih fun e => h (by simp [e])]
    rfl

theorem cut_none {c : Char} {a : List Char} (h : c ∉ a) : cut c a = none := by
  induction a with
  | nil => rfl
  | cons x a ih =>
    have h1 : x ≠ c := fun e => h (by simp [e])
    simp only [cut, if_neg h1]
    rw [ih fun e => h (by simp [e])]
    rfl

theorem readOptions_nil (m : List (String × String)) : readOptions [] m = m := by
  rw [readOptions]; simp

theorem readOptions_flag {l : List Char} (h : l ≠ []) (he : '=' ∉ l) (m : List (String × String)) :
    readOptions l m = insert m (String.ofList l) "" := by
  rw [readOptions]
  have : l.isEmpty = false := by simpa using h
  simp only [this]
  split
  · rename_i e; cases e
  · split
    · rfl
    · rename_i e; rw [cut_none he] at e; cases e

theorem readOptions_last {k v : List Char} (hk : '=' ∉ k) (hv : ';' ∉ v) (m : List (String × String)) :
    readOptions (k ++ '=' :: v) m = insert m (String.ofList k) (String.ofList v) := by
  rw [readOptions]
  have : (k ++ '=' :: v).isEmpty = false := by simp
  simp only [this]
  split
  · rename_i e; cases e
  · split
    · rename_i e; rw [cut_append hk] at e; cases e
    · rename_i e
      rw [cut_append hk] at e
      simp only [Option.some.injEq, Prod.mk.injEq] at e
      obtain ⟨rfl, rfl⟩ := e
      split
      · rfl
      · rename_i e; rw [cut_none hv] at e; cases e

theorem readOptions_more {k v r : List Char} (hk : '=' ∉ k) (hv : ';' ∉ v) (m : List (String × String)) :
    readOptions (k ++ '=' :: (v ++ ';' :: r)) m = readOptions r (insert m (String.ofList k) (String.ofList v)) := by
  rw [readOptions]
  have : (k ++ '=' :: (v ++ ';' :: r)).isEmpty = false := by simp
  simp only [this]
  split
  · rename_i e; cases e
  · split
    · rename_i e; rw [cut_append hk] at e; cases e
    · rename_i e
      rw [cut_append hk] at e
      simp only [Option.some.injEq, Prod.mk.injEq] at e
      obtain ⟨rfl, rfl⟩ := e
      split
      · rename_i e; rw [cut_append hv] at e; cases e
      · rename_i e
        rw [cut_append hv] at e
        simp only [Option.some.injEq, Prod.mk.injEq] at e
        obtain ⟨rfl, rfl⟩ := e
        rfl

end Fimex.Pressure
