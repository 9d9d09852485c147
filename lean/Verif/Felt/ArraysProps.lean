import Verif.Felt.Arrays
import Mathlib.Data.List.Chain
import Mathlib.Data.List.Induction
import Mathlib.Data.List.TakeWhile
import Mathlib.Tactic.Ring
import Mathlib.Tactic.Linarith
import Mathlib.Tactic.FieldSimp

/-!
# Arrays of Felt files (C114)
-/

namespace Fimex.Felt
open Fimex.Time

variable {A B K : Type}

/-! ## Sorted maps -/

/-- A strict order in which any two different values are comparable. -/
structure Total (less : A → A → Bool) : Prop where
  irrefl : ∀ a, less a a = false
  trans : ∀ a b c, less a b = true → less b c = true → less a c = true
  eq : ∀ a b, less a b = false → less b a = false → a = b

theorem timeLess_total : Total timeLess := by
  constructor
  · simp [timeLess]
  · simp only [timeLess, decide_eq_true_eq]; omega
  · simp only [timeLess, decide_eq_false_iff_not]; omega

theorem levelLess_total : Total levelLess := by
  constructor
  · simp [levelLess]
  · rintro ⟨a, a'⟩ ⟨b, b'⟩ ⟨c, c'⟩ h1 h2
    simp only [levelLess] at *
    split_ifs at * <;> simp only [decide_eq_true_eq] at * <;> omega
  · rintro ⟨a, a'⟩ ⟨b, b'⟩ h1 h2
    simp only [levelLess, Prod.mk.injEq] at *
    split_ifs at * <;> simp only [decide_eq_false_iff_not] at * <;> omega

theorem nameLess_total : Total nameLess := by
  constructor
  · simp [nameLess]
  · simp only [nameLess, decide_eq_true_eq]
    exact fun a b c h1 h2 => lt_trans h1 h2
  · simp only [nameLess, decide_eq_false_iff_not, not_lt]
    exact fun a b h1 h2 => le_antisymm h2 h1

/-- Keys grow. -/
def Sorted (less : A → A → Bool) (m : List (A × B)) : Prop := m.Pairwise fun p q => less p.1 q.1 = true

set_option linter.unusedSectionVars false
section
variable {less : A → A → Bool} (hl : Total less)
include hl

theorem same_iff (a b : A) : (!less a b && !less b a) = true ↔ a = b := by
  constructor
  · intro h
    simp only [Bool.and_eq_true, Bool.not_eq_true'] at h
    exact hl.eq a b h.1 h.2
  · rintro rfl
    simp [hl.irrefl]

theorem asymm {a b : A} (h : less a b = true) : less b a = false := by
  cases h' : less b a with
  | false => rfl
  | true =>
    have := hl.trans a b a h h'
    rw [hl.irrefl] at this
    cases this

theorem mapFind_cons_self (k : A) (v : B) (m : List (A × B)) : mapFind less k ((k, v) :: m) = some v := by
  rw [mapFind, if_pos ((same_iff hl k k).2 rfl)]

theorem mapFind_cons_ne {k k' : A} (h : k ≠ k') (v : B) (m : List (A × B)) : mapFind less k ((k', v) :: m) = mapFind less k m := by
  rw [mapFind, if_neg (fun e => h ((same_iff hl k k').1 e))]

theorem mapFind_put_self (k : A) (v : B) (m : List (A × B)) : mapFind less k (mapPut less k v m) = some v := by
  induction m with
  | nil => exact mapFind_cons_self hl k v []
  | cons p m ih =>
    obtain ⟨k', v'⟩ := p
    rw [mapPut]
    split_ifs with h1 h2
    · exact mapFind_cons_self hl _ _ _
    · rw [mapFind_cons_ne hl (by rintro rfl; exact h1 h2), ih]
    · exact mapFind_cons_self hl _ _ _

theorem mapFind_put_ne {k k' : A} (h : k ≠ k') (v : B) (m : List (A × B)) : mapFind less k (mapPut less k' v m) = mapFind less k m := by
  induction m with
  | nil => exact mapFind_cons_ne hl h v []
  | cons p m ih =>
    obtain ⟨a, w⟩ := p
    rw [mapPut]
    split_ifs with h1 h2
    · exact mapFind_cons_ne hl h _ _
    · by_cases e : k = a
      · subst e
        rw [mapFind_cons_self hl, mapFind_cons_self hl]
      · rw [mapFind_cons_ne hl e, mapFind_cons_ne hl e, ih]
    · obtain rfl : k' = a := hl.eq k' a (by simpa using h1) (by simpa using h2)
      rw [mapFind_cons_ne hl h, mapFind_cons_ne hl h]

theorem mem_put {k : A} {v : B} {m : List (A × B)} {p : A × B} (h : p ∈ mapPut less k v m) : p = (k, v) ∨ p ∈ m := by
  induction m with
  | nil => exact .inl (by simpa [mapPut] using h)
  | cons q m ih =>
    obtain ⟨a, w⟩ := q
    rw [mapPut] at h
    split_ifs at h with h1 h2
    · simpa using h
    · rcases List.mem_cons.1 h with e | e
      · exact .inr (by simp [e])
      · rcases ih e with e | e
        · exact .inl e
        · exact .inr (by simp [e])
    · rcases List.mem_cons.1 h with e | e
      · exact .inl e
      · exact .inr (by simp [e])

theorem put_ne_nil (k : A) (v : B) (m : List (A × B)) : mapPut less k v m ≠ [] := by
  cases m with
  | nil => simp [mapPut]
  | cons q m =>
    obtain ⟨a, w⟩ := q
    rw [mapPut]
    split_ifs <;> simp

theorem sorted_put (k : A) (v : B) {m : List (A × B)} (h : Sorted less m) : Sorted less (mapPut less k v m) := by
  induction m with
  | nil => simp [mapPut, Sorted]
  | cons q m ih =>
    obtain ⟨a, w⟩ := q
    obtain ⟨h1, h2⟩ := List.pairwise_cons.1 h
    rw [mapPut]
    split_ifs with c1 c2
    · refine List.pairwise_cons.2 ⟨fun p hp => ?_, h⟩
      rcases List.mem_cons.1 hp with e | e
      · rw [e]; exact c1
      · exact hl.trans _ _ _ c1 (h1 p e)
    · refine List.pairwise_cons.2 ⟨fun p hp => ?_, ih h2⟩
      rcases mem_put hl hp with e | e
      · rw [e]; exact c2
      · exact h1 p e
    · obtain rfl : k = a := hl.eq k a (by simpa using c1) (by simpa using c2)
      exact List.pairwise_cons.2 ⟨h1, h2⟩

theorem mem_of_find {k : A} {v : B} {m : List (A × B)} (h : mapFind less k m = some v) : (k, v) ∈ m := by
  induction m with
  | nil => simp [mapFind] at h
  | cons q m ih =>
    obtain ⟨a, w⟩ := q
    by_cases e : k = a
    · subst e
      rw [mapFind_cons_self hl] at h
      simp only [Option.some.injEq] at h
      simp [h]
    · rw [mapFind_cons_ne hl e] at h
      exact List.mem_cons_of_mem _ (ih h)

theorem find_of_mem {k : A} {v : B} {m : List (A × B)} (hs : Sorted less m) (h : (k, v) ∈ m) : mapFind less k m = some v := by
  induction m with
  | nil => simp at h
  | cons q m ih =>
    obtain ⟨a, w⟩ := q
    obtain ⟨h1, h2⟩ := List.pairwise_cons.1 hs
    rcases List.mem_cons.1 h with e | e
    · simp only [Prod.mk.injEq] at e
      rw [e.1, e.2]
      exact mapFind_cons_self hl _ _ _
    · rw [mapFind_cons_ne hl, ih h2 e]
      rintro rfl
      have := h1 _ e
      rw [hl.irrefl] at this
      cases this

theorem mem_setPut (k : A) (s : List A) (a : A) : a ∈ setPut less k s ↔ a = k ∨ a ∈ s := by
  induction s with
  | nil => simp [setPut]
  | cons b s ih =>
    rw [setPut]
    split_ifs with h1 h2
    · simp
    · simp only [List.mem_cons, ih]; tauto
    · obtain rfl : k = b := hl.eq k b (by simpa using h1) (by simpa using h2)
      simp

theorem sorted_setPut (k : A) {s : List A} (h : s.Pairwise fun a b => less a b = true) : (setPut less k s).Pairwise fun a b => less a b = true := by
  induction s with
  | nil => simp [setPut]
  | cons b s ih =>
    obtain ⟨h1, h2⟩ := List.pairwise_cons.1 h
    rw [setPut]
    split_ifs with c1 c2
    · refine List.pairwise_cons.2 ⟨fun p hp => ?_, h⟩
      rcases List.mem_cons.1 hp with e | e
      · rw [e]; exact c1
      · exact hl.trans _ _ _ c1 (h1 p e)
    · refine List.pairwise_cons.2 ⟨fun p hp => ?_, ih h2⟩
      rcases (mem_setPut hl k s p).1 hp with e | e
      · rw [e]; exact c2
      · exact h1 p e
    · exact h

theorem setOf_spec (l : List A) : (setOf less l).Pairwise (fun a b => less a b = true) ∧ ∀ a, a ∈ setOf less l ↔ a ∈ l := by
  induction l using List.reverseRecOn with
  | nil => simp [setOf]
  | append_singleton l k ih =>
    have e : setOf less (l ++ [k]) = setPut less k (setOf less l) := by simp [setOf]
    rw [e]
    refine ⟨sorted_setPut hl k ih.1, fun a => ?_⟩
    rw [mem_setPut hl, ih.2]
    simp only [List.mem_append, List.mem_singleton]
    tauto

end

/-! ## Specification -/

/-- Fields with a name, in the order of the file. -/
def named (ps : Params K) (fs : List (Field K)) (n : String) : List (Field K) := fs.filter fun f => parameterName ps.list f.header = n

/-- Fields of a time and level. -/
def atKey (gs : List (Field K)) (t : ℤ) (l : ℤ × ℤ) : List (Field K) := gs.filter fun f => f.time = t ∧ f.level = l

/-- Fields that can be put into one array: one parameter, one kind of levels, and for each time and level each field has another type than the
field before. -/
def Compatible (gs : List (Field K)) : Prop :=
  (∀ f0 ∈ gs.head?, ∀ f ∈ gs, parameter f0.header = parameter f.header ∧ f0.vcoord = f.vcoord) ∧
  ∀ t l, (atKey gs t l).IsChain fun f g => f.kind ≠ g.kind

/-- Field of a time and level. -/
def look (m : List (ℤ × Slice K)) (t : ℤ) (l : ℤ × ℤ) : Option (Field K) := (mapFind timeLess t m).bind fun s => mapFind levelLess l s

/-- An array that holds some fields. -/
structure Holds (a : Arr K) (gs : List (Field K)) : Prop where
  first : gs.head? = some a.first
  look : ∀ t l, look a.fields t l = (atKey gs t l).getLast?
  sorted : Sorted timeLess a.fields
  slices : ∀ s ∈ a.fields, Sorted levelLess s.2 ∧ s.2 ≠ []

/-- A file that holds the fields: an array for each name, and the last word of the first field of each hybrid level. -/
structure FileHolds (ps : Params K) (ff : FeltFile K) (fs : List (Field K)) : Prop where
  arrays : ∀ n a, mapFind nameLess n ff.arrays = some a → a.name = n ∧ a.dtype = ps.dtype n ∧ a.fill = ps.fill n ∧ Holds a (named ps fs n)
  missing : ∀ n, n ≠ "" → mapFind nameLess n ff.arrays = none → named ps fs n = []
  sorted : Sorted nameLess ff.arrays
  names : ∀ p ∈ ff.arrays, p.1 ≠ ""
  hybrid : ∀ lp, mapFind levelLess lp ff.hybrid =
    ((fs.filter fun f => parameterName ps.list f.header ≠ "" ∧ f.vcoord = 10 ∧ (word f.header 12, level2 f.header) = lp).head?).map Field.misc

/-! ## Adding a field -/

theorem look_put (m : List (ℤ × Slice K)) (f : Field K) (s : Slice K) (hs : ∀ l, mapFind levelLess l s = look m f.time l) (t : ℤ) (l : ℤ × ℤ) :
    look (mapPut timeLess f.time (mapPut levelLess f.level f s) m) t l = if f.time = t ∧ f.level = l then some f else look m t l := by
  unfold look
  by_cases ht : t = f.time
  · subst ht
    rw [mapFind_put_self timeLess_total, Option.bind_some]
    by_cases hlv : l = f.level
    · subst hlv
      rw [mapFind_put_self levelLess_total, if_pos ⟨rfl, rfl⟩]
    · rw [mapFind_put_ne levelLess_total hlv, if_neg (fun e => hlv e.2.symm), hs]
      rfl
  · rw [mapFind_put_ne timeLess_total ht, if_neg (fun e => ht e.1.symm)]

theorem addField_spec (m : List (ℤ × Slice K)) (f : Field K) :
    (∀ old, look m f.time f.level = some old → old.kind = f.kind → addField m f = .throws) ∧
    ((∀ old, look m f.time f.level = some old → old.kind ≠ f.kind) → ∃ s, (∀ l, mapFind levelLess l s = look m f.time l) ∧
      (s = [] ∨ (f.time, s) ∈ m) ∧ addField m f = .ok (mapPut timeLess f.time (mapPut levelLess f.level f s) m)) := by
  unfold addField
  cases h : mapFind timeLess f.time m with
  | none =>
    have hn : ∀ l, look m f.time l = none := fun l => by simp [look, h]
    refine ⟨fun old e => ?_, fun _ => ⟨[], fun l => by rw [hn]; rfl, .inl rfl, rfl⟩⟩
    rw [hn] at e
    cases e
  | some s =>
    have hs : ∀ l, look m f.time l = mapFind levelLess l s := fun l => by simp [look, h]
    simp only [hs]
    cases h2 : mapFind levelLess f.level s with
    | none =>
      exact ⟨fun old e => (by cases e), fun _ => ⟨s, fun l => rfl, .inr (mem_of_find timeLess_total h), rfl⟩⟩
    | some old =>
      refine ⟨fun o e hk => ?_, fun hk => ⟨s, fun l => rfl, .inr (mem_of_find timeLess_total h), ?_⟩⟩
      · cases e
        simp [hk]
      · simp [hk old rfl]

theorem atKey_append (gs : List (Field K)) (f : Field K) (t : ℤ) (l : ℤ × ℤ) :
    atKey (gs ++ [f]) t l = if f.time = t ∧ f.level = l then atKey gs t l ++ [f] else atKey gs t l := by
  unfold atKey
  rw [List.filter_append]
  split_ifs with h
  · simp [h]
  · simp [h]

/-- The field fits to those before. -/
def Fits (gs : List (Field K)) (f : Field K) : Prop :=
  (∀ f0 ∈ gs.head?, parameter f0.header = parameter f.header ∧ f0.vcoord = f.vcoord) ∧ ∀ old, (atKey gs f.time f.level).getLast? = some old → old.kind ≠ f.kind

theorem compatible_append (gs : List (Field K)) (f : Field K) : Compatible (gs ++ [f]) ↔ Compatible gs ∧ Fits gs f := by
  unfold Compatible Fits
  constructor
  · rintro ⟨h1, h2⟩
    refine ⟨⟨fun f0 hf0 g hg => ?_, fun t l => ?_⟩, fun f0 hf0 => ?_, fun old ho => ?_⟩
    · refine h1 f0 ?_ g (by simp [hg])
      cases gs with
      | nil => simp at hf0
      | cons a gs => simpa using hf0
    · have := h2 t l
      rw [atKey_append] at this
      split_ifs at this with h
      · exact (List.isChain_append.1 this).1
      · exact this
    · refine h1 f0 ?_ f (by simp)
      cases gs with
      | nil => simp at hf0
      | cons a gs => simpa using hf0
    · have := h2 f.time f.level
      rw [atKey_append, if_pos ⟨rfl, rfl⟩] at this
      exact (List.isChain_append.1 this).2.2 old ho f (by simp)
  · rintro ⟨⟨h1, h2⟩, h3, h4⟩
    refine ⟨fun f0 hf0 g hg => ?_, fun t l => ?_⟩
    · cases gs with
      | nil =>
        simp only [List.nil_append, List.head?_cons, Option.mem_def, Option.some.injEq, List.mem_singleton] at hf0 hg
        subst hf0 hg
        exact ⟨rfl, rfl⟩
      | cons a gs =>
        have hf : f0 ∈ (a :: gs).head? := by simpa using hf0
        rcases List.mem_append.1 hg with e | e
        · exact h1 f0 hf g e
        · simp only [List.mem_singleton] at e
          rw [e]
          exact h3 f0 hf
    · rw [atKey_append]
      split_ifs with h
      · obtain ⟨rfl, rfl⟩ := h
        refine List.isChain_append.2 ⟨h2 _ _, by simp, fun x hx y hy => ?_⟩
        simp only [List.head?_cons, Option.mem_def, Option.some.injEq] at hy
        subst hy
        exact h4 x hx
      · exact h2 t l

theorem holds_new (name : String) (f : Field K) (dtype : String) (fill : K) : Holds (newArr name f dtype fill) [f] := by
  constructor
  · rfl
  · intro t l
    have e := atKey_append [] f t l
    simp only [List.nil_append] at e
    rw [e]
    unfold look newArr
    simp only [mapPut]
    by_cases ht : t = f.time
    · subst ht
      rw [mapFind_cons_self timeLess_total, Option.bind_some]
      by_cases hlv : l = f.level
      · subst hlv
        rw [mapFind_cons_self levelLess_total, if_pos ⟨rfl, rfl⟩]
        simp [atKey]
      · rw [mapFind_cons_ne levelLess_total hlv, if_neg (fun e => hlv e.2.symm)]
        simp [atKey, mapFind]
    · rw [mapFind_cons_ne timeLess_total ht, if_neg (fun e => ht e.1.symm)]
      simp [atKey, mapFind]
  · simp [newArr, mapPut, Sorted]
  · intro s hs
    simp only [newArr, mapPut, List.mem_singleton] at hs
    subst hs
    exact ⟨by simp [Sorted], by simp⟩

theorem holds_add (a : Arr K) (gs : List (Field K)) (h : Holds a gs) (f : Field K) (hv : valid f.header = true) :
    (Fits gs f → ∃ m, a.add f = .ok { a with fields := m } ∧ Holds { a with fields := m } (gs ++ [f])) ∧ (¬ Fits gs f → a.add f = .throws) := by
  have hl := h.look f.time f.level
  have hsp := addField_spec a.fields f
  have hgs : gs ≠ [] := by
    rintro rfl
    have := h.first
    simp at this
  unfold Arr.add
  rw [hv]
  simp only [Bool.not_true, Bool.false_eq_true, if_false]
  constructor
  · rintro ⟨h1, h2⟩
    rw [if_neg (not_not.2 (h1 _ h.first))]
    rw [← hl] at h2
    obtain ⟨s, hs1, hs2, e⟩ := hsp.2 h2
    refine ⟨mapPut timeLess f.time (mapPut levelLess f.level f s) a.fields, ?_, ?_⟩
    · rw [e]; rfl
    · constructor
      · rw [List.head?_append_of_ne_nil _ hgs]
        exact h.first
      · intro t l
        simp only
        rw [look_put _ _ _ hs1, atKey_append, h.look t l]
        split_ifs <;> simp
      · exact sorted_put timeLess_total _ _ h.sorted
      · intro s' hs'
        rcases mem_put timeLess_total hs' with e | e
        · rw [e]
          refine ⟨sorted_put levelLess_total _ _ ?_, put_ne_nil levelLess_total _ _ _⟩
          rcases hs2 with e | e
          · rw [e]; simp [Sorted]
          · exact (h.slices _ e).1
        · exact h.slices _ e
  · intro hn
    by_cases hp : parameter a.first.header = parameter f.header ∧ a.first.vcoord = f.vcoord
    · rw [if_neg (not_not.2 hp)]
      have : ∃ old, (atKey gs f.time f.level).getLast? = some old ∧ old.kind = f.kind := by
        by_contra hcon
        push Not at hcon
        refine hn ⟨fun f0 hf0 => ?_, hcon⟩
        rw [h.first] at hf0
        simp only [Option.mem_def, Option.some.injEq] at hf0
        rw [← hf0]
        exact hp
      obtain ⟨old, h1, h2⟩ := this
      rw [← hl] at h1
      rw [hsp.1 old h1 h2]
      rfl
    · rw [if_pos hp]

theorem named_append (ps : Params K) (fs : List (Field K)) (f : Field K) (n : String) :
    named ps (fs ++ [f]) n = if parameterName ps.list f.header = n then named ps fs n ++ [f] else named ps fs n := by
  unfold named
  rw [List.filter_append]
  split_ifs with h <;> simp [h]

theorem head?_append {X : Type} (p : X → Bool) (l : List X) (x : X) :
    ((l ++ [x]).filter p).head? = if (l.filter p).head? = none ∧ p x = true then some x else (l.filter p).head? := by
  rw [List.filter_append]
  cases h : l.filter p with
  | nil => cases hp : p x <;> simp [hp]
  | cons a r => simp

theorem step_ok (ps : Params K) (ff : FeltFile K) (fs : List (Field K)) (h : FileHolds ps ff fs) (f : Field K) (hv : valid f.header = true) :
    ((parameterName ps.list f.header = "" ∨ Fits (named ps fs (parameterName ps.list f.header)) f) →
      ∃ ff', initStep ps ff f = .ok ff' ∧ FileHolds ps ff' (fs ++ [f])) ∧
    (¬ (parameterName ps.list f.header = "" ∨ Fits (named ps fs (parameterName ps.list f.header)) f) → initStep ps ff f = .throws) := by
  obtain ⟨n, hn⟩ : ∃ n, n = parameterName ps.list f.header := ⟨_, rfl⟩
  unfold initStep
  by_cases h0 : n = ""
  · rw [← hn, if_neg (not_not.2 h0)]
    refine ⟨fun _ => ⟨ff, rfl, ?_⟩, fun hc => absurd (.inl h0) hc⟩
    have hname : ∀ n', n' ≠ "" → named ps (fs ++ [f]) n' = named ps fs n' := by
      intro n' hn'
      rw [named_append, if_neg]
      rw [← hn, h0]
      exact fun e => hn' e.symm
    constructor
    · intro n' a ha
      have := h.names _ (mem_of_find nameLess_total ha)
      obtain ⟨a1, a2, a3, a4⟩ := h.arrays n' a ha
      exact ⟨a1, a2, a3, by rw [hname n' this]; exact a4⟩
    · intro n' hn' ha
      rw [hname n' hn']
      exact h.missing n' hn' ha
    · exact h.sorted
    · exact h.names
    · intro lp
      rw [h.hybrid lp, head?_append]
      rw [if_neg]
      simp [← hn, h0]
  · rw [← hn, if_pos h0]
    have hyb : ∀ lp, mapFind levelLess lp (if f.vcoord = 10 ∧ mapFind levelLess (word f.header 12, level2 f.header) ff.hybrid = none then
        mapPut levelLess (word f.header 12, level2 f.header) f.misc ff.hybrid else ff.hybrid) =
        (((fs ++ [f]).filter fun f => parameterName ps.list f.header ≠ "" ∧ f.vcoord = 10 ∧ (word f.header 12, level2 f.header) = lp).head?).map Field.misc := by
      intro lp
      rw [head?_append]
      have hlp := h.hybrid lp
      by_cases e : (word f.header 12, level2 f.header) = lp
      · subst e
        rw [hlp]
        by_cases hv10 : f.vcoord = 10
        · cases hh : (fs.filter fun g => decide (parameterName ps.list g.header ≠ "" ∧ g.vcoord = 10 ∧
              (word g.header 12, level2 g.header) = (word f.header 12, level2 f.header))).head? with
          | none =>
            have h0' : parameterName ps.list f.header ≠ "" := by rw [← hn]; exact h0
            rw [if_pos ⟨hv10, rfl⟩, mapFind_put_self levelLess_total, if_pos ⟨rfl, by simp [h0', hv10]⟩]
            rfl
          | some g =>
            rw [if_neg (by simp), if_neg (by simp)]
            rw [hlp, hh]
        · rw [if_neg (fun e => hv10 e.1), if_neg (by simp [hv10]), hlp]
      · rw [if_neg (show ¬ (_ ∧ decide _ = true) by simp [e])]
        rw [← hlp]
        split_ifs with hc
        · rw [mapFind_put_ne levelLess_total (fun e' => e e'.symm)]
        · rfl
    have build : ∀ a, a.name = n → a.dtype = ps.dtype n → a.fill = ps.fill n → Holds a (named ps fs n ++ [f]) →
        FileHolds ps ⟨mapPut nameLess n a ff.arrays, if f.vcoord = 10 ∧ mapFind levelLess (word f.header 12, level2 f.header) ff.hybrid = none then
        mapPut levelLess (word f.header 12, level2 f.header) f.misc ff.hybrid else ff.hybrid⟩ (fs ++ [f]) := by
      intro a b1 b2 b3 b4
      constructor
      · intro n' a' ha'
        by_cases e : n' = n
        · subst e
          rw [mapFind_put_self nameLess_total] at ha'
          cases ha'
          exact ⟨b1, b2, b3, by rw [named_append, if_pos hn.symm]; exact b4⟩
        · rw [mapFind_put_ne nameLess_total e] at ha'
          obtain ⟨a1, a2, a3, a4⟩ := h.arrays n' a' ha'
          exact ⟨a1, a2, a3, by rw [named_append, if_neg (by rw [← hn]; exact fun e' => e e'.symm)]; exact a4⟩
      · intro n' hn' ha'
        by_cases e : n' = n
        · subst e
          rw [mapFind_put_self nameLess_total] at ha'
          cases ha'
        · rw [mapFind_put_ne nameLess_total e] at ha'
          rw [named_append, if_neg (by rw [← hn]; exact fun e' => e e'.symm)]
          exact h.missing n' hn' ha'
      · exact sorted_put nameLess_total _ _ h.sorted
      · intro p hp
        rcases mem_put nameLess_total hp with e | e
        · rw [e]; exact h0
        · exact h.names p e
      · exact hyb
    unfold findOrCreate
    simp only [← hn]
    cases hf : mapFind nameLess n ff.arrays with
    | none =>
      have hm := h.missing n h0 hf
      simp only
      refine ⟨fun _ => ⟨_, rfl, build _ rfl rfl rfl ?_⟩, fun hc => absurd (.inr ?_) hc⟩
      · rw [hm]
        exact holds_new _ _ _ _
      · rw [hm]
        exact ⟨by simp, by simp [atKey]⟩
    | some a =>
      obtain ⟨a1, a2, a3, a4⟩ := h.arrays n a hf
      have hadd := holds_add a _ a4 f hv
      simp only
      constructor
      · intro hc
        obtain ⟨m, e1, e2⟩ := hadd.1 (hc.resolve_left h0)
        rw [e1]
        exact ⟨_, rfl, build _ a1 a2 a3 e2⟩
      · intro hc
        rw [hadd.2 (fun hF => hc (.inr hF))]
        rfl

/-- **C114.** Opening the fields of a file gives arrays exactly if the fields of each name are compatible, and an error otherwise. The array
of a name has the last field of each time and level, and hybrid levels are those of the first field. -/
theorem C114_init (ps : Params K) (fs : List (Field K)) (hv : ∀ f ∈ fs, valid f.header = true) :
    ((∀ n, n ≠ "" → Compatible (named ps fs n)) → ∃ ff, init ps fs = .ok ff ∧ FileHolds ps ff fs) ∧
    ((∃ n, n ≠ "" ∧ ¬ Compatible (named ps fs n)) → init ps fs = .throws) := by
  induction fs using List.reverseRecOn with
  | nil =>
    refine ⟨fun _ => ⟨⟨[], []⟩, rfl, ?_⟩, ?_⟩
    · constructor
      · intro n a h; simp [mapFind] at h
      · intro n _ _; rfl
      · simp [Sorted]
      · simp
      · intro lp; rfl
    · rintro ⟨n, -, hn⟩
      exact absurd ⟨by simp [named], by simp [named, atKey]⟩ hn
  | append_singleton fs f ih =>
    have ih := ih fun g hg => hv g (by simp [hg])
    have e : init ps (fs ++ [f]) = (init ps fs).bind fun st => initStep ps st f := by simp [init]
    have hc : (∀ n, n ≠ "" → Compatible (named ps (fs ++ [f]) n)) ↔ (∀ n, n ≠ "" → Compatible (named ps fs n)) ∧
        (parameterName ps.list f.header = "" ∨ Fits (named ps fs (parameterName ps.list f.header)) f) := by
      constructor
      · intro h
        refine ⟨fun n hn => ?_, ?_⟩
        · have := h n hn
          rw [named_append] at this
          split_ifs at this
          · exact ((compatible_append _ _).1 this).1
          · exact this
        · by_cases h0 : parameterName ps.list f.header = ""
          · exact .inl h0
          · have := h _ h0
            rw [named_append, if_pos rfl] at this
            exact .inr ((compatible_append _ _).1 this).2
      · rintro ⟨h1, h2⟩ n hn
        rw [named_append]
        split_ifs with hh
        · subst hh
          exact (compatible_append _ _).2 ⟨h1 _ hn, h2.resolve_left hn⟩
        · exact h1 n hn
    have hcases : (∀ n, n ≠ "" → Compatible (named ps fs n)) ∨ ∃ n, n ≠ "" ∧ ¬ Compatible (named ps fs n) := by
      by_cases h : ∀ n, n ≠ "" → Compatible (named ps fs n)
      · exact .inl h
      · right; push Not at h; exact h
    rw [e]
    constructor
    · intro h
      obtain ⟨h1, h2⟩ := hc.1 h
      obtain ⟨ff, e1, e2⟩ := ih.1 h1
      rw [e1]
      simp only [Res.bind]
      exact (step_ok ps ff fs e2 f (hv f (by simp))).1 h2
    · rintro ⟨n, hn, h⟩
      rcases hcases with h1 | h1
      · obtain ⟨ff, e1, e2⟩ := ih.1 h1
        rw [e1]
        simp only [Res.bind]
        refine (step_ok ps ff fs e2 f (hv f (by simp))).2 fun h2 => h (hc.2 ⟨h1, h2⟩ n hn)
      · rw [ih.2 h1]
        rfl

/-! ## Names -/

/-- An entry has all words that are given for a parameter. -/
def Meets (r : List ℤ) (h : Header) : Prop := ∀ i < 16, r.getD i (-32767) ≠ -32767 → r.getD i (-32767) = word h i

theorem meets_iff (r : List ℤ) (h : Header) : meets r h = true ↔ Meets r h := by
  unfold meets Meets anyValue
  rw [List.all_eq_true]
  refine forall_congr' fun i => ?_
  rw [List.mem_range]
  refine imp_congr_right fun _ => ?_
  rw [Bool.or_eq_true, beq_iff_eq, beq_iff_eq]
  tauto

/-- **C114.** The name of a field is the first one, in the order of names, whose words it has. -/
theorem C114_name (ps : List (String × List ℤ)) (h : Header) (n : String) (hn : n ≠ "") :
    parameterName ps h = n ↔ ∃ pre r post, ps = pre ++ (n, r) :: post ∧ Meets r h ∧ ∀ q ∈ pre, ¬ Meets q.2 h := by
  unfold parameterName
  constructor
  · intro e
    cases hf : ps.find? fun p => meets p.2 h with
    | none =>
      rw [hf] at e
      exact absurd e.symm hn
    | some q =>
      rw [hf] at e
      obtain ⟨h1, pre, post, h2, h3⟩ := List.find?_eq_some_iff_append.1 hf
      refine ⟨pre, q.2, post, ?_, (meets_iff _ _).1 h1, fun q' hq' hm => ?_⟩
      · rw [h2, ← e]; rfl
      · have := h3 q' hq'
        rw [(meets_iff _ _).2 hm] at this
        cases this
  · rintro ⟨pre, r, post, rfl, h1, h2⟩
    have : (pre ++ (n, r) :: post).find? (fun p => meets p.2 h) = some (n, r) := by
      refine List.find?_eq_some_iff_append.2 ⟨(meets_iff _ _).2 h1, pre, post, rfl, fun q hq => ?_⟩
      cases hm : meets q.2 h with
      | false => rfl
      | true => exact absurd ((meets_iff _ _).1 hm) (h2 q hq)
    rw [this]
    rfl

/-- Words that can be given by name. -/
def wordNames : List (String × ℕ) := [("prod", 0), ("grid", 1), ("dtype", 8), ("level", 12), ("idnum", 13), ("param", 11), ("vcoord", 10)]

/-- Text of a restriction. -/
def showRestriction (r : String × ℕ) : List Char := r.1.toList ++ '=' :: Nat.toDigits 10 r.2

/-- Text of a parameter, as in a setup: numbers of the parameter, and at most two more, and restrictions. -/
def showParam (nums : List ℕ) (rs : List (String × ℕ)) : List Char :=
  Text.join (Text.join (nums.map (Nat.toDigits 10)) [','] :: rs.map showRestriction) [':']

/-- Words that are given, in order. -/
def given (nums : List ℕ) (rs : List (String × ℕ)) : List (ℕ × ℤ) :=
  ([11, 10, 12].zip (nums.map fun n => (n : ℤ))) ++ rs.filterMap fun r => (wordNames.lookup r.1).map fun k => (k, (r.2 : ℤ))

theorem pieces_join (ts : List (List Char)) (c : Char) (hne : ts ≠ []) (hts : ∀ t ∈ ts, c ∉ t) : Text.pieces [c].contains (Text.join ts [c]) = ts := by
  have h1 := Text.C26_split_of_join ts c [c] ((Text.join ts [c]).length + 1) (by omega) hne
    (fun t ht x hx hxc => by
      rw [List.mem_singleton] at hxc
      exact hts t ht (hxc ▸ hx)) (by simp)
  have h2 := Text.C26_split_any_is_pieces (Text.join ts [c]) [c] ((Text.join ts [c]).length + 1) (by omega)
  rw [h1] at h2
  simp only [Option.some.injEq, Res.ok.injEq] at h2
  exact h2.symm

theorem digit_of_toDigits {n : ℕ} {c : Char} (h : c ∈ Nat.toDigits 10 n) : c.isDigit = true := Nat.isDigit_of_mem_toDigits (by norm_num) (by norm_num) h

theorem digits_takeWhile (n : ℕ) : (Nat.toDigits 10 n).takeWhile Char.isDigit = Nat.toDigits 10 n := by
  rw [List.takeWhile_eq_self_iff]
  exact fun c hc => digit_of_toDigits hc

theorem digits_dropWhile (n : ℕ) : (Nat.toDigits 10 n).dropWhile Char.isDigit = [] := by
  rw [List.dropWhile_eq_nil_iff]
  exact fun c hc => digit_of_toDigits hc

theorem digit_not_space {c : Char} (h : c.isDigit = true) : c.isWhitespace = false := by
  cases hw : c.isWhitespace with
  | false => rfl
  | true =>
    exfalso
    simp only [Char.isWhitespace, Bool.or_eq_true, decide_eq_true_eq] at hw
    rcases hw with ((h' | h') | h') | h' <;> subst h' <;> revert h <;> decide

theorem digitsNat_eq (n : ℕ) : digitsNat (Nat.toDigits 10 n) = n := by
  unfold digitsNat
  exact Nat.ofDigitChars_ten_toDigits

theorem short_small {n : ℕ} (h : n < 32768) : short (n : ℤ) = n := by
  unfold short
  omega

theorem shortOf_eq {n : ℕ} (h : n < 32768) : shortOf (Nat.toDigits 10 n) = n := by
  unfold shortOf
  have hd : (Nat.toDigits 10 n).dropWhile Char.isWhitespace = Nat.toDigits 10 n := by
    cases hl : Nat.toDigits 10 n with
    | nil => rfl
    | cons c l =>
      have : c.isDigit = true := digit_of_toDigits (n := n) (by rw [hl]; simp)
      rw [List.dropWhile_cons_of_neg]
      simp [digit_not_space this]
  rw [hd, digits_takeWhile, digitsNat_eq, short_small h]

theorem restriction_eq (r : String × ℕ) (hr : r.1 ∈ wordNames.map Prod.fst) (h : r.2 < 32768) :
    restriction (showRestriction r) = some (r.1.toList, (r.2 : ℤ)) := by
  obtain ⟨name, n⟩ := r
  have key : ∀ w : List Char, w ≠ [] → (w.all fun c => (c.isAlphanum || c == '_') && !c.isWhitespace) = true →
      restriction (w ++ '=' :: Nat.toDigits 10 n) = some (w, (n : ℤ)) := by
    intro w hw hall
    rw [List.all_eq_true] at hall
    have h1 : (w ++ '=' :: Nat.toDigits 10 n).dropWhile Char.isWhitespace = w ++ '=' :: Nat.toDigits 10 n := by
      cases w with
      | nil => exact absurd rfl hw
      | cons c w =>
        have := hall c (by simp)
        rw [Bool.and_eq_true, Bool.not_eq_true'] at this
        rw [List.cons_append, List.dropWhile_cons_of_neg]
        simp [this.2]
    have h2 : ∀ c ∈ w, (fun c : Char => c.isAlphanum || c == '_') c = true := fun c hc => (Bool.and_eq_true_iff.1 (hall c hc)).1
    have h3 : (w ++ '=' :: Nat.toDigits 10 n).takeWhile (fun c => c.isAlphanum || c == '_') = w := by
      rw [List.takeWhile_append_of_pos h2, List.takeWhile_cons_of_neg (by decide), List.append_nil]
    have h4 : (w ++ '=' :: Nat.toDigits 10 n).dropWhile (fun c => c.isAlphanum || c == '_') = '=' :: Nat.toDigits 10 n := by
      rw [List.dropWhile_append_of_pos h2, List.dropWhile_cons_of_neg (by decide)]
    unfold restriction
    simp only [h1, h3, h4]
    rw [digits_takeWhile, digits_dropWhile, digitsNat_eq, short_small h, if_pos ⟨Nat.toDigits_ne_nil, rfl⟩]
  refine key _ ?_ ?_
  · intro e
    revert hr e
    simp only [wordNames, List.map_cons, List.map_nil, List.mem_cons, List.not_mem_nil, or_false]
    rintro (rfl | rfl | rfl | rfl | rfl | rfl | rfl) <;> decide
  · revert hr
    simp only [wordNames, List.map_cons, List.map_nil, List.mem_cons, List.not_mem_nil, or_false]
    rintro (rfl | rfl | rfl | rfl | rfl | rfl | rfl) <;> decide

theorem restrictedWord_eq (name : String) (hr : name ∈ wordNames.map Prod.fst) : restrictedWord name.toList = wordNames.lookup name := by
  revert hr
  simp only [wordNames, List.map_cons, List.map_nil, List.mem_cons, List.not_mem_nil, or_false]
  rintro (rfl | rfl | rfl | rfl | rfl | rfl | rfl) <;> decide

theorem fold_set (ws : List (ℕ × ℤ)) (l : List ℤ) (d : ℤ) (k : ℕ) (hk : k < l.length) (hws : ∀ w ∈ ws, w.1 < l.length) :
    (ws.foldl (fun l w => l.set w.1 w.2) l).getD k d = ((ws.filter fun w => w.1 = k).getLast?.map Prod.snd).getD (l.getD k d) := by
  induction ws using List.reverseRecOn with
  | nil => rfl
  | append_singleton ws w ih =>
    have ih := ih fun w' hw' => hws w' (by simp [hw'])
    have hlen : ∀ (ws : List (ℕ × ℤ)) (l : List ℤ), (ws.foldl (fun l w => l.set w.1 w.2) l).length = l.length := by
      intro ws
      induction ws with
      | nil => intro l; rfl
      | cons w ws ih => intro l; rw [List.foldl_cons, ih, List.length_set]
    rw [List.foldl_append, List.filter_append]
    simp only [List.foldl_cons, List.foldl_nil]
    by_cases e : w.1 = k
    · subst e
      rw [List.getD_eq_getElem?_getD, List.getElem?_set_self (by rw [hlen]; exact hk)]
      simp
    · rw [List.getD_eq_getElem?_getD, List.getElem?_set_ne e, ← List.getD_eq_getElem?_getD, ih]
      simp [e]

/-- **C114.** Restrictions survive as text: numbers before the first colon are parameter, kind of levels and level, each restriction sets its
word, the last one counts, and all other words are free. -/
theorem C114_restrictions (nums : List ℕ) (rs : List (String × ℕ)) (hn : nums ≠ []) (hn' : ∀ n ∈ nums, n < 32768)
    (hr : ∀ r ∈ rs, r.1 ∈ wordNames.map Prod.fst ∧ r.2 < 32768) (k : ℕ) (hk : k < 16) :
    (diana (showParam nums rs)).getD k (-32767) = (((given nums rs).filter fun w => w.1 = k).getLast?.map Prod.snd).getD (-32767) := by
  have hclean : ∀ n : ℕ, ∀ c ∈ Nat.toDigits 10 n, c ≠ ',' ∧ c ≠ ':' := by
    intro n c hc
    have := digit_of_toDigits hc
    constructor <;> rintro rfl <;> revert this <;> decide
  have hjoin : ∀ ts : List (List Char), (∀ t ∈ ts, ':' ∉ t) → ':' ∉ Text.join ts [','] := by
    intro ts hts hmem
    cases ts with
    | nil => simp [Text.join] at hmem
    | cons t ts =>
      simp only [Text.join, Text.joinLoop_eq, List.nil_append, List.mem_append, List.mem_flatten, List.mem_map] at hmem
      rcases hmem with h | ⟨l, ⟨t', ht', rfl⟩, h⟩
      · exact hts t (by simp) h
      · rcases List.mem_append.1 h with h | h
        · simp at h
        · exact hts t' (by simp [ht']) h
  have h1 : Text.pieces [':'].contains (showParam nums rs) = Text.join (nums.map (Nat.toDigits 10)) [','] :: rs.map showRestriction := by
    refine pieces_join _ _ (by simp) fun t ht => ?_
    rcases List.mem_cons.1 ht with rfl | ht
    · refine hjoin _ fun t ht => ?_
      obtain ⟨n, -, rfl⟩ := List.mem_map.1 ht
      exact fun hc => (hclean n _ hc).2 rfl
    · obtain ⟨r, hr', rfl⟩ := List.mem_map.1 ht
      intro hc
      rcases List.mem_append.1 hc with h | h
      · have := (hr r hr').1
        revert this h
        simp only [wordNames, List.map_cons, List.map_nil, List.mem_cons, List.not_mem_nil, or_false]
        rintro h (e | e | e | e | e | e | e) <;> rw [e] at h <;> revert h <;> decide
      · rcases List.mem_cons.1 h with h | h
        · revert h; decide
        · exact (hclean _ _ h).2 rfl
  have h2 : Text.pieces [','].contains (Text.join (nums.map (Nat.toDigits 10)) [',']) = nums.map (Nat.toDigits 10) := by
    refine pieces_join _ _ (by simpa using hn) fun t ht => ?_
    obtain ⟨n, -, rfl⟩ := List.mem_map.1 ht
    exact fun hc => (hclean n _ hc).1 rfl
  have h3 : firstToken (List.replicate 16 anyValue) (nums.map (Nat.toDigits 10)) =
      ([11, 10, 12].zip (nums.map fun n => (n : ℤ))).foldl (fun l w => l.set w.1 w.2) (List.replicate 16 anyValue) := by
    match nums, hn' with
    | [], _ => rfl
    | [a], hn' => simp [firstToken, shortOf_eq (hn' a (by simp))]
    | [a, b], hn' => simp [firstToken, shortOf_eq (hn' a (by simp)), shortOf_eq (hn' b (by simp))]
    | a :: b :: c :: r, hn' => simp [firstToken, shortOf_eq (hn' a (by simp)), shortOf_eq (hn' b (by simp)), shortOf_eq (hn' c (by simp))]
  have h4 : ∀ (rs : List (String × ℕ)) (l : List ℤ), (∀ r ∈ rs, r.1 ∈ wordNames.map Prod.fst ∧ r.2 < 32768) → (rs.map showRestriction).foldl restrict l =
      (rs.filterMap fun r => (wordNames.lookup r.1).map fun k => (k, (r.2 : ℤ))).foldl (fun l w => l.set w.1 w.2) l := by
    intro rs
    induction rs with
    | nil => intro l _; rfl
    | cons r rs ih =>
      intro l h
      have hr := h r (by simp)
      rw [List.map_cons, List.foldl_cons, ih _ fun r' hr' => h r' (by simp [hr'])]
      unfold restrict
      rw [restriction_eq r hr.1 hr.2]
      simp only [restrictedWord_eq r.1 hr.1]
      cases hlk : wordNames.lookup r.1 with
      | none => simp [hlk]
      | some k => simp [hlk]
  have h5 : diana (showParam nums rs) = (given nums rs).foldl (fun l w => l.set w.1 w.2) (List.replicate 16 anyValue) := by
    unfold diana given
    rw [h1]
    simp only [List.headD_cons, List.tail_cons]
    rw [h2, h3, h4 rs _ hr, List.foldl_append]
  rw [h5, fold_set _ _ _ _ (by simpa using hk)]
  · congr 1
    rw [List.getD_eq_getElem?_getD, List.getElem?_replicate]
    split_ifs
    rfl
  · intro w hw
    rw [List.length_replicate]
    rcases List.mem_append.1 hw with h | h
    · have h6 := (List.of_mem_zip h).1
      simp only [List.mem_cons, List.not_mem_nil, or_false] at h6
      omega
    · obtain ⟨r, hr', e⟩ := List.mem_filterMap.1 h
      have hr1 := (hr r hr').1
      cases hlk : wordNames.lookup r.1 with
      | none => rw [hlk] at e; cases e
      | some k' =>
        rw [hlk] at e
        simp only [Option.map_some, Option.some.injEq] at e
        subst e
        revert hr1 hlk
        simp only [wordNames, List.map_cons, List.map_nil, List.mem_cons, List.not_mem_nil, or_false]
        rintro (e | e | e | e | e | e | e) <;> rw [e] <;> intro h <;> revert h <;> simp [List.lookup] <;> omega

/-! ## Queries -/

theorem entry_iff (a : Arr K) (gs : List (Field K)) (h : Holds a gs) (t : ℤ) (l : ℤ × ℤ) (f : Field K) :
    (∃ s, (t, s) ∈ a.fields ∧ (l, f) ∈ s) ↔ (atKey gs t l).getLast? = some f := by
  rw [← h.look t l]
  constructor
  · rintro ⟨s, h1, h2⟩
    unfold look
    rw [find_of_mem timeLess_total h.sorted h1, Option.bind_some]
    exact find_of_mem levelLess_total (h.slices _ h1).1 h2
  · intro e
    unfold look at e
    obtain ⟨s, h1, h2⟩ := Option.bind_eq_some_iff.1 e
    exact ⟨s, mem_of_find timeLess_total h1, mem_of_find levelLess_total h2⟩

theorem last_mem {gs : List (Field K)} {t : ℤ} {l : ℤ × ℤ} {f : Field K} (h : (atKey gs t l).getLast? = some f) : f ∈ gs ∧ f.time = t ∧ f.level = l := by
  have := List.mem_of_getLast? h
  simpa [atKey] using this

theorem last_of_mem {gs : List (Field K)} {g : Field K} (h : g ∈ gs) : ∃ f, (atKey gs g.time g.level).getLast? = some f := by
  have : atKey gs g.time g.level ≠ [] := List.ne_nil_of_mem (a := g) (by simp [atKey, h])
  exact ⟨_, List.getLast?_eq_some_getLast this⟩

theorem time_iff (a : Arr K) (gs : List (Field K)) (h : Holds a gs) (t : ℤ) : t ∈ a.fields.map Prod.fst ↔ ∃ f ∈ gs, f.time = t := by
  constructor
  · intro hm
    obtain ⟨⟨t', s⟩, hs, rfl⟩ := List.mem_map.1 hm
    cases hs2 : s with
    | nil => exact absurd hs2 (h.slices _ hs).2
    | cons p r =>
      obtain ⟨l, f⟩ := p
      have := last_mem ((entry_iff a gs h t' l f).1 ⟨s, hs, by simp [hs2]⟩)
      exact ⟨f, this.1, this.2.1⟩
  · rintro ⟨g, hg, rfl⟩
    obtain ⟨f, hf⟩ := last_of_mem hg
    obtain ⟨s, hs, -⟩ := (entry_iff a gs h _ _ _).2 hf
    exact List.mem_map.2 ⟨_, hs, rfl⟩

/-- **C114.** An array has no time exactly if all its fields have one time and the first one is a parameter field. -/
theorem C114_has_time (a : Arr K) (gs : List (Field K)) (h : Holds a gs) :
    a.hasTime = false ↔ (∀ f ∈ gs, f.time = a.first.time) ∧ a.first.kind = 4 := by
  have hfirst : a.first ∈ gs := List.mem_of_head? h.first
  unfold Arr.hasTime
  rw [Bool.not_eq_false', Bool.and_eq_true, beq_iff_eq, beq_iff_eq]
  refine and_congr_left fun _ => ?_
  constructor
  · intro hl f hf
    obtain ⟨p, hp⟩ := List.length_eq_one_iff.1 hl
    have h1 := (time_iff a gs h f.time).2 ⟨f, hf, rfl⟩
    have h2 := (time_iff a gs h a.first.time).2 ⟨_, hfirst, rfl⟩
    rw [hp] at h1 h2
    simp only [List.map_cons, List.map_nil, List.mem_singleton] at h1 h2
    rw [h1, h2]
  · intro hall
    have h2 := (time_iff a gs h a.first.time).2 ⟨_, hfirst, rfl⟩
    match hm : a.fields with
    | [] => rw [hm] at h2; simp at h2
    | [_] => rfl
    | p :: q :: r =>
      have hs := h.sorted
      rw [hm] at hs
      have hlt := (List.pairwise_cons.1 hs).1 q (by simp)
      obtain ⟨f, hf, e1⟩ := (time_iff a gs h p.1).1 (by rw [hm]; simp)
      obtain ⟨g, hg, e2⟩ := (time_iff a gs h q.1).1 (by rw [hm]; simp)
      rw [hall f hf] at e1
      rw [hall g hg] at e2
      simp only [timeLess, decide_eq_true_eq] at hlt
      omega

/-- **C114.** Times of an array are those of its fields, each once, growing. -/
theorem C114_times (a : Arr K) (gs : List (Field K)) (h : Holds a gs) (ht : a.hasTime = true) :
    a.times.Pairwise (· < ·) ∧ ∀ t, t ∈ a.times ↔ ∃ f ∈ gs, f.time = t := by
  unfold Arr.times
  rw [if_pos ht]
  refine ⟨List.pairwise_map.2 (h.sorted.imp fun hab => ?_), time_iff a gs h⟩
  simpa [timeLess] using hab

theorem flat_iff {X : Type} (a : Arr K) (gs : List (Field K)) (h : Holds a gs) (F : (ℤ × ℤ) → X) (x : X) :
    x ∈ (a.fields.flatMap fun s => s.2.map fun l => F l.1) ↔ ∃ f ∈ gs, F f.level = x := by
  constructor
  · intro hm
    obtain ⟨⟨t, s⟩, hs, hm⟩ := List.mem_flatMap.1 hm
    obtain ⟨⟨l, f⟩, hl, rfl⟩ := List.mem_map.1 hm
    have := last_mem ((entry_iff a gs h t l f).1 ⟨s, hs, hl⟩)
    exact ⟨f, this.1, by rw [this.2.2]⟩
  · rintro ⟨g, hg, rfl⟩
    obtain ⟨f, hf⟩ := last_of_mem hg
    obtain ⟨s, hs, hl⟩ := (entry_iff a gs h _ _ _).2 hf
    exact List.mem_flatMap.2 ⟨_, hs, List.mem_map.2 ⟨_, hl, rfl⟩⟩

/-- **C114.** Levels of an array are those of its fields, each once, growing: pairs of both levels, or of level and 0 if the array is one of an
ensemble, whose members are the second level. -/
theorem C114_levels (a : Arr K) (gs : List (Field K)) (h : Holds a gs) (hu : ∀ f ∈ gs, isEps f.header = isEps a.first.header) :
    a.levels.Pairwise (fun p q => p.1 < q.1 ∨ p.1 = q.1 ∧ p.2 < q.2) ∧
    (∀ p, p ∈ a.levels ↔ ∃ f ∈ gs, p = (word f.header 12, if isEps a.first.header then 0 else word f.header 13)) ∧
    a.members.Pairwise (· < ·) ∧ ∀ m, m ∈ a.members ↔ isEps a.first.header = true ∧ ∃ f ∈ gs, m = word f.header 13 := by
  have hord : ∀ p q, levelLess p q = true → p.1 < q.1 ∨ p.1 = q.1 ∧ p.2 < q.2 := by
    rintro ⟨a, b⟩ ⟨c, d⟩ hh
    simp only [levelLess] at hh ⊢
    split_ifs at hh with e
    · right; exact ⟨e, by simpa using hh⟩
    · left; simpa using hh
  refine ⟨(setOf_spec levelLess_total _).1.imp fun hab => hord _ _ hab, fun p => ?_, ?_, fun m => ?_⟩
  · unfold Arr.levels
    rw [(setOf_spec levelLess_total _).2 p, flat_iff a gs h fun l => if isEps a.first.header then (l.1, 0) else l]
    refine exists_congr fun f => and_congr_right fun hf => ?_
    have := hu f hf
    unfold Field.level level2
    rw [this]
    cases isEps a.first.header <;> simp [eq_comm]
  · unfold Arr.members
    split_ifs
    · exact (setOf_spec timeLess_total _).1.imp fun hab => by simpa [timeLess] using hab
    · exact List.Pairwise.nil
  · unfold Arr.members
    cases he : isEps a.first.header with
    | false => simp
    | true =>
      simp only [if_true, true_and]
      rw [(setOf_spec timeLess_total _).2 m, flat_iff a gs h fun l => l.2]
      refine exists_congr fun f => and_congr_right fun hf => ?_
      have := hu f hf
      unfold Field.level dataVersion
      rw [this, he]
      simp [eq_comm]

/-- **C114.** A field is found by its time and level; of several ones the last. Fields without time are found for any time. -/
theorem C114_field (a : Arr K) (gs : List (Field K)) (h : Holds a gs) (t : ℤ) (l : ℤ × ℤ) :
    a.field t l = (atKey gs (if a.hasTime then t else a.first.time) l).getLast? := by
  unfold Arr.field
  cases ht : a.hasTime with
  | true => exact h.look t l
  | false =>
    simp only [Bool.false_eq_true, if_false]
    rw [← h.look]
    unfold look
    congr 1
    unfold Arr.hasTime at ht
    rw [Bool.not_eq_false', Bool.and_eq_true, beq_iff_eq] at ht
    obtain ⟨p, hp⟩ := List.length_eq_one_iff.1 ht.1
    have h2 := (time_iff a gs h a.first.time).2 ⟨_, List.mem_of_head? h.first, rfl⟩
    rw [hp] at h2 ⊢
    simp only [List.map_cons, List.map_nil, List.mem_singleton] at h2
    rw [h2]
    exact (mapFind_cons_self timeLess_total p.1 p.2 []).symm

theorem dedup_single {X : Type} [DecidableEq X] (l : List X) (t : X) : l.dedup = [t] ↔ t ∈ l ∧ ∀ x ∈ l, x = t := by
  constructor
  · intro e
    refine ⟨List.mem_dedup.1 (by rw [e]; simp), fun x hx => ?_⟩
    have := List.mem_dedup.2 hx
    rw [e] at this
    simpa using this
  · rintro ⟨h1, h2⟩
    have hm := List.mem_dedup.2 h1
    have hnd := List.nodup_dedup l
    match hd : l.dedup with
    | [] => rw [hd] at hm; simp at hm
    | [x] =>
      rw [h2 x (List.mem_dedup.1 (by rw [hd]; simp))]
    | x :: y :: r =>
      rw [hd] at hnd
      have e1 := h2 x (List.mem_dedup.1 (by rw [hd]; simp))
      have e2 := h2 y (List.mem_dedup.1 (by rw [hd]; simp))
      simp [e1, e2] at hnd

theorem array_mem (ps : Params K) (ff : FeltFile K) (fs : List (Field K)) (h : FileHolds ps ff fs) (p : String × Arr K) (hp : p ∈ ff.arrays) :
    p.1 ≠ "" ∧ mapFind nameLess p.1 ff.arrays = some p.2 ∧ Holds p.2 (named ps fs p.1) :=
  ⟨h.names p hp, find_of_mem nameLess_total h.sorted hp, (h.arrays p.1 p.2 (find_of_mem nameLess_total h.sorted hp)).2.2.2⟩

/-- Fields that are in an array: the last ones of their name, time and level. -/
def kept (ps : Params K) (fs : List (Field K)) (f : Field K) : Prop :=
  parameterName ps.list f.header ≠ "" ∧ (atKey (named ps fs (parameterName ps.list f.header)) f.time f.level).getLast? = some f

theorem kept_iff (ps : Params K) (ff : FeltFile K) (fs : List (Field K)) (h : FileHolds ps ff fs) (f : Field K) :
    (∃ p ∈ ff.arrays, ∃ s ∈ p.2.fields, ∃ l ∈ s.2, l.2 = f) ↔ kept ps fs f := by
  constructor
  · rintro ⟨p, hp, ⟨t, s⟩, hs, ⟨l, f'⟩, hl, rfl⟩
    obtain ⟨h1, -, h3⟩ := array_mem ps ff fs h p hp
    have hlast := (entry_iff _ _ h3 t l f').1 ⟨s, hs, hl⟩
    obtain ⟨e1, e2, e3⟩ := last_mem hlast
    have e4 : parameterName ps.list f'.header = p.1 := by simpa [named] using (List.mem_filter.1 e1).2
    refine ⟨by rw [e4]; exact h1, ?_⟩
    rw [e4, e2, e3]
    exact hlast
  · rintro ⟨h1, h2⟩
    cases hf : mapFind nameLess (parameterName ps.list f.header) ff.arrays with
    | none =>
      rw [h.missing _ h1 hf] at h2
      simp [atKey] at h2
    | some a =>
      have h3 := (h.arrays _ a hf).2.2.2
      obtain ⟨s, e1, e2⟩ := (entry_iff a _ h3 _ _ _).2 h2
      exact ⟨_, mem_of_find nameLess_total hf, _, e1, _, e2, rfl⟩

/-- **C114.** The reference time of a file is the one of all fields of its arrays; there is an error if there is none or more than one. -/
theorem C114_reference (ps : Params K) (ff : FeltFile K) (fs : List (Field K)) (h : FileHolds ps ff fs) (t : FTime) :
    (ff.reference = .ok t ↔ (∃ f, kept ps fs f) ∧ ∀ f, kept ps fs f → referenceTime f.header = t) ∧
    (ff.reference = .throws ↔ ¬ ∃ t, (∃ f, kept ps fs f) ∧ ∀ f, kept ps fs f → referenceTime f.header = t) := by
  have hmem : ∀ x, x ∈ (ff.arrays.flatMap fun a => a.2.references) ↔ ∃ f, kept ps fs f ∧ referenceTime f.header = x := by
    intro x
    simp only [Arr.references, List.mem_flatMap, List.mem_map]
    constructor
    · rintro ⟨p, hp, s, hs, l, hl, e⟩
      exact ⟨l.2, (kept_iff ps ff fs h l.2).1 ⟨p, hp, s, hs, l, hl, rfl⟩, e⟩
    · rintro ⟨f, hf, e⟩
      obtain ⟨p, hp, s, hs, l, hl, rfl⟩ := (kept_iff ps ff fs h f).2 hf
      exact ⟨p, hp, s, hs, l, hl, e⟩
  have hok : ∀ t, ff.reference = .ok t ↔ (∃ f, kept ps fs f) ∧ ∀ f, kept ps fs f → referenceTime f.header = t := by
    intro t
    have h1 : ff.reference = .ok t ↔ (ff.arrays.flatMap fun a => a.2.references).dedup = [t] := by
      unfold FeltFile.reference
      split
      · rename_i u hu
        rw [hu]
        simp
      · rename_i hu
        constructor
        · intro e; cases e
        · intro e; exact absurd e (hu t)
    rw [h1, dedup_single]
    constructor
    · rintro ⟨h2, h3⟩
      obtain ⟨f, hf, -⟩ := (hmem t).1 h2
      exact ⟨⟨f, hf⟩, fun g hg => h3 _ ((hmem _).2 ⟨g, hg, rfl⟩)⟩
    · rintro ⟨⟨f, hf⟩, h3⟩
      refine ⟨(hmem t).2 ⟨f, hf, h3 f hf⟩, fun x hx => ?_⟩
      obtain ⟨g, hg, rfl⟩ := (hmem x).1 hx
      exact h3 g hg
  refine ⟨hok t, ?_⟩
  constructor
  · rintro e ⟨t, ht⟩
    rw [(hok t).2 ht] at e
    cases e
  · intro hne
    unfold FeltFile.reference at *
    split
    · rename_i u hu
      exact absurd ⟨u, (hok u).1 (by rw [hu])⟩ hne
    · rfl

/-- **C114.** Times of a file are those of the arrays with time; levels of a kind those of the arrays of that kind; each once, growing. -/
theorem C114_axes (ps : Params K) (ff : FeltFile K) (fs : List (Field K)) (h : FileHolds ps ff fs) :
    ff.times.Pairwise (· < ·) ∧
    (∀ t, t ∈ ff.times ↔ ∃ n a, mapFind nameLess n ff.arrays = some a ∧ a.hasTime = true ∧ ∃ f ∈ named ps fs n, f.time = t) ∧
    ∀ k, (ff.levels k).Pairwise (fun p q => levelLess p q = true) ∧
      ∀ p, p ∈ ff.levels k ↔ ∃ n a, mapFind nameLess n ff.arrays = some a ∧ a.first.vcoord = k ∧ p ∈ a.levels := by
  refine ⟨(setOf_spec timeLess_total _).1.imp fun hab => by simpa [timeLess] using hab, fun t => ?_, fun k => ⟨(setOf_spec levelLess_total _).1, fun p => ?_⟩⟩
  · unfold FeltFile.times
    rw [(setOf_spec timeLess_total _).2 t, List.mem_flatMap]
    constructor
    · rintro ⟨p, hp, ht⟩
      obtain ⟨-, h2, h3⟩ := array_mem ps ff fs h p hp
      cases hh : p.2.hasTime with
      | false =>
        unfold Arr.times at ht
        rw [hh] at ht
        simp at ht
      | true => exact ⟨p.1, p.2, h2, hh, ((C114_times _ _ h3 hh).2 t).1 ht⟩
    · rintro ⟨n, a, h1, h2, h3⟩
      exact ⟨(n, a), mem_of_find nameLess_total h1, ((C114_times _ _ (h.arrays n a h1).2.2.2 h2).2 t).2 h3⟩
  · unfold FeltFile.levels
    rw [(setOf_spec levelLess_total _).2 p, List.mem_flatMap]
    constructor
    · rintro ⟨q, hq, hp⟩
      obtain ⟨hq1, hq2⟩ := List.mem_filter.1 hq
      exact ⟨q.1, q.2, find_of_mem nameLess_total h.sorted hq1, by simpa using hq2, hp⟩
    · rintro ⟨n, a, h1, h2, h3⟩
      exact ⟨(n, a), List.mem_filter.2 ⟨mem_of_find nameLess_total h1, by simpa using h2⟩, h3⟩

/-! ## Values -/

section
variable [_root_.Field K] [LinearOrder K] [IsStrictOrderedRing K] [Inhabited K]

theorem sameGeometry_iff (delta new old : List K) : sameGeometry delta new old = true ↔
    ∀ i < 6, new.getD i default = old.getD i default ∨ |new.getD i default - old.getD i default| ≤ delta.getD i default := by
  unfold sameGeometry
  rw [List.all_eq_true]
  refine forall_congr' fun i => ?_
  rw [List.mem_range]
  refine imp_congr_right fun _ => ?_
  rw [Bool.not_eq_true', Bool.and_eq_false_iff, decide_eq_false_iff_not, decide_eq_false_iff_not, not_not, not_lt]
  rfl

/-- **C114.** What is read for a time and level: nothing if there is no such field; an error if type or parameters of its grid are not those of the
first field, if its scale factor is another one and the array has short values, or if the type of the array is unknown; and all values
otherwise. -/
theorem C114_slice (a : Arr K) (delta : List K) (t : ℤ) (l : ℤ × ℤ) :
    (a.scaledSlice delta t l = .noField ↔ a.field t l = none) ∧
    ∀ f, a.field t l = some f →
      ((∃ vs, a.scaledSlice delta t l = .ok vs) ↔ a.first.gridType = f.gridType ∧
        (∀ i < 6, f.geometry.getD i default = a.first.geometry.getD i default ∨
          |f.geometry.getD i default - a.first.geometry.getD i default| ≤ delta.getD i default) ∧
        (a.dtype = "short" ∧ f.scale = a.first.scale ∨ a.dtype = "float" ∨ a.dtype = "double")) := by
  constructor
  · unfold Arr.scaledSlice Arr.grid
    cases hf : a.field t l with
    | none => simp
    | some f =>
      simp only [reduceCtorEq, iff_false]
      split_ifs
      · simp
      · simp
      · by_cases h : f.scale = a.first.scale <;> simp [h]
      · simp
      · simp
  · intro f hf
    rw [← sameGeometry_iff]
    unfold Arr.scaledSlice Arr.grid
    rw [hf]
    simp only
    by_cases h1 : a.first.gridType = f.gridType
    · rw [if_neg (not_not.2 h1)]
      cases h2 : sameGeometry delta f.geometry a.first.geometry with
      | false => simp
      | true =>
        simp only [Bool.not_true, Bool.false_eq_true, if_false]
        by_cases h3 : a.dtype = "short"
        · simp only [h3, if_true]
          by_cases h4 : f.scale = a.first.scale
          · simp [h4, h1]
          · simp [h4, h1]
        · by_cases h4 : a.dtype = "float" ∨ a.dtype = "double"
          · simp [h3, h4, h1]
          · simp [h3, h4]
    · simp [h1]

/-- **C114.** Values that are read: as many as in the field, in order; missing ones are the fill value, and all others, times the scale factor
of the array, are the number of the file times the power of ten of its field. -/
theorem C114_values (a : Arr K) (delta : List K) (t : ℤ) (l : ℤ × ℤ) (f : Field K) (hf : a.field t l = some f) (vs : List K)
    (h : a.scaledSlice delta t l = .ok vs) : vs.length = f.values.length ∧ ∀ (i : ℕ) (raw : ℤ) (v : K), f.values[i]? = some raw → vs[i]? = some v →
      (raw = -32767 → v = a.fill) ∧ (raw ≠ -32767 → v * a.scalingFactor = (raw : K) * 10 ^ f.scale) := by
  have key : ∀ factor : K, factor * a.scalingFactor = 10 ^ f.scale → vs = f.values.map (scaled a.fill factor) →
      vs.length = f.values.length ∧ ∀ (i : ℕ) (raw : ℤ) (v : K), f.values[i]? = some raw → vs[i]? = some v →
      (raw = -32767 → v = a.fill) ∧ (raw ≠ -32767 → v * a.scalingFactor = (raw : K) * 10 ^ f.scale) := by
    intro factor hfac e
    subst e
    refine ⟨by simp, fun i raw v h1 h2 => ?_⟩
    rw [List.getElem?_map, h1] at h2
    simp only [Option.map_some, Option.some.injEq] at h2
    subst h2
    unfold scaled anyValue
    refine ⟨fun e => by rw [if_pos e], fun e => ?_⟩
    rw [if_neg e, mul_assoc, hfac]
  unfold Arr.scaledSlice Arr.grid at h
  rw [hf] at h
  simp only at h
  split at h
  · cases h
  · cases h
  · rename_i values s hg
    have hvs : values = f.values ∧ s = f.scale := by
      split_ifs at hg
      simp only [Got.ok.injEq, Prod.mk.injEq] at hg
      exact ⟨hg.1.symm, hg.2.symm⟩
    obtain ⟨rfl, rfl⟩ := hvs
    by_cases h3 : a.dtype = "short"
    · rw [if_pos h3] at h
      by_cases h4 : f.scale = a.first.scale
      · rw [if_neg (not_not.2 h4)] at h
        refine key 1 ?_ (by injection h with h; exact h.symm)
        unfold Arr.scalingFactor
        rw [if_pos h3, one_mul, h4]
      · rw [if_pos h4] at h
        cases h
    · rw [if_neg h3] at h
      by_cases h4 : a.dtype = "float" ∨ a.dtype = "double"
      · rw [if_pos h4] at h
        refine key (10 ^ f.scale) ?_ (by injection h with h; exact h.symm)
        unfold Arr.scalingFactor
        rw [if_neg h3, mul_one]
      · rw [if_neg h4] at h
        cases h

end

/-! ## Cases -/

/-- Temperature on levels of 2 m, with any other words. -/
def toyParams : Params ℚ := ⟨[("t2m", diana "17,2,1000:prod=88".toList)], fun _ => "short", fun _ => -32767⟩

/-- Field with hours, type, parameter and second level. -/
def toyField (hours kind param l2 v : ℤ) : Field ℚ :=
  ⟨[88, 1841, 2011, 228, 1800, 4, 6, 24, kind, hours, 2, param, 1000, l2, 1, 0], List.replicate 19 0 ++ [-1], [v, -32767], [1, 2, 3, 4, 5, 6]⟩

/-- Restrictions of the case, and of two names for one word. -/
theorem C114_toy_params : toyParams.list = [("t2m", [88, -32767, -32767, -32767, -32767, -32767, -32767, -32767, -32767, -32767, 2, 17, 1000, -32767, -32767, -32767])] ∧
    diana "11,10:level=500:level=850".toList =
      [-32767, -32767, -32767, -32767, -32767, -32767, -32767, -32767, -32767, -32767, 10, 11, 850, -32767, -32767, -32767] := by
  decide +kernel

/-- What an array has: times, levels and values of a level at all times. -/
structure Summary where
  times : List ℤ
  levels : List (ℤ × ℤ)
  members : List ℤ
  values : List (Got (List ℚ))
deriving DecidableEq

/-- What the arrays of a file have. -/
def summary (r : Res (FeltFile ℚ)) : Res (List Summary) :=
  r.bind fun ff => .ok (ff.arrays.map fun a => ⟨a.2.times, a.2.levels, a.2.members, a.2.times.map fun t => a.2.scaledSlice [] t (1000, 0)⟩)

/-- Fields of two times, in any order of the file. -/
theorem C114_toy : summary (init toyParams [toyField 9 3 17 0 20, toyField 3 3 17 0 10, toyField 3 3 18 0 77]) =
    .ok [⟨[1298926800, 1298948400], [(1000, 0)], [], [.ok [10, -32767], .ok [20, -32767]]⟩] := by
  decide +kernel

/-- Two fields of one time, level and type are an error. -/
theorem C114_toy_twice : summary (init toyParams [toyField 3 3 17 0 20, toyField 3 3 17 0 10]) = .throws := by
  decide +kernel

/-- **C114, fails.** Two fields of one time, level and type are no error if there is one of another type between them. The first one is lost. -/
theorem C114_twice_accepted : summary (init toyParams [toyField 3 3 17 0 20, toyField 3 2 17 0 15, toyField 3 3 17 0 10]) =
    .ok [⟨[1298926800], [(1000, 0)], [], [.ok [10, -32767]]⟩] := by
  decide +kernel

/-- **C114, fails.** An array whose name does not restrict the parameter takes fields of an ensemble as further levels. -/
theorem C114_mixed : summary (init { toyParams with list := [("t", List.replicate 16 (-32767))] } [toyField 3 3 17 0 20, toyField 3 3 2017 4 10]) =
    .ok [⟨[1298926800], [(1000, 0), (1000, 4)], [], [.ok [20, -32767]]⟩] := by
  decide +kernel

end Fimex.Felt
