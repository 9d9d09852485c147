import Verif.Grib.Index
import Verif.Text.Props
import Verif.Scale.Lemmas
import Mathlib.Data.List.Nodup
import Mathlib.Tactic.Ring

/-! # C74: GRIB messages are indexed by time, level and member -/

namespace Fimex.Grib

open Fimex.Text Fimex.Pb

variable {G : Type}

/-! ## Specification -/

/-- The last element with a property. -/
def lastOf {α : Type} (p : α → Bool) (l : List α) : Option α := l.reverse.find? p

/-- The member of a message: its number within an ensemble, else 0. -/
def member (m : Msg G) : Nat := if m.total > 1 then m.pert else 0

/-- The messages of a variable, time, level and member. -/
def isAt (n : String) (t : Nat) (l : Int) (e : Nat) (m : Msg G) : Bool :=
  decide (m.name = n ∧ m.time = some t ∧ m.level = l ∧ member m = e)

/-- A message can belong to the same variable as the first one. -/
structure Compat (same : G → G → Bool) (f m : Msg G) : Prop where
  time : m.time.isSome = f.time.isSome
  ens : (m.total > 1) ↔ (f.total > 1)
  level : m.levelType = f.levelType
  grid : same m.grid f.grid = true

/-- `l` has the elements satisfying `p`, each once, in ascending order. -/
def Ascending {α : Type} [LT α] (l : List α) (p : α → Prop) : Prop := l.Pairwise (· < ·) ∧ ∀ a, a ∈ l ↔ p a

/-- Where the indexer should say a message is. -/
structure Points (files : List String) (c : Chunk) (m : Msg G) : Prop where
  file : files[c.file]? = some m.file
  valid : 0 < c.file
  start : c.start = m.start
  size : c.size = m.size

/-! ## Sets, maps -/

theorem mem_setInsert {α : Type} [LinearOrder α] (a b : α) : ∀ l : List α, b ∈ setInsert a l ↔ b = a ∨ b ∈ l
  | [] => by simp [setInsert]
  | c :: l => by
    unfold setInsert
    split_ifs with h1 h2
    · simp
    · simp [mem_setInsert a b l]; tauto
    · have : a = c := le_antisymm (not_lt.1 h2) (not_lt.1 h1)
      subst this; simp

theorem sorted_setInsert {α : Type} [LinearOrder α] (a : α) : ∀ l : List α, l.Pairwise (· < ·) →
    (setInsert a l).Pairwise (· < ·)
  | [], _ => by simp [setInsert]
  | c :: l, h => by
    rw [List.pairwise_cons] at h
    unfold setInsert
    split_ifs with h1 h2
    · rw [List.pairwise_cons, List.pairwise_cons]
      exact ⟨fun x hx => by
        rcases List.mem_cons.1 hx with rfl | hx
        · exact h1
        · exact lt_trans h1 (h.1 x hx), h⟩
    · rw [List.pairwise_cons]
      exact ⟨fun x hx => by
        rcases (mem_setInsert a x l).1 hx with rfl | hx
        · exact h2
        · exact h.1 x hx, sorted_setInsert a l h.2⟩
    · rw [List.pairwise_cons]; exact h

theorem Ascending.insert {α : Type} [LinearOrder α] {l : List α} {p q : α → Prop} (h : Ascending l p) (a : α)
    (hq : ∀ b, q b ↔ b = a ∨ p b) : Ascending (setInsert a l) q :=
  ⟨sorted_setInsert a l h.1, fun b => by rw [mem_setInsert, h.2, hq]⟩

theorem lastOf_snoc {α : Type} (p : α → Bool) (l : List α) (a : α) :
    lastOf p (l ++ [a]) = if p a then some a else lastOf p l := by
  unfold lastOf
  rw [List.reverse_append, List.reverse_singleton, List.singleton_append, List.find?_cons]
  cases p a <;> rfl

/-- Value of a key. -/
def value {κ α : Type} [DecidableEq κ] (l : List (κ × α)) (k : κ) : Option α := (l.find? (fun p => decide (p.1 = k))).map (·.2)

theorem value_upsert {κ α : Type} [DecidableEq κ] (k : κ) (v : α) (k' : κ) : ∀ l : List (κ × α),
    value (upsert k v l) k' = if k' = k then some v else value l k'
  | [] => by
    by_cases h : k' = k
    · subst h; simp [upsert, value]
    · have h' : ¬ k = k' := fun e => h e.symm
      simp [upsert, value, h, h']
  | p :: l => by
    unfold upsert
    by_cases h : p.1 = k
    · rw [if_pos h]
      by_cases h' : k' = k
      · subst h'; simp [value]
      · have h1 : ¬ k = k' := fun e => h' e.symm
        have h2 : ¬ p.1 = k' := fun e => h1 (h ▸ e)
        simp [value, h', h1, h2]
    · rw [if_neg h]
      have ih := value_upsert k v k' l
      unfold value at ih ⊢
      rw [List.find?_cons, List.find?_cons]
      by_cases h2 : p.1 = k'
      · have : ¬ k' = k := fun e => h (h2.trans e)
        simp [h2, this]
      · simp only [h2, decide_false]
        exact ih

theorem keys_upsert {κ α : Type} [DecidableEq κ] (k : κ) (v : α) : ∀ l : List (κ × α), (l.map (·.1)).Nodup →
    ((upsert k v l).map (·.1)).Nodup ∧ ∀ x, x ∈ (upsert k v l).map (·.1) ↔ x = k ∨ x ∈ l.map (·.1)
  | [], _ => by simp [upsert]
  | p :: l, h => by
    rw [List.map_cons, List.nodup_cons] at h
    obtain ⟨i1, i2⟩ := keys_upsert k v l h.2
    unfold upsert
    by_cases e : p.1 = k
    · rw [if_pos e]
      subst e
      exact ⟨by rw [List.map_cons, List.nodup_cons]; exact h, fun x => by simp⟩
    · rw [if_neg e]
      refine ⟨?_, fun x => ?_⟩
      · rw [List.map_cons, List.nodup_cons, i2]
        exact ⟨fun hh => hh.elim e h.1, i1⟩
      · rw [List.map_cons, List.mem_cons, i2, List.map_cons, List.mem_cons]; tauto

/-! ## Loading -/

/-- The place in the nested maps. -/
def keyOf (m : Msg G) : Nat × Int × Nat := (m.time.getD 0, m.level, member m)

theorem perturbation_eq (m : Msg G) : perturbation m = member m := by
  unfold perturbation member
  by_cases h : m.total > 1
  · simp [h]
  · by_cases h2 : m.pert = 0 <;> simp [h, h2]

/-- State of the indexer after the messages `ms`. -/
structure Holds (ms : List (Msg G)) (s : St G) : Prop where
  times : Ascending s.times fun t => ∃ m ∈ ms, m.time = some t
  names : Ascending s.names fun n => ∃ m ∈ ms, m.name = n
  unknown : ∀ n, s.has n = none ↔ ms.find? (fun m => decide (m.name = n)) = none
  first : ∀ n v f, s.has n = some v → ms.find? (fun m => decide (m.name = n)) = some f →
    v.hasTime = f.time.isSome ∧ v.hasEns = decide (f.total > 1) ∧ v.levelType = f.levelType ∧ v.grid = f.grid
  kinds : ∀ n v, s.has n = some v → ∀ m ∈ ms, m.name = n → m.time.isSome = v.hasTime ∧ (m.total > 1 ↔ v.hasEns = true)
  levels : ∀ n v, s.has n = some v → Ascending v.levels fun l => ∃ m ∈ ms, m.name = n ∧ m.level = l
  ens : ∀ m ∈ ms, m.total > 1 → m.total ≤ s.maxEns ∧ m.pert < s.maxEns
  ensLeast : s.maxEns = 0 ∨ ∃ m ∈ ms, m.total > 1 ∧ (s.maxEns = m.total ∨ s.maxEns = m.pert + 1)
  keys : ∀ n, ((s.box n).map (·.1)).Nodup ∧ ∀ k, k ∈ (s.box n).map (·.1) ↔ ∃ m ∈ ms, m.name = n ∧ keyOf m = k
  last : ∀ n k c, value (s.box n) k = some c →
    ∃ m, lastOf (fun m => decide (m.name = n ∧ keyOf m = k)) ms = some m ∧ Points s.files.strings c m
  sound : s.files.Sound
  index : ∀ k i, s.files.indexes k = some i → 0 < i
  zero : 0 < s.files.strings.length

theorem holds_init : Holds ([] : List (Msg G)) (St.init G) where
  times := ⟨by simp [St.init], by simp [St.init]⟩
  names := ⟨by simp [St.init], by simp [St.init]⟩
  unknown := by simp [St.init]
  first := by simp [St.init]
  kinds := by simp
  levels := by simp [St.init]
  ens := by simp
  ensLeast := .inl rfl
  keys := by simp [St.init]
  last := by simp [St.init, value]
  sound := created_sound (.empty true)
  index := by simp [St.init, StringList.empty]
  zero := by simp [St.init, StringList.empty]

/-- When one more message is accepted. -/
def Accepts (same : G → G → Bool) (ms : List (Msg G)) (m : Msg G) : Prop :=
  ∀ f, ms.find? (fun x => decide (x.name = m.name)) = some f → Compat same f m

theorem newMaxEns_spec (e : Nat) (m : Msg G) : e ≤ newMaxEns e m ∧
    (m.total > 1 → m.total ≤ newMaxEns e m ∧ m.pert < newMaxEns e m) ∧
    (newMaxEns e m = e ∨ m.total > 1 ∧ (newMaxEns e m = m.total ∨ newMaxEns e m = m.pert + 1)) := by
  unfold newMaxEns
  rw [perturbation_eq]
  unfold member
  by_cases h : m.total > 1
  · simp only [if_pos h]
    split_ifs <;> omega
  · simp [h]

theorem add_index (l : StringList) (hz : 0 < l.strings.length) (hi : ∀ k i, l.indexes k = some i → 0 < i) (k : String) :
    0 < (l.add k).2 ∧ (∀ k' i, (l.add k).1.indexes k' = some i → 0 < i) ∧ 0 < (l.add k).1.strings.length := by
  unfold StringList.add
  split
  · refine ⟨hz, ?_, by simp⟩
    intro k' i h
    dsimp only at h
    split_ifs at h
    · cases h; exact hz
    · exact hi k' i h
  · rename_i i h
    exact ⟨hi k i h, hi, hz⟩

theorem Points.grow {files : List String} {c : Chunk} {m : Msg G} (h : Points files c m) (more : List String) :
    Points (files ++ more) c m :=
  ⟨by rw [List.getElem?_append_left (List.getElem?_eq_some_iff.1 h.file).1]; exact h.file, h.valid, h.start, h.size⟩

theorem find_snoc {α : Type} (p : α → Bool) (l : List α) (a : α) :
    (l ++ [a]).find? p = (l.find? p).or (if p a then some a else none) := by
  rw [List.find?_append]
  congr 1
  rw [List.find?_singleton]

/-- The record of the variable after one more message. -/
def newHas (s : St G) (m : Msg G) : VarHas G :=
  match s.has m.name with
  | some v => { v with levels := setInsert m.level v.levels }
  | none => ⟨m.time.isSome, decide (m.total > 1), m.grid, m.levelType, [m.level]⟩

/-- The state after one more message. -/
def next (s : St G) (m : Msg G) : St G where
  times := match m.time with
    | some t => setInsert t s.times
    | none => s.times
  maxEns := newMaxEns s.maxEns m
  names := setInsert m.name s.names
  has := fun n => if n = m.name then some (newHas s m) else s.has n
  box := fun n => if n = m.name then
    upsert (m.time.getD 0, m.level, perturbation m) ⟨(s.files.add m.file).2, m.start, m.size⟩ (s.box n) else s.box n
  files := (s.files.add m.file).1

theorem load_eq (same : G → G → Bool) (s : St G) (m : Msg G) :
    load same s m = if (s.has m.name).any (fun v => m.time.isSome != v.hasTime) ∨
      (s.has m.name).any (fun v => v.hasEns != decide (m.total > 1)) ∨
      (s.has m.name).any (fun v => v.levelType != m.levelType) ∨
      (s.has m.name).any (fun v => !same m.grid v.grid) then .throws else .ok (next s m) := by
  unfold load
  by_cases h1 : (s.has m.name).any (fun v => m.time.isSome != v.hasTime)
  · rw [if_pos h1, if_pos (.inl h1)]
  · rw [if_neg h1]
    by_cases h2 : (s.has m.name).any (fun v => v.hasEns != decide (m.total > 1))
    · rw [if_pos h2, if_pos (.inr (.inl h2))]
    · rw [if_neg h2]
      by_cases h3 : (s.has m.name).any (fun v => v.levelType != m.levelType)
      · rw [if_pos h3, if_pos (.inr (.inr (.inl h3)))]
      · rw [if_neg h3]
        by_cases h4 : (s.has m.name).any (fun v => !same m.grid v.grid)
        · rw [if_pos h4, if_pos (.inr (.inr (.inr h4)))]
        · rw [if_neg h4, if_neg (by simp only [not_or]; exact ⟨h1, h2, h3, h4⟩)]
          unfold next newHas
          congr 2

theorem holds_next {ms : List (Msg G)} {s : St G} (h : Holds ms s) (m : Msg G)
    (hc : ∀ v, s.has m.name = some v → m.time.isSome = v.hasTime ∧ (m.total > 1 ↔ v.hasEns = true)) :
    Holds (ms ++ [m]) (next s m) := by
  have hadd := add_index s.files h.zero h.index m.file
  obtain ⟨⟨more, hmore⟩, _⟩ := add_stable s.files m.file
  obtain ⟨n1, n2, n3⟩ := newMaxEns_spec s.maxEns m
  have hkey : (m.time.getD 0, m.level, perturbation m) = keyOf m := by rw [perturbation_eq]; rfl
  constructor
  case times =>
    show Ascending (match m.time with | some t => setInsert t s.times | none => s.times) _
    cases e : m.time with
    | none => exact ⟨h.times.1, fun t => by rw [h.times.2]; simp [e]⟩
    | some t => exact h.times.insert t fun b => by simp [e, eq_comm, or_comm, or_and_right, exists_or]
  case names =>
    exact h.names.insert m.name fun b => by simp [eq_comm, or_comm, or_and_right, exists_or]
  case unknown =>
    intro n
    rw [find_snoc]
    by_cases e : n = m.name
    · subst e; simp [next]
    · have e' : ¬ m.name = n := fun x => e x.symm
      simp only [next, if_neg e, e', decide_false, Bool.false_eq_true, if_false, Option.or_none]
      exact h.unknown n
  case first =>
    intro n v f hv hf
    rw [find_snoc] at hf
    by_cases e : n = m.name
    · subst e
      simp only [next, if_true, Option.some.injEq] at hv
      subst hv
      unfold newHas
      cases hk : s.has m.name with
      | none =>
        rw [(h.unknown _).1 hk] at hf
        simp only [decide_true, if_true, Option.none_or, Option.some.injEq] at hf
        subst hf
        exact ⟨rfl, rfl, rfl, rfl⟩
      | some v =>
        cases hf0 : ms.find? (fun x => decide (x.name = m.name)) with
        | none => rw [(h.unknown _).2 hf0] at hk; cases hk
        | some f0 =>
          rw [hf0] at hf
          cases hf
          exact h.first _ v f hk hf0
    · have e' : ¬ m.name = n := fun x => e x.symm
      simp only [next, if_neg e] at hv
      simp only [e', decide_false, Bool.false_eq_true, if_false, Option.or_none] at hf
      exact h.first n v f hv hf
  case kinds =>
    intro n v hv x hx hn
    by_cases e : n = m.name
    · subst e
      simp only [next, if_true, Option.some.injEq] at hv
      subst hv
      unfold newHas
      cases hk : s.has m.name with
      | none =>
        rcases List.mem_append.1 hx with hx | hx
        · have := (h.unknown m.name).1 hk
          rw [List.find?_eq_none] at this
          exact absurd (by simpa using hn) (this x hx)
        · rw [List.mem_singleton] at hx; subst hx; simp
      | some v =>
        rcases List.mem_append.1 hx with hx | hx
        · exact h.kinds _ v hk x hx hn
        · rw [List.mem_singleton] at hx; subst hx; exact hc v hk
    · simp only [next, if_neg e] at hv
      rcases List.mem_append.1 hx with hx | hx
      · exact h.kinds n v hv x hx hn
      · rw [List.mem_singleton] at hx; subst hx; exact absurd hn.symm e
  case levels =>
    intro n v hv
    by_cases e : n = m.name
    · subst e
      simp only [next, if_true, Option.some.injEq] at hv
      subst hv
      unfold newHas
      cases hk : s.has m.name with
      | none =>
        refine ⟨by simp, fun l => ?_⟩
        have := (h.unknown m.name).1 hk
        rw [List.find?_eq_none] at this
        constructor
        · intro hl
          rw [List.mem_singleton] at hl
          exact ⟨m, by simp, rfl, hl.symm⟩
        · rintro ⟨x, hx, h1, h2⟩
          rcases List.mem_append.1 hx with hx | hx
          · exact absurd (by simpa using h1) (this x hx)
          · rw [List.mem_singleton] at hx; subst hx; simp [h2]
      | some v =>
        refine (h.levels _ v hk).insert m.level fun b => ?_
        constructor
        · rintro ⟨x, hx, h1, h2⟩
          rcases List.mem_append.1 hx with hx | hx
          · exact .inr ⟨x, hx, h1, h2⟩
          · rw [List.mem_singleton] at hx; subst hx; exact .inl h2.symm
        · rintro (rfl | ⟨x, hx, h1, h2⟩)
          · exact ⟨m, by simp, rfl, rfl⟩
          · exact ⟨x, by simp [hx], h1, h2⟩
    · simp only [next, if_neg e] at hv
      refine ⟨(h.levels n v hv).1, fun l => ?_⟩
      rw [(h.levels n v hv).2]
      constructor
      · rintro ⟨x, hx, h1, h2⟩; exact ⟨x, by simp [hx], h1, h2⟩
      · rintro ⟨x, hx, h1, h2⟩
        rcases List.mem_append.1 hx with hx | hx
        · exact ⟨x, hx, h1, h2⟩
        · rw [List.mem_singleton] at hx; subst hx; exact absurd h1.symm e
  case ens =>
    intro x hx ht
    show _ ≤ newMaxEns s.maxEns m ∧ _ < newMaxEns s.maxEns m
    rcases List.mem_append.1 hx with hx | hx
    · have := h.ens x hx ht; omega
    · rw [List.mem_singleton] at hx; subst hx; exact n2 ht
  case ensLeast =>
    show newMaxEns s.maxEns m = 0 ∨ _
    rcases n3 with e | ⟨e1, e2⟩
    · rcases h.ensLeast with h0 | ⟨x, hx, h1, h2⟩
      · exact .inl (e.trans h0)
      · exact .inr ⟨x, by simp [hx], h1, by show newMaxEns s.maxEns m = _ ∨ newMaxEns s.maxEns m = _; rw [e]; exact h2⟩
    · exact .inr ⟨m, by simp, e1, e2⟩
  case keys =>
    intro n
    by_cases e : n = m.name
    · subst e
      obtain ⟨k1, k2⟩ := keys_upsert (keyOf m) (⟨(s.files.add m.file).2, m.start, m.size⟩ : Chunk) _ (h.keys m.name).1
      simp only [next, if_true, hkey]
      refine ⟨k1, fun k => ?_⟩
      rw [k2, (h.keys m.name).2]
      constructor
      · rintro (rfl | ⟨x, hx, h1, h2⟩)
        · exact ⟨m, by simp, rfl, rfl⟩
        · exact ⟨x, by simp [hx], h1, h2⟩
      · rintro ⟨x, hx, h1, h2⟩
        rcases List.mem_append.1 hx with hx | hx
        · exact .inr ⟨x, hx, h1, h2⟩
        · rw [List.mem_singleton] at hx; subst hx; exact .inl h2.symm
    · simp only [next, if_neg e]
      refine ⟨(h.keys n).1, fun k => ?_⟩
      rw [(h.keys n).2]
      constructor
      · rintro ⟨x, hx, h1, h2⟩; exact ⟨x, by simp [hx], h1, h2⟩
      · rintro ⟨x, hx, h1, h2⟩
        rcases List.mem_append.1 hx with hx | hx
        · exact ⟨x, hx, h1, h2⟩
        · rw [List.mem_singleton] at hx; subst hx; exact absurd h1.symm e
  case last =>
    intro n k c hv
    rw [lastOf_snoc]
    show ∃ x, _ ∧ Points (s.files.add m.file).1.strings c x
    by_cases e : n = m.name
    · subst e
      simp only [next, if_true, hkey, value_upsert] at hv
      by_cases ek : k = keyOf m
      · rw [if_pos ek] at hv
        cases hv
        refine ⟨m, by simp [ek], ?_, hadd.1, rfl, rfl⟩
        exact (add_at h.sound m.file).1
      · rw [if_neg ek] at hv
        obtain ⟨x, hx, hp⟩ := h.last _ k c hv
        have ek' : ¬ keyOf m = k := fun x => ek x.symm
        refine ⟨x, by simpa [ek'] using hx, ?_⟩
        rw [hmore]; exact hp.grow more
    · simp only [next, if_neg e] at hv
      have e' : ¬ m.name = n := fun x => e x.symm
      obtain ⟨x, hx, hp⟩ := h.last n k c hv
      refine ⟨x, by simpa [e'] using hx, ?_⟩
      rw [hmore]; exact hp.grow more
  case sound => exact sound_add h.sound _
  case index => exact hadd.2.1
  case zero => exact hadd.2.2

theorem load_cases (same : G → G → Bool) (ms : List (Msg G)) (s : St G) (h : Holds ms s) (m : Msg G) :
    (Accepts same ms m ∧ load same s m = .ok (next s m) ∧ Holds (ms ++ [m]) (next s m)) ∨
      (¬ Accepts same ms m ∧ load same s m = .throws) := by
  rw [load_eq]
  cases hk : s.has m.name with
  | none =>
    have hf := (h.unknown m.name).1 hk
    refine .inl ⟨fun f e => (by rw [hf] at e; cases e), by simp, holds_next h m (by simp [hk])⟩
  | some v =>
    cases hf : ms.find? (fun x => decide (x.name = m.name)) with
    | none => rw [(h.unknown _).2 hf] at hk; cases hk
    | some f =>
      obtain ⟨f1, f2, f3, f4⟩ := h.first _ v f hk hf
      simp only [Option.any_some]
      split_ifs with hc
      · right
        refine ⟨fun ha => ?_, rfl⟩
        have := ha f hf
        rcases hc with hc | hc | hc | hc
        · rw [f1, this.time] at hc; simp at hc
        · rw [f2] at hc
          have hh := this.ens
          by_cases g : f.total > 1
          · simp [g, hh.2 g] at hc
          · have : ¬ m.total > 1 := fun x => g (hh.1 x)
            simp [g, this] at hc
        · rw [f3, this.level] at hc; simp at hc
        · rw [f4, this.grid] at hc; simp at hc
      · left
        push Not at hc
        obtain ⟨c1, c2, c3, c4⟩ := hc
        simp only [bne_iff_ne, ne_eq, not_not, Bool.not_eq_true', Bool.not_eq_false] at c1 c2 c3 c4
        have hens : (m.total > 1) ↔ v.hasEns = true := by rw [c2]; simp
        refine ⟨fun f' e => ?_, rfl, holds_next h m (fun v' e => ?_)⟩
        · rw [hf] at e
          cases e
          refine ⟨c1.trans f1, ?_, ?_, ?_⟩
          · rw [hens, f2]; simp
          · rw [← f3, c3]
          · rw [← f4]; exact c4
        · rw [hk] at e
          cases e
          exact ⟨c1, hens⟩

theorem loadAll_cases (same : G → G → Bool) : ∀ (ms before : List (Msg G)) (s : St G), Holds before s →
    ((∀ a m b, ms = a ++ m :: b → Accepts same (before ++ a) m) ∧ ∃ s', loadAll same s ms = .ok s' ∧ Holds (before ++ ms) s') ∨
      ((∃ a m b, ms = a ++ m :: b ∧ ¬ Accepts same (before ++ a) m) ∧ loadAll same s ms = .throws)
  | [], before, s, h => .inl ⟨fun a m b e => by simp at e, s, rfl, by simpa using h⟩
  | m :: ms, before, s, h => by
    unfold loadAll
    rcases load_cases same before s h m with ⟨ha, e, h'⟩ | ⟨ha, e⟩
    · rw [e, Res.ok_bind]
      rcases loadAll_cases same ms (before ++ [m]) _ h' with ⟨hb, s', e', h''⟩ | ⟨⟨a, x, b, e1, e2⟩, e'⟩
      · refine .inl ⟨?_, s', e', by simpa using h''⟩
        intro a x b hab
        cases a with
        | nil => simp only [List.nil_append, List.cons.injEq] at hab; rw [← hab.1]; simpa using ha
        | cons y a =>
          simp only [List.cons_append, List.cons.injEq] at hab
          have := hb a x b hab.2
          rw [← hab.1]
          simpa using this
      · exact .inr ⟨⟨m :: a, x, b, by simp [e1], by simpa using e2⟩, e'⟩
    · rw [e, Res.throws_bind]
      exact .inr ⟨⟨[], m, ms, rfl, by simpa using ha⟩, rfl⟩

/-! ## Building -/

theorem findIndex_at {α : Type} [DecidableEq α] {l : List α} (h : l.Nodup) {i : Nat} {a : α} (hi : l[i]? = some a) :
    findIndex l a = .ok i := by
  unfold findIndex
  have : l.findIdx? (· == a) = some i := by
    rw [List.findIdx?_eq_some_iff_getElem]
    obtain ⟨h1, h2⟩ := List.getElem?_eq_some_iff.1 hi
    refine ⟨h1, by simp [h2], fun j hj => ?_⟩
    simp only [beq_iff_eq]
    intro e
    have := (h.getElem_inj_iff (hi := by omega) (hj := h1)).1 (e.trans h2.symm)
    omega
  rw [this]

theorem findIndex_none {α : Type} [DecidableEq α] {l : List α} {a : α} (h : a ∉ l) : findIndex l a = .throws := by
  unfold findIndex
  have : l.findIdx? (· == a) = none := by
    rw [List.findIdx?_eq_none_iff]
    intro x hx
    simp only [beq_eq_false_iff_ne, ne_eq]
    intro e; exact h (e ▸ hx)
  rw [this]

/-- Position in the table. -/
theorem idx_lt {T L E it il e : Nat} (h1 : it < T) (h2 : il < L) (h3 : e < E) : (it * L + il) * E + e < E * L * T := by
  have a : it * L + il + 1 ≤ L * T := by
    have : (it + 1) * L ≤ T * L := Nat.mul_le_mul_right L h1
    rw [Nat.mul_comm L T]; rw [Nat.add_mul] at this; omega
  calc (it * L + il) * E + e < (it * L + il) * E + E := by omega
    _ = (it * L + il + 1) * E := by ring
    _ ≤ (L * T) * E := Nat.mul_le_mul_right E a
    _ = E * L * T := by ring

theorem idx_inj {L E it il e it' il' e' : Nat} (h2 : il < L) (h3 : e < E) (h2' : il' < L) (h3' : e' < E)
    (h : (it * L + il) * E + e = (it' * L + il') * E + e') : it = it' ∧ il = il' ∧ e = e' := by
  have a : ∀ {q r N : Nat}, r < N → (q * N + r) / N = q := fun {q r N} hr => by
    rw [Nat.mul_comm, Nat.mul_add_div (by omega), Nat.div_eq_of_lt hr, Nat.add_zero]
  have b1 := a (q := it * L + il) h3
  have b2 := a (q := it' * L + il') h3'
  rw [h] at b1
  have c : it * L + il = it' * L + il' := b1.symm.trans b2
  have d1 := a (q := it) h2
  have d2 := a (q := it') h2'
  rw [c] at d1
  have f : it = it' := d1.symm.trans d2
  subst f
  rw [c] at h
  exact ⟨rfl, by omega, by omega⟩

theorem sorted_nodup {α : Type} [LinearOrder α] {l : List α} (h : l.Pairwise (· < ·)) : l.Nodup :=
  h.imp fun hab => ne_of_lt hab

/-- Every entry of the table holds the value of its key. -/
theorem place_spec (times : List Nat) (levels : List Int) (E : Nat) (ht : times.Nodup) (hl : levels.Nodup)
    : ∀ (box : List ((Nat × Int × Nat) × Chunk)) (table : List Chunk), (box.map (·.1)).Nodup →
      table.length = E * levels.length * times.length →
      (∀ p ∈ box, p.1.1 ∈ times ∧ p.1.2.1 ∈ levels ∧ p.1.2.2 < E) →
      ∃ r, place times levels E (E * levels.length * times.length) table box = .ok r ∧ r.length = table.length ∧
        ∀ it il e t l, times[it]? = some t → levels[il]? = some l → e < E →
          r[(it * levels.length + il) * E + e]? =
            (match value box (t, l, e) with
              | some c => some c
              | none => table[(it * levels.length + il) * E + e]?)
  | [], table, _, _, _ => ⟨table, rfl, rfl, fun _ _ _ _ _ _ _ _ => rfl⟩
  | ((t0, l0, e0), c) :: box, table, hn, hlen, hin => by
    rw [List.map_cons, List.nodup_cons] at hn
    obtain ⟨m1, m2, m3⟩ := hin _ (by simp : ((t0, l0, e0), c) ∈ ((t0, l0, e0), c) :: box)
    dsimp only at m1 m2 m3
    obtain ⟨it0, hit0⟩ := List.getElem?_of_mem m1
    obtain ⟨il0, hil0⟩ := List.getElem?_of_mem m2
    have b1 := (List.getElem?_eq_some_iff.1 hit0).1
    have b2 := (List.getElem?_eq_some_iff.1 hil0).1
    have hlt := idx_lt b1 b2 m3
    obtain ⟨r, hr, hrl, hv⟩ := place_spec times levels E ht hl box (table.set ((it0 * levels.length + il0) * E + e0) c) hn.2
      (by rw [List.length_set, hlen]) (fun p hp => hin p (by simp [hp]))
    refine ⟨r, ?_, by rw [hrl, List.length_set], ?_⟩
    · unfold place
      rw [findIndex_at ht hit0, Res.ok_bind, findIndex_at hl hil0, Res.ok_bind]
      dsimp only
      rw [if_neg (by omega), if_neg (by omega)]
      exact hr
    · intro it il e t l hit hil he
      rw [hv it il e t l hit hil he]
      have c1 := (List.getElem?_eq_some_iff.1 hit).1
      have c2 := (List.getElem?_eq_some_iff.1 hil).1
      by_cases hk : (t0, l0, e0) = (t, l, e)
      · simp only [Prod.mk.injEq] at hk
        obtain ⟨rfl, rfl, rfl⟩ := hk
        have hno : value box (t0, l0, e0) = none := by
          unfold value
          rw [Option.map_eq_none_iff, List.find?_eq_none]
          intro p hp e
          exact hn.1 (List.mem_map.2 ⟨p, hp, by simpa using e⟩)
        have ei : it = it0 := by
          have := findIndex_at ht hit; rw [findIndex_at ht hit0] at this; cases this; rfl
        have el : il = il0 := by
          have := findIndex_at hl hil; rw [findIndex_at hl hil0] at this; cases this; rfl
        subst ei el
        rw [hno]
        simp only [value, List.find?_cons, decide_true, Option.map_some]
        rw [List.getElem?_set_self (by omega)]
      · have hne : (it0 * levels.length + il0) * E + e0 ≠ (it * levels.length + il) * E + e := by
          intro h0
          obtain ⟨g1, g2, g3⟩ := idx_inj b2 m3 c2 he h0
          subst g1 g2 g3
          rw [hit0] at hit; cases hit
          rw [hil0] at hil; cases hil
          exact hk rfl
        rw [List.getElem?_set_ne hne]
        have : value (((t0, l0, e0), c) :: box) (t, l, e) = value box (t, l, e) := by
          unfold value; rw [List.find?_cons]; simp [hk]
        rw [this]

theorem levelPos_spec (lv : Levels) (v : VarHas G) : ((levelPos lv v).1 v.levelType)[(levelPos lv v).2]? = some v.levels ∧
    ∀ (t : Int × Int) (p : Nat) (l : List Int), (lv t)[p]? = some l → ((levelPos lv v).1 t)[p]? = some l := by
  unfold levelPos
  cases h : (lv v.levelType).findIdx? (· == v.levels) with
  | some p =>
    rw [List.findIdx?_eq_some_iff_getElem] at h
    obtain ⟨h1, h2, _⟩ := h
    exact ⟨by rw [List.getElem?_eq_getElem h1]; simpa using h2, fun _ _ _ h => h⟩
  | none =>
    refine ⟨by simp, fun t p l hp => ?_⟩
    dsimp only
    split_ifs with e
    · rw [List.getElem?_append_left (List.getElem?_eq_some_iff.1 hp).1]; exact hp
    · exact hp

theorem buildLevels_stable (has : String → Option (VarHas G)) : ∀ (ns : List String) (lv : Levels) (pos : String → Nat) (t : Int × Int) (p : Nat) (l : List Int),
    (lv t)[p]? = some l → ((buildLevels has ns lv pos).1 t)[p]? = some l
  | [], _, _, _, _, _, h => h
  | n :: ns, lv, pos, t, p, l, h => by
    unfold buildLevels
    cases e : has n with
    | none => exact buildLevels_stable has ns lv pos t p l h
    | some v => exact buildLevels_stable has ns _ _ t p l ((levelPos_spec lv v).2 t p l h)

theorem buildLevels_frame (has : String → Option (VarHas G)) : ∀ (ns : List String) (lv : Levels) (pos : String → Nat) n,
    n ∉ ns → (buildLevels has ns lv pos).2 n = pos n
  | [], _, _, _, _ => rfl
  | k :: ns, lv, pos, n, h => by
    unfold buildLevels
    have h1 : ¬ n = k := fun e => h (by simp [e])
    have h2 : n ∉ ns := fun e => h (by simp [e])
    cases e : has k with
    | none => exact buildLevels_frame has ns lv pos n h2
    | some v =>
      refine (buildLevels_frame has ns _ _ n h2).trans ?_
      rw [if_neg h1]

theorem buildLevels_spec (has : String → Option (VarHas G)) : ∀ (ns : List String) (lv : Levels) (pos : String → Nat),
    ns.Nodup → ∀ n v, n ∈ ns → has n = some v →
      ((buildLevels has ns lv pos).1 v.levelType)[(buildLevels has ns lv pos).2 n]? = some v.levels
  | [], _, _, _, _, _, h, _ => by simp at h
  | k :: ns, lv, pos, hn, n, v, h, hv => by
    rw [List.nodup_cons] at hn
    unfold buildLevels
    by_cases hk : n = k
    · subst hk
      rw [hv]
      dsimp only
      rw [buildLevels_frame has ns _ _ n hn.1, if_pos rfl]
      exact buildLevels_stable has ns _ _ _ _ _ (levelPos_spec lv v).1
    · have h' : n ∈ ns := (List.mem_cons.1 h).resolve_left hk
      cases e : has k with
      | none => exact buildLevels_spec has ns lv pos hn.2 n v h' hv
      | some w => exact buildLevels_spec has ns _ _ hn.2 n v h' hv

theorem value_none {κ α : Type} [DecidableEq κ] {l : List (κ × α)} {k : κ} : value l k = none ↔ k ∉ l.map (·.1) := by
  unfold value
  rw [Option.map_eq_none_iff, List.find?_eq_none]
  simp only [decide_eq_true_eq, List.mem_map, not_exists, not_and]

theorem lastOf_none {α : Type} {p : α → Bool} {l : List α} : lastOf p l = none ↔ ∀ a ∈ l, p a = false := by
  unfold lastOf
  rw [List.find?_eq_none]
  simp

theorem lastOf_congr {α : Type} {p q : α → Bool} {l : List α} (h : ∀ a ∈ l, p a = q a) : lastOf p l = lastOf q l := by
  unfold lastOf
  have : ∀ l' : List α, (∀ a ∈ l', p a = q a) → l'.find? p = l'.find? q := by
    intro l'
    induction l' with
    | nil => intro _; rfl
    | cons a l' ih =>
      intro h
      rw [List.find?_cons, List.find?_cons, h a (by simp), ih fun x hx => h x (by simp [hx])]
  exact this _ fun a ha => h a (by simpa using ha)

/-! ## C74 -/

/-- C74: reading accepts the messages if and only if each of them can belong to the same variable as the first
message of the same name; otherwise it fails with an exception. -/
theorem C74_loading (same : G → G → Bool) (ms : List (Msg G)) :
    ((∃ s, loadAll same (St.init G) ms = .ok s) ∧
      ∀ a m b, ms = a ++ m :: b → ∀ f, a.find? (fun x => decide (x.name = m.name)) = some f → Compat same f m) ∨
    (loadAll same (St.init G) ms = .throws ∧
      ∃ a m b f, ms = a ++ m :: b ∧ a.find? (fun x => decide (x.name = m.name)) = some f ∧ ¬ Compat same f m) := by
  rcases loadAll_cases same ms [] _ holds_init with ⟨h, s, e, _⟩ | ⟨⟨a, m, b, e1, e2⟩, e⟩
  · exact .inl ⟨⟨s, e⟩, fun a m b hab f hf => h a m b hab f (by simpa using hf)⟩
  · right
    refine ⟨e, ?_⟩
    unfold Accepts at e2
    push Not at e2
    obtain ⟨f, hf, hc⟩ := e2
    exact ⟨a, m, b, f, e1, by simpa using hf, hc⟩

/-- What the table of variable `n` should be, for the messages `ms` and the file names `files`. -/
structure Tabled (ms : List (Msg G)) (files : List String) (n : String) (t : Table) : Prop where
  table : ∃ (times : List Nat) (levels : List Int),
    Ascending times (fun x => ∃ m ∈ ms, m.time = some x) ∧
    Ascending levels (fun l => ∃ m ∈ ms, m.name = n ∧ m.level = l) ∧
    t.dimT = times.length ∧ t.dimL = levels.length ∧ t.messages.length = t.dimT * t.dimL * t.dimE ∧
    ∀ it il e x l, times[it]? = some x → levels[il]? = some l → e < t.dimE →
      match lastOf (isAt n x l e) ms with
      | some m => ∃ c, t.messages[(it * t.dimL + il) * t.dimE + e]? = some c ∧ Points files c m
      | none => t.messages[(it * t.dimL + il) * t.dimE + e]? = some ⟨0, 0, 0⟩
  single : (∀ m ∈ ms, m.name = n → ¬ m.total > 1) → t.dimE = 1
  /-- Every member has a place, and there are no more places than some message of the file asks for. -/
  members : ∀ m ∈ ms, m.name = n → m.total > 1 → m.total ≤ t.dimE ∧ m.pert < t.dimE ∧
    ∃ k ∈ ms, k.total > 1 ∧ (t.dimE = k.total ∨ t.dimE = k.pert + 1)

/-- C74: if all messages have a time, then every variable gets a table in which the place of a time, a level and
a member names the file, the start and the size of the last message read for them, or of none if there is none. -/
theorem C74_message_table (same : G → G → Bool) (ms : List (Msg G)) (s : St G)
    (hload : loadAll same (St.init G) ms = .ok s) (htime : ∀ m ∈ ms, m.time.isSome) :
    ∃ ts, build s = .ok ts ∧ Ascending (ts.map (·.1)) (fun n => ∃ m ∈ ms, m.name = n) ∧
      ∀ p ∈ ts, Tabled ms s.files.strings p.1 p.2 := by
  have h : Holds ms s := by
    rcases loadAll_cases same ms [] _ holds_init with ⟨_, s', e, h⟩ | ⟨_, e⟩
    · rw [e] at hload; cases hload; simpa using h
    · rw [e] at hload; cases hload
  have hnd := sorted_nodup h.names.1
  have key : ∀ n ∈ s.names, ∃ t, tableOf s (buildLevels s.has s.names (fun _ => []) (fun _ => 0)).1
      (buildLevels s.has s.names (fun _ => []) (fun _ => 0)).2 n = .ok t ∧ Tabled ms s.files.strings n t := by
    intro n hn
    obtain ⟨m0, hm0, hm0n⟩ := (h.names.2 n).1 hn
    cases hv : s.has n with
    | none =>
      have := (h.unknown n).1 hv
      rw [List.find?_eq_none] at this
      exact absurd (by simpa using hm0n) (this m0 hm0)
    | some v =>
      have hlev := buildLevels_spec s.has s.names (fun _ => []) (fun _ => 0) hnd n v hn hv
      have hT : v.hasTime = true := by rw [← (h.kinds n v hv m0 hm0 hm0n).1]; exact htime m0 hm0
      have hkin := h.kinds n v hv
      have hasc := h.levels n v hv
      obtain ⟨E, hE⟩ : ∃ E, (if v.hasEns then s.maxEns else 1) = E := ⟨_, rfl⟩
      have hmem : ∀ m ∈ ms, m.name = n → member m < E := by
        intro m hm hmn
        unfold member
        by_cases ht : m.total > 1
        · rw [if_pos ht, ← hE, if_pos ((hkin m hm hmn).2.1 ht)]; exact (h.ens m hm ht).2
        · rw [if_neg ht, ← hE]
          have : ¬ v.hasEns = true := fun x => ht ((hkin m hm hmn).2.2 x)
          rw [if_neg this]; exact Nat.one_pos
      have hkeys : ∀ p ∈ s.box n, p.1.1 ∈ s.times ∧ p.1.2.1 ∈ v.levels ∧ p.1.2.2 < E := by
        intro p hp
        obtain ⟨m, hm, hmn, hk⟩ := ((h.keys n).2 p.1).1 (List.mem_map_of_mem hp)
        rw [← hk]
        refine ⟨?_, (hasc.2 _).2 ⟨m, hm, hmn, rfl⟩, hmem m hm hmn⟩
        obtain ⟨t, ht⟩ := Option.isSome_iff_exists.1 (htime m hm)
        exact (h.times.2 _).2 ⟨m, hm, by simp [keyOf, ht]⟩
      obtain ⟨r, hr, hrl, hrv⟩ := place_spec s.times v.levels E (sorted_nodup h.times.1) (sorted_nodup hasc.1) (s.box n)
        (List.replicate (E * v.levels.length * s.times.length) ⟨0, 0, 0⟩) (h.keys n).1 (by rw [List.length_replicate]) hkeys
      refine ⟨⟨E, v.levels.length, s.times.length, r⟩, ?_, ?_⟩
      · unfold tableOf
        simp only [hv, hlev, Res.ok_bind, hE, hT, if_true]
        rw [hr, Res.ok_bind]
      · refine ⟨⟨s.times, v.levels, h.times, hasc, rfl, rfl, ?_, ?_⟩, ?_, ?_⟩
        · rw [hrl, List.length_replicate]; ring
        · intro it il e x l hit hil he
          have hc : lastOf (isAt n x l e) ms = lastOf (fun m => decide (m.name = n ∧ keyOf m = (x, l, e))) ms := by
            refine lastOf_congr fun m hm => ?_
            unfold isAt keyOf
            obtain ⟨t, ht⟩ := Option.isSome_iff_exists.1 (htime m hm)
            simp [ht]
          rw [hc]
          have hentry := hrv it il e x l hit hil he
          cases hval : value (s.box n) (x, l, e) with
          | some c =>
            obtain ⟨m, hm, hp⟩ := h.last n _ c hval
            rw [hval] at hentry
            rw [hm]
            exact ⟨c, hentry, hp⟩
          | none =>
            rw [hval] at hentry
            have hno := value_none.1 hval
            rw [(h.keys n).2] at hno
            have : lastOf (fun m => decide (m.name = n ∧ keyOf m = (x, l, e))) ms = none := by
              rw [lastOf_none]
              intro m hm
              simp only [decide_eq_false_iff_not]
              rintro ⟨a, b⟩
              exact hno ⟨m, hm, a, b⟩
            rw [this]
            refine hentry.trans ?_
            exact List.getElem?_replicate_of_lt (idx_lt (List.getElem?_eq_some_iff.1 hit).1
              (List.getElem?_eq_some_iff.1 hil).1 he)
        · intro hs
          have : ¬ v.hasEns = true := fun x => hs m0 hm0 hm0n ((hkin m0 hm0 hm0n).2.2 x)
          rw [← hE, if_neg this]
        · intro m hm hmn ht
          have hvE := (hkin m hm hmn).2.1 ht
          obtain ⟨b1, b2⟩ := h.ens m hm ht
          dsimp only
          rw [← hE, if_pos hvE]
          refine ⟨b1, b2, ?_⟩
          rcases h.ensLeast with h0 | h1
          · omega
          · exact h1
  obtain ⟨f, hf⟩ : ∃ f : String → Table, ∀ n ∈ s.names,
      tableOf s (buildLevels s.has s.names (fun _ => []) (fun _ => 0)).1
        (buildLevels s.has s.names (fun _ => []) (fun _ => 0)).2 n = .ok (f n) ∧ Tabled ms s.files.strings n (f n) := by
    classical
    exact ⟨fun n => if hn : n ∈ s.names then (key n hn).choose else ⟨0, 0, 0, []⟩, fun n hn => by
      dsimp only
      rw [dif_pos hn]; exact (key n hn).choose_spec⟩
  refine ⟨s.names.map fun n => (n, f n), ?_, ?_, ?_⟩
  · unfold build
    refine Scale.mapM_eq _ (fun n => (n, f n)) s.names fun n hn => ?_
    rw [(hf n hn).1, Res.ok_bind]
  · rw [List.map_map]
    have : (Prod.fst ∘ fun n => (n, f n)) = (id : String → String) := rfl
    rw [this, List.map_id]
    exact h.names
  · intro p hp
    obtain ⟨n, hn, rfl⟩ := List.mem_map.1 hp
    exact (hf n hn).2

theorem place_throws (times : List Nat) (levels : List Int) (E size : Nat) : ∀ (box : List ((Nat × Int × Nat) × Chunk))
    (table : List Chunk), (∃ p ∈ box, p.1.1 ∉ times) → place times levels E size table box = .throws
  | [], _, h => by simp at h
  | ((t, l, e), c) :: box, table, ⟨p, hp, hpt⟩ => by
    unfold place
    by_cases h1 : t ∈ times
    · rcases List.mem_cons.1 hp with rfl | hp
      · exact absurd h1 hpt
      · have : ∃ i, findIndex times t = .ok i := by
          unfold findIndex
          cases h : times.findIdx? (· == t) with
          | some i => exact ⟨i, rfl⟩
          | none =>
            rw [List.findIdx?_eq_none_iff] at h
            simpa using h t h1
        obtain ⟨i, hi⟩ := this
        rw [hi, Res.ok_bind]
        unfold findIndex
        cases h : levels.findIdx? (· == l) with
        | none => rw [Res.throws_bind]
        | some j =>
          rw [Res.ok_bind]
          dsimp only
          split_ifs
          · rfl
          · rfl
          · exact place_throws times levels E size box _ ⟨p, hp, hpt⟩
    · rw [findIndex_none h1, Res.throws_bind]

theorem place_defined (times : List Nat) (levels : List Int) (E size : Nat) : ∀ (box : List ((Nat × Int × Nat) × Chunk))
    (table : List Chunk), place times levels E size table box ≠ .ub
  | [], _ => by simp [place]
  | ((t, l, e), c) :: box, table => by
    unfold place findIndex
    cases times.findIdx? (· == t) with
    | none => rw [Res.throws_bind]; simp
    | some i =>
      rw [Res.ok_bind]
      cases levels.findIdx? (· == l) with
      | none => rw [Res.throws_bind]; simp
      | some j =>
        rw [Res.ok_bind]
        dsimp only
        split_ifs
        · simp
        · simp
        · exact place_defined times levels E size box _

theorem tableOf_defined (s : St G) (lv : Levels) (pos : String → Nat) (n : String) : tableOf s lv pos n ≠ .ub := by
  unfold tableOf
  cases s.has n with
  | none => simp
  | some v =>
    dsimp only
    cases (lv v.levelType)[pos n]? with
    | none => rw [Res.throws_bind]; simp
    | some l =>
      dsimp only
      rw [Res.ok_bind]
      have := place_defined s.times l (if v.hasEns then s.maxEns else 1)
        ((if v.hasEns then s.maxEns else 1) * l.length * (if v.hasTime then s.times.length else 1)) (s.box n)
        (List.replicate ((if v.hasEns then s.maxEns else 1) * l.length * (if v.hasTime then s.times.length else 1)) ⟨0, 0, 0⟩)
      generalize place s.times l _ _ _ _ = r at this ⊢
      cases r with
      | ok a => rw [Res.ok_bind]; simp
      | throws => rw [Res.throws_bind]; simp
      | ub => exact absurd rfl this

theorem mapM_throws {α β : Type} (f : α → Res β) : ∀ l : List α, (∀ a ∈ l, f a ≠ .ub) → (∃ a ∈ l, f a = .throws) →
    l.mapM f = .throws
  | [], _, h => by simp at h
  | a :: l, hu, ⟨b, hb, e⟩ => by
    rw [List.mapM_cons]
    cases h : f a with
    | ub => exact absurd h (hu a (by simp))
    | throws => rw [Res.throws_bind]
    | ok y =>
      rw [Res.ok_bind]
      rcases List.mem_cons.1 hb with rfl | hb
      · rw [h] at e; cases e
      · rw [mapM_throws f l (fun x hx => hu x (by simp [hx])) ⟨b, hb, e⟩, Res.throws_bind]

/-- Building never leaves the bounds of a table. -/
theorem C74_building_defined (s : St G) : build s ≠ .ub := by
  unfold build
  generalize (buildLevels s.has s.names (fun _ => []) (fun _ => 0)) = r
  dsimp only
  generalize s.names = l
  induction l with
  | nil => simp [pure]
  | cons n l ih =>
    rw [List.mapM_cons]
    have := tableOf_defined s r.1 r.2 n
    generalize tableOf s r.1 r.2 n = t at this ⊢
    cases t with
    | ub => exact absurd rfl this
    | throws => rw [Res.throws_bind, Res.throws_bind]; simp
    | ok t =>
      rw [Res.ok_bind, Res.ok_bind]
      generalize l.mapM (fun n => tableOf s r.1 r.2 n >>= fun t => Res.ok (n, t)) = q at ih ⊢
      cases q with
      | ub => exact absurd rfl ih
      | throws => rw [Res.throws_bind]; simp
      | ok q => rw [Res.ok_bind]; simp [pure]

/-- C74, against the purpose of the code: one message without time (a variable configured with
`constantTime="true"`) makes the reader fail, whatever the other messages are. -/
theorem C74_timeless_refused (same : G → G → Bool) (ms : List (Msg G)) (s : St G)
    (hload : loadAll same (St.init G) ms = .ok s) (hsome : ∃ m ∈ ms, m.time = none)
    (hzero : ∀ m ∈ ms, m.time ≠ some 0) : build s = .throws := by
  have h : Holds ms s := by
    rcases loadAll_cases same ms [] _ holds_init with ⟨_, s', e, h⟩ | ⟨_, e⟩
    · rw [e] at hload; cases hload; simpa using h
    · rw [e] at hload; cases hload
  obtain ⟨m, hm, ht⟩ := hsome
  unfold build
  dsimp only
  refine mapM_throws _ _ (fun n _ => ?_) ⟨m.name, (h.names.2 _).2 ⟨m, hm, rfl⟩, ?_⟩
  · have := tableOf_defined s (buildLevels s.has s.names (fun _ => []) (fun _ => 0)).1
      (buildLevels s.has s.names (fun _ => []) (fun _ => 0)).2 n
    generalize tableOf s _ _ n = t at this ⊢
    cases t with
    | ub => exact absurd rfl this
    | throws => rw [Res.throws_bind]; simp
    | ok t => rw [Res.ok_bind]; simp
  · have hbox : ∃ p ∈ s.box m.name, p.1.1 ∉ s.times := by
      have := ((h.keys m.name).2 (keyOf m)).2 ⟨m, hm, rfl, rfl⟩
      obtain ⟨p, hp, e⟩ := List.mem_map.1 this
      refine ⟨p, hp, ?_⟩
      rw [e, h.times.2]
      rintro ⟨k, hk, hk0⟩
      exact hzero k hk (by rw [hk0]; simp [keyOf, ht])
    have : tableOf s (buildLevels s.has s.names (fun _ => []) (fun _ => 0)).1
        (buildLevels s.has s.names (fun _ => []) (fun _ => 0)).2 m.name = .throws := by
      unfold tableOf
      cases s.has m.name with
      | none => rfl
      | some v =>
        dsimp only
        cases ((buildLevels s.has s.names (fun _ => []) (fun _ => 0)).1 v.levelType)[
            (buildLevels s.has s.names (fun _ => []) (fun _ => 0)).2 m.name]? with
        | none => dsimp only; rw [Res.throws_bind]
        | some l => dsimp only; rw [Res.ok_bind, place_throws _ _ _ _ _ _ hbox, Res.throws_bind]
    rw [this, Res.throws_bind]

/-! ## Concrete cases -/

/-- Two variables, the second with an ensemble whose number of members is too small; one message replaces
another. -/
def exMsgs : List (Msg Nat) :=
  [⟨"t", some 5, 0, 7, (1, 0), 20, 0, "a", 0, 10⟩, ⟨"e", some 5, 2, 0, (1, 0), 10, 0, "a", 10, 10⟩,
    ⟨"t", some 3, 1, 0, (1, 0), 10, 0, "b", 0, 11⟩, ⟨"e", some 5, 2, 2, (1, 0), 10, 0, "b", 11, 5⟩,
    ⟨"t", some 5, 0, 0, (1, 0), 20, 0, "b", 16, 6⟩]

example : (loadAll (fun a b => a == b) (St.init Nat) exMsgs >>= fun _ => Res.ok ()) = .ok () ∧ ∀ m ∈ exMsgs, m.time.isSome := by
  decide +kernel

example : (loadAll (fun a b => a == b) (St.init Nat) exMsgs >>= build) =
    .ok [("e", ⟨3, 1, 2, [⟨0, 0, 0⟩, ⟨0, 0, 0⟩, ⟨0, 0, 0⟩, ⟨1, 10, 10⟩, ⟨0, 0, 0⟩, ⟨2, 11, 5⟩]⟩),
      ("t", ⟨1, 2, 2, [⟨2, 0, 11⟩, ⟨0, 0, 0⟩, ⟨0, 0, 0⟩, ⟨2, 16, 6⟩]⟩)] := by decide +kernel

/-- A message of another type of level is refused. -/
example : (loadAll (fun a b => a == b) (St.init Nat) (exMsgs ++ [⟨"t", some 5, 0, 0, (2, 0), 20, 0, "b", 16, 6⟩]) >>= fun _ => Res.ok ()) = .throws ∧
    (loadAll (fun a b => a == b) (St.init Nat) (exMsgs ++ [⟨"t", none, 0, 0, (1, 0), 20, 0, "b", 16, 6⟩]) >>= fun _ => Res.ok ()) = .throws ∧
    (loadAll (fun a b => a == b) (St.init Nat) (exMsgs ++ [⟨"t", some 5, 3, 0, (1, 0), 20, 0, "b", 16, 6⟩]) >>= fun _ => Res.ok ()) = .throws ∧
    (loadAll (fun a b => a == b) (St.init Nat) (exMsgs ++ [⟨"t", some 5, 0, 0, (1, 0), 20, 1, "b", 16, 6⟩]) >>= fun _ => Res.ok ()) = .throws := by
  decide +kernel

/-- A variable without time beside one with times. -/
example : (loadAll (fun a b => a == b) (St.init Nat) (exMsgs ++ [⟨"z", none, 0, 0, (1, 0), 0, 0, "b", 30, 6⟩]) >>= build) =
    .throws := by decide +kernel

end Fimex.Grib
