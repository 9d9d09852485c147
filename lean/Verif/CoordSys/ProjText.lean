import Verif.CoordSys.ProjModel
import Mathlib.Data.List.Infix

/-!
# Searching words in a text like `+proj=lcc +lat_1=63`

What the regular expression finds (`Says`), and what it finds in a text put together of items.
-/

namespace Fimex.Proj

open Fimex.Cf (isSpace)

/-! ## The first match -/

/-- Somewhere in the text, after `pre`, stands one of the prefixes and right behind it the word, which is not empty and is
not continued. -/
structure Says (ok : Char → Bool) (ps : List Text) (s pre w post : Text) : Prop where
  text : ∃ p ∈ ps, s = pre ++ p ++ w ++ post
  word : w ≠ [] ∧ ∀ c ∈ w, ok c = true
  stop : ∀ c r, post = c :: r → ok c = false

theorem wordAt_eq_some {ok : Char → Bool} {p s w : Text} :
    wordAt ok p s = some w ↔ ∃ post, s = p ++ w ++ post ∧ (w ≠ [] ∧ ∀ c ∈ w, ok c = true) ∧ ∀ c r, post = c :: r → ok c = false := by
  unfold wordAt
  constructor
  · intro h
    split at h
    · rename_i hp
      dsimp only at h
      split at h
      · cases h
      · rename_i hw
        cases h
        obtain ⟨r, hr⟩ := List.isPrefixOf_iff_prefix.1 hp
        refine ⟨(s.drop p.length).dropWhile ok, ?_, ⟨hw, fun c hc => ?_⟩, fun c r' hc => ?_⟩
        · rw [List.append_assoc, List.takeWhile_append_dropWhile, ← hr]
          simp
        · exact List.all_eq_true.1 (List.all_takeWhile (p := ok)) c hc
        · have := List.head?_dropWhile_not ok (s.drop p.length)
          rw [hc] at this
          simpa using this
    · cases h
  · rintro ⟨post, rfl, ⟨hw, hok⟩, hpost⟩
    have hp : p.isPrefixOf (p ++ w ++ post) = true := List.isPrefixOf_iff_prefix.2 ⟨w ++ post, by simp⟩
    rw [if_pos hp]
    have : ((p ++ w ++ post).drop p.length).takeWhile ok = w := by
      rw [List.append_assoc, List.drop_left, List.takeWhile_append_of_pos (by simpa using hok)]
      cases post with
      | nil => simp
      | cons z r => rw [List.takeWhile_cons_of_neg (by simp [hpost z r rfl])]; simp
    dsimp only
    rw [this, if_neg hw]

theorem wordAt_eq_none {ok : Char → Bool} {p s : Text} (h : ¬ p <+: s) : wordAt ok p s = none := by
  unfold wordAt
  rw [if_neg (by rw [List.isPrefixOf_iff_prefix]; exact h)]

theorem search_cons {ok : Char → Bool} {ps : List Text} {c : Char} {s : Text} :
    search ok ps (c :: s) = match ps.findSome? fun p => wordAt ok p (c :: s) with
      | some w => some w
      | none => search ok ps s := rfl

/-- The model of the regular expression: a match at the first place where there is one. -/
theorem search_spec {ok : Char → Bool} {ps : List Text} (hps : ∀ p ∈ ps, p ≠ []) : ∀ s : Text,
    match search ok ps s with
    | some w => ∃ pre post, Says ok ps s pre w post ∧ ∀ pre' w' post', Says ok ps s pre' w' post' → pre.length ≤ pre'.length
    | none => ∀ pre w post, ¬ Says ok ps s pre w post
  | [] => by
    unfold search
    rintro pre w post ⟨⟨p, hp, h⟩, -, -⟩
    have := congrArg List.length h
    have : p.length = 0 := by simp at this; omega
    exact hps p hp (List.eq_nil_of_length_eq_zero this)
  | ch :: s => by
    have ih := search_spec (ok := ok) hps s
    have shift : ∀ pre w post, Says ok ps s pre w post ↔ Says ok ps (ch :: s) (ch :: pre) w post := fun pre w post =>
      ⟨fun h => ⟨by obtain ⟨p, hp, e⟩ := h.text; exact ⟨p, hp, by rw [e]; simp⟩, h.word, h.stop⟩,
       fun h => ⟨by obtain ⟨p, hp, e⟩ := h.text; exact ⟨p, hp, by simpa using e⟩, h.word, h.stop⟩⟩
    have start : ∀ pre w post, Says ok ps (ch :: s) pre w post →
        (pre = [] ∧ ∃ p ∈ ps, wordAt ok p (ch :: s) = some w) ∨ ∃ pre', pre = ch :: pre' ∧ Says ok ps s pre' w post := by
      intro pre w post h
      cases pre with
      | nil =>
        obtain ⟨p, hp, e⟩ := h.text
        exact .inl ⟨rfl, p, hp, wordAt_eq_some.2 ⟨post, by simpa using e, h.word, h.stop⟩⟩
      | cons z pre' =>
        right
        obtain ⟨p, hp, e⟩ := h.text
        have : ch = z := by
          rw [List.cons_append, List.cons_append, List.cons_append] at e
          exact (List.cons.inj e).1
        subst this
        exact ⟨pre', rfl, (shift _ _ _).2 h⟩
    rw [search_cons]
    cases hf : ps.findSome? fun p => wordAt ok p (ch :: s) with
    | some w =>
      obtain ⟨p, hp, hw⟩ := List.exists_of_findSome?_eq_some hf
      obtain ⟨post, h1, h2, h3⟩ := wordAt_eq_some.1 hw
      exact ⟨[], post, ⟨⟨p, hp, by simpa using h1⟩, h2, h3⟩, fun _ _ _ _ => Nat.zero_le _⟩
    | none =>
      have hno : ∀ w post, ¬ Says ok ps (ch :: s) [] w post := by
        intro w post h
        rcases start _ _ _ h with ⟨-, p, hp, hw⟩ | ⟨_, e, -⟩
        · rw [List.findSome?_eq_none_iff.1 hf p hp] at hw
          cases hw
        · cases e
      dsimp only
      cases hp : search ok ps s with
      | none =>
        rw [hp] at ih
        intro pre w post h
        cases pre with
        | nil => exact hno w post h
        | cons z pre' =>
          rcases start _ _ _ h with ⟨e, -⟩ | ⟨pre'', e, h'⟩
          · cases e
          · exact ih _ _ _ h'
      | some w =>
        rw [hp] at ih
        obtain ⟨pre, post, h1, h2⟩ := ih
        refine ⟨ch :: pre, post, (shift _ _ _).1 h1, fun pre' w' post' h => ?_⟩
        cases pre' with
        | nil => exact absurd h (hno w' post')
        | cons z pre' =>
          rcases start _ _ _ h with ⟨e, -⟩ | ⟨pre'', e, h'⟩
          · cases e
          · cases e
            have := h2 _ _ _ h'
            simp only [List.length_cons]
            omega

/-- A second prefix that is never found does not matter. -/
theorem search_or {ok : Char → Bool} {p q : Text} : ∀ {s : Text}, search ok [q] s = none → search ok [p, q] s = search ok [p] s
  | [], _ => rfl
  | c :: s, h => by
    rw [search_cons] at h
    cases hq : wordAt ok q (c :: s) with
    | some w => simp [hq] at h
    | none =>
      have hs : search ok [q] s = none := by simpa [hq] using h
      rw [search_cons, search_cons]
      cases hp : wordAt ok p (c :: s) with
      | some w => simp [hp]
      | none => simp [hp, hq, search_or hs]

theorem search_or_left {ok : Char → Bool} {p q : Text} : ∀ {s : Text}, search ok [p] s = none → search ok [p, q] s = search ok [q] s
  | [], _ => rfl
  | c :: s, h => by
    rw [search_cons] at h
    cases hq : wordAt ok p (c :: s) with
    | some w => simp [hq] at h
    | none =>
      have hs : search ok [p] s = none := by simpa [hq] using h
      rw [search_cons, search_cons]
      cases hp : wordAt ok q (c :: s) with
      | some w => simp [hp, hq]
      | none => simp [hp, hq, search_or_left hs]

/-! ## Items -/

/-- One part of a written text. -/
inductive Item where
  | kv (k : String) (v : Text)
  | flag (f : Text)
  | gap

/-- As it is written. -/
def Item.chars : Item → Text
  | kv k v => ' ' :: (plus k ++ v)
  | flag f => ' ' :: f
  | gap => [' ']

/-- The characters of a key. -/
def CleanKey (k : String) : Prop := ∀ c ∈ k.toList, c ≠ '+' ∧ c ≠ '=' ∧ isSpace c = false

/-- A value that stays one word. -/
def CleanVal (v : Text) : Prop := v ≠ [] ∧ ∀ c ∈ v, c ≠ '=' ∧ isSpace c = false

def Item.Good : Item → Prop
  | kv k v => CleanKey k ∧ CleanVal v
  | flag f => ∀ c ∈ f, c ≠ '='
  | gap => True

/-- The value of the first item with one of these keys. -/
def lookup (keys : List String) (items : List Item) : Option Text :=
  items.findSome? fun i => match i with
    | .kv k v => if k ∈ keys then some v else none
    | _ => none

theorem search_skip {ok : Char → Bool} {ps : List Text} (rest : Text) : ∀ u : Text,
    (∀ t, t ≠ [] → t <:+ u → ∀ p ∈ ps, ¬ p <+: t ++ rest) → search ok ps (u ++ rest) = search ok ps rest
  | [], _ => rfl
  | c :: u, h => by
    rw [List.cons_append, search_cons]
    have : (ps.findSome? fun p => wordAt ok p (c :: (u ++ rest))) = none :=
      List.findSome?_eq_none_iff.2 fun p hp => wordAt_eq_none (h (c :: u) (by simp) (List.suffix_refl _) p hp)
    rw [this]
    exact search_skip rest u fun t h0 ht => h t h0 (ht.trans (List.suffix_cons _ _))

theorem suffix_append_cases {α : Type} {t a b : List α} (h : t <:+ a ++ b) : t <:+ b ∨ ∃ a', a' ≠ [] ∧ t = a' ++ b ∧ a' <:+ a := by
  obtain ⟨pre, hp⟩ := h
  rcases List.append_eq_append_iff.1 hp with ⟨x, rfl, rfl⟩ | ⟨x, rfl, rfl⟩
  · by_cases hx : x = []
    · subst hx; exact .inl ⟨[], by simp⟩
    · exact .inr ⟨x, hx, rfl, ⟨pre, rfl⟩⟩
  · exact .inl ⟨x, rfl⟩

theorem plus_noSpace {k : String} (hk : CleanKey k) : ∀ c ∈ plus k, isSpace c = false := by
  intro c hc
  simp only [plus, List.mem_cons, List.mem_append, List.not_mem_nil, or_false] at hc
  rcases hc with rfl | hc | rfl
  · decide
  · exact (hk c hc).2.2
  · decide

/-- A key is not found across the end of an item. -/
theorem prefix_of_append {p t rest : Text} (hp : ∀ c ∈ p, isSpace c = false) (hr : ∀ c r, rest = c :: r → isSpace c = true)
    (h : p <+: t ++ rest) : p <+: t := by
  obtain ⟨q, hq⟩ := h
  rcases List.append_eq_append_iff.1 hq with ⟨x, rfl, -⟩ | ⟨x, hx, h2⟩
  · exact ⟨x, rfl⟩
  · cases x with
    | nil => rw [hx]; simp
    | cons c r =>
      have h1 := hp c (by rw [hx]; simp)
      rw [List.cons_append] at h2
      rw [hr c _ h2] at h1
      cases h1

theorem eq_of_key {k key : String} (hk : CleanKey k) (hkey : CleanKey key) {v : Text} (h : plus key <+: plus k ++ v) : key = k := by
  unfold plus at h
  rw [List.cons_append, List.cons_prefix_cons] at h
  obtain ⟨q, hq⟩ := h.2
  have e : ∀ (a : Text) (r : Text), (∀ c ∈ a, c ≠ '=') → ((a ++ ['=']) ++ r).takeWhile (fun c => c ≠ '=') = a := by
    intro a r ha
    rw [List.append_assoc, List.takeWhile_append_of_pos (by simpa using ha)]
    simp
  have h1 := e key.toList q fun c hc => (hkey c hc).2.1
  rw [hq, e k.toList v fun c hc => (hk c hc).2.1] at h1
  exact String.toList_inj.1 h1.symm

theorem not_prefix_in_item {key : String} {i : Item} {rest t : Text} (hkey : CleanKey key) (hi : i.Good)
    (hr : ∀ c r, rest = c :: r → isSpace c = true) (ht : t ≠ []) (hs : t <:+ i.chars) (hp : plus key <+: t ++ rest) :
    ∃ v, i = .kv key v ∧ t = plus key ++ v := by
  have hp := prefix_of_append (plus_noSpace hkey) hr hp
  have heq : '=' ∈ t := hp.subset (by simp [plus])
  have hhead : ∃ t', t = '+' :: t' := by
    obtain ⟨q, rfl⟩ := hp
    exact ⟨_, by rw [plus, List.cons_append]⟩
  obtain ⟨t', rfl⟩ := hhead
  have hs' : ∀ u, '+' :: t' <:+ ' ' :: u → '+' :: t' <:+ u := by
    intro u h
    rcases List.suffix_cons_iff.1 h with h | h
    · simp at h
    · exact h
  cases i with
  | gap => have := hs' _ hs; simp at this
  | flag f =>
    have := hs' _ hs
    exact absurd rfl (hi _ (this.subset heq))
  | kv k v =>
    have h1 := hs' _ hs
    rcases suffix_append_cases h1 with h | ⟨a, ha, he, hsa⟩
    · exact absurd rfl ((hi.2.2 _ (h.subset heq)).1)
    · cases a with
      | nil => exact absurd rfl ha
      | cons c a =>
        rw [List.cons_append] at he
        obtain ⟨rfl, rfl⟩ := List.cons.inj he
        unfold plus at hsa
        rcases List.suffix_cons_iff.1 hsa with h | h
        · have ea : '+' :: a = plus k := h
          have hp' : plus key <+: plus k ++ v := by rw [← ea]; exact hp
          have := eq_of_key hi.1 hkey hp'
          subst this
          exact ⟨v, rfl, by rw [← ea]; rfl⟩
        · have : '+' ∈ k.toList ++ ['='] := h.subset (by simp)
          simp only [List.mem_append, List.mem_cons, List.not_mem_nil, or_false] at this
          rcases this with h | h
          · exact absurd rfl (hi.1 _ h).1
          · exact absurd h (by decide)

theorem flatMap_head {items : List Item} : ∀ c r, items.flatMap Item.chars = c :: r → isSpace c = true := by
  intro c r h
  cases items with
  | nil => cases h
  | cons i items =>
    have : c = ' ' := by
      cases i <;> simp [Item.chars] at h <;> exact h.1.symm
    rw [this]
    decide

/-- In a text put together of items the search finds the first item with a key. -/
theorem search_items {keys : List String} (hkeys : ∀ k ∈ keys, CleanKey k) : ∀ {items : List Item}, (∀ i ∈ items, i.Good) →
    search noSpace (keys.map plus) (items.flatMap Item.chars) = lookup keys items
  | [], _ => rfl
  | i :: items, hg => by
    have ih := search_items hkeys (items := items) fun j hj => hg j (List.mem_cons_of_mem _ hj)
    have hi := hg i (by simp)
    rw [List.flatMap_cons]
    have skip : (∀ k v, i = .kv k v → k ∉ keys) →
        search noSpace (keys.map plus) (i.chars ++ items.flatMap Item.chars) = lookup keys (i :: items) := by
      intro hno
      rw [search_skip, ih]
      · unfold lookup
        rw [List.findSome?_cons]
        cases i with
        | kv k v => simp [hno k v rfl]
        | flag f => rfl
        | gap => rfl
      · intro t ht hs p hp hpre
        obtain ⟨key, hkey, rfl⟩ := List.mem_map.1 hp
        obtain ⟨v, rfl, -⟩ := not_prefix_in_item (hkeys key hkey) hi flatMap_head ht hs hpre
        exact hno key v rfl hkey
    cases i with
    | gap => exact skip (by simp)
    | flag f => exact skip (by simp)
    | kv k v =>
      by_cases hk : k ∈ keys
      · have h2 : lookup keys (.kv k v :: items) = some v := by simp [lookup, hk]
        rw [h2]
        show search noSpace (keys.map plus) (' ' :: ((plus k ++ v) ++ items.flatMap Item.chars)) = some v
        have h0 : search noSpace (keys.map plus) ([' '] ++ ((plus k ++ v) ++ items.flatMap Item.chars)) =
            search noSpace (keys.map plus) ((plus k ++ v) ++ items.flatMap Item.chars) := by
          apply search_skip
          intro t ht hs p hp hpre
          obtain ⟨key, hkey, rfl⟩ := List.mem_map.1 hp
          have : t = [' '] := by
            rcases List.suffix_cons_iff.1 hs with h | h
            · exact h
            · simp at h; exact absurd h ht
          subst this
          unfold plus at hpre
          rw [List.singleton_append, List.cons_prefix_cons] at hpre
          exact absurd hpre.1 (by decide)
        have h0' : search noSpace (keys.map plus) (' ' :: ((plus k ++ v) ++ items.flatMap Item.chars)) =
            search noSpace (keys.map plus) ((plus k ++ v) ++ items.flatMap Item.chars) := h0
        rw [h0']
        have hw : ∀ p ∈ keys.map plus, wordAt noSpace p ((plus k ++ v) ++ items.flatMap Item.chars) = none ∨
            wordAt noSpace p ((plus k ++ v) ++ items.flatMap Item.chars) = some v := by
          intro p hp
          obtain ⟨key, hkey, rfl⟩ := List.mem_map.1 hp
          by_cases h : plus key <+: (plus k ++ v) ++ items.flatMap Item.chars
          · have := eq_of_key hi.1 (hkeys key hkey) (prefix_of_append (plus_noSpace (hkeys key hkey)) flatMap_head h)
            subst this
            right
            refine wordAt_eq_some.2 ⟨items.flatMap Item.chars, rfl, ⟨hi.2.1, fun c hc => ?_⟩, fun c r hc => ?_⟩
            · simp [noSpace, (hi.2.2 c hc).2]
            · simp [noSpace, flatMap_head c r hc]
          · exact .inl (wordAt_eq_none h)
        have hk' : wordAt noSpace (plus k) ((plus k ++ v) ++ items.flatMap Item.chars) = some v := by
          refine wordAt_eq_some.2 ⟨items.flatMap Item.chars, rfl, ⟨hi.2.1, fun c hc => ?_⟩, fun c r hc => ?_⟩
          · simp [noSpace, (hi.2.2 c hc).2]
          · simp [noSpace, flatMap_head c r hc]
        have hcons : (plus k ++ v) ++ items.flatMap Item.chars = '+' :: ((k.toList ++ ['=']) ++ v ++ items.flatMap Item.chars) := rfl
        rw [hcons] at hw hk' ⊢
        rw [search_cons]
        have : ((keys.map plus).findSome? fun p => wordAt noSpace p ('+' :: ((k.toList ++ ['=']) ++ v ++ items.flatMap Item.chars))) = some v := by
          cases hf : (keys.map plus).findSome? fun p => wordAt noSpace p ('+' :: ((k.toList ++ ['=']) ++ v ++ items.flatMap Item.chars)) with
          | none =>
            rw [List.findSome?_eq_none_iff.1 hf (plus k) (List.mem_map_of_mem hk)] at hk'
            cases hk'
          | some w =>
            obtain ⟨p, hp, h⟩ := List.exists_of_findSome?_eq_some hf
            rcases hw p hp with h' | h'
            · rw [h] at h'; cases h'
            · rw [h] at h'; exact h'
        rw [this]
      · exact skip fun k' v' e => by cases e; exact hk

/-- The same for a text that does not begin with a space. -/
theorem search_text {keys : List String} (hkeys : ∀ k ∈ keys, CleanKey k) {items : List Item} (hg : ∀ i ∈ items, i.Good) {s : Text}
    (hs : ' ' :: s = items.flatMap Item.chars) : search noSpace (keys.map plus) s = lookup keys items := by
  rw [← search_items hkeys hg, ← hs]
  have h0 : search noSpace (keys.map plus) ([' '] ++ s) = search noSpace (keys.map plus) s := by
    apply search_skip
    intro t ht hs p hp hpre
    obtain ⟨key, hkey, rfl⟩ := List.mem_map.1 hp
    have : t = [' '] := by
      rcases List.suffix_cons_iff.1 hs with h | h
      · exact h
      · simp at h; exact absurd h ht
    subst this
    unfold plus at hpre
    rw [List.singleton_append, List.cons_prefix_cons] at hpre
    exact absurd hpre.1 (by decide)
  exact h0.symm

end Fimex.Proj
