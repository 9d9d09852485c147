import Verif.Text.Model
import Mathlib.Tactic.Tauto
import Mathlib.Tactic.ByContra
import Mathlib.Tactic.Conv

/-!
# Properties C26, C28 and C65: tokenizing, indexed string lists, text helpers

Specification of tokenizing: `pieces` cuts a text at every delimiter, `words` are the non-empty
pieces.
-/

namespace Fimex.Text

/-- The text cut at every delimiter (one more piece than delimiters). -/
def pieces (p : Char → Bool) : List Char → List (List Char)
  | [] => [[]]
  | c :: s =>
    if p c then [] :: pieces p s
    else ((c :: (pieces p s).headD []) :: (pieces p s).tail)

/-- The non-empty pieces. -/
def words (p : Char → Bool) (s : List Char) : List (List Char) :=
  (pieces p s).filter fun t => !t.isEmpty

theorem pieces_ne_nil (p : Char → Bool) (s : List Char) : pieces p s ≠ [] := by
  cases s with
  | nil => simp [pieces]
  | cons c s => unfold pieces; split <;> simp

theorem pieces_prefix (p : Char → Bool) (t w : List Char) (h : ∀ c ∈ t, p c = false) :
    pieces p (t ++ w) = (t ++ (pieces p w).headD []) :: (pieces p w).tail := by
  induction t with
  | nil =>
    cases hw : pieces p w with
    | nil => exact absurd hw (pieces_ne_nil p w)
    | cons a b => simp [hw]
  | cons c t ih =>
    have hc : p c = false := h c (by simp)
    have := ih (fun x hx => h x (by simp [hx]))
    simp [pieces, hc, this]

theorem words_delims (p : Char → Bool) (d w : List Char) (h : ∀ c ∈ d, p c = true) :
    words p (d ++ w) = words p w := by
  induction d with
  | nil => rfl
  | cons c d ih =>
    have hc : p c = true := h c (by simp)
    have := ih (fun x hx => h x (by simp [hx]))
    simp only [words, List.cons_append, pieces, hc, if_true] at *
    simpa using this

theorem words_word (p : Char → Bool) (t : List Char) (c : Char) (v : List Char) (ht : t ≠ [])
    (h : ∀ x ∈ t, p x = false) (hc : p c = true) :
    words p (t ++ c :: v) = t :: words p (c :: v) := by
  unfold words
  rw [pieces_prefix p t _ h]
  cases t with
  | nil => exact absurd rfl ht
  | cons x t => simp [pieces, hc]

theorem words_last (p : Char → Bool) (t : List Char) (ht : t ≠ []) (h : ∀ x ∈ t, p x = false) :
    words p t = [t] := by
  unfold words
  have := pieces_prefix p t [] h
  simp only [List.append_nil] at this
  rw [this]
  cases t with
  | nil => exact absurd rfl ht
  | cons x t => simp [pieces]

theorem words_nil (p : Char → Bool) (d : List Char) (h : ∀ c ∈ d, p c = true) : words p d = [] := by
  have := words_delims p d [] h
  rw [List.append_nil] at this
  rw [this]; rfl

theorem findIdx?_split (p : Char → Bool) :
    ∀ (r : List Char) (i : Nat), r.findIdx? p = some i →
      ∃ u c v, r = u ++ c :: v ∧ u.length = i ∧ (∀ x ∈ u, p x = false) ∧ p c = true := by
  intro r
  induction r with
  | nil => intro i h; simp at h
  | cons x r ih =>
    intro i h
    rw [List.findIdx?_cons] at h
    split at h
    · rename_i hx
      cases h
      exact ⟨[], x, r, rfl, rfl, by simp, hx⟩
    · rename_i hx
      cases hr : r.findIdx? p with
      | none => rw [hr] at h; simp at h
      | some j =>
        rw [hr] at h
        simp at h
        obtain ⟨u, c, v, h1, h2, h3, h4⟩ := ih j hr
        refine ⟨x :: u, c, v, by simp [h1], by simp [h2, h], ?_, h4⟩
        intro y hy
        rcases List.mem_cons.mp hy with rfl | hy
        · simpa using hx
        · exact h3 y hy

theorem findFrom_some {p : Char → Bool} {s : List Char} {k i : Nat}
    (h : findFrom p s (some k) = some i) :
    ∃ u c v, s.drop k = u ++ c :: v ∧ i = k + u.length ∧ (∀ x ∈ u, p x = false) ∧ p c = true ∧
      s.drop i = c :: v := by
  unfold findFrom at h
  simp only [Option.bind_some, Option.map_eq_some_iff] at h
  obtain ⟨j, hj, hi⟩ := h
  obtain ⟨u, c, v, h1, h2, h3, h4⟩ := findIdx?_split p _ _ hj
  refine ⟨u, c, v, h1, by omega, h3, h4, ?_⟩
  rw [← hi, ← List.drop_drop, h1, ← h2, List.drop_left]

theorem findFrom_none {p : Char → Bool} {s : List Char} {k : Nat}
    (h : findFrom p s (some k) = none) : ∀ x ∈ s.drop k, p x = false := by
  unfold findFrom at h
  simp only [Option.bind_some, Option.map_eq_none_iff, List.findIdx?_eq_none_iff] at h
  exact h

theorem tokLoop_spec (p : Char → Bool) (s : List Char) :
    ∀ (fuel k : Nat) (acc : List (List Char)), (s.drop k).length < fuel →
      tokLoop p s fuel (findFrom (fun c => !p c) s (some k))
          (findFrom p s (findFrom (fun c => !p c) s (some k))) acc =
        some (.ok (acc ++ words p (s.drop k))) := by
  intro fuel
  induction fuel with
  | zero => intro k acc h; exact absurd h (by omega)
  | succ fuel ih =>
    intro k acc hf
    cases ha : findFrom (fun c => !p c) s (some k) with
    | none =>
      have hall : ∀ x ∈ s.drop k, p x = true := by
        intro x hx
        simpa using findFrom_none ha x hx
      simp [tokLoop, findFrom, words_nil p _ hall]
    | some a =>
      obtain ⟨u, c, v, h1, h2, h3, h4, h5⟩ := findFrom_some ha
      have hu : ∀ x ∈ u, p x = true := by intro x hx; simpa using h3 x hx
      have hc : p c = false := by simpa using h4
      have hlen : ¬ s.length < a := by
        intro hlt
        rw [List.drop_eq_nil_of_le (by omega)] at h5
        cases h5
      have hw : words p (s.drop k) = words p (c :: v) := by rw [h1, words_delims p u _ hu]
      cases hb : findFrom p s (some a) with
      | none =>
        have hnone := findFrom_none hb
        rw [h5] at hnone
        have hl : words p (c :: v) = [c :: v] := words_last p _ (by simp) hnone
        rw [hw, hl]
        cases fuel with
        | zero => rw [h1] at hf; simp at hf
        | succ f => simp [tokLoop, substr, hlen, h5, findFrom]
      | some e =>
        obtain ⟨t, c', v', g1, g2, g3, g4, g5⟩ := findFrom_some hb
        have ht : t ≠ [] := by
          intro h0
          rw [h0, h5] at g1
          simp at g1
          rw [g1.1, g4] at hc
          cases hc
        have hrec := ih e (acc ++ [t]) (by
          have e1 : (s.drop k).length = u.length + (s.drop a).length := by rw [h1, h5]; simp
          have e2 : (s.drop a).length = t.length + (s.drop e).length := by rw [g1, g5]; simp
          have e3 : 0 < t.length := List.length_pos_iff.mpr ht
          omega)
        have hsub : substr s (some a) (some e) = .ok t := by
          simp [substr, hlen, g1, g2]
        unfold tokLoop
        rw [if_pos (by simp), hsub]
        dsimp only
        rw [hrec, hw, ← h5, g1, words_word p t c' v' ht g3 g4, g5]
        simp

theorem pieces_flatten (p : Char → Bool) (s : List Char) :
    (pieces p s).flatten = s.filter fun c => !p c := by
  induction s with
  | nil => rfl
  | cons c s ih =>
    unfold pieces
    cases hp : pieces p s with
    | nil => exact absurd hp (pieces_ne_nil p s)
    | cons a b =>
      rw [hp] at ih
      split
      · rename_i hc; simp at ih; simp [hc, ih]
      · rename_i hc; simp at ih; simp [hc, ih]

theorem pieces_no_delim (p : Char → Bool) (s : List Char) :
    ∀ t ∈ pieces p s, ∀ c ∈ t, p c = false := by
  induction s with
  | nil => intro t ht; simp [pieces] at ht; simp [ht]
  | cons x s ih =>
    intro t ht c hc
    unfold pieces at ht
    cases hp : pieces p s with
    | nil => exact absurd hp (pieces_ne_nil p s)
    | cons a b =>
      rw [hp] at ih ht
      split at ht
      · rcases List.mem_cons.mp ht with rfl | ht
        · simp at hc
        · exact ih t ht c hc
      · rename_i hx
        simp at ht
        rcases ht with rfl | ht
        · rcases List.mem_cons.mp hc with rfl | hc
          · simpa using hx
          · exact ih a (by simp) c hc
        · exact ih t (by simp [ht]) c hc

theorem flatten_filter_nonempty (l : List (List Char)) :
    (l.filter fun t => !t.isEmpty).flatten = l.flatten := by
  induction l with
  | nil => rfl
  | cons a l ih => cases a <;> simp_all

theorem joinLoop_eq (d : List Char) (t : List Char) (ts : List (List Char)) (buf : List Char) :
    joinLoop d t ts buf = buf ++ (t ++ (ts.map (d ++ ·)).flatten) := by
  induction ts generalizing t buf with
  | nil => simp [joinLoop]
  | cons x ts ih => simp [joinLoop, ih]

/-- C26: `tokenize` always ends, without error, and gives exactly the non-empty pieces between
delimiters.  The number of loop iterations is at most the length of the text plus one. -/
theorem C26_tokenize_is_words (s delims : List Char) (fuel : Nat) (hf : s.length < fuel) :
    tokenize fuel s delims = some (.ok (words delims.contains s)) := by
  have := tokLoop_spec delims.contains s fuel 0 [] (by simpa using hf)
  simpa [tokenize] using this

/-- C26: the tokens are not empty, contain no delimiter, and are in order what is left of the text
when the delimiters are taken away. -/
theorem C26_tokens_drop_only_delimiters (s delims : List Char) (fuel : Nat) (hf : s.length < fuel) :
    ∃ ts, tokenize fuel s delims = some (.ok ts) ∧
      (∀ t ∈ ts, t ≠ [] ∧ ∀ c ∈ t, c ∉ delims) ∧
      ts.flatten = s.filter fun c => decide (c ∉ delims) := by
  refine ⟨_, C26_tokenize_is_words s delims fuel hf, ?_, ?_⟩
  · intro t ht
    unfold words at ht
    rw [List.mem_filter] at ht
    refine ⟨by rintro rfl; simp at ht, ?_⟩
    intro c hc
    have := pieces_no_delim _ _ t ht.1 c hc
    simpa using this
  · unfold words
    rw [flatten_filter_nonempty, pieces_flatten]
    congr 1
    funext c
    simp

example : tokenize 100 ",,ab, c,".toList ", ".toList = some (.ok ["ab".toList, "c".toList]) := by decide
example : tokenize 100 "ab".toList [] = some (.ok ["ab".toList]) := by decide
example : tokenize 100 ", ,".toList ", ".toList = some (.ok []) := by decide

/-- C26: joining non-empty, delimiter-free tokens with delimiter text and tokenizing gives the tokens
back. -/
theorem C26_tokenize_of_join (ts : List (List Char)) (d delims : List Char) (fuel : Nat)
    (hf : (join ts d).length < fuel)
    (hts : ∀ t ∈ ts, t ≠ [] ∧ ∀ c ∈ t, c ∉ delims) (hd : d ≠ []) (hdd : ∀ c ∈ d, c ∈ delims) :
    tokenize fuel (join ts d) delims = some (.ok ts) := by
  rw [C26_tokenize_is_words _ _ _ hf]
  congr 2
  cases ts with
  | nil => rfl
  | cons t ts =>
    simp only [join, joinLoop_eq, List.nil_append]
    clear hf
    induction ts generalizing t with
    | nil =>
      simp only [List.map_nil, List.flatten_nil, List.append_nil]
      have h := hts t (by simp)
      exact words_last _ t h.1 (fun c hc => by simpa using h.2 c hc)
    | cons t2 ts ih =>
      have h := hts t (by simp)
      cases d with
      | nil => exact absurd rfl hd
      | cons c d =>
        have := ih t2 (fun x hx => hts x (by simp at hx ⊢; tauto))
        rw [List.map_cons, List.flatten_cons,
          show (c :: d ++ t2 ++ (ts.map fun x => c :: d ++ x).flatten) =
            c :: (d ++ t2 ++ (ts.map fun x => c :: d ++ x).flatten) from rfl]
        rw [words_word _ t c _ h.1 (fun x hx => by simpa using h.2 x hx) (by simpa using hdd c (by simp))]
        rw [show c :: (d ++ t2 ++ (ts.map fun x => c :: d ++ x).flatten) =
          (c :: d) ++ (t2 ++ (ts.map fun x => c :: d ++ x).flatten) by simp]
        rw [words_delims _ (c :: d) _ (fun x hx => by simpa using hdd x hx)]
        rw [this]

example : join ["ab".toList, "c".toList, "d".toList] ", ".toList = "ab, c, d".toList := by decide

theorem splitLoop_spec (p : Char → Bool) (s : List Char) :
    ∀ (fuel k : Nat) (acc : List (List Char)), k ≤ s.length → (s.drop k).length < fuel →
      splitLoop p s fuel k acc = some (.ok (acc ++ pieces p (s.drop k))) := by
  intro fuel
  induction fuel with
  | zero => intro k acc _ h; exact absurd h (by omega)
  | succ fuel ih =>
    intro k acc hk hf
    unfold splitLoop
    cases hb : findFrom p s (some k) with
    | none =>
      have hnone := findFrom_none hb
      have := pieces_prefix p (s.drop k) [] hnone
      simp only [List.append_nil] at this
      have hk' : ¬ s.length < k := by omega
      simp only [substr, if_neg hk']
      rw [this]
      simp [pieces]
    | some e =>
      obtain ⟨t, c, v, g1, g2, g3, g4, g5⟩ := findFrom_some hb
      have hk' : ¬ s.length < k := by omega
      have hsub : substr s (some k) (some e) = .ok t := by simp [substr, hk', g1, g2]
      have hel : s.drop (e + 1) = v := by rw [← List.drop_drop, g5]; rfl
      have hle : e + 1 ≤ s.length := by
        have := congrArg List.length g5
        simp at this
        omega
      simp only [hsub]
      rw [ih (e + 1) (acc ++ [t]) hle (by rw [hel]; rw [g1] at hf; simp at hf ⊢; omega), hel, g1,
        pieces_prefix p t _ g3]
      simp [pieces, g4]

/-- C26: `split_any` cuts the text at every delimiter, keeping empty pieces. -/
theorem C26_split_any_is_pieces (s delims : List Char) (fuel : Nat) (hf : s.length < fuel) :
    splitAny fuel s delims = some (.ok (pieces delims.contains s)) := by
  have := splitLoop_spec delims.contains s fuel 0 [] (by omega) (by simpa using hf)
  simpa [splitAny] using this

/-- C26: splitting at one character and joining with it gives the text back. -/
theorem C26_join_of_split (s : List Char) (c : Char) (fuel : Nat) (hf : s.length < fuel) :
    ∃ ts, splitAny fuel s [c] = some (.ok ts) ∧ join ts [c] = s := by
  refine ⟨_, C26_split_any_is_pieces s [c] fuel hf, ?_⟩
  clear hf
  induction s with
  | nil => rfl
  | cons x s ih =>
    unfold pieces
    cases hp : pieces [c].contains s with
    | nil => exact absurd hp (pieces_ne_nil _ s)
    | cons a b =>
      rw [hp] at ih
      simp only [join, joinLoop_eq, List.nil_append] at ih
      split
      · rename_i hx
        have hx : x = c := by simpa using hx
        simp only [join, joinLoop_eq, List.nil_append, List.map_cons, List.flatten_cons]
        rw [List.append_assoc, ih, hx]
        rfl
      · simp only [join, joinLoop_eq, List.nil_append, List.headD_cons, List.tail_cons,
          List.cons_append]
        rw [← ih]
        simp

/-- C26: joining delimiter-free pieces (at least one, possibly empty) with one delimiter and
splitting gives the pieces back. -/
theorem C26_split_of_join (ts : List (List Char)) (c : Char) (delims : List Char) (fuel : Nat)
    (hf : (join ts [c]).length < fuel) (hne : ts ≠ [])
    (hts : ∀ t ∈ ts, ∀ x ∈ t, x ∉ delims) (hc : c ∈ delims) :
    splitAny fuel (join ts [c]) delims = some (.ok ts) := by
  rw [C26_split_any_is_pieces _ _ _ hf]
  congr 2
  cases ts with
  | nil => exact absurd rfl hne
  | cons t ts =>
    simp only [join, joinLoop_eq, List.nil_append]
    clear hf hne
    induction ts generalizing t with
    | nil =>
      rw [pieces_prefix _ t _ (fun x hx => by simpa using hts t (by simp) x hx)]
      simp [pieces]
    | cons t2 ts ih =>
      have := ih t2 (fun x hx => hts x (by simp at hx ⊢; tauto))
      rw [pieces_prefix _ t _ (fun x hx => by simpa using hts t (by simp) x hx)]
      have hc' : delims.contains c = true := by simpa using hc
      simp only [List.map_cons, List.flatten_cons, List.cons_append, List.nil_append, pieces, hc',
        if_true, List.headD_cons, List.append_nil, List.tail_cons]
      rw [← this]
      rfl

example : splitAny 100 "a,,b,".toList ",".toList = some (.ok ["a".toList, [], "b".toList, []]) := by decide

/-! ## C28: indexed string lists -/

/-- Every stored index addresses its string. -/
def StringList.Sound (l : StringList) : Prop := ∀ k i, l.indexes k = some i → l.strings[i]? = some k

theorem indexFrom_sound (all ss : List String) (i : Nat) (m : String → Option Nat)
    (hss : all.drop i = ss) (hm : ∀ k j, m k = some j → all[j]? = some k) :
    ∀ k j, indexFrom ss i m k = some j → all[j]? = some k := by
  induction ss generalizing i m with
  | nil => exact hm
  | cons s ss ih =>
    intro k j h
    refine ih (i + 1) _ ?_ ?_ k j h
    · rw [← List.drop_drop, hss]; rfl
    · intro k' j' h'
      split at h'
      · rename_i hk
        cases h'
        have : (all.drop i)[0]? = some s := by rw [hss]; rfl
        rw [List.getElem?_drop] at this
        simpa [hk] using this
      · exact hm k' j' h'

theorem indexFrom_ge (ss : List String) (i b : Nat) (m : String → Option Nat) (hb : b ≤ i)
    (hm : ∀ k j, m k = some j → b ≤ j) : ∀ k j, indexFrom ss i m k = some j → b ≤ j := by
  induction ss generalizing i m with
  | nil => exact hm
  | cons s ss ih =>
    refine ih (i + 1) _ (by omega) ?_
    intro k j h
    split at h
    · cases h; exact hb
    · exact hm k j h

theorem sound_add {l : StringList} (h : l.Sound) (k : String) : (l.add k).1.Sound := by
  unfold StringList.add
  split
  · intro k' i hi
    dsimp only at hi ⊢
    split at hi
    · rename_i hk
      cases hi
      simp [hk]
    · have := h k' i hi
      rw [List.getElem?_append_left]
      · exact this
      · exact (List.getElem?_eq_some_iff.mp this).1
  · exact h

theorem add_at {l : StringList} (h : l.Sound) (k : String) :
    (l.add k).1.strings[(l.add k).2]? = some k ∧ (l.add k).1.indexes k = some (l.add k).2 := by
  unfold StringList.add
  split
  · simp
  · rename_i i hi
    exact ⟨h k i hi, hi⟩

/-- Adding keeps all strings at their places and all stored indices. -/
theorem add_stable (l : StringList) (k : String) :
    (∃ t, (l.add k).1.strings = l.strings ++ t) ∧
      ∀ k' i, l.indexes k' = some i → (l.add k).1.indexes k' = some i := by
  unfold StringList.add
  split
  · rename_i hn
    refine ⟨⟨[k], rfl⟩, ?_⟩
    intro k' i h
    dsimp only
    by_cases hk : k' = k
    · rw [hk, hn] at h; cases h
    · rw [if_neg hk]; exact h
  · exact ⟨⟨[], by simp⟩, fun _ _ h => h⟩

theorem addAll_stable (l : StringList) (ks : List String) :
    (∃ t, (l.addAll ks).1.strings = l.strings ++ t) ∧
      ∀ k' i, l.indexes k' = some i → (l.addAll ks).1.indexes k' = some i := by
  induction ks generalizing l with
  | nil => exact ⟨⟨[], by simp [StringList.addAll]⟩, fun _ _ h => h⟩
  | cons k ks ih =>
    obtain ⟨⟨t, ht⟩, h2⟩ := add_stable l k
    obtain ⟨⟨t', ht'⟩, h3⟩ := ih (l.add k).1
    refine ⟨⟨t ++ t', ?_⟩, fun k' i h => h3 k' i (h2 k' i h)⟩
    simp only [StringList.addAll]
    rw [ht', ht, List.append_assoc]

theorem addAll_spec (l : StringList) (h : l.Sound) (ks : List String) :
    (l.addAll ks).1.Sound ∧ (l.addAll ks).2.length = ks.length ∧
      ∀ (n : Nat) (k : String), ks[n]? = some k →
        ∃ i, (l.addAll ks).2[n]? = some i ∧ (l.addAll ks).1.indexes k = some i := by
  induction ks generalizing l with
  | nil => exact ⟨h, rfl, by simp⟩
  | cons a ks ih =>
    obtain ⟨i1, i2, i3⟩ := ih (l.add a).1 (sound_add h a)
    refine ⟨i1, by simp [StringList.addAll, i2], ?_⟩
    intro n k hn
    cases n with
    | zero =>
      simp at hn
      subst hn
      refine ⟨(l.add a).2, by simp [StringList.addAll], ?_⟩
      exact (addAll_stable (l.add a).1 ks).2 _ _ (add_at h a).2
    | succ n =>
      simp at hn
      obtain ⟨i, hi1, hi2⟩ := i3 n k hn
      exact ⟨i, by simpa [StringList.addAll] using hi1, hi2⟩

/-- How a list can be created. -/
inductive Created : StringList → Prop
  | empty (b : Bool) : Created (.empty b)
  | ofVector (ss : List String) (b : Bool) : Created (.ofVector ss b)

theorem created_sound {l : StringList} (h : Created l) : l.Sound := by
  cases h with
  | empty b => intro k i h; cases h
  | ofVector ss b =>
    cases b with
    | false => exact indexFrom_sound ss ss 0 _ rfl (by simp)
    | true => exact indexFrom_sound ss (ss.drop 1) 1 _ rfl (by simp)

/-- C28: after any sequence of additions to a list created in any way, and any further additions, the
index returned for each string addresses that string. -/
theorem C28_index_addresses_string (l : StringList) (h : Created l) (ks later : List String) (n : Nat)
    (k : String) (hk : ks[n]? = some k) :
    ∃ i, (l.addAll ks).2[n]? = some i ∧
      (l.addAll ks).1.strings[i]? = some k ∧ ((l.addAll ks).1.addAll later).1.strings[i]? = some k := by
  obtain ⟨h1, -, h3⟩ := addAll_spec l (created_sound h) ks
  obtain ⟨i, hi1, hi2⟩ := h3 n k hk
  have hat := h1 k i hi2
  refine ⟨i, hi1, hat, ?_⟩
  obtain ⟨⟨t, ht⟩, -⟩ := addAll_stable (l.addAll ks).1 later
  rw [ht, List.getElem?_append_left (List.getElem?_eq_some_iff.mp hat).1]
  exact hat

/-- C28: two additions return the same index exactly if the strings are equal. -/
theorem C28_equal_index_iff_equal_string (l : StringList) (h : Created l) (ks : List String)
    (m n : Nat) (a b : String) (ha : ks[m]? = some a) (hb : ks[n]? = some b) :
    (l.addAll ks).2[m]? = (l.addAll ks).2[n]? ↔ a = b := by
  obtain ⟨h1, -, h3⟩ := addAll_spec l (created_sound h) ks
  obtain ⟨i, hi1, hi2⟩ := h3 m a ha
  obtain ⟨j, hj1, hj2⟩ := h3 n b hb
  rw [hi1, hj1]
  constructor
  · intro he
    have he : i = j := Option.some.inj he
    have e1 := h1 a i hi2
    have e2 := h1 b j hj2
    rw [← he, e1] at e2
    exact Option.some.inj e2
  · rintro rfl
    rw [hi2] at hj2
    exact hj2

/-- All stored indices are at least `b`, and so will be the next one. -/
def StringList.From (l : StringList) (b : Nat) : Prop :=
  b ≤ l.strings.length ∧ ∀ k i, l.indexes k = some i → b ≤ i

theorem addAll_from (l : StringList) (b : Nat) (h : l.From b) (ks : List String) :
    ∀ i ∈ (l.addAll ks).2, b ≤ i := by
  induction ks generalizing l with
  | nil => simp [StringList.addAll]
  | cons k ks ih =>
    have hadd : (l.add k).1.From b ∧ b ≤ (l.add k).2 := by
      unfold StringList.add
      split
      · refine ⟨⟨by simpa using Nat.le_succ_of_le h.1, ?_⟩, h.1⟩
        intro k' i hi
        dsimp only at hi
        split at hi
        · cases hi; exact h.1
        · exact h.2 k' i hi
      · rename_i i hi
        exact ⟨h, h.2 k i hi⟩
    intro i hi
    simp only [StringList.addAll, List.mem_cons] at hi
    rcases hi with rfl | hi
    · exact hadd.2
    · exact ih _ hadd.1 i hi

/-- C28: with `no_index_0` the index 0 is never returned, if the list is created empty or from at
least one string. -/
theorem C28_no_index_zero (ss : List String) (hss : ss ≠ []) (ks : List String) :
    0 ∉ ((StringList.empty true).addAll ks).2 ∧ 0 ∉ ((StringList.ofVector ss true).addAll ks).2 := by
  constructor
  · intro h0
    have := addAll_from (.empty true) 1 ⟨by simp [StringList.empty], by simp [StringList.empty]⟩ ks 0 h0
    omega
  · intro h0
    have hl : 1 ≤ ss.length := List.length_pos_iff.mpr hss
    have := addAll_from (.ofVector ss true) 1
      ⟨hl, indexFrom_ge _ 1 1 _ (by omega) (by simp)⟩ ks 0 h0
    omega

/-- C28: created from an empty vector with `no_index_0`, the first addition does return index 0
(src/StringUtils.cc:142-148 adds no dummy string). -/
theorem C28_index_zero_returned : ((StringList.ofVector [] true).addAll ["x"]).2 = [0] := by decide

example : ((StringList.ofVector ["a", "b", "a"] false).addAll ["a", "c", "b", "c"]).2 = [2, 3, 1, 3] := by
  decide
example : ((StringList.empty true).addAll ["", "b", ""]).2 = [1, 2, 1] := by decide

/-! ## C65: trimming, prefix and suffix tests, escaping -/

theorem findLast_some {p : Char → Bool} {s : List Char} {i : Nat} (h : findLast p s = some i) :
    ∃ u c v, s = u ++ c :: v ∧ u.length = i ∧ p c = true ∧ ∀ x ∈ v, p x = false := by
  unfold findLast at h
  simp only [Option.map_eq_some_iff] at h
  obtain ⟨j, hj, hi⟩ := h
  obtain ⟨u, c, v, h1, h2, h3, h4⟩ := findIdx?_split p _ _ hj
  have hs : s = v.reverse ++ c :: u.reverse := by
    have := congrArg List.reverse h1
    simpa using this
  refine ⟨v.reverse, c, u.reverse, hs, ?_, h4, by simpa using h3⟩
  rw [← hi, hs]
  simp
  omega

/-- C65: `trim` removes exactly the leading and the trailing white space: the text is the result with
white space before and after it, and the result neither begins nor ends with white space. -/
theorem C65_trim_removes_outer_whitespace (s ws : List Char) :
    ∃ a t b, trim s ws = .ok t ∧ s = a ++ t ++ b ∧ (∀ c ∈ a, c ∈ ws) ∧ (∀ c ∈ b, c ∈ ws) ∧
      (∀ c ∈ t.head?, c ∉ ws) ∧ (∀ c ∈ t.getLast?, c ∉ ws) := by
  unfold trim
  cases hb : findFrom (fun c => !ws.contains c) s (some 0) with
  | none =>
    refine ⟨s, [], [], rfl, by simp, ?_, by simp, by simp, by simp⟩
    intro c hc
    simpa using findFrom_none hb c (by simpa using hc)
  | some b =>
    obtain ⟨u, c, v, h1, h2, h3, h4, h5⟩ := findFrom_some hb
    simp only [List.drop_zero] at h1
    cases he : findLast (fun c => !ws.contains c) s with
    | none =>
      exfalso
      unfold findLast at he
      simp only [Option.map_eq_none_iff, List.findIdx?_eq_none_iff] at he
      have := he c (by rw [h1]; simp)
      rw [h4] at this
      cases this
    | some e =>
      obtain ⟨u', c', v', g1, g2, g3, g4⟩ := findLast_some he
      have hle : b ≤ e := by
        by_contra hlt
        have hlt : e < b := by omega
        have h6 : s[e]? = some c' := by rw [g1, ← g2]; simp
        rw [h1, List.getElem?_append_left (by omega)] at h6
        have := h3 c' (List.mem_of_getElem? h6)
        rw [g3] at this
        cases this
      have hlen : ¬ s.length < b := by
        rw [h1]; simp; omega
      refine ⟨u, (s.drop b).take (e + 1 - b), v', ?_, ?_, ?_, ?_, ?_, ?_⟩
      · simp [substr, hlen]
      · have hu : u = s.take b := by rw [h1, h2]; simp
        have hv : v' = s.drop (e + 1) := by
          rw [g1, ← g2]; simp
        rw [hu, hv]
        have e2 : s.drop (e + 1) = (s.drop b).drop (e + 1 - b) := by
          rw [List.drop_drop]; congr 1; omega
        rw [e2, List.append_assoc, List.take_append_drop, List.take_append_drop]
      · intro x hx; simpa using h3 x hx
      · intro x hx; simpa using g4 x hx
      · intro x hx
        rw [h5, show e + 1 - b = (e - b) + 1 by omega, List.take_succ_cons] at hx
        simp at hx
        subst hx
        simpa using h4
      · intro x hx
        have hdrop : s.drop b = u'.drop b ++ c' :: v' := by
          rw [g1, List.drop_append_of_le_length (by omega)]
        have htake : (s.drop b).take (e + 1 - b) = u'.drop b ++ [c'] := by
          rw [hdrop]
          rw [show e + 1 - b = (u'.drop b).length + 1 by rw [List.length_drop]; omega]
          rw [List.take_length_add_append]
          rfl
        rw [htake] at hx
        simp at hx
        subst hx
        simpa using g3

example : trim " \ta b\n".toList " \t\n\r".toList = .ok "a b".toList := by decide

/-- C65: the prefix test is exact and never fails. -/
theorem C65_starts_with (txt start : List Char) :
    ∃ b, startsWith txt start = .ok b ∧ (b = true ↔ ∃ r, txt = start ++ r) := by
  unfold startsWith startsOrEndsWith
  by_cases h0 : start = []
  · exact ⟨true, by rw [if_pos h0], by simp [h0]⟩
  · rw [if_neg h0]
    by_cases hl : txt.length < start.length
    · refine ⟨false, by rw [if_pos hl], ?_⟩
      simp only [Bool.false_eq_true, false_iff]
      rintro ⟨r, rfl⟩
      simp at hl
      omega
    · rw [if_neg hl, if_neg (by omega)]
      refine ⟨_, rfl, ?_⟩
      simp only [List.drop_zero, decide_eq_true_eq]
      constructor
      · intro h
        exact ⟨txt.drop start.length, by conv_lhs => rw [← List.take_append_drop start.length txt, h]⟩
      · rintro ⟨r, rfl⟩
        simp

/-- C65: the suffix test is exact and never fails. -/
theorem C65_ends_with (txt end_ : List Char) :
    ∃ b, endsWith txt end_ = .ok b ∧ (b = true ↔ ∃ r, txt = r ++ end_) := by
  unfold endsWith startsOrEndsWith
  by_cases h0 : end_ = []
  · exact ⟨true, by rw [if_pos h0], by simp [h0]⟩
  · rw [if_neg h0]
    by_cases hl : txt.length < end_.length
    · refine ⟨false, by rw [if_pos hl], ?_⟩
      simp only [Bool.false_eq_true, false_iff]
      rintro ⟨r, rfl⟩
      simp at hl
      omega
    · rw [if_neg hl, if_neg (by omega)]
      refine ⟨_, rfl, ?_⟩
      simp only [decide_eq_true_eq]
      rw [List.take_of_length_le (by rw [List.length_drop]; omega)]
      constructor
      · intro h
        exact ⟨txt.take (txt.length - end_.length),
          by conv_lhs => rw [← List.take_append_drop (txt.length - end_.length) txt, h]⟩
      · rintro ⟨r, rfl⟩
        simp

example : endsWith "file.nc".toList ".nc".toList = .ok true := by decide
example : startsWith "a".toList "ab".toList = .ok false := by decide

/-- The characters with a meaning in a regular expression (ECMAScript grammar). -/
def isOperator : Char → Bool
  | '^' | '$' | '\\' | '.' | '*' | '+' | '?' | '(' | ')' | '[' | ']' | '{' | '}' | '|' => true
  | _ => false

/-- Reading a regular expression without operators: a backslash quotes the next character, any other
special character is an operator (`none`). -/
def unescape : List Char → Option (List Char)
  | [] => some []
  | [c] => if isOperator c then none else some [c]
  | c :: c' :: s =>
    if c = '\\' then (unescape s).map (c' :: ·)
    else if isOperator c then none
    else (unescape (c' :: s)).map (c :: ·)

theorem isOperator_eq (c : Char) : isOperator c = escapeThese.contains c := by
  have h : escapeThese = ['*', '?', '\\', '+', '.', '(', ')', '[', ']', '{', '}', '|', '^', '$'] := by decide
  rw [h, Bool.eq_iff_iff, List.contains_iff_mem]
  unfold isOperator
  constructor
  · intro hc
    split at hc <;> first | (exact absurd hc Bool.false_ne_true) | simp
  · intro hc
    simp only [List.mem_cons, List.not_mem_nil, or_false] at hc
    rcases hc with rfl | rfl | rfl | rfl | rfl | rfl | rfl | rfl | rfl | rfl | rfl | rfl | rfl | rfl <;> rfl

theorem unescape_cons (c : Char) (h : isOperator c = false) (s : List Char) :
    unescape (c :: s) = (unescape s).map (c :: ·) := by
  have hc : c ≠ '\\' := by rintro rfl; revert h; decide
  cases s with
  | nil =>
    show (if isOperator c = true then none else some [c]) = _
    rw [if_neg (by rw [h]; decide)]; rfl
  | cons a s => rw [unescape, if_neg hc, if_neg (by rw [h]; decide)]

/-- C65: an escaped text, read as a regular expression, has no operators and stands for exactly the
original text. -/
theorem C65_regex_escape_quotes (s : List Char) : unescape (regexEscape s) = some s := by
  induction s with
  | nil => rfl
  | cons c s ih =>
    unfold regexEscape
    by_cases hc : escapeThese.contains c = true
    · rw [if_pos hc]
      simp [unescape, ih]
    · rw [if_neg hc, unescape_cons c (by rw [isOperator_eq]; simpa using hc), ih]
      rfl

example : regexEscape "a.b*".toList = "a\\.b\\*".toList := by decide

end Fimex.Text
