import Verif.Ncml.Write
import Verif.Ncml.DocLemmas

/-! # Lemmas: NcML documents written -/

namespace Fimex.NcmlWrite

open Cdm Tables NcmlDoc
open Fimex.Text (join tokenize)

variable {F : Type}

/-! ## Texts -/

theorem escape_all (s : List Char) : escapeXml s = s.flatMap escapeChar := by
  unfold escapeXml
  split
  · rfl
  · rename_i h
    induction s with
    | nil => rfl
    | cons c s ih =>
      simp only [List.any_cons, Bool.or_eq_true, not_or] at h
      rw [List.flatMap_cons, ← ih h.2]
      have hc : escapeChar c = [c] := by
        have := h.1
        simp only [List.contains_iff_mem] at this
        have h5 : ∀ d ∈ "&<>\"'".toList, c ≠ d := fun d hd e => this (e ▸ hd)
        unfold escapeChar
        rw [if_neg (h5 _ (by decide)), if_neg (h5 _ (by decide)), if_neg (h5 _ (by decide)), if_neg (h5 _ (by decide)), if_neg (h5 _ (by decide))]
      rw [hc]
      rfl

/-- Escaping leaves line ends alone. -/
theorem escapeChar_cases (c : Char) : (escapeChar c = [c] ∧ c ≠ '&' ∧ c ≠ '<' ∧ c ≠ '>' ∧ c ≠ '"' ∧ c ≠ '\'') ∨
    ∃ n, escapeChar c = '&' :: (n ++ [';']) ∧ entity n = some c ∧ (∀ x ∈ n, x ≠ ';' ∧ x ≠ '\r' ∧ x ≠ '\n') ∧ c ≠ '\r' ∧ c ≠ '\n' ∧ c ≠ '\t' := by
  unfold escapeChar
  by_cases h1 : c = '&'
  · subst h1; exact Or.inr ⟨"amp".toList, rfl, rfl, by decide, by decide⟩
  rw [if_neg h1]
  by_cases h2 : c = '<'
  · subst h2; exact Or.inr ⟨"lt".toList, rfl, rfl, by decide, by decide⟩
  rw [if_neg h2]
  by_cases h3 : c = '>'
  · subst h3; exact Or.inr ⟨"gt".toList, rfl, rfl, by decide, by decide⟩
  rw [if_neg h3]
  by_cases h4 : c = '"'
  · subst h4; exact Or.inr ⟨"quot".toList, rfl, rfl, by decide, by decide⟩
  rw [if_neg h4]
  by_cases h5 : c = '\''
  · subst h5; exact Or.inr ⟨"apos".toList, rfl, rfl, by decide, by decide⟩
  rw [if_neg h5]
  exact Or.inl ⟨rfl, h1, h2, h3, h4, h5⟩

theorem lineEnds_append {n : List Char} (s : List Char) (h : ∀ x ∈ n, x ≠ '\r') : lineEnds (n ++ s) = n ++ lineEnds s := by
  induction n with
  | nil => rfl
  | cons c n ih =>
    rw [List.cons_append, List.cons_append, ← ih fun x hx => h x (by simp [hx])]
    have := h c (by simp)
    rw [lineEnds]
    · exact fun _ e _ => this e
    · exact this

theorem lineEnds_plain {s : List Char} (h : ∀ x ∈ s, x ≠ '\r') : lineEnds s = s := by
  have := lineEnds_append [] h
  simpa [lineEnds] using this

theorem decode_entity (stop : Char → Bool) (f : Char → Char) : ∀ (n m s : List Char), (∀ x ∈ m, x ≠ ';') →
    decodeLoop stop f (some n) (m ++ ';' :: s) = (match entity (n ++ m) with | some e => (decodeLoop stop f none s).map (e :: ·) | none => none)
  | n, [], s, _ => by rw [List.nil_append, decodeLoop, if_pos rfl, List.append_nil]; rfl
  | n, c :: m, s, h => by
    rw [List.cons_append, decodeLoop, if_neg (h c (by simp)), decode_entity stop f (n ++ [c]) m s fun x hx => h x (by simp [hx])]
    simp

/-- What a parser gets of an escaped text. -/
theorem decode_escaped (s : List Char) (hs : ∀ c ∈ s, isXmlChar c = true) :
    decodeAttr (escapeXml s) = some ((lineEnds s).map toSpace) := by
  rw [escape_all]
  unfold decodeAttr
  induction s using lineEnds.induct with
  | case1 => rfl
  | case2 s ih =>
    have : ('\r' :: '\n' :: s).flatMap escapeChar = '\r' :: '\n' :: s.flatMap escapeChar := rfl
    rw [this, lineEnds, lineEnds, decodeLoop, if_neg (by decide), if_neg (by decide), ih fun c hc => hs c (by simp [hc])]
    rfl
  | case3 s h ih =>
    have h1 : ('\r' :: s).flatMap escapeChar = '\r' :: s.flatMap escapeChar := rfl
    have h2 : ∀ s', s.flatMap escapeChar ≠ '\n' :: s' := by
      intro s' e
      cases s with
      | nil => cases e
      | cons c s =>
        rw [List.flatMap_cons] at e
        rcases escapeChar_cases c with ⟨h1, -⟩ | ⟨n, h1, -⟩
        · rw [h1] at e
          cases e
          exact h _ rfl
        · rw [h1] at e
          cases e
    rw [h1, lineEnds, lineEnds, decodeLoop, if_neg (by decide), if_neg (by decide), ih fun c hc => hs c (by simp [hc])]
    · rfl
    · exact h
    · exact h2
  | case4 c s h1 h2 ih =>
    have ih := ih fun c hc => hs c (by simp [hc])
    rw [List.flatMap_cons]
    have hc : c ≠ '\r' := h2
    rcases escapeChar_cases c with ⟨h3, h4, h5, h6, h7, h8⟩ | ⟨n, h3, h4, h5, h6, h7, h8⟩
    · rw [h3, List.singleton_append]
      have e1 := lineEnds_append (n := [c]) (s.flatMap escapeChar) (by simpa using hc)
      have e2 := lineEnds_append (n := [c]) s (by simpa using hc)
      rw [List.singleton_append] at e1 e2
      rw [e1, e2, List.singleton_append, List.singleton_append, decodeLoop, if_neg h4, if_neg, ih]
      · rfl
      · simp [h5, h7, hs c (by simp)]
    · have e2 := lineEnds_append (n := [c]) s (by simpa using hc)
      rw [List.singleton_append] at e2
      rw [h3, lineEnds_append, e2, List.cons_append, List.append_assoc, decodeLoop, if_pos rfl]
      · rw [List.singleton_append, decode_entity _ _ _ _ _ fun x hx => (h5 x hx).1, List.nil_append, h4, ih]
        simp [toSpace, h6, h7, h8]
      · intro x hx
        simp only [List.mem_cons, List.mem_append, List.mem_nil_iff, or_false] at hx
        rcases hx with rfl | hx | rfl
        · decide
        · exact (h5 x hx).2.1
        · decide

end Fimex.NcmlWrite
