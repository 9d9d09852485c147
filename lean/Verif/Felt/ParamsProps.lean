import Verif.Felt.Params
import Mathlib.Data.List.Induction

/-!
# Parameters of the Felt reader (C129): properties

Specification: what the configuration says of a parameter, and that texts do not occur in others.
-/

namespace Fimex.FeltParams
open Fimex.Felt

variable {K : Type}

/-! ## Specification -/

/-- A text does not contain another. -/
def NotIn (w s : List Char) : Prop := ∀ x y, s ≠ x ++ w ++ y

/-- The part of the text with the fill value. -/
def fillPart (f : List Char) : List Char := if f ≠ [] then ":fillValue=".toList ++ f else []

/-- The part of the text with the restriction for all. -/
def globalPart (globals : Option (List Char)) : List Char := match globals with | some g => ':' :: g | none => []

/-- The first fill value that is given. -/
def Node.fill (n : Node) : List Char := n.fills.headD []

/-- Conditions on a parameter: a type is of small letters, fill values have no colon; the words that are put in between do not occur otherwise; the restriction for all is not
empty and occurs at the end only. -/
structure Plain (globals : Option (List Char)) (n : Node) : Prop where
  type : ∀ c ∈ n.type, isLower c = true
  fill : ':' ∉ n.fill
  noType : NotIn ":dataType=".toList n.id
  noTypeG : NotIn ":dataType=".toList (globalPart globals)
  noFill : NotIn "fillValue=".toList n.id
  noFillG : NotIn "fillValue=".toList (globalPart globals)
  once : ∀ g, globals = some g → g ≠ [] ∧ ∀ x y, n.id ++ fillPart n.fill ++ ':' :: g = x ++ g ++ y → y = []

/-! ## Texts -/

theorem behind_append (n s : List Char) : behind n (n ++ s) = some s := by
  induction n with
  | nil => rfl
  | cons x n ih => rw [List.cons_append, behind, if_pos rfl, ih]

theorem behind_some {n s r : List Char} (h : behind n s = some r) : s = n ++ r := by
  induction n generalizing s with
  | nil => simp only [behind, Option.some.injEq] at h; simp [h]
  | cons x n ih =>
    cases s with
    | nil => simp [behind] at h
    | cons c s =>
      rw [behind] at h
      by_cases e : x = c
      · rw [if_pos e] at h
        rw [ih h, e]; rfl
      · rw [if_neg e] at h; cases h

/-- Empty, or with a colon at the beginning. -/
def Colon (b : List Char) : Prop := b = [] ∨ ∃ b', b = ':' :: b'

theorem behind_none {w a b : List Char} (hw : ':' ∉ w.tail) (ha : a ≠ []) (hb : Colon b) (hn : NotIn w a) : behind w (a ++ b) = none := by
  cases e : behind w (a ++ b) with
  | none => rfl
  | some r =>
    exfalso
    rcases List.append_eq_append_iff.1 (behind_some e) with ⟨l, h1, h2⟩ | ⟨l, h1, h2⟩
    · rcases hb with rfl | ⟨b', rfl⟩
      · have hl : l = [] := (List.append_eq_nil_iff.1 h2.symm).1
        subst hl
        exact hn [] [] (by rw [h1]; simp)
      · cases l with
        | nil => exact hn [] [] (by rw [h1]; simp)
        | cons y l =>
          simp only [List.cons_append, List.cons.injEq] at h2
          cases a with
          | nil => exact ha rfl
          | cons c a => exact hw (by rw [h1, ← h2.1]; simp)
    · exact hn [] l (by rw [h1]; rfl)

theorem NotIn.suffix {w a x a' : List Char} (h : NotIn w a) (e : a = x ++ a') : NotIn w a' := fun p q h' => h (x ++ p) q (by rw [e, h']; simp)

/-- No match begins in the first part. -/
def Skips (p : Pattern) (a b : List Char) : Prop := ∀ x a', a = x ++ a' → a' ≠ [] → p (a' ++ b) = none

theorem Skips.tail {p : Pattern} {c : Char} {a b : List Char} (h : Skips p (c :: a) b) : Skips p a b := fun x a' e ha => h (c :: x) a' (by rw [e]; rfl) ha

theorem search_skips {p : Pattern} {a b : List Char} (h : Skips p a b) : search p (a ++ b) = search p b := by
  induction a with
  | nil => rfl
  | cons c a ih =>
    have e := h [] (c :: a) rfl (by simp)
    rw [List.cons_append] at e
    rw [List.cons_append, search, e]
    exact ih h.tail

theorem remove_skips {p : Pattern} {a b : List Char} (h : Skips p a b) (k : Nat) : remove p (a.length + k) (a ++ b) = a ++ remove p k b := by
  induction a with
  | nil => simp
  | cons c a ih =>
    have e := h [] (c :: a) rfl (by simp)
    rw [List.cons_append] at e
    have hk : (c :: a).length + k = (a.length + k) + 1 := by simp; omega
    rw [List.cons_append, hk, remove, e]
    dsimp only
    rw [ih h.tail, List.cons_append]

theorem remove_nil (p : Pattern) (k : Nat) : remove p k [] = [] := by cases k <;> rfl

theorem remove_all {p : Pattern} {a : List Char} (h : Skips p a []) (k : Nat) (hk : a.length ≤ k) : remove p k a = a := by
  obtain ⟨j, rfl⟩ : ∃ j, k = a.length + j := ⟨k - a.length, by omega⟩
  have e := remove_skips h j
  rw [List.append_nil, remove_nil, List.append_nil] at e
  exact e

theorem Skips.append {p : Pattern} {a b c : List Char} (h1 : Skips p a (b ++ c)) (h2 : Skips p b c) : Skips p (a ++ b) c := by
  intro x s e hs
  rcases List.append_eq_append_iff.1 e with ⟨l, e1, e2⟩ | ⟨l, e1, e2⟩
  · exact h2 l s e2 hs
  · by_cases hl : l = []
    · subst hl
      rw [List.nil_append] at e2
      exact h2 [] s (by rw [e2]; rfl) hs
    · rw [e2, List.append_assoc]
      exact h1 x l e1 hl

theorem typePattern_skips {a b : List Char} (h : NotIn ":dataType=".toList a) (hb : Colon b) : Skips typePattern a b := fun x a' e ha => by
  simp only [typePattern]
  rw [behind_none (by decide) ha hb (h.suffix e)]
  rfl

theorem fillPattern_none {a b : List Char} (h : NotIn "fillValue=".toList a) (hb : Colon b) : fillPattern (a ++ b) = none := by
  unfold fillPattern
  cases a with
  | nil =>
    rcases hb with rfl | ⟨b', rfl⟩
    · rfl
    · have e : behind "fillValue=".toList (':' :: b') = none := by
        have : "fillValue=".toList = 'f' :: "illValue=".toList := rfl
        rw [this, behind, if_neg (by decide)]
      rw [List.nil_append, e]; rfl
  | cons c a =>
    rw [behind_none (by decide) (by simp) hb h]; rfl

theorem fillPattern_skips {a b : List Char} (h : NotIn "fillValue=".toList a) (hb : Colon b) : Skips (optColon fillPattern) a b := fun x a' e ha => by
  have h' := h.suffix e
  unfold optColon
  cases a' with
  | nil => exact absurd rfl ha
  | cons c s =>
    have e1 := fillPattern_none h' hb
    have e2 : fillPattern (s ++ b) = none := fillPattern_none (h'.suffix (x := [c]) rfl) hb
    rw [List.cons_append] at e1 ⊢
    split
    · rename_i t ht
      simp only [List.cons.injEq] at ht
      obtain ⟨rfl, rfl⟩ := ht
      rw [e2]
      exact e1
    · exact e1

/-! ## One text -/

theorem colon_fillPart (f : List Char) : Colon (fillPart f) := by
  unfold fillPart
  split_ifs
  · exact .inr ⟨"fillValue=".toList ++ f, rfl⟩
  · exact .inl rfl

theorem colon_globalPart (g : Option (List Char)) : Colon (globalPart g) := by
  cases g with
  | none => exact .inl rfl
  | some g => exact .inr ⟨g, rfl⟩

theorem Colon.append {a b : List Char} (ha : Colon a) (hb : Colon b) : Colon (a ++ b) := by
  rcases ha with rfl | ⟨a', rfl⟩
  · exact hb
  · exact .inr ⟨a' ++ b, rfl⟩

theorem notIn_fillPart {f : List Char} (hf : ':' ∉ f) : NotIn ":dataType=".toList (fillPart f) := by
  unfold fillPart
  split_ifs with h
  · intro x y e
    have e1 : ":fillValue=".toList = ':' :: "fillValue=".toList := rfl
    have e2 : ":dataType=".toList = ':' :: "dataType=".toList := rfl
    rw [e1, e2] at e
    cases x with
    | nil =>
      simp only [List.nil_append, List.cons_append, List.cons.injEq] at e
      have := congrArg List.head? e.2
      simp at this
    | cons c x =>
      simp only [List.cons_append, List.cons.injEq] at e
      have hm : ':' ∈ "fillValue=".toList ++ f := by rw [e.2]; simp
      rcases List.mem_append.1 hm with hm | hm
      · exact absurd hm (by decide)
      · exact hf hm
  · intro x y e
    have := congrArg List.length e
    simp at this

theorem type_match {t r : List Char} (ht : ∀ c ∈ t, isLower c = true) (hr : Colon r) : typePattern (":dataType=".toList ++ (t ++ r)) = some (t, r) := by
  unfold typePattern
  rw [behind_append]
  have h1 : (t ++ r).takeWhile isLower = t := by
    rw [List.takeWhile_append_of_pos ht]
    rcases hr with rfl | ⟨r', rfl⟩
    · simp
    · rw [List.takeWhile_cons_of_neg (by decide), List.append_nil]
  have h2 : (t ++ r).dropWhile isLower = r := by
    rw [List.dropWhile_append_of_pos ht]
    rcases hr with rfl | ⟨r', rfl⟩
    · rfl
    · rw [List.dropWhile_cons_of_neg (by decide)]
  simp only [Option.map_some, h1, h2]

theorem fill_match {f r : List Char} (hne : f ≠ []) (hf : ':' ∉ f) (hr : Colon r) : optColon fillPattern (fillPart f ++ r) = some (f, r) := by
  have e1 : fillPart f ++ r = ':' :: ("fillValue=".toList ++ (f ++ r)) := by
    unfold fillPart; rw [if_pos hne]; simp
  have hp : ∀ c ∈ f, decide (c ≠ ':') = true := fun c hc => by
    simp only [ne_eq, decide_eq_true_eq]; rintro rfl; exact hf hc
  have h1 : (f ++ r).takeWhile (· ≠ ':') = f := by
    rw [List.takeWhile_append_of_pos hp]
    rcases hr with rfl | ⟨r', rfl⟩
    · simp
    · rw [List.takeWhile_cons_of_neg (by decide), List.append_nil]
  have h2 : (f ++ r).dropWhile (· ≠ ':') = r := by
    rw [List.dropWhile_append_of_pos hp]
    rcases hr with rfl | ⟨r', rfl⟩
    · rfl
    · rw [List.dropWhile_cons_of_neg (by decide)]
  have e2 : fillPattern ("fillValue=".toList ++ (f ++ r)) = some (f, r) := by
    unfold fillPattern
    rw [behind_append]
    simp only [Option.bind_some, h1, h2, hne, if_false]
  rw [e1]
  simp only [optColon, e2]

/-- The text of a parameter. -/
def nodeText (globals : Option (List Char)) (n : Node) : List Char :=
  n.id ++ (if n.type ≠ [] then ":dataType=".toList ++ n.type else []) ++ fillPart n.fill ++ globalPart globals

/-- The text without the type. -/
def nodeName (globals : Option (List Char)) (n : Node) : List Char := n.id ++ fillPart n.fill ++ globalPart globals

theorem type_found {globals : Option (List Char)} {n : Node} (h : Plain globals n) :
    search typePattern (nodeText globals n) = (if n.type ≠ [] then some n.type else none) ∧
    (n.type ≠ [] → remove typePattern (nodeText globals n).length (nodeText globals n) = nodeName globals n) ∧
    (n.type = [] → nodeText globals n = nodeName globals n) := by
  have hR : Colon (fillPart n.fill ++ globalPart globals) := (colon_fillPart _).append (colon_globalPart _)
  have sR : Skips typePattern (fillPart n.fill ++ globalPart globals) [] :=
    Skips.append (by rw [List.append_nil]; exact typePattern_skips (notIn_fillPart h.fill) (colon_globalPart _)) (typePattern_skips h.noTypeG (.inl rfl))
  have nR : search typePattern (fillPart n.fill ++ globalPart globals) = none := by
    have e := search_skips sR
    rw [List.append_nil] at e
    rw [e]; rfl
  by_cases ht : n.type = []
  · have e : nodeText globals n = n.id ++ (fillPart n.fill ++ globalPart globals) := by simp [nodeText, ht]
    refine ⟨?_, fun h' => absurd ht h', fun _ => by simp [nodeText, nodeName, ht]⟩
    rw [e, search_skips (typePattern_skips h.noType hR), nR]
    simp [ht]
  · have e : nodeText globals n = n.id ++ (":dataType=".toList ++ (n.type ++ (fillPart n.fill ++ globalPart globals))) := by simp [nodeText, ht]
    have hc : Colon (":dataType=".toList ++ (n.type ++ (fillPart n.fill ++ globalPart globals))) := .inr ⟨"dataType=".toList ++ (n.type ++ (fillPart n.fill ++ globalPart globals)), rfl⟩
    have hm := type_match h.type hR
    have e0 : ":dataType=".toList ++ (n.type ++ (fillPart n.fill ++ globalPart globals)) = ':' :: ("dataType=".toList ++ (n.type ++ (fillPart n.fill ++ globalPart globals))) := rfl
    refine ⟨?_, fun _ => ?_, fun h' => absurd h' ht⟩
    · rw [e, search_skips (typePattern_skips h.noType hc), if_pos ht]
      rw [e0] at hm ⊢
      rw [search, hm]
    · rw [e, List.length_append, remove_skips (typePattern_skips h.noType hc)]
      have hl : (":dataType=".toList ++ (n.type ++ (fillPart n.fill ++ globalPart globals))).length
          = ("dataType=".toList ++ (n.type ++ (fillPart n.fill ++ globalPart globals))).length + 1 := rfl
      rw [hl]
      rw [e0] at hm ⊢
      rw [remove, hm]
      dsimp only
      rw [remove_all sR _ (by simp only [List.length_append]; omega)]
      simp [nodeName]

theorem fill_found {globals : Option (List Char)} {n : Node} (h : Plain globals n) :
    search (optColon fillPattern) (nodeName globals n) = (if n.fill ≠ [] then some n.fill else none) := by
  have hR : Colon (fillPart n.fill ++ globalPart globals) := (colon_fillPart _).append (colon_globalPart _)
  have e : nodeName globals n = n.id ++ (fillPart n.fill ++ globalPart globals) := by simp [nodeName]
  rw [e, search_skips (fillPattern_skips h.noFill hR)]
  by_cases hf : n.fill = []
  · have e2 := search_skips (fillPattern_skips h.noFillG (.inl rfl))
    rw [List.append_nil] at e2
    rw [if_neg (by simpa using hf), hf]
    show search _ ([] ++ _) = none
    rw [List.nil_append, e2]
    rfl
  · have hm := fill_match hf h.fill (colon_globalPart globals)
    rw [if_pos hf]
    rcases hR with hR | ⟨r, hR⟩
    · have := congrArg List.length hR
      simp [fillPart, hf] at this
    · rw [hR] at hm ⊢
      rw [search, hm]

theorem clean_found {globals : Option (List Char)} {n : Node} (h : Plain globals n) :
    (if globals.getD [] ≠ [] then remove (optColon (textPattern (globals.getD []))) (nodeName globals n).length (nodeName globals n) else nodeName globals n) = n.id ++ fillPart n.fill := by
  cases hg : globals with
  | none => simp [nodeName, globalPart]
  | some g =>
    obtain ⟨hne, honce⟩ := h.once g hg
    simp only [Option.getD_some, hne, ne_eq, not_false_eq_true, if_true]
    have key : ∀ x s, n.id ++ fillPart n.fill ++ ':' :: g = x ++ s → g.length < s.length → textPattern g s = none := by
      intro x s e hl
      unfold textPattern
      cases hb : behind g s with
      | none => rfl
      | some r =>
        exfalso
        have e2 := behind_some hb
        have := honce x r (by rw [e, e2]; simp)
        rw [e2, this, List.append_nil] at hl
        omega
    have sk : Skips (optColon (textPattern g)) (n.id ++ fillPart n.fill) (':' :: g) := by
      intro x a' e ha
      have e1 : textPattern g (a' ++ ':' :: g) = none := key x _ (by rw [e]; simp) (by simp only [List.length_append, List.length_cons]; omega)
      unfold optColon
      cases a' with
      | nil => exact absurd rfl ha
      | cons c s =>
        have e2 : textPattern g (s ++ ':' :: g) = none := key (x ++ [c]) _ (by rw [e]; simp) (by simp only [List.length_append, List.length_cons]; omega)
        rw [List.cons_append] at e1 ⊢
        split
        · rename_i t ht
          simp only [List.cons.injEq] at ht
          obtain ⟨rfl, rfl⟩ := ht
          rw [e2]
          exact e1
        · exact e1
    have hm : optColon (textPattern g) (':' :: g) = some ([], []) := by
      have e := behind_append g []
      rw [List.append_nil] at e
      simp only [optColon, textPattern, e, Option.map_some]
    have e : nodeName (some g) n = (n.id ++ fillPart n.fill) ++ ':' :: g := by simp [nodeName, globalPart]
    rw [e, List.length_append, remove_skips sk]
    have hl : (':' :: g).length = g.length + 1 := rfl
    rw [hl, remove, hm]
    dsimp only
    rw [remove_nil, List.append_nil]

theorem id_found {globals : Option (List Char)} {n : Node} (h : Plain globals n) (hf : n.fill ≠ []) :
    remove (optColon fillPattern) (n.id ++ fillPart n.fill).length (n.id ++ fillPart n.fill) = n.id := by
  have hm := fill_match hf h.fill (r := []) (.inl rfl)
  rw [List.append_nil] at hm
  rw [List.length_append, remove_skips (fillPattern_skips h.noFill (colon_fillPart _))]
  rcases colon_fillPart n.fill with hR | ⟨r, hR⟩
  · have := congrArg List.length hR
    simp [fillPart, hf] at this
  · rw [hR] at hm ⊢
    rw [List.length_cons, remove, hm]
    dsimp only
    rw [remove_nil, List.append_nil]

/-- What one text does to the maps. -/
theorem addText_plain (number : List Char → K) {globals : Option (List Char)} {n : Node} (h : Plain globals n) (m : Maps K)
    (hm : nodeName globals n ≠ n.id → m.fills (nodeName globals n) = none) :
    addText number (globals.getD []) m (nodeText globals n) =
      ⟨put m.params n.id (diana (nodeName globals n)), (if n.type = [] ∨ n.type = "none".toList then m.types else put m.types n.id n.type),
        (if n.fill = [] then m.fills else put m.fills n.id (number n.fill))⟩ := by
  obtain ⟨t1, t2, t3⟩ := type_found h
  have hname : (if (search typePattern (nodeText globals n)).isSome then remove typePattern (nodeText globals n).length (nodeText globals n) else nodeText globals n) = nodeName globals n := by
    rw [t1]
    by_cases ht : n.type = []
    · simp only [ht, ne_eq, not_true_eq_false, if_false, Option.isSome_none, Bool.false_eq_true]; exact t3 ht
    · simp only [ht, ne_eq, not_false_eq_true, if_true, Option.isSome_some]; exact t2 ht
  have hclean : (if (search (optColon fillPattern) (nodeName globals n)).isSome then remove (optColon fillPattern) (n.id ++ fillPart n.fill).length (n.id ++ fillPart n.fill)
      else n.id ++ fillPart n.fill) = n.id := by
    rw [fill_found h]
    by_cases hf : n.fill = []
    · simp [hf, fillPart]
    · simp only [hf, ne_eq, not_false_eq_true, if_true, Option.isSome_some]; exact id_found h hf
  have hfills : ∀ fills : List Char → Option K, (nodeName globals n ≠ n.id → fills (nodeName globals n) = none) →
      (match fills (nodeName globals n) with | some f => put fills n.id f | none => fills) = fills := by
    intro fills hn
    by_cases e : nodeName globals n = n.id
    · rw [e]
      cases hv : fills n.id with
      | none => rfl
      | some f =>
        funext x
        simp only [put]
        by_cases hx : x = n.id
        · rw [if_pos hx, hx, hv]
        · rw [if_neg hx]
    · rw [hn e]
  unfold addText
  simp only [hname, clean_found h, hclean]
  rw [fill_found h, t1]
  by_cases hf : n.fill = []
  · simp only [hf, ne_eq, not_true_eq_false, if_false, if_true]
    by_cases ht : n.type = []
    · simp only [ht, not_true_eq_false, if_false, true_or, if_true]
    · simp only [ht, not_false_eq_true, if_true, false_or]
      by_cases hno : n.type = "none".toList
      · rw [if_pos hno, if_pos hno]
      · rw [if_neg hno, if_neg hno]
        exact congrArg (Maps.mk _ _) (hfills m.fills hm)
  · simp only [hf, ne_eq, not_false_eq_true, if_true, if_false]
    by_cases ht : n.type = []
    · simp only [ht, not_true_eq_false, if_false, true_or, if_true]
    · simp only [ht, not_false_eq_true, if_true, false_or]
      by_cases hno : n.type = "none".toList
      · rw [if_pos hno, if_pos hno]
      · rw [if_neg hno, if_neg hno]
        refine congrArg (Maps.mk _ _) (hfills _ ?_)
        intro hne
        rw [put, if_neg hne, hm hne]

/-! ## All parameters -/

/-- What the maps say of a parameter. -/
def Says (number : List Char → K) (globals : Option (List Char)) (m : Maps K) (n : Node) : Prop :=
  m.params n.id = some (diana (nodeName globals n)) ∧
  m.types n.id = (if n.type = [] ∨ n.type = "none".toList then none else some n.type) ∧
  m.fills n.id = (if n.fill = [] then none else some (number n.fill))

theorem put_same {B : Type} (m : List Char → Option B) (k : List Char) (v : B) : put m k v k = some v := by simp [put]

theorem put_other {B : Type} (m : List Char → Option B) {k x : List Char} (v : B) (h : x ≠ k) : put m k v x = m x := by simp [put, h]

/-- A text with additions is no id of another parameter. -/
theorem name_not_id {globals : Option (List Char)} {n n' : Node} (h' : Plain globals n') (hne : nodeName globals n ≠ n.id) : nodeName globals n ≠ n'.id := by
  intro e
  by_cases hf : n.fill = []
  · cases hg : globals with
    | none => exact hne (by simp [nodeName, hf, hg, fillPart, globalPart])
    | some g =>
      obtain ⟨_, honce⟩ := h'.once g hg
      have e1 : n'.id = (n.id ++ [':']) ++ g := by rw [← e]; simp [nodeName, hf, hg, fillPart, globalPart]
      have := honce (n.id ++ [':']) (fillPart n'.fill ++ ':' :: g) (by rw [e1]; simp)
      simp at this
  · refine h'.noFill (n.id ++ [':']) (n.fill ++ globalPart globals) ?_
    rw [← e]
    have e1 : ":fillValue=".toList = ':' :: "fillValue=".toList := rfl
    simp only [nodeName, fillPart, hf, ne_eq, not_false_eq_true, if_true, e1]
    simp only [List.append_assoc, List.cons_append, List.nil_append]

theorem feltIds_eq (globals : Option (List Char)) (nodes : List Node) (hd : (nodes.map (·.id)).Nodup) : feltIds globals nodes = nodes.map (nodeText globals) := by
  unfold feltIds
  apply List.map_congr_left
  intro n hn
  have key : ∀ l : List Node, (l.map (·.id)).Nodup → n ∈ l → (l.flatMap fun m => if m.id = n.id then m.fills else []) = n.fills := by
    intro l
    induction l with
    | nil => intro _ h; cases h
    | cons a l ih =>
      intro hd h
      simp only [List.map_cons, List.nodup_cons] at hd
      have zero : ∀ l : List Node, n.id ∉ l.map (·.id) → (l.flatMap fun m => if m.id = n.id then m.fills else []) = [] := by
        intro l hl
        rw [List.flatMap_eq_nil_iff]
        intro b hb
        rw [if_neg]
        intro e
        exact hl (by rw [← e]; exact List.mem_map.2 ⟨b, hb, rfl⟩)
      rw [List.flatMap_cons]
      rcases List.mem_cons.1 h with rfl | h
      · rw [if_pos rfl, zero l hd.1, List.append_nil]
      · have hne : a.id ≠ n.id := fun e => hd.1 (by rw [e]; exact List.mem_map.2 ⟨n, h, rfl⟩)
        rw [if_neg hne, List.nil_append]
        exact ih hd.2 h
  unfold feltId nodeText
  simp only [key nodes hd hn]
  unfold fillPart Node.fill
  cases n.fills <;> cases globals <;> rfl

/-- **C129.** With different ids, the maps made of the configuration say of each parameter what the configuration says: restrictions, type and fill value under its own id, and nothing
else. -/
theorem C129_parameters (number : List Char → K) (globals : Option (List Char)) (nodes : List Node) (hd : (nodes.map (·.id)).Nodup) (hp : ∀ n ∈ nodes, Plain globals n) :
    (∀ n ∈ nodes, Says number globals (fromConfig number globals nodes) n) ∧
    ∀ x, x ∉ nodes.map (·.id) → (fromConfig number globals nodes).params x = none ∧ (fromConfig number globals nodes).types x = none ∧
      (fromConfig number globals nodes).fills x = none := by
  have key : ∀ l : List Node, (l.map (·.id)).Nodup → (∀ n ∈ l, Plain globals n) →
      (∀ n ∈ l, Says number globals ((l.map (nodeText globals)).foldl (addText number (globals.getD [])) .empty) n) ∧
      ∀ x, x ∉ l.map (·.id) → ((l.map (nodeText globals)).foldl (addText number (globals.getD [])) .empty).params x = none ∧
        ((l.map (nodeText globals)).foldl (addText number (globals.getD [])) .empty).types x = none ∧
        ((l.map (nodeText globals)).foldl (addText number (globals.getD [])) .empty).fills x = none := by
    intro l
    induction l using List.reverseRecOn with
    | nil => exact fun _ _ => ⟨by simp, fun x _ => ⟨rfl, rfl, rfl⟩⟩
    | append_singleton l n ih =>
      intro hd hp
      simp only [List.map_append, List.map_cons, List.map_nil, List.nodup_append, List.mem_singleton] at hd
      obtain ⟨i1, i2⟩ := ih hd.1 fun m hm => hp m (List.mem_append_left _ hm)
      have hpn := hp n (by simp)
      have hn : n.id ∉ l.map (·.id) := fun hm => hd.2.2 _ hm _ rfl rfl
      rw [List.map_append, List.foldl_append]
      simp only [List.map_cons, List.map_nil, List.foldl_cons, List.foldl_nil]
      generalize hM : (l.map (nodeText globals)).foldl (addText number (globals.getD [])) Maps.empty = M at i1 i2
      have hfree : nodeName globals n ≠ n.id → M.fills (nodeName globals n) = none := by
        intro hne
        refine (i2 _ ?_).2.2
        intro hm
        obtain ⟨m, hm, e⟩ := List.mem_map.1 hm
        exact name_not_id (hp m (List.mem_append_left _ hm)) hne e.symm
      rw [addText_plain number hpn M hfree]
      constructor
      · intro m hm
        rcases List.mem_append.1 hm with hm | hm
        · have hne : m.id ≠ n.id := fun e => hn (e ▸ List.mem_map.2 ⟨m, hm, rfl⟩)
          obtain ⟨k1, k2, k3⟩ := i1 m hm
          refine ⟨(put_other _ _ hne).trans k1, ?_, ?_⟩
          · dsimp only
            by_cases h1 : n.type = [] ∨ n.type = "none".toList
            · rw [if_pos h1]; exact k2
            · rw [if_neg h1]; exact (put_other _ _ hne).trans k2
          · dsimp only
            by_cases h1 : n.fill = []
            · rw [if_pos h1]; exact k3
            · rw [if_neg h1]; exact (put_other _ _ hne).trans k3
        · rw [List.mem_singleton.1 hm]
          obtain ⟨j1, j2, j3⟩ := i2 _ hn
          refine ⟨put_same _ _ _, ?_, ?_⟩
          · dsimp only
            by_cases h1 : n.type = [] ∨ n.type = "none".toList
            · rw [if_pos h1, if_pos h1]; exact j2
            · rw [if_neg h1, if_neg h1]; exact put_same _ _ _
          · dsimp only
            by_cases h1 : n.fill = []
            · rw [if_pos h1, if_pos h1]; exact j3
            · rw [if_neg h1, if_neg h1]; exact put_same _ _ _
      · intro x hx
        simp only [List.map_append, List.map_cons, List.map_nil, List.mem_append, List.mem_singleton, not_or] at hx
        obtain ⟨j1, j2, j3⟩ := i2 x hx.1
        refine ⟨(put_other _ _ hx.2).trans j1, ?_, ?_⟩
        · dsimp only
          by_cases h1 : n.type = [] ∨ n.type = "none".toList
          · rw [if_pos h1]; exact j2
          · rw [if_neg h1]; exact (put_other _ _ hx.2).trans j2
        · dsimp only
          by_cases h1 : n.fill = []
          · rw [if_pos h1]; exact j3
          · rw [if_neg h1]; exact (put_other _ _ hx.2).trans j3
  obtain ⟨k1, k2⟩ := key nodes hd hp
  unfold fromConfig fromList
  rw [feltIds_eq globals nodes hd]
  exact ⟨k1, k2⟩

/-! ## Restrictions -/

theorem pieces_colon (a b : List Char) : Text.pieces [':'].contains (a ++ ':' :: b) = Text.pieces [':'].contains a ++ Text.pieces [':'].contains b := by
  induction a with
  | nil => simp [Text.pieces]
  | cons c a ih =>
    rw [List.cons_append]
    rw [show ∀ t, Text.pieces [':'].contains (c :: t) = if [':'].contains c then [] :: Text.pieces [':'].contains t
      else (c :: (Text.pieces [':'].contains t).headD []) :: (Text.pieces [':'].contains t).tail from fun _ => rfl]
    rw [show ∀ t, Text.pieces [':'].contains (c :: t) = if [':'].contains c then [] :: Text.pieces [':'].contains t
      else (c :: (Text.pieces [':'].contains t).headD []) :: (Text.pieces [':'].contains t).tail from fun _ => rfl]
    rw [ih]
    by_cases hc : [':'].contains c = true
    · simp only [hc, if_true, List.cons_append]
    · simp only [hc, Bool.false_eq_true, if_false]
      cases hp : Text.pieces [':'].contains a with
      | nil => exact absurd hp (Text.pieces_ne_nil _ _)
      | cons x l => simp

theorem diana_colon (a b : List Char) : diana (a ++ ':' :: b) = (Text.pieces [':'].contains b).foldl restrict (diana a) := by
  unfold diana
  rw [pieces_colon]
  cases hp : Text.pieces [':'].contains a with
  | nil => exact absurd hp (Text.pieces_ne_nil _ _)
  | cons x l => simp [List.foldl_append]

theorem restrict_fill (r : List ℤ) (f : List Char) : restrict r ("fillValue=".toList ++ f) = r := by
  have e : "fillValue=".toList ++ f = "fillValue".toList ++ '=' :: f := rfl
  have h1 : ("fillValue".toList ++ '=' :: f).dropWhile Char.isWhitespace = "fillValue".toList ++ '=' :: f := by
    rw [show "fillValue".toList ++ '=' :: f = 'f' :: ("illValue".toList ++ '=' :: f) from rfl]
    exact List.dropWhile_cons_of_neg (by decide)
  have h2 : ∀ c ∈ "fillValue".toList, (c.isAlphanum || c == '_') = true := by decide
  have h3 : ("fillValue".toList ++ '=' :: f).takeWhile (fun c => c.isAlphanum || c == '_') = "fillValue".toList := by
    rw [List.takeWhile_append_of_pos h2, List.takeWhile_cons_of_neg (by decide), List.append_nil]
  have key : restriction ("fillValue=".toList ++ f) = none ∨ ∃ v, restriction ("fillValue=".toList ++ f) = some ("fillValue".toList, v) := by
    unfold restriction
    simp only [e, h1, h3]
    split
    · split_ifs
      · exact Or.inr ⟨_, rfl⟩
      · exact Or.inl rfl
    · exact Or.inl rfl
  unfold restrict
  rcases key with k | ⟨v, k⟩
  · rw [k]
  · rw [k]
    have : restrictedWord "fillValue".toList = none := by decide
    simp only [this]

/-- **C129.** The restrictions of a parameter are those of its id, then those given for all; the fill value is none. -/
theorem C129_restrictions (globals : Option (List Char)) (n : Node) (hf : ':' ∉ n.fill) :
    diana (nodeName globals n) = match globals with
      | none => diana n.id
      | some g => (Text.pieces [':'].contains g).foldl restrict (diana n.id) := by
  have h1 : diana (n.id ++ fillPart n.fill) = diana n.id := by
    unfold fillPart
    split_ifs with h
    · have e1 : n.id ++ (":fillValue=".toList ++ n.fill) = n.id ++ ':' :: ("fillValue=".toList ++ n.fill) := rfl
      rw [e1, diana_colon]
      have hp : Text.pieces [':'].contains ("fillValue=".toList ++ n.fill) = ["fillValue=".toList ++ n.fill] := by
        have := Text.pieces_prefix [':'].contains ("fillValue=".toList ++ n.fill) [] (by
          intro c hc
          rcases List.mem_append.1 hc with hc | hc
          · exact (by decide : ∀ c ∈ "fillValue=".toList, [':'].contains c = false) c hc
          · simp only [List.contains_cons, List.contains_nil, Bool.or_false, beq_eq_false_iff_ne, ne_eq]; rintro rfl; exact hf hc)
        simpa [Text.pieces] using this
      rw [hp, List.foldl_cons, List.foldl_nil, restrict_fill]
    · rw [List.append_nil]
  cases globals with
  | none => simp only [nodeName, globalPart, List.append_nil, h1]
  | some g => simp only [nodeName, globalPart, diana_colon, h1]

/-- **C129.** Type and fill value as asked for: those of the configuration, else short and the general value. -/
theorem C129_type_and_fill (number : List Char → K) (any : K) (globals : Option (List Char)) (nodes : List Node) (hd : (nodes.map (·.id)).Nodup)
    (hp : ∀ n ∈ nodes, Plain globals n) (n : Node) (hn : n ∈ nodes) :
    (fromConfig number globals nodes).type n.id = (if n.type = [] ∨ n.type = "none".toList then "short".toList else n.type) ∧
    (fromConfig number globals nodes).fill any n.id = (if n.fill = [] then any else number n.fill) := by
  obtain ⟨_, h2, h3⟩ := (C129_parameters number globals nodes hd hp).1 n hn
  unfold Maps.type Maps.fill
  rw [h2, h3]
  constructor
  · split_ifs <;> rfl
  · split_ifs <;> rfl

/-! ## Cases and violations -/

/-- A test for `NotIn`. -/
def notInB (w : List Char) : List Char → Bool
  | [] => (behind w []).isNone
  | c :: s => (behind w (c :: s)).isNone && notInB w s

theorem notIn_of_notInB {w s : List Char} (h : notInB w s = true) : NotIn w s := by
  intro x
  induction x generalizing s with
  | nil =>
    rintro y rfl
    have e := behind_append w y
    rw [List.nil_append] at h
    cases hs : w ++ y with
    | nil => rw [hs] at h e; rw [notInB, e] at h; cases h
    | cons c t => rw [hs] at h e; rw [notInB, e] at h; simp at h
  | cons c x ih =>
    rintro y rfl
    simp only [List.cons_append, notInB, Bool.and_eq_true] at h
    exact ih h.2 y rfl

/-- No text twice: the last place is the only one. -/
theorem once_of {w s : List Char} (hw : w ≠ []) (h : notInB w (s ++ w.dropLast) = true) : ∀ x y, s ++ w = x ++ w ++ y → y = [] := by
  intro x y e
  by_contra hy
  have hl : y.length + x.length = s.length := by
    have := congrArg List.length e
    simp only [List.length_append] at this; omega
  have e2 : s ++ w.dropLast = x ++ w ++ y.dropLast := by
    have := congrArg List.dropLast e
    rw [List.dropLast_append_of_ne_nil hw, List.dropLast_append_of_ne_nil hy] at this
    exact this
  exact notIn_of_notInB h x _ e2

theorem plain_once {g a b : List Char} (hg : g ≠ []) (h : notInB g (a ++ b ++ [':'] ++ g.dropLast) = true) : ∀ x y, a ++ b ++ ':' :: g = x ++ g ++ y → y = [] := by
  intro x y e
  exact once_of hg h x y (by rw [← e]; simp only [List.append_assoc, List.cons_append, List.nil_append])

/-- Three parameters, two of them with the same number. -/
def sampleNodes : List Node := [⟨"17,2,1000".toList, "float".toList, ["1e20".toList]⟩, ⟨"17,2".toList, [], []⟩, ⟨"1,1:level=5".toList, "short".toList, []⟩]

theorem sample_plain : ∀ n ∈ sampleNodes, Plain (some "prod=74:grid=12".toList) n := by
  intro n hn
  have e : sampleNodes = [⟨"17,2,1000".toList, "float".toList, ["1e20".toList]⟩, ⟨"17,2".toList, [], []⟩, ⟨"1,1:level=5".toList, "short".toList, []⟩] := rfl
  rw [e] at hn
  simp only [List.mem_cons, List.not_mem_nil, or_false] at hn
  rcases hn with rfl | rfl | rfl
  all_goals
    refine ⟨by decide +kernel, by decide +kernel, notIn_of_notInB (by decide +kernel), notIn_of_notInB (by decide +kernel), notIn_of_notInB (by decide +kernel),
      notIn_of_notInB (by decide +kernel), ?_⟩
    intro g hg
    cases hg
    exact ⟨by decide +kernel, plain_once (by decide +kernel) (by decide +kernel)⟩

/-- The first parameter of the sample. -/
example : let m := fromConfig (fun f => f.length) (some "prod=74:grid=12".toList) sampleNodes
    m.parameters "17,2,1000".toList = [74, 12, -32767, -32767, -32767, -32767, -32767, -32767, -32767, -32767, 2, 17, 1000, -32767, -32767, -32767] ∧
    m.type "17,2,1000".toList = "float".toList ∧ m.fill 0 "17,2,1000".toList = 4 ∧ m.type "17,2".toList = "short".toList ∧ m.fill 0 "17,2".toList = 0 := by decide +kernel

example : Says (fun f => f.length) (some "prod=74:grid=12".toList) (fromConfig (fun f => f.length) (some "prod=74:grid=12".toList) sampleNodes)
    ⟨"17,2,1000".toList, "float".toList, ["1e20".toList]⟩ :=
  (C129_parameters _ _ _ (by decide +kernel) sample_plain).1 _ (by simp [sampleNodes])

/-- **C129.** Unknown types are taken: the exception is made but not thrown. -/
theorem C129_unknown_type (number : List Char → K) : (fromConfig number none [⟨"17".toList, "complex".toList, []⟩]).type "17".toList = "complex".toList := by
  have h : Plain none ⟨"17".toList, "complex".toList, []⟩ :=
    ⟨by decide +kernel, by decide +kernel, notIn_of_notInB (by decide +kernel), notIn_of_notInB (by decide +kernel), notIn_of_notInB (by decide +kernel),
      notIn_of_notInB (by decide +kernel), by simp⟩
  have e := (C129_parameters number none [⟨"17".toList, "complex".toList, []⟩] (by simp) (by simpa using h)).1 _ (List.mem_singleton.2 rfl)
  unfold Maps.type
  rw [e.2.1, if_neg (by decide)]
  rfl

/-- **C129.** If the restriction for all is also part of an id, the parameter is found under another name, and its own name has no restrictions at all. -/
theorem C129_restriction_in_id :
    let m := fromConfig (K := ℕ) (fun f => f.length) (some "prod=7".toList) [⟨"17,2:prod=74".toList, "float".toList, []⟩]
    m.params "17,2:prod=74".toList = none ∧ m.params "17,24".toList ≠ none ∧ m.type "17,2:prod=74".toList = "short".toList ∧
    m.parameters "17,2:prod=74".toList = List.replicate 16 (-32767) := by decide +kernel

/-- **C129.** The same for a restriction that is empty, and for a type with other characters than small letters, of which the rest becomes part of the name and of the number. -/
theorem C129_other_names :
    (fromConfig (K := ℕ) (fun f => f.length) (some []) [⟨"17".toList, [], []⟩]).params "17".toList = none ∧
    (fromConfig (K := ℕ) (fun f => f.length) (some []) [⟨"17".toList, [], []⟩]).params "17:".toList ≠ none ∧
    (fromConfig (K := ℕ) (fun f => f.length) none [⟨"17".toList, "float64".toList, []⟩]).params "17".toList = none ∧
    ((fromConfig (K := ℕ) (fun f => f.length) none [⟨"17".toList, "float64".toList, []⟩]).parameters "1764".toList)[11]? = some 1764 := by decide +kernel

end Fimex.FeltParams
