import Mathlib.Data.List.Infix
import Verif.CoordSys.CfProjProps

/-!
# C97: formula terms, vertical transformations and dependency variables of coordinate systems
-/

namespace Fimex.Cf

open Cdm CoordSys

variable {P V CS Pr : Type} {L : Lib V Pr} {c : CDM P V CS}

/-! ## Formula terms: specification -/

/-- A word without white space and colons. -/
def PlainWord (w : List Char) : Prop := w ≠ [] ∧ ∀ ch ∈ w, isSpace ch = false ∧ ch ≠ ':'

/-- White space. -/
def Blank (b : List Char) : Prop := ∀ ch ∈ b, isSpace ch = true

/-- A text that lists pairs `key: variable`, with white space between the pairs and possibly around the colons. -/
inductive TermText : List (String × String) → List Char → Prop
  | nil {b} : Blank b → TermText [] b
  | cons {k v ts b1 b2 b3 rest} : Blank b1 → Blank b2 → Blank b3 → PlainWord k → PlainWord v → TermText ts rest →
      (∀ ch r, rest = ch :: r → isSpace ch = true) →
      TermText ((String.ofList k, String.ofList v) :: ts) (b1 ++ k ++ b2 ++ ':' :: (b3 ++ v ++ rest))

/-! ## Formula terms: proofs -/

theorem dropWhile_blank {b t : List Char} (h : Blank b) : (b ++ t).dropWhile isSpace = t.dropWhile isSpace := by
  induction b with
  | nil => rfl
  | cons x b ih =>
    rw [List.cons_append, List.dropWhile_cons_of_pos (h x List.mem_cons_self), ih fun y hy => h y (List.mem_cons_of_mem _ hy)]

theorem dropWhile_word {w t : List Char} (h : PlainWord w) : (w ++ t).dropWhile isSpace = w ++ t := by
  cases w with
  | nil => exact absurd rfl h.1
  | cons x w => rw [List.cons_append, List.dropWhile_cons_of_neg (by simp [(h.2 x List.mem_cons_self).1])]

/-- What follows a word: nothing or white space. -/
def Ends (rest : List Char) : Prop := ∀ ch r, rest = ch :: r → isSpace ch = true

theorem takeWhile_word {w rest : List Char} (h : ∀ ch ∈ w, isSpace ch = false) (hr : Ends rest) :
    (w ++ rest).takeWhile (fun ch => !isSpace ch) = w ∧ (w ++ rest).dropWhile (fun ch => !isSpace ch) = rest := by
  induction w with
  | nil =>
    rw [List.nil_append]
    cases rest with
    | nil => exact ⟨rfl, rfl⟩
    | cons x r =>
      have := hr x r rfl
      rw [List.takeWhile_cons_of_neg (by simp [this]), List.dropWhile_cons_of_neg (by simp [this])]
      exact ⟨rfl, rfl⟩
  | cons x w ih =>
    have hx := h x List.mem_cons_self
    obtain ⟨i1, i2⟩ := ih fun y hy => h y (List.mem_cons_of_mem _ hy)
    rw [List.cons_append, List.takeWhile_cons_of_pos (by simp [hx]), List.dropWhile_cons_of_pos (by simp [hx]), i1, i2]
    exact ⟨rfl, rfl⟩

theorem colonWord_pair {b2 b3 v rest : List Char} (h2 : Blank b2) (h3 : Blank b3) (hv : PlainWord v) (hr : Ends rest) :
    colonWord (b2 ++ ':' :: (b3 ++ v ++ rest)) = some (v, rest) := by
  unfold colonWord
  rw [dropWhile_blank h2, List.dropWhile_cons_of_neg (by decide)]
  obtain ⟨e1, e2⟩ := takeWhile_word (fun ch h => (hv.2 ch h).1) hr
  have e3 : (b3 ++ v ++ rest).dropWhile isSpace = v ++ rest := by rw [List.append_assoc, dropWhile_blank h3, dropWhile_word hv]
  show (if ((b3 ++ v ++ rest).dropWhile isSpace).takeWhile (fun ch => !isSpace ch) = [] then none else some (_, _)) = _
  rw [e3, e1, e2, if_neg hv.1]

theorem colonWord_none {t : List Char} (h : ∀ r, t.dropWhile isSpace ≠ ':' :: r) : colonWord t = none := by
  unfold colonWord
  split
  · rename_i r e
    exact absurd e (h r)
  · rfl

theorem termAt_found {k t v rest : List Char} (h : colonWord t = some (v, rest)) (hk : k ≠ []) (n : Nat) (hn : k.length ≤ n)
    (hno : ∀ j, k.length < j → j ≤ n → colonWord ((k ++ t).drop j) = none) : termAt (k ++ t) n = some (k, v, rest) := by
  induction n with
  | zero =>
    have : k.length = 0 := by omega
    exact absurd (List.length_eq_zero_iff.1 this) hk
  | succ n ih =>
    unfold termAt
    by_cases he : k.length = n + 1
    · rw [← he, List.drop_left, h]
      dsimp only
      rw [List.take_left]
    · rw [hno (n + 1) (by omega) (by omega)]
      exact ih (by omega) fun j h1 h2 => hno j h1 (by omega)

/-- Texts of pairs do not start with a colon. -/
theorem termText_start {ts : List (String × String)} {t : List Char} (h : TermText ts t) : ∀ r, t.dropWhile isSpace ≠ ':' :: r := by
  intro r
  cases h with
  | nil hb =>
    have : t.dropWhile isSpace = [] := by
      have := dropWhile_blank (t := []) hb
      simpa using this
    rw [this]
    simp
  | cons h1 h2 h3 hk hv ht hr =>
    rw [List.append_assoc, List.append_assoc, dropWhile_blank h1, dropWhile_word hk]
    rename_i k v ts b1 b2 b3 rest
    cases k with
    | nil => exact absurd rfl hk.1
    | cons x k =>
      intro e
      cases e
      exact (hk.2 ':' List.mem_cons_self).2 rfl

theorem termSearch_blank {b : List Char} (h : Blank b) (t : List Char) : termSearch (b ++ t) = termSearch t := by
  induction b with
  | nil => rfl
  | cons x b ih =>
    rw [List.cons_append]
    conv_lhs => unfold termSearch
    rw [List.takeWhile_cons_of_neg (by simp [h x List.mem_cons_self])]
    exact ih fun y hy => h y (List.mem_cons_of_mem _ hy)

theorem termSearch_pair {k v b2 b3 rest : List Char} {ts : List (String × String)} (h2 : Blank b2) (h3 : Blank b3) (hk : PlainWord k)
    (hv : PlainWord v) (ht : TermText ts rest) (hr : Ends rest) :
    termSearch (k ++ (b2 ++ ':' :: (b3 ++ v ++ rest))) = some (k, v, rest) := by
  have hc := colonWord_pair h2 h3 hv hr
  have hns : ∀ ch ∈ k, isSpace ch = false := fun ch h => (hk.2 ch h).1
  have key : termAt (k ++ (b2 ++ ':' :: (b3 ++ v ++ rest)))
      ((k ++ (b2 ++ ':' :: (b3 ++ v ++ rest))).takeWhile fun ch => !isSpace ch).length = some (k, v, rest) := by
    cases b2 with
    | cons x b2 =>
      have := (takeWhile_word (rest := x :: b2 ++ ':' :: (b3 ++ v ++ rest)) hns (by intro ch r e; cases e; exact h2 _ List.mem_cons_self)).1
      rw [this]
      exact termAt_found hc hk.1 _ (le_refl _) fun j h1 h2 => by omega
    | nil =>
      rw [List.nil_append] at hc ⊢
      cases b3 with
      | cons x b3 =>
        have hsp : Ends (x :: b3 ++ v ++ rest) := by intro ch r e; cases e; exact h3 _ List.mem_cons_self
        have e1 : k ++ ':' :: (x :: b3 ++ v ++ rest) = (k ++ [':']) ++ (x :: b3 ++ v ++ rest) := by simp
        have := (takeWhile_word (w := k ++ [':']) (rest := x :: b3 ++ v ++ rest) (by
          intro ch hch
          rcases List.mem_append.1 hch with h | h
          · exact hns ch h
          · rw [List.mem_singleton.1 h]; decide) hsp).1
        rw [e1, this, ← e1]
        refine termAt_found hc hk.1 _ (by simp) fun j h1 hj2 => ?_
        have hj : j = k.length + 1 := by simp at hj2; omega
        rw [hj, e1, List.drop_left' (by simp)]
        refine colonWord_none fun r e => ?_
        rw [List.append_assoc, dropWhile_blank h3, dropWhile_word hv] at e
        cases v with
        | nil => exact absurd rfl hv.1
        | cons y v => cases e; exact (hv.2 ':' List.mem_cons_self).2 rfl
      | nil =>
        rw [List.nil_append] at hc ⊢
        have e1 : k ++ ':' :: (v ++ rest) = (k ++ ':' :: v) ++ rest := by simp
        have := (takeWhile_word (w := k ++ ':' :: v) (rest := rest) (by
          intro ch hch
          rcases List.mem_append.1 hch with h | h
          · exact hns ch h
          · rcases List.mem_cons.1 h with rfl | h
            · decide
            · exact (hv.2 ch h).1) hr).1
        rw [e1, this, ← e1]
        refine termAt_found hc hk.1 _ (by simp) fun j h1 hj2 => ?_
        obtain ⟨i, rfl⟩ : ∃ i, j = (k ++ [':']).length + i := ⟨j - (k.length + 1), by simp; omega⟩
        have e2 : k ++ ':' :: (v ++ rest) = (k ++ [':']) ++ (v ++ rest) := by simp
        have hi : i ≤ v.length := by simp at hj2; omega
        rw [e2, ← List.drop_drop, List.drop_left, List.drop_append_of_le_length hi]
        refine colonWord_none fun r e => ?_
        by_cases hd : v.drop i = []
        · rw [hd, List.nil_append] at e
          exact termText_start ht r e
        · have hw : PlainWord (v.drop i) := ⟨hd, fun ch hch => hv.2 ch (List.mem_of_mem_drop hch)⟩
          rw [dropWhile_word hw] at e
          cases hdv : v.drop i with
          | nil => exact absurd hdv hd
          | cons y w =>
            rw [hdv] at e hw
            cases e
            exact (hw.2 ':' List.mem_cons_self).2 rfl
  cases k with
  | nil => exact absurd rfl hk.1
  | cons x k =>
    rw [List.cons_append] at key ⊢
    unfold termSearch
    rw [key]

/-- **C97.** A text of pairs `key: variable` is read as these pairs. -/
theorem C97_terms (ts : List (String × String)) (s : List Char) (h : TermText ts s) : formulaTerms (s.length + 1) s = ts := by
  have : ∀ (n : Nat), s.length < n → formulaTerms n s = ts := by
    induction h with
    | nil hb =>
      rename_i b
      intro n hn
      cases n with
      | zero => omega
      | succ n =>
        unfold formulaTerms
        have := termSearch_blank hb []
        rw [List.append_nil] at this
        rw [this]
        rfl
    | cons h1 h2 h3 hk hv ht hr ih =>
      rename_i k v ts b1 b2 b3 rest
      intro n hn
      cases n with
      | zero => omega
      | succ n =>
        unfold formulaTerms
        rw [List.append_assoc, List.append_assoc, termSearch_blank h1, termSearch_pair h2 h3 hk hv ht hr]
        dsimp only
        rw [ih n (by simp at hn; omega)]
  exact this _ (Nat.lt_succ_self _)

example : TermText [("a", "hybrid"), ("ps", "p_s")] "  a: hybrid ps :p_s ".toList :=
  .cons (k := ['a']) (v := "hybrid".toList) (b1 := [' ', ' ']) (b2 := []) (b3 := [' ']) (rest := " ps :p_s ".toList)
    (by unfold Blank; decide +kernel) (by unfold Blank; decide +kernel) (by unfold Blank; decide +kernel) (by unfold PlainWord; decide +kernel) (by unfold PlainWord; decide +kernel)
    (.cons (k := "ps".toList) (v := "p_s".toList) (b1 := [' ']) (b2 := [' ']) (b3 := []) (rest := [' '])
      (by unfold Blank; decide +kernel) (by unfold Blank; decide +kernel) (by unfold Blank; decide +kernel) (by unfold PlainWord; decide +kernel) (by unfold PlainWord; decide +kernel)
      (.nil (by unfold Blank; decide +kernel)) (by intro ch r e; cases e; decide))
    (by intro ch r e; cases e; decide)

/-! ## Number of searches -/

theorem dropWhile_le {α : Type} (p : α → Bool) (l : List α) : (l.dropWhile p).length ≤ l.length :=
  (List.dropWhile_sublist p).length_le

theorem colonWord_shorter {s w r : List Char} (h : colonWord s = some (w, r)) : r.length < s.length := by
  unfold colonWord at h
  split at h
  · rename_i t e
    dsimp only at h
    split_ifs at h
    simp only [Option.some.injEq, Prod.mk.injEq] at h
    rw [← h.2]
    have h1 := dropWhile_le isSpace s
    rw [e, List.length_cons] at h1
    have h2 := dropWhile_le isSpace t
    have h3 := dropWhile_le (fun ch => !isSpace ch) (t.dropWhile isSpace)
    omega
  · cases h

theorem termAt_shorter {s t w r : List Char} (n : Nat) (h : termAt s n = some (t, w, r)) : r.length < s.length := by
  induction n with
  | zero => cases h
  | succ n ih =>
    unfold termAt at h
    cases hc : colonWord (s.drop (n + 1)) with
    | none => rw [hc] at h; exact ih h
    | some x =>
      obtain ⟨w', r'⟩ := x
      rw [hc] at h
      cases h
      have := colonWord_shorter hc
      rw [List.length_drop] at this
      omega

theorem termSearch_shorter {s t w r : List Char} (h : termSearch s = some (t, w, r)) : r.length < s.length := by
  induction s with
  | nil => cases h
  | cons x s ih =>
    unfold termSearch at h
    cases ha : termAt (x :: s) ((x :: s).takeWhile fun ch => !isSpace ch).length with
    | some y =>
      rw [ha] at h
      cases h
      exact termAt_shorter _ ha
    | none =>
      rw [ha] at h
      have := ih h
      rw [List.length_cons]
      omega

/-- **C97.** The loop over a text of formula terms ends, whatever the text: more searches than characters find nothing more. -/
theorem C97_loop_ends (s : List Char) (n : Nat) (h : s.length < n) : formulaTerms n s = formulaTerms (s.length + 1) s := by
  have : ∀ (k : Nat) (s : List Char), s.length = k → ∀ n m, s.length < n → s.length < m → formulaTerms n s = formulaTerms m s := by
    intro k
    induction k using Nat.strong_induction_on with
    | _ k ih =>
      intro s hs n m hn hm
      cases n with
      | zero => omega
      | succ n =>
        cases m with
        | zero => omega
        | succ m =>
          unfold formulaTerms
          cases ht : termSearch s with
          | none => rfl
          | some x =>
            obtain ⟨t, w, r⟩ := x
            dsimp only
            have := termSearch_shorter ht
            rw [ih r.length (by omega) r rfl n m (by omega) (by omega)]
  exact this _ s rfl _ _ h (Nat.lt_succ_self _)

/-! ## Vertical transformation: specification -/

/-- Vertical axis. -/
def ZAxis (s : System Pr) (a : Axis) : Prop := AxisOfTypes s [.geoZ, .height, .depth, .pressure] a

/-- Names of altitudes. -/
def AltitudeName (n : String) : Prop :=
  (∃ a b, n.toList = a ++ "altitude".toList ++ b) ∨ n = "height_above_msl" ∨ n = "height_above_mean_sea_level" ∨
    n = "height_above_geopotential_datum" ∨ n = "height_above_reference_ellipsoid"

/-- An axis is an altitude: by its name, by `computed_standard_name`, or without that by `standard_name`. -/
def Altitude (L : Lib V Pr) (c : CDM P V CS) (z : String) : Prop :=
  AltitudeName z ∨ (∃ n, attrText L c z "computed_standard_name" = some n ∧ AltitudeName n) ∨
    (attrText L c z "computed_standard_name" = none ∧ ∃ n, attrText L c z "standard_name" = some n ∧ AltitudeName n)

/-- The value of a key in a list of pairs: that of the last pair, or the empty text. -/
def ValueOf (ps : List (String × String)) (k t : String) : Prop :=
  (∃ l1 l2, ps = l1 ++ (k, t) :: l2 ∧ ∀ p ∈ l2, p.1 ≠ k) ∨ (t = "" ∧ ∀ p ∈ ps, p.1 ≠ k)

/-- All axes of a variable are of length one or axes of the coordinate system; a missing term is always fine. -/
def OnSystem (L : Lib V Pr) (c : CDM P V CS) (s : System Pr) (t : String) : Prop :=
  t = "" ∨ ∀ v ∈ c.vars, v.name = t → ∀ n, AxisName L c v n → ∀ d ∈ c.dims, d.name = n → d.length = 1 ∨ HasAxis s n

/-- A formula: standard name of the axis, when it applies, the terms that are looked at, and the transformation. -/
structure Formula where
  name : String
  applies : (String → String) → Prop
  checked : List String
  make : (String → String) → VTran

/-- The formulas. -/
def formulas : List Formula :=
  [⟨"atmosphere_hybrid_sigma_pressure_coordinate", fun T => T "ap" ≠ "", ["ap", "ps", "p0", "p"],
      fun T => .hybridSigmaPressure1 (T "ap") (T "b") (T "ps") (T "p0")⟩,
   ⟨"atmosphere_hybrid_sigma_pressure_coordinate", fun T => T "ap" = "", ["a", "ps", "p0", "p"],
      fun T => .hybridSigmaPressure2 (T "a") (T "b") (T "ps") (T "p0")⟩,
   ⟨"atmosphere_ln_pressure_coordinate", fun _ => True, ["lev", "p0"], fun T => .lnPressure (T "lev") (T "p0")⟩,
   ⟨"atmosphere_sigma_coordinate", fun _ => True, ["sigma", "ptop", "ps"], fun T => .atmosphereSigma (T "sigma") (T "ptop") (T "ps")⟩,
   ⟨"ocean_s_coordinate_g1", fun _ => True, ["s", "C", "depth", "depth_c", "eta"],
      fun T => .oceanSG1 (T "s") (T "C") (T "depth") (T "depth_c") (T "eta")⟩,
   ⟨"ocean_s_coordinate_g2", fun _ => True, ["s", "C", "depth", "depth_c", "eta"],
      fun T => .oceanSG2 (T "s") (T "C") (T "depth") (T "depth_c") (T "eta")⟩,
   ⟨"atmosphere_hybrid_height_coordinate", fun _ => True, ["a", "b", "orog"], fun T => .atmosphereHybridHeight (T "a") (T "b") (T "orog")⟩]

/-- The vertical transformation of a coordinate system. -/
inductive VerticalOf (L : Lib V Pr) (c : CDM P V CS) (s : System Pr) : Option VTran → Prop
  | noAxis : (∀ z, ¬ ZAxis s z) → VerticalOf L c s none
  | noVariable {z} : ZAxis s z → (∀ v ∈ c.vars, v.name ≠ z.name) → VerticalOf L c s none
  | height {z v} {b : Bool} : ZAxis s z → v ∈ c.vars → v.name = z.name → z.type = .height → (b = true ↔ Altitude L c z.name) →
      VerticalOf L c s (some (.height z.name b))
  | depth {z v} : ZAxis s z → v ∈ c.vars → v.name = z.name → z.type = .depth → VerticalOf L c s (some (.depth z.name))
  | pressure {z v} : ZAxis s z → v ∈ c.vars → v.name = z.name → z.type = .pressure → VerticalOf L c s (some (.pressure z.name))
  | formula {z v f T} : ZAxis s z → v ∈ c.vars → v.name = z.name → z.type = .geoZ → (∀ k, ValueOf (knownTerms L c z.name) k (T k)) →
      f ∈ formulas → attrText L c z.name "standard_name" = some f.name → f.applies T → (∀ k ∈ f.checked, OnSystem L c s (T k)) →
      VerticalOf L c s (some (f.make T))
  | notOnSystem {z v f T k} : ZAxis s z → v ∈ c.vars → v.name = z.name → z.type = .geoZ →
      (∀ k, ValueOf (knownTerms L c z.name) k (T k)) →
      f ∈ formulas → attrText L c z.name "standard_name" = some f.name → f.applies T → k ∈ f.checked → ¬ OnSystem L c s (T k) →
      VerticalOf L c s none
  | noFormula {z v} : ZAxis s z → v ∈ c.vars → v.name = z.name → z.type = .geoZ →
      (∀ f ∈ formulas, attrText L c z.name "standard_name" ≠ some f.name) → VerticalOf L c s none

/-! ## Vertical transformation: proofs -/

theorem geoZ_iff {s : System Pr} {a : Axis} : geoZ s = some a ↔ ZAxis s a := findAxisOfTypes_iff

theorem valueOf_term (ps : List (String × String)) (k : String) : ValueOf ps k (term ps k) := by
  unfold term
  cases h : ps.reverse.find? fun p => p.1 == k with
  | none =>
    right
    refine ⟨rfl, fun p hp => ?_⟩
    rw [List.find?_eq_none] at h
    simpa using h p (List.mem_reverse.2 hp)
  | some p =>
    left
    obtain ⟨l1, l2, e, hp, hno⟩ := find_first.1 h
    refine ⟨l2.reverse, l1.reverse, ?_, fun q hq => ?_⟩
    · have := congrArg List.reverse e
      rw [List.reverse_reverse, List.reverse_append, List.reverse_cons, List.append_assoc] at this
      rw [this]
      have : p = (k, p.2) := by
        rw [← show p.1 = k from by simpa using hp]
      rw [this]
      rfl
    · simpa using hno q (List.mem_reverse.1 hq)

theorem valueOf_unique {ps : List (String × String)} {k t u : String} (h1 : ValueOf ps k t) (h2 : ValueOf ps k u) : t = u := by
  have key : ∀ t, ValueOf ps k t → term ps k = t := by
    rintro t (⟨l1, l2, rfl, h⟩ | ⟨rfl, h⟩)
    · unfold term
      rw [List.reverse_append, List.reverse_cons, List.append_assoc, List.find?_append]
      have : l2.reverse.find? (fun p => p.1 == k) = none := by
        rw [List.find?_eq_none]
        intro p hp
        simpa using h p (List.mem_reverse.1 hp)
      rw [this]
      simp
    · unfold term
      have : ps.reverse.find? (fun p => p.1 == k) = none := by
        rw [List.find?_eq_none]
        intro p hp
        simpa using h p (List.mem_reverse.1 hp)
      rw [this]
      rfl
  rw [← key t h1, ← key u h2]

theorem isAltitudeName_iff {n : String} : isAltitudeName n = true ↔ AltitudeName n := by
  unfold isAltitudeName AltitudeName
  rw [Bool.or_eq_true, List.any_eq_true]
  refine or_congr ?_ (by simp)
  constructor
  · rintro ⟨t, ht, hp⟩
    obtain ⟨b, hb⟩ := List.isPrefixOf_iff_prefix.1 hp
    obtain ⟨a, ha⟩ := (List.mem_tails _ _).1 ht
    exact ⟨a, b, by rw [← ha, ← hb, List.append_assoc]⟩
  · rintro ⟨a, b, e⟩
    refine ⟨"altitude".toList ++ b, (List.mem_tails _ _).2 ⟨a, by rw [e, List.append_assoc]⟩, ?_⟩
    exact List.isPrefixOf_iff_prefix.2 ⟨b, rfl⟩

theorem isAltitude_iff {z : String} : isAltitude L c z = true ↔ Altitude L c z := by
  unfold isAltitude Altitude
  by_cases h : isAltitudeName z = true
  · rw [if_pos h]
    exact ⟨fun _ => Or.inl (isAltitudeName_iff.1 h), fun _ => rfl⟩
  · rw [if_neg h]
    have hz : ¬ AltitudeName z := fun h' => h (isAltitudeName_iff.2 h')
    cases attrText L c z "computed_standard_name" with
    | some n => simp [hz, isAltitudeName_iff]
    | none =>
      cases attrText L c z "standard_name" with
      | some n => simp [hz, isAltitudeName_iff]
      | none => simp [hz]

/-- Names of dimensions and of variables are different. -/
structure Names (c : CDM P V CS) : Prop where
  vars : (c.vars.map fun v : Var P => v.name).Nodup
  dims : (c.dims.map fun d : Dim => d.name).Nodup

theorem getDimension_ok (hnd : (c.dims.map fun d : Dim => d.name).Nodup) {d : Dim} (hd : d ∈ c.dims) : getDimension c d.name = .ok d := by
  unfold getDimension
  cases hf : c.dims.find? fun w => w.name == d.name with
  | none =>
    rw [List.find?_eq_none] at hf
    exact absurd (hf d hd) (by simp)
  | some w =>
    have h1 := List.find?_some hf
    have h2 := List.mem_of_find?_eq_some hf
    rw [List.inj_on_of_nodup_map hnd h2 hd (by simpa using h1)]

theorem isCSForTerm_iff (hn : Names c) {s : System Pr} {t : String} (ht : t = "" ∨ hasVariable c t = true) :
    ∃ b, isCSForTerm L c s t = .ok b ∧ (b = true ↔ OnSystem L c s t) := by
  unfold isCSForTerm OnSystem
  by_cases h : t = ""
  · rw [if_pos h]
    exact ⟨true, rfl, by simp [h]⟩
  · rw [if_neg h]
    obtain ⟨v, hv, hvn⟩ := hasVariable_iff'.1 (ht.resolve_left h)
    subst hvn
    rw [getVariable_ok hn.vars hv]
    refine ⟨_, rfl, ?_⟩
    rw [List.all_eq_true]
    constructor
    · intro hall
      right
      intro w hw hwn n hnn d hd hdn
      have : w = v := List.inj_on_of_nodup_map hn.vars hw hv hwn
      subst this
      have := hall n (mem_axesNames.2 hnn)
      subst hdn
      rw [getDimension_ok hn.dims hd] at this
      simp only [Bool.or_eq_true, beq_iff_eq, List.contains_iff_mem, List.mem_map] at this
      exact this
    · rintro (h' | h') n hnn
      · exact absurd h' h
      · cases hd : getDimension c n with
        | throws => rfl
        | ub => rfl
        | ok d =>
          have : d ∈ c.dims ∧ d.name = n := by
            unfold getDimension at hd
            cases hf : c.dims.find? fun w => w.name == n with
            | none => rw [hf] at hd; cases hd
            | some e =>
              rw [hf] at hd
              cases hd
              exact ⟨List.mem_of_find?_eq_some hf, by simpa using List.find?_some hf⟩
          simp only [Bool.or_eq_true, beq_iff_eq, List.contains_iff_mem, List.mem_map]
          exact h' v hv rfl n (mem_axesNames.1 hnn) d this.1 this.2

theorem term_known' (z k : String) : term (knownTerms L c z) k = "" ∨ hasVariable c (term (knownTerms L c z) k) = true := term_known z k

/-- A call that gives a truth value. -/
def Says (r : Res Bool) (p : Prop) : Prop := ∃ b, r = .ok b ∧ (b = true ↔ p)

theorem says_and {a b : Res Bool} {p q : Prop} (ha : Says a p) (hb : Says b q) : Says (andThen a b) (p ∧ q) := by
  obtain ⟨x, rfl, hx⟩ := ha
  obtain ⟨y, rfl, hy⟩ := hb
  unfold andThen
  cases x with
  | false => exact ⟨false, rfl, by simp [← hx]⟩
  | true => exact ⟨y, rfl, by simp [← hx, hy]⟩

theorem nest {a b : Res Bool} {p q : Prop} (ha : Says a p) (hb : Says b q) {t : Option VTran} :
    (do if ← a then (do if ← b then Res.ok t else .ok none) else .ok none) = (do if ← andThen a b then Res.ok t else .ok none) := by
  obtain ⟨x, rfl, -⟩ := ha
  obtain ⟨y, rfl, -⟩ := hb
  cases x <;> cases y <;> rfl

/-- What `transformOf` gives for terms `T`. -/
def Gives (L : Lib V Pr) (c : CDM P V CS) (s : System Pr) (T : String → String) (sn : String) (r : Option VTran) : Prop :=
  (∃ f ∈ formulas, f.name = sn ∧ f.applies T ∧ (∀ k ∈ f.checked, OnSystem L c s (T k)) ∧ r = some (f.make T)) ∨
  (∃ f ∈ formulas, f.name = sn ∧ f.applies T ∧ (∃ k ∈ f.checked, ¬ OnSystem L c s (T k)) ∧ r = none) ∨
  ((∀ f ∈ formulas, f.name ≠ sn) ∧ r = none)

theorem gated {s : System Pr} {T : String → String} (f : Formula) (hf : f ∈ formulas) (ha : f.applies T) {a : Res Bool} {p : Prop}
    (h : Says a p) (hp : p ↔ ∀ k ∈ f.checked, OnSystem L c s (T k)) :
    ∃ r, (do if ← a then Res.ok (some (f.make T)) else .ok none) = .ok r ∧ Gives L c s T f.name r := by
  obtain ⟨b, rfl, hb⟩ := h
  cases b with
  | true => exact ⟨_, rfl, Or.inl ⟨f, hf, rfl, ha, hp.1 (hb.1 rfl), rfl⟩⟩
  | false =>
    refine ⟨none, rfl, Or.inr (Or.inl ⟨f, hf, rfl, ha, ?_, rfl⟩)⟩
    have : ¬ ∀ k ∈ f.checked, OnSystem L c s (T k) := fun h => by
      have := hb.2 (hp.2 h)
      cases this
    push Not at this
    exact this

theorem transformOf_gives (hn : Names c) (s : System Pr) (z sn : String) :
    ∃ r, transformOf L c s (knownTerms L c z) sn = .ok r ∧ Gives L c s (term (knownTerms L c z)) sn r := by
  have K : ∀ k, Says (isCSForTerm L c s (term (knownTerms L c z) k)) (OnSystem L c s (term (knownTerms L c z) k)) :=
    fun k => isCSForTerm_iff hn (term_known z k)
  unfold transformOf
  dsimp only
  generalize term (knownTerms L c z) = T at *
  by_cases h1 : sn = "atmosphere_hybrid_sigma_pressure_coordinate"
  · subst h1
    rw [if_pos rfl]
    by_cases hap : T "ap" = ""
    · rw [if_pos hap, nest (says_and (K _) (says_and (K _) (K _))) (K _)]
      refine gated (f := ⟨"atmosphere_hybrid_sigma_pressure_coordinate", fun T => T "ap" = "", ["a", "ps", "p0", "p"],
        fun T => .hybridSigmaPressure2 (T "a") (T "b") (T "ps") (T "p0")⟩) (by simp [formulas]) hap
        (says_and (says_and (K _) (says_and (K _) (K _))) (K _)) ?_
      simp
      tauto
    · rw [if_neg hap, nest (says_and (K _) (says_and (K _) (K _))) (K _)]
      refine gated (f := ⟨"atmosphere_hybrid_sigma_pressure_coordinate", fun T => T "ap" ≠ "", ["ap", "ps", "p0", "p"],
        fun T => .hybridSigmaPressure1 (T "ap") (T "b") (T "ps") (T "p0")⟩) (by simp [formulas]) hap
        (says_and (says_and (K _) (says_and (K _) (K _))) (K _)) ?_
      simp
      tauto
  rw [if_neg h1]
  by_cases h2 : sn = "atmosphere_ln_pressure_coordinate"
  · subst h2
    rw [if_pos rfl]
    refine gated (f := ⟨"atmosphere_ln_pressure_coordinate", fun _ => True, ["lev", "p0"], fun T => .lnPressure (T "lev") (T "p0")⟩)
      (by simp [formulas]) trivial (says_and (K _) (K _)) ?_
    simp
  rw [if_neg h2]
  by_cases h3 : sn = "atmosphere_sigma_coordinate"
  · subst h3
    rw [if_pos rfl]
    refine gated (f := ⟨"atmosphere_sigma_coordinate", fun _ => True, ["sigma", "ptop", "ps"],
      fun T => .atmosphereSigma (T "sigma") (T "ptop") (T "ps")⟩)
      (by simp [formulas]) trivial (says_and (K _) (says_and (K _) (K _))) ?_
    simp
  rw [if_neg h3]
  by_cases h4 : sn = "ocean_s_coordinate_g1"
  · subst h4
    rw [if_pos (Or.inl rfl), if_pos rfl]
    refine gated (f := ⟨"ocean_s_coordinate_g1", fun _ => True, ["s", "C", "depth", "depth_c", "eta"],
      fun T => .oceanSG1 (T "s") (T "C") (T "depth") (T "depth_c") (T "eta")⟩)
      (by simp [formulas]) trivial (says_and (K _) (says_and (K _) (says_and (K _) (says_and (K _) (K _))))) ?_
    simp
  by_cases h5 : sn = "ocean_s_coordinate_g2"
  · subst h5
    rw [if_pos (Or.inr rfl), if_neg h4]
    refine gated (f := ⟨"ocean_s_coordinate_g2", fun _ => True, ["s", "C", "depth", "depth_c", "eta"],
      fun T => .oceanSG2 (T "s") (T "C") (T "depth") (T "depth_c") (T "eta")⟩)
      (by simp [formulas]) trivial (says_and (K _) (says_and (K _) (says_and (K _) (says_and (K _) (K _))))) ?_
    simp
  rw [if_neg (not_or.2 ⟨h4, h5⟩)]
  by_cases h6 : sn = "atmosphere_hybrid_height_coordinate"
  · subst h6
    rw [if_pos rfl]
    refine gated (f := ⟨"atmosphere_hybrid_height_coordinate", fun _ => True, ["a", "b", "orog"],
      fun T => .atmosphereHybridHeight (T "a") (T "b") (T "orog")⟩)
      (by simp [formulas]) trivial (says_and (K _) (says_and (K _) (K _))) ?_
    simp
  rw [if_neg h6]
  refine ⟨none, rfl, Or.inr (Or.inr ⟨fun f hf e => ?_, rfl⟩)⟩
  simp only [formulas, List.mem_cons, List.not_mem_nil, or_false] at hf
  rcases hf with rfl | rfl | rfl | rfl | rfl | rfl | rfl
  · exact h1 e.symm
  · exact h1 e.symm
  · exact h2 e.symm
  · exact h3 e.symm
  · exact h4 e.symm
  · exact h5 e.symm
  · exact h6 e.symm

/-- What `setVertical` does to a system without a transformation. -/
theorem setVertical_spec (hn : Names c) (s s' : System Pr) (hv : s.vtran = none) (h : setVertical L c s = .ok s') :
    VerticalOf L c s s'.vtran ∧ ∀ n, n ∈ s'.deps ↔ n ∈ s.deps ∨
      ∃ z, ZAxis s z ∧ z.type = .geoZ ∧ (∃ v ∈ c.vars, v.name = z.name) ∧ ∃ k, (k, n) ∈ knownTerms L c z.name := by
  unfold setVertical at h
  cases hz : geoZ s with
  | none =>
    rw [hz] at h
    cases h
    have hno : ∀ z, ¬ ZAxis s z := fun z k => by rw [geoZ_iff.2 k] at hz; cases hz
    rw [hv]
    exact ⟨.noAxis hno, fun n => ⟨Or.inl, fun k => k.resolve_right fun ⟨z, kz, _⟩ => hno z kz⟩⟩
  | some z =>
    rw [hz] at h
    dsimp only at h
    have kz := geoZ_iff.1 hz
    have kun : ∀ z', ZAxis s z' → z' = z := fun z' k => by rw [geoZ_iff.2 k] at hz; cases hz; rfl
    by_cases hvar : hasVariable c z.name = true
    · rw [if_pos hvar] at h
      obtain ⟨v, hvm, hvn⟩ := hasVariable_iff'.1 hvar
      have hsame : z.type ≠ .geoZ → ∀ n, n ∈ s.deps ↔ n ∈ s.deps ∨
          ∃ z, ZAxis s z ∧ z.type = .geoZ ∧ (∃ v ∈ c.vars, v.name = z.name) ∧ ∃ k, (k, n) ∈ knownTerms L c z.name :=
        fun ht n => ⟨Or.inl, fun k => k.resolve_right fun ⟨z', kz', kt, _⟩ => ht (kun z' kz' ▸ kt)⟩
      have hform : z.type = .geoZ → setFormula L c s z.name = .ok s' → _ := fun (ht : z.type = .geoZ) (hf : setFormula L c s z.name = .ok s') =>
        show VerticalOf L c s s'.vtran ∧ ∀ n, n ∈ s'.deps ↔ n ∈ s.deps ∨
            ∃ z, ZAxis s z ∧ z.type = .geoZ ∧ (∃ v ∈ c.vars, v.name = z.name) ∧ ∃ k, (k, n) ∈ knownTerms L c z.name by
          have hdeps : ∀ (ps : List (String × String)) (d : List String) n, n ∈ ps.foldl (fun d p => setInsert p.2 d) d ↔ n ∈ d ∨ ∃ k, (k, n) ∈ ps := by
            intro ps
            induction ps with
            | nil => simp
            | cons p ps ih =>
              intro d n
              rw [List.foldl_cons, ih, mem_setInsert]
              constructor
              · rintro ((rfl | h) | ⟨k, hk⟩)
                · exact Or.inr ⟨p.1, List.mem_cons_self⟩
                · exact Or.inl h
                · exact Or.inr ⟨k, List.mem_cons_of_mem _ hk⟩
              · rintro (h | ⟨k, hk⟩)
                · exact Or.inl (Or.inr h)
                · rcases List.mem_cons.1 hk with hk | hk
                  · exact Or.inl (Or.inl (by rw [← hk]))
                  · exact Or.inr ⟨k, hk⟩
          have hd' : ∀ n, n ∈ (knownTerms L c z.name).foldl (fun d p => setInsert p.2 d) s.deps ↔ n ∈ s.deps ∨
              ∃ z, ZAxis s z ∧ z.type = .geoZ ∧ (∃ v ∈ c.vars, v.name = z.name) ∧ ∃ k, (k, n) ∈ knownTerms L c z.name := by
            intro n
            rw [hdeps]
            refine or_congr_right ⟨fun hk => ⟨z, kz, ht, ⟨v, hvm, hvn⟩, hk⟩, ?_⟩
            rintro ⟨z', kz', -, -, hk⟩
            rw [kun z' kz'] at hk
            exact hk
          unfold setFormula at hf
          dsimp only at hf
          cases hsn : attrText L c z.name "standard_name" with
          | none =>
            rw [hsn] at hf
            cases hf
            refine ⟨?_, hd'⟩
            dsimp only
            rw [hv]
            exact .noFormula kz hvm hvn ht fun f _ e => by rw [hsn] at e; cases e
          | some sn =>
            rw [hsn] at hf
            dsimp only at hf
            obtain ⟨r, er, hr⟩ := transformOf_gives (L := L) hn
              { s with deps := (knownTerms L c z.name).foldl (fun d p => setInsert p.2 d) s.deps } z.name sn
            rw [er] at hf
            cases hf
            refine ⟨?_, hd'⟩
            dsimp only
            have hT := valueOf_term (knownTerms L c z.name)
            rcases hr with ⟨f, hf, hfn, ha, hon, rfl⟩ | ⟨f, hf, hfn, ha, ⟨k, hk, hon⟩, rfl⟩ | ⟨hno, rfl⟩
            · exact .formula kz hvm hvn ht hT hf (hfn ▸ hsn) ha hon
            · exact .notOnSystem kz hvm hvn ht hT hf (hfn ▸ hsn) ha hk hon
            · refine .noFormula kz hvm hvn ht fun f hf e => ?_
              rw [hsn] at e
              cases e
              exact hno f hf rfl
      have htypes := (axisOfTypes_mem kz).2
      simp only [List.mem_cons, List.not_mem_nil, or_false] at htypes
      rcases htypes with ht | ht | ht | ht
      · rw [ht] at h
        exact hform ht h
      · rw [ht] at h
        cases h
        exact ⟨.height kz hvm hvn ht isAltitude_iff, hsame (by rw [ht]; decide)⟩
      · rw [ht] at h
        cases h
        exact ⟨.depth kz hvm hvn ht, hsame (by rw [ht]; decide)⟩
      · rw [ht] at h
        cases h
        exact ⟨.pressure kz hvm hvn ht, hsame (by rw [ht]; decide)⟩
    · rw [if_neg hvar] at h
      cases h
      have hno : ∀ v ∈ c.vars, v.name ≠ z.name := fun v hv hvn => hvar (hasVariable_iff'.2 ⟨v, hv, hvn⟩)
      rw [hv]
      refine ⟨.noVariable kz hno, fun n => ⟨Or.inl, fun k => k.resolve_right ?_⟩⟩
      rintro ⟨z', kz', -, ⟨v, hvm, hvn⟩, -⟩
      rw [kun z' kz'] at hvn
      exact hno v hvm hvn

theorem axisOfTypes_congr {s t : System Pr} (h : s.axes = t.axes) {ts : List AxisType} {a : Axis} : AxisOfTypes s ts a ↔ AxisOfTypes t ts a := by
  unfold AxisOfTypes
  rw [h]

theorem onSystem_congr {s t : System Pr} (h : s.axes = t.axes) {n : String} : OnSystem L c s n ↔ OnSystem L c t n := by
  unfold OnSystem HasAxis
  rw [h]

theorem verticalOf_congr {s t : System Pr} (h : s.axes = t.axes) {r : Option VTran} (k : VerticalOf L c s r) : VerticalOf L c t r := by
  cases k with
  | noAxis h1 => exact .noAxis fun z hz => h1 z ((axisOfTypes_congr h).2 hz)
  | noVariable h1 h2 => exact .noVariable ((axisOfTypes_congr h).1 h1) h2
  | height h1 h2 h3 h4 h5 => exact .height ((axisOfTypes_congr h).1 h1) h2 h3 h4 h5
  | depth h1 h2 h3 h4 => exact .depth ((axisOfTypes_congr h).1 h1) h2 h3 h4
  | pressure h1 h2 h3 h4 => exact .pressure ((axisOfTypes_congr h).1 h1) h2 h3 h4
  | formula h1 h2 h3 h4 h5 h6 h7 h8 h9 =>
    exact .formula ((axisOfTypes_congr h).1 h1) h2 h3 h4 h5 h6 h7 h8 fun k hk => (onSystem_congr h).1 (h9 k hk)
  | notOnSystem h1 h2 h3 h4 h5 h6 h7 h8 h9 h10 =>
    exact .notOnSystem ((axisOfTypes_congr h).1 h1) h2 h3 h4 h5 h6 h7 h8 h9 fun k => h10 ((onSystem_congr h).2 k)
  | noFormula h1 h2 h3 h4 h5 => exact .noFormula ((axisOfTypes_congr h).1 h1) h2 h3 h4 h5

/-- **C97.** The vertical transformation of a listed system is the one of the rules: by the type of its vertical axis or by the formula
of its standard name, with the variables that the formula terms name.
The full property (a formula is used only if all its terms are there and lie on the coordinate system) is violated: the term `b` of the
hybrid sigma formulas is not looked at (`C97_b_elsewhere`), and missing terms are accepted (`C97_missing_terms`). -/
theorem C97_vertical_partial (hn : Names c) {l : List (System Pr)} (h : listCF L c = .ok l) : ∀ s ∈ l, VerticalOf L c s s.vtran := by
  intro s hs
  obtain ⟨m, s1, s2, hk, -, -, hv, hax, -, -, e1, e2, rfl⟩ := listed_phases hn.vars h hs
  have k1 := setProj_keeps _ e1
  have hv1 : s1.vtran = none := by rw [k1.2.2.2.2.2]; exact hv
  have hax1 : s1.axes = (addBounds L c s2).axes := by rw [k1.2.1]; exact hax
  exact verticalOf_congr hax1 (setVertical_spec hn s1 s2 hv1 e2).1

theorem verticalOf_unique {s : System Pr} {r t : Option VTran} (h1 : VerticalOf L c s r) (h2 : VerticalOf L c s t) : r = t := by
  have uz : ∀ {z z'}, ZAxis s z → ZAxis s z' → z = z' := fun {z z'} k k' => by
    have := (geoZ_iff.2 k).symm.trans (geoZ_iff.2 k')
    cases this
    rfl
  have uT : ∀ {ps : List (String × String)} {T U : String → String}, (∀ k, ValueOf ps k (T k)) → (∀ k, ValueOf ps k (U k)) → T = U :=
    fun h h' => funext fun k => valueOf_unique (h k) (h' k)
  have uf : ∀ {f g : Formula} {T : String → String}, f ∈ formulas → g ∈ formulas → f.name = g.name → f.applies T → g.applies T → f = g := by
    intro f g T hf hg
    simp only [formulas, List.mem_cons, List.not_mem_nil, or_false] at hf hg
    rcases hf with rfl | rfl | rfl | rfl | rfl | rfl | rfl <;> rcases hg with rfl | rfl | rfl | rfl | rfl | rfl | rfl <;>
      intro hname h1 h2 <;> first | rfl | (exact absurd hname (by decide)) | (exact absurd h2 h1) | (exact absurd h1 h2)
  cases h1 with
  | noAxis a1 =>
    cases h2 with
    | noAxis => rfl
    | noVariable b1 => rfl
    | height b1 => exact absurd b1 (a1 _)
    | depth b1 => exact absurd b1 (a1 _)
    | pressure b1 => exact absurd b1 (a1 _)
    | formula b1 => exact absurd b1 (a1 _)
    | notOnSystem b1 => rfl
    | noFormula b1 => rfl
  | noVariable a1 a2 =>
    cases h2 with
    | noAxis => rfl
    | noVariable b1 => rfl
    | height b1 b2 b3 => cases uz a1 b1; exact absurd b3 (a2 _ b2)
    | depth b1 b2 b3 => cases uz a1 b1; exact absurd b3 (a2 _ b2)
    | pressure b1 b2 b3 => cases uz a1 b1; exact absurd b3 (a2 _ b2)
    | formula b1 b2 b3 => cases uz a1 b1; exact absurd b3 (a2 _ b2)
    | notOnSystem b1 => rfl
    | noFormula b1 => rfl
  | height a1 a2 a3 a4 a5 =>
    cases h2 with
    | noAxis b1 => exact absurd a1 (b1 _)
    | noVariable b1 b2 => cases uz a1 b1; exact absurd a3 (b2 _ a2)
    | height b1 b2 b3 b4 b5 =>
      cases uz a1 b1
      rw [Bool.eq_iff_iff.2 (a5.trans b5.symm)]
    | depth b1 b2 b3 b4 => cases uz a1 b1; rw [a4] at b4; cases b4
    | pressure b1 b2 b3 b4 => cases uz a1 b1; rw [a4] at b4; cases b4
    | formula b1 b2 b3 b4 => cases uz a1 b1; rw [a4] at b4; cases b4
    | notOnSystem b1 b2 b3 b4 => cases uz a1 b1; rw [a4] at b4; cases b4
    | noFormula b1 b2 b3 b4 => cases uz a1 b1; rw [a4] at b4; cases b4
  | depth a1 a2 a3 a4 =>
    cases h2 with
    | noAxis b1 => exact absurd a1 (b1 _)
    | noVariable b1 b2 => cases uz a1 b1; exact absurd a3 (b2 _ a2)
    | height b1 b2 b3 b4 b5 => cases uz a1 b1; rw [a4] at b4; cases b4
    | depth b1 b2 b3 b4 => cases uz a1 b1; rfl
    | pressure b1 b2 b3 b4 => cases uz a1 b1; rw [a4] at b4; cases b4
    | formula b1 b2 b3 b4 => cases uz a1 b1; rw [a4] at b4; cases b4
    | notOnSystem b1 b2 b3 b4 => cases uz a1 b1; rw [a4] at b4; cases b4
    | noFormula b1 b2 b3 b4 => cases uz a1 b1; rw [a4] at b4; cases b4
  | pressure a1 a2 a3 a4 =>
    cases h2 with
    | noAxis b1 => exact absurd a1 (b1 _)
    | noVariable b1 b2 => cases uz a1 b1; exact absurd a3 (b2 _ a2)
    | height b1 b2 b3 b4 b5 => cases uz a1 b1; rw [a4] at b4; cases b4
    | depth b1 b2 b3 b4 => cases uz a1 b1; rw [a4] at b4; cases b4
    | pressure b1 b2 b3 b4 => cases uz a1 b1; rfl
    | formula b1 b2 b3 b4 => cases uz a1 b1; rw [a4] at b4; cases b4
    | notOnSystem b1 b2 b3 b4 => cases uz a1 b1; rw [a4] at b4; cases b4
    | noFormula b1 b2 b3 b4 => cases uz a1 b1; rw [a4] at b4; cases b4
  | formula a1 a2 a3 a4 a5 a6 a7 a8 a9 =>
    cases h2 with
    | noAxis b1 => exact absurd a1 (b1 _)
    | noVariable b1 b2 => cases uz a1 b1; exact absurd a3 (b2 _ a2)
    | height b1 b2 b3 b4 b5 => cases uz a1 b1; rw [a4] at b4; cases b4
    | depth b1 b2 b3 b4 => cases uz a1 b1; rw [a4] at b4; cases b4
    | pressure b1 b2 b3 b4 => cases uz a1 b1; rw [a4] at b4; cases b4
    | formula b1 b2 b3 b4 b5 b6 b7 b8 b9 =>
      cases uz a1 b1
      cases uT a5 b5
      have := uf a6 b6 (Option.some.inj (a7.symm.trans b7)) a8 b8
      rw [this]
    | notOnSystem b1 b2 b3 b4 b5 b6 b7 b8 b9 b10 =>
      cases uz a1 b1
      cases uT a5 b5
      have := uf a6 b6 (Option.some.inj (a7.symm.trans b7)) a8 b8
      rw [this] at a9
      exact absurd (a9 _ b9) b10
    | noFormula b1 b2 b3 b4 b5 => cases uz a1 b1; exact absurd a7 (b5 _ a6)
  | notOnSystem a1 a2 a3 a4 a5 a6 a7 a8 a9 a10 =>
    cases h2 with
    | noAxis b1 => rfl
    | noVariable b1 b2 => rfl
    | height b1 b2 b3 b4 b5 => cases uz a1 b1; rw [a4] at b4; cases b4
    | depth b1 b2 b3 b4 => cases uz a1 b1; rw [a4] at b4; cases b4
    | pressure b1 b2 b3 b4 => cases uz a1 b1; rw [a4] at b4; cases b4
    | formula b1 b2 b3 b4 b5 b6 b7 b8 b9 =>
      cases uz a1 b1
      cases uT a5 b5
      have := uf a6 b6 (Option.some.inj (a7.symm.trans b7)) a8 b8
      rw [this] at a9
      exact absurd (b9 _ a9) a10
    | notOnSystem => rfl
    | noFormula => rfl
  | noFormula a1 a2 a3 a4 a5 =>
    cases h2 with
    | noAxis b1 => rfl
    | noVariable b1 b2 => rfl
    | height b1 b2 b3 b4 b5 => cases uz a1 b1; rw [a4] at b4; cases b4
    | depth b1 b2 b3 b4 => cases uz a1 b1; rw [a4] at b4; cases b4
    | pressure b1 b2 b3 b4 => cases uz a1 b1; rw [a4] at b4; cases b4
    | formula b1 b2 b3 b4 b5 b6 b7 b8 b9 => cases uz a1 b1; exact absurd b7 (a5 _ b6)
    | notOnSystem => rfl
    | noFormula => rfl

/-- **C97.** The rules leave no choice: two transformations of a system that follow them are the same. -/
theorem C97_rules_unique {s : System Pr} {r t : Option VTran} (h1 : VerticalOf L c s r) (h2 : VerticalOf L c s t) : r = t :=
  verticalOf_unique h1 h2

/-- **C97.** The dependency variables of a listed system: the grid mapping it has its projection from, the variables of the formula terms
of its vertical axis, and the bounds of its axes. -/
theorem C97_dependencies (hn : Names c) {l : List (System Pr)} (h : listCF L c = .ok l) : ∀ s ∈ l, ∀ n, n ∈ s.deps ↔
    (∃ v attrs, MappedBy L c s v ∧ Offers L c s v attrs (some n)) ∨
    (∃ z, ZAxis s z ∧ z.type = .geoZ ∧ (∃ v ∈ c.vars, v.name = z.name) ∧ ∃ k, (k, n) ∈ knownTerms L c z.name) ∨
    (∃ a ∈ getAxes s.axes, (∃ v ∈ c.vars, v.name = a.name) ∧ attrText L c a.name "bounds" = some n ∧ ∃ v ∈ c.vars, v.name = n) := by
  intro s hs n
  obtain ⟨m, s1, s2, hk, hp, hd, hv, hax, hfor, hcom, e1, e2, rfl⟩ := listed_phases hn.vars h hs
  have k1 := setProj_keeps _ e1
  have k2 := setVertical_keeps e2
  have hv1 : s1.vtran = none := by rw [k1.2.2.2.2.2]; exact hv
  have hax1 : s1.axes = (addBounds L c s2).axes := by rw [k1.2.1]; exact hax
  have hbounds : ∀ (as : List Axis) (d : List String), n ∈ as.foldl (fun d a =>
      if hasVariable c a.name then
        match attrText L c a.name "bounds" with
        | some b => if hasVariable c b then setInsert b d else d
        | none => d
      else d) d ↔ n ∈ d ∨ ∃ a ∈ as, (∃ v ∈ c.vars, v.name = a.name) ∧ attrText L c a.name "bounds" = some n ∧ ∃ v ∈ c.vars, v.name = n := by
    intro as
    induction as with
    | nil => simp
    | cons a as ih =>
      intro d
      rw [List.foldl_cons, ih]
      simp only [List.mem_cons, exists_eq_or_imp, ← hasVariable_iff']
      rw [← or_assoc]
      refine or_congr_left ?_
      by_cases h1 : hasVariable c a.name = true
      · rw [if_pos h1]
        cases hb : attrText L c a.name "bounds" with
        | none => simp
        | some b =>
          dsimp only
          by_cases h2 : hasVariable c b = true
          · rw [if_pos h2, mem_setInsert]
            constructor
            · rintro (rfl | h)
              · exact Or.inr ⟨h1, rfl, h2⟩
              · exact Or.inl h
            · rintro (h | ⟨-, e, -⟩)
              · exact Or.inr h
              · cases e; exact Or.inl rfl
          · rw [if_neg h2]
            constructor
            · exact Or.inl
            · rintro (h | ⟨-, e, h3⟩)
              · exact h
              · cases e; exact absurd h3 h2
      · rw [if_neg h1]
        simp [h1]
  have hsv := (setVertical_spec hn s1 s2 hv1 e2).2 n
  rw [show n ∈ (addBounds L c s2).deps ↔ _ from hbounds _ _, hsv]
  have haxs : (addBounds L c s2).axes = s2.axes := rfl
  rw [haxs, or_assoc]
  refine or_congr ?_ (or_congr_left (exists_congr fun z => and_congr_left fun _ => axisOfTypes_congr (hax1.trans haxs)))
  have hsim : (setSimple m).simple = true ↔ SimpleGrid c (setSimple m) := (simple_iff hk).trans (simpleGrid_congr rfl)
  have howns : ∀ v : Var P, Owns (setSimple m) v ↔ Owns (addBounds L c s2) v := fun v => by
    unfold Owns
    rw [show (setSimple m).isFor = (addBounds L c s2).isFor from hfor, show (setSimple m).complete = (addBounds L c s2).complete from hcom]
  have hoff : ∀ (v : Var P) attrs n, Offers L c (setSimple m) v attrs n ↔ Offers L c (addBounds L c s2) v attrs n :=
    fun v attrs n => offers_congr (s := setSimple m) hax
  rcases setProj_spec (setSimple m) (hk : Known L c (setSimple m)) hsim hp c.vars e1 with ⟨h1, h2⟩ | ⟨v, attrs, g, p, h1, h2, h3, h4⟩
  · rw [h2, show (setSimple m).deps = [] from hd]
    constructor
    · intro h; cases h
    · rintro ⟨v, attrs, hm, hof⟩
      obtain ⟨hmem, ho, -⟩ := first_mem hm
      exact absurd ((hoff _ _ _).2 hof) (h1 v hmem ((howns v).2 ho) _ _)
  · have hm : MappedBy L c (addBounds L c s2) v :=
      (first_congr fun w => and_congr (howns w) (exists_congr fun a => exists_congr fun n => hoff w a n)).1 h1
    have hof := (hoff _ _ _).1 h2
    rw [h4]
    dsimp only
    rw [show (setSimple m).deps = [] from hd]
    constructor
    · intro hg
      cases g with
      | none => cases hg
      | some g =>
        dsimp only at hg
        rw [mem_setInsert] at hg
        rcases hg with rfl | hg
        · exact ⟨v, attrs, hm, hof⟩
        · cases hg
    · rintro ⟨w, attrs', hm', hof'⟩
      have hvw : v = w := by
        obtain ⟨l1, l2, ea, ha, hb⟩ := hm
        obtain ⟨m1, m2, eb, hc, hd⟩ := hm'
        rcases List.append_eq_append_iff.1 (ea.symm.trans eb) with ⟨t, rfl, et⟩ | ⟨t, rfl, et⟩
        · cases t with
          | nil => cases et; rfl
          | cons x t => cases et; exact absurd ha (hd _ (by simp))
        · cases t with
          | nil => cases et; rfl
          | cons x t => cases et; exact absurd hc (hb _ (by simp))
      subst hvw
      cases hof' with
      | mapping j1 j2 =>
        cases hof with
        | mapping i1 i2 =>
          rw [j1] at i1
          cases i1
          dsimp only
          rw [mem_setInsert]
          exact Or.inl rfl
        | latLon i1 => rw [j1] at i1; cases i1

/-! ## Cases -/

/-- The transformation and the dependency variables found for a variable. -/
def foundVert (r : Res (List (System String))) (v : String) : Option (Option VTran × List String) :=
  match r with
  | .ok l => (findComplete l v).map fun s => (s.vtran, s.deps)
  | _ => none

/-- A temperature on hybrid levels, with the given formula terms. -/
def levelsCdm (terms : String) : CDM Unit String Unit :=
  toyCdm [("x", 3), ("k", 4), ("other", 2), ("one", 1)]
    [("k", ["k"], [("standard_name", "atmosphere_hybrid_sigma_pressure_coordinate"), ("formula_terms", terms), ("bounds", "kb")]),
     ("kb", ["k"], []), ("ap", ["k"], []), ("b", ["k"], []), ("p_s", ["x", "one"], []), ("b_other", ["other"], []), ("p_other", ["other"], []),
     ("T", ["x", "k"], [])]

example : foundVert (listCF toyLib (levelsCdm "ap: ap b: b ps: p_s")) "T" =
    some (some (.hybridSigmaPressure1 "ap" "b" "p_s" ""), ["ap", "b", "kb", "p_s"]) := by decide +kernel

example : foundVert (listCF toyLib (levelsCdm "ap: ap b: b ps: p_other")) "T" = some (none, ["ap", "b", "kb", "p_other"]) := by
  decide +kernel

/-- The term `b` of a hybrid sigma coordinate can lie on axes the coordinate system does not have. -/
theorem C97_b_elsewhere : foundVert (listCF toyLib (levelsCdm "ap: ap b: b_other ps: p_s")) "T" =
    some (some (.hybridSigmaPressure1 "ap" "b_other" "p_s" ""), ["ap", "b_other", "kb", "p_s"]) := by decide +kernel

/-- Without any formula terms there is a transformation all of whose variables have no name. -/
theorem C97_missing_terms : foundVert (listCF toyLib (levelsCdm "")) "T" = some (some (.hybridSigmaPressure2 "" "" "" ""), ["kb"]) := by
  decide +kernel

end Fimex.Cf
