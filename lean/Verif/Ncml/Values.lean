import Verif.Text.Props
import Mathlib.Algebra.Order.Ring.Rat
import Mathlib.Tactic.Ring

/-!
# Values given in NcML

Model of `split_marker`, `split_ncml_values`, `fimexShapeFromXmlAtt` and the values of `initVariableDataChange`
(`src/NcmlCDMReader.cc:57-89, 275-319`), with C71.  Texts are lists of characters; the reading of one number is the parameter `parse`
(`string2type<double>`, or `initDataByArray` for the type of the variable), the arithmetic is exact.  The number of values of a variable does not overflow.
-/

namespace Fimex.Ncml

open Fimex.Text

/-! ## Model -/

/-- `str.find(marker, from)`: the first place not before `k` at which the marker stands. -/
def findMarker (marker : List Char) : List Char → Nat → Option Nat
  | s, 0 => if marker.isPrefixOf s then some 0 else
    match s with
    | [] => none
    | _ :: s => (findMarker marker s 0).map (· + 1)
  | [], _ + 1 => none
  | _ :: s, k + 1 => (findMarker marker s k).map (· + 1)

/-- src/NcmlCDMReader.cc:57-66 `split_marker`; `none`: not ended after `fuel` rounds. -/
def splitMarkerLoop (s marker : List Char) : Nat → Nat → List (List Char) → Option (Res (List (List Char)))
  | 0, _, _ => none
  | fuel + 1, previous, acc =>
    match findMarker marker s previous with
    | some current =>
      match substr s (some previous) (some current) with
      | .ok t => splitMarkerLoop s marker fuel (current + marker.length) (acc ++ [t])
      | .throws => some .throws
      | .ub => some .ub
    | none =>
      match substr s (some previous) none with
      | .ok t => some (.ok (acc ++ [t]))
      | .throws => some .throws
      | .ub => some .ub

/-- src/NcmlCDMReader.cc:68-73 `split_marker`. -/
def splitMarker (fuel : Nat) (s marker : List Char) : Option (Res (List (List Char))) := splitMarkerLoop s marker fuel 0 []

/-- src/NcmlCDMReader.cc:75-81 `split_ncml_values`. -/
def splitNcmlValues (fuel : Nat) (values separator : List Char) : Option (Res (List (List Char))) :=
  if separator = [] then tokenize fuel values " ,\t\r\n".toList else splitMarker fuel values separator

/-- src/NcmlCDMReader.cc:83-89 `fimexShapeFromXmlAtt`. -/
def shapeFromAtt (fuel : Nat) (att : List Char) : Option (Res (List (List Char))) :=
  (tokenize fuel att " \t".toList).map fun r => r >>= fun l => .ok l.reverse

/-- The product of the lengths, src/NcmlCDMReader.cc:283-287. -/
def dataSize (dims : List Nat) : Nat := dims.foldl (fun n d => n * d) 1

/-- src/NcmlCDMReader.cc:299-305: `array[0]` of an array without elements is undefined. -/
def progression {K : Type} [Add K] [Mul K] [NatCast K] (parse : List Char → Res K) (start increment : List Char) (n : Nat) : Res (List K) := do
  let a0 ← parse start
  if n = 0 then .ub
  else do
    let step ← parse increment
    .ok (a0 :: (List.range (n - 1)).map fun i => a0 + ((i + 1 : Nat) : K) * step)

/-- src/NcmlCDMReader.cc:289-316: the values for a variable with dimensions of the given lengths. -/
def values {K : Type} [Add K] [Mul K] [NatCast K] (fuel : Nat) (parse : List Char → Res K) (start increment content separator : List Char) (dims : List Nat) :
    Option (Res (List K)) :=
  let haveStartInc := !start.isEmpty && !increment.isEmpty
  let haveValues := !content.isEmpty
  if start.isEmpty != increment.isEmpty then some .throws
  else if haveStartInc == haveValues then some .throws
  else if haveStartInc then some (progression parse start increment (dataSize dims))
  else
    match splitNcmlValues fuel content separator with
    | none => none
    | some .throws => some .throws
    | some .ub => some .ub
    | some (.ok l) =>
      if (dims.length = 0 ∧ 1 < l.length) ∨ (0 < dims.length ∧ l.length ≠ dataSize dims) then some .throws
      else some (l.mapM parse)

/-! ## Specification -/

/-- The pieces of a text: each ends where the marker stands for the first time. -/
inductive Pieces (marker : List Char) : List Char → List (List Char) → Prop where
  | last (s) : (∀ a b, s ≠ a ++ marker ++ b) → Pieces marker s [s]
  | cons (p s ts) : (∀ a b, p ++ marker = a ++ marker ++ b → b = []) → Pieces marker s ts → Pieces marker (p ++ marker ++ s) (p :: ts)

/-! ## Lemmas -/

theorem findMarker_spec (marker : List Char) : ∀ (s : List Char) (k : Nat),
    (∀ i, findMarker marker s k = some i → k ≤ i ∧ ∃ a b, s = a ++ marker ++ b ∧ a.length = i ∧ ∀ a' b', s = a' ++ marker ++ b' → k ≤ a'.length → i ≤ a'.length) ∧
    (findMarker marker s k = none → ∀ a b, s = a ++ marker ++ b → a.length < k) := by
  intro s
  induction s with
  | nil =>
    intro k
    cases k with
    | zero =>
      unfold findMarker
      by_cases h : marker.isPrefixOf [] = true
      · rw [if_pos h]
        have hm : marker = [] := by simpa [List.isPrefixOf_iff_prefix] using h
        refine ⟨fun i hi => ?_, fun h => by cases h⟩
        cases hi
        exact ⟨Nat.le_refl _, [], [], by simp [hm], rfl, fun _ _ _ _ => Nat.zero_le _⟩
      · rw [if_neg h]
        refine ⟨fun i hi => (by cases hi), fun _ a b hab => ?_⟩
        exfalso
        apply h
        have : marker = [] := by
          have := congrArg List.length hab
          simp at this
          exact List.eq_nil_of_length_eq_zero (by omega)
        simp [this]
    | succ k =>
      unfold findMarker
      refine ⟨fun i hi => (by cases hi), fun _ a b hab => ?_⟩
      have := congrArg List.length hab
      simp at this
      omega
  | cons c s ih =>
    intro k
    cases k with
    | zero =>
      unfold findMarker
      by_cases h : marker.isPrefixOf (c :: s) = true
      · rw [if_pos h]
        refine ⟨fun i hi => ?_, fun h => by cases h⟩
        cases hi
        obtain ⟨b, hb⟩ := List.isPrefixOf_iff_prefix.1 h
        exact ⟨Nat.le_refl _, [], b, by rw [← hb]; rfl, rfl, fun _ _ _ _ => Nat.zero_le _⟩
      · rw [if_neg h]
        dsimp only
        have hno : ∀ a b, c :: s = a ++ marker ++ b → ∃ a', a = c :: a' ∧ s = a' ++ marker ++ b := by
          intro a b hab
          cases a with
          | nil =>
            exfalso
            apply h
            rw [List.isPrefixOf_iff_prefix]
            exact ⟨b, by rw [hab]; rfl⟩
          | cons x a =>
            rw [List.cons_append, List.cons_append] at hab
            cases hab
            exact ⟨a, rfl, rfl⟩
        obtain ⟨i1, i2⟩ := ih 0
        constructor
        · intro i hi
          cases hf : findMarker marker s 0 with
          | none => rw [hf] at hi; cases hi
          | some j =>
            rw [hf] at hi
            cases hi
            obtain ⟨-, a, b, e1, e2, e3⟩ := i1 j hf
            refine ⟨Nat.zero_le _, c :: a, b, by rw [e1]; rfl, by simp [e2], fun a' b' hab _ => ?_⟩
            obtain ⟨a'', rfl, hs⟩ := hno a' b' hab
            have := e3 a'' b' hs (Nat.zero_le _)
            simp
            omega
        · intro hf a b hab
          obtain ⟨a', rfl, hs⟩ := hno a b hab
          cases hf' : findMarker marker s 0 with
          | some j => rw [hf'] at hf; cases hf
          | none => exact absurd (i2 hf' a' b hs) (Nat.not_lt_zero _)
    | succ k =>
      unfold findMarker
      obtain ⟨i1, i2⟩ := ih k
      constructor
      · intro i hi
        cases hf : findMarker marker s k with
        | none => rw [hf] at hi; cases hi
        | some j =>
          rw [hf] at hi
          cases hi
          obtain ⟨h0, a, b, e1, e2, e3⟩ := i1 j hf
          refine ⟨Nat.succ_le_succ h0, c :: a, b, by rw [e1]; rfl, by simp [e2], fun a' b' hab hk => ?_⟩
          cases a' with
          | nil => simp at hk
          | cons x a' =>
            rw [List.cons_append, List.cons_append] at hab
            cases hab
            have := e3 a' b' rfl (by simpa using hk)
            simp
            omega
      · intro hf a b hab
        cases hf' : findMarker marker s k with
        | some j => rw [hf'] at hf; cases hf
        | none =>
          cases a with
          | nil => simp
          | cons x a =>
            rw [List.cons_append, List.cons_append] at hab
            cases hab
            have := i2 hf' a b rfl
            simp
            omega

theorem substr_drop (s : List Char) (k : Nat) (h : k ≤ s.length) : substr s (some k) none = .ok (s.drop k) := by
  unfold substr
  dsimp only
  rw [if_neg (by omega)]

theorem substr_take (s : List Char) (k e : Nat) (h : k ≤ s.length) : substr s (some k) (some e) = .ok ((s.drop k).take (e - k)) := by
  unfold substr
  dsimp only
  rw [if_neg (by omega)]

theorem loop_pieces (s marker : List Char) (hm : marker ≠ []) : ∀ (fuel previous : Nat) (acc : List (List Char)), previous ≤ s.length → s.length - previous < fuel →
    ∃ ts, splitMarkerLoop s marker fuel previous acc = some (.ok (acc ++ ts)) ∧ Pieces marker (s.drop previous) ts := by
  have hml : 0 < marker.length := List.length_pos_iff.2 hm
  intro fuel
  induction fuel with
  | zero => intro p acc _ h; omega
  | succ fuel ih =>
    intro p acc hp hf
    unfold splitMarkerLoop
    obtain ⟨i1, i2⟩ := findMarker_spec marker s p
    cases hfm : findMarker marker s p with
    | none =>
      dsimp only
      rw [substr_drop s p hp]
      refine ⟨[s.drop p], rfl, Pieces.last _ fun a b hab => ?_⟩
      have h1 : s = (s.take p ++ a) ++ marker ++ b := by
        rw [← List.take_append_drop p s]
        conv_lhs => rw [hab]
        simp [List.append_assoc]
      have := i2 hfm _ _ h1
      simp at this
      omega
    | some i =>
      dsimp only
      rw [substr_take s p i hp]
      dsimp only
      obtain ⟨hpi, a, b, e1, e2, e3⟩ := i1 i hfm
      have hlen : s.length = i + marker.length + b.length := by
        have := congrArg List.length e1
        simp [e2] at this
        omega
      obtain ⟨ts, h1, h2⟩ := ih (i + marker.length) (acc ++ [(s.drop p).take (i - p)]) (by omega) (by omega)
      refine ⟨(s.drop p).take (i - p) :: ts, by rw [h1]; simp, ?_⟩
      have hdb : s.drop (i + marker.length) = b := by
        rw [e1, ← e2, ← List.length_append, List.drop_left]
      have hda : s.drop p = (s.drop p).take (i - p) ++ marker ++ b := by
        have hk : (s.drop p).drop (i - p) = marker ++ b := by
          rw [List.drop_drop, show p + (i - p) = i by omega, e1, List.append_assoc, ← e2, List.drop_left]
        rw [List.append_assoc, ← hk, List.take_append_drop]
      rw [hdb] at h2
      conv_lhs => rw [hda]
      refine Pieces.cons _ _ _ (fun a' b' hab => ?_) h2
      -- an earlier occurrence would have been found
      have h3 : s = (s.take p ++ a') ++ marker ++ (b' ++ b) := by
        conv_lhs => rw [← List.take_append_drop p s, hda, hab]
        simp [List.append_assoc]
      have h4 := e3 _ _ h3 (by simp; omega)
      have h5 := congrArg List.length hab
      simp at h4 h5
      apply List.eq_nil_of_length_eq_zero
      omega

theorem pieces_unique (marker : List Char) {s : List Char} {ts ts' : List (List Char)} (h : Pieces marker s ts) (h' : Pieces marker s ts') : ts = ts' := by
  induction h generalizing ts' with
  | last s hno =>
    cases h' with
    | last _ _ => rfl
    | cons p s' ts h1 h2 => exact absurd rfl (hno p s')
  | cons p s ts h1 h2 ih =>
    generalize hu : p ++ marker ++ s = u at h'
    cases h' with
    | last _ hno => exact absurd hu.symm (hno p s)
    | cons p' s' ts' h1' h2' =>
      have hl : p.length = p'.length := by
        rcases Nat.lt_trichotomy p.length p'.length with h | h | h
        · -- `p ++ marker` is a prefix of `p' ++ marker`
          exfalso
          have hp : p ++ marker <+: p' ++ marker := List.prefix_of_prefix_length_le ⟨s, rfl⟩ ⟨s', hu.symm⟩ (by simp; omega)
          obtain ⟨b, hb⟩ := hp
          have := h1' p b hb.symm
          subst this
          have := congrArg List.length hb
          simp at this
          omega
        · exact h
        · exfalso
          have hp : p' ++ marker <+: p ++ marker := List.prefix_of_prefix_length_le ⟨s', rfl⟩ ⟨s, hu⟩ (by simp; omega)
          obtain ⟨b, hb⟩ := hp
          have := h1 p' b hb.symm
          subst this
          have := congrArg List.length hb
          simp at this
          omega
      rw [List.append_assoc, List.append_assoc] at hu
      obtain ⟨e1, e2⟩ := List.append_inj hu hl
      subst e1
      have e3 := List.append_cancel_left e2
      subst e3
      rw [ih h2']

/-- The text that the pieces, with markers between, make. -/
theorem pieces_join {marker : List Char} {s : List Char} {ts : List (List Char)} (h : Pieces marker s ts) : join ts marker = s := by
  induction h with
  | last s _ => simp [join, joinLoop]
  | cons p s ts h1 h2 ih =>
    cases h2 with
    | last _ _ => simp [join, joinLoop]
    | cons p' s' ts' _ _ =>
      rw [← ih]
      simp [join, joinLoop_eq, joinLoop]

/-! ## Properties -/

/-- C71: splitting at a non-empty marker ends, and gives exactly the pieces between the markers, each marker taken where it stands first. -/
theorem C71_split_marker (s marker : List Char) (hm : marker ≠ []) (fuel : Nat) (hf : s.length < fuel) :
    ∃ ts, splitMarker fuel s marker = some (.ok ts) ∧ Pieces marker s ts ∧ ∀ ts', Pieces marker s ts' → ts' = ts := by
  obtain ⟨ts, h1, h2⟩ := loop_pieces s marker hm fuel 0 [] (Nat.zero_le _) (by simpa using hf)
  refine ⟨ts, by simpa [splitMarker] using h1, by simpa using h2, fun ts' h => pieces_unique marker h (by simpa using h2)⟩

/-- C71: nothing is lost: joining the pieces with the marker gives the text. -/
theorem C71_join_of_split (s marker : List Char) (hm : marker ≠ []) (fuel : Nat) (hf : s.length < fuel) :
    ∃ ts, splitMarker fuel s marker = some (.ok ts) ∧ join ts marker = s := by
  obtain ⟨ts, h1, h2, -⟩ := C71_split_marker s marker hm fuel hf
  exact ⟨ts, h1, pieces_join h2⟩

/-- C71: values written with a separator are read back, empty ones included, when no character of the separator occurs in a value. -/
theorem C71_split_of_join (ts : List (List Char)) (hts : ts ≠ []) (marker : List Char) (hm : marker ≠ []) (hno : ∀ t ∈ ts, ∀ c ∈ t, c ∉ marker)
    (fuel : Nat) (hf : (join ts marker).length < fuel) :
    splitMarker fuel (join ts marker) marker = some (.ok ts) := by
  obtain ⟨ts', h1, -, h3⟩ := C71_split_marker (join ts marker) marker hm fuel hf
  rw [h1, h3 ts]
  clear h1 h3 hf
  -- the pieces are those given
  induction ts with
  | nil => exact absurd rfl hts
  | cons t ts ih =>
    have ht : ∀ c ∈ t, c ∉ marker := hno t List.mem_cons_self
    obtain ⟨m, ms, rfl⟩ := List.exists_cons_of_ne_nil hm
    cases ts with
    | nil =>
      have : join [t] (m :: ms) = t := by simp [join, joinLoop]
      rw [this]
      refine Pieces.last t fun a b hab => ?_
      have hmem : m ∈ t := by rw [hab]; simp
      exact ht m hmem List.mem_cons_self
    | cons t' ts =>
      have : join (t :: t' :: ts) (m :: ms) = t ++ (m :: ms) ++ join (t' :: ts) (m :: ms) := by
        simp [join, joinLoop_eq, joinLoop]
      rw [this]
      refine Pieces.cons _ _ _ (fun a b hab => ?_) (ih (by simp) fun t h => hno t (List.mem_cons_of_mem _ h))
      by_contra hb
      -- the earlier marker begins in `t` or in the marker itself
      rcases List.append_eq_append_iff.1 (show t ++ (m :: ms) = a ++ (m :: ms ++ b) by rw [hab, List.append_assoc]) with ⟨a', h1, h2⟩ | ⟨c', h1, h2⟩
      · -- a = t ++ a', so the marker is a' ++ marker ++ b
        have hl := congrArg List.length h2
        simp at hl
        have : b.length = 0 := by omega
        exact hb (List.eq_nil_of_length_eq_zero this)
      · -- t = a ++ c', marker ++ b = c' ++ marker
        cases c' with
        | nil =>
          have hl := congrArg List.length h2
          simp at hl
          exact hb hl
        | cons x c' =>
          have : x = m := by
            rw [List.cons_append, List.cons_append] at h2
            exact (List.cons.inj h2).1.symm
          subst this
          exact ht x (by rw [h1]; simp) List.mem_cons_self

/-- Splitting at a marker of two characters; markers may stand next to each other and at the ends. -/
example : splitMarker 20 ['a', '-', '-', 'b', '-', 'c', '-', '-', '-', '-'] ['-', '-'] = some (.ok [['a'], ['b', '-', 'c'], [], []]) := by decide +kernel

/-- With an empty marker the search never ends: no number of rounds is enough (the code does not call it so). -/
theorem C71_empty_marker_never_ends (s : List Char) (fuel : Nat) : splitMarker fuel s [] = none := by
  have key : ∀ fuel acc, splitMarkerLoop s [] fuel 0 acc = none := by
    intro fuel
    induction fuel with
    | zero => intro acc; rfl
    | succ fuel ih =>
      intro acc
      unfold splitMarkerLoop
      have : findMarker [] s 0 = some 0 := by unfold findMarker; simp
      rw [this]
      dsimp only
      rw [substr_take s 0 0 (Nat.zero_le _)]
      exact ih _
  exact key fuel []

/-- C71: the dimensions of a shape attribute are the words of the text, the last one first. -/
theorem C71_shape_reversed (ts : List (List Char)) (hts : ∀ t ∈ ts, t ≠ [] ∧ ∀ c ∈ t, c ∉ " \t".toList) (fuel : Nat) (hf : (join ts [' ']).length < fuel) :
    shapeFromAtt fuel (join ts [' ']) = some (.ok ts.reverse) := by
  unfold shapeFromAtt
  rw [C26_tokenize_of_join ts [' '] " \t".toList fuel hf hts (by simp) (by simp)]
  rfl

theorem foldl_prod (dims : List Nat) (n : Nat) : dims.foldl (fun n d => n * d) n = n * dims.prod := by
  induction dims generalizing n with
  | nil => simp
  | cons d ds ih => rw [List.foldl_cons, ih, List.prod_cons, Nat.mul_assoc]

theorem mapM_length {α β : Type} (f : α → Res β) : ∀ (l : List α) (r : List β), l.mapM f = .ok r → r.length = l.length := by
  intro l
  induction l with
  | nil => intro r h; cases h; rfl
  | cons a l ih =>
    intro r h
    rw [List.mapM_cons] at h
    cases hf : f a with
    | throws => rw [hf] at h; cases h
    | ub => rw [hf] at h; cases h
    | ok b =>
      rw [hf, Res.ok_bind] at h
      cases hl : l.mapM f with
      | throws => rw [hl] at h; cases h
      | ub => rw [hl] at h; cases h
      | ok r' =>
        rw [hl] at h
        cases h
        simp [ih r' hl]

variable {K : Type} [CommRing K]

/-- C71: values accepted for a variable with dimensions are as many as the product of the lengths; for one without dimensions at most one. -/
theorem C71_number_of_values (fuel : Nat) (parse : List Char → Res K) (start increment content separator : List Char) (dims : List Nat) (vs : List K)
    (h : values fuel parse start increment content separator dims = some (.ok vs)) :
    (dims ≠ [] → vs.length = dims.prod) ∧ (dims = [] → vs.length ≤ 1) := by
  have hp : dataSize dims = dims.prod := by simp [dataSize, foldl_prod]
  unfold values at h
  dsimp only at h
  split at h
  · cases h
  split at h
  · cases h
  split at h
  · have hlen : vs.length = dims.prod := by
      have h := Option.some.inj h
      unfold progression at h
      rw [hp] at h
      cases hs : parse start with
      | throws => rw [hs] at h; cases h
      | ub => rw [hs] at h; cases h
      | ok a0 =>
        rw [hs, Res.ok_bind] at h
        by_cases hz : dims.prod = 0
        · rw [if_pos hz] at h; cases h
        · rw [if_neg hz] at h
          cases hi : parse increment with
          | throws => rw [hi] at h; cases h
          | ub => rw [hi] at h; cases h
          | ok st =>
            rw [hi, Res.ok_bind] at h
            have h := Res.ok.inj h
            rw [← h]
            simp
            omega
    refine ⟨fun _ => hlen, fun hd => ?_⟩
    rw [hlen, hd]
    simp
  · cases hsp : splitNcmlValues fuel content separator with
    | none => rw [hsp] at h; cases h
    | some r =>
      rw [hsp] at h
      cases r with
      | throws => cases h
      | ub => cases h
      | ok l =>
        dsimp only at h
        split at h
        · cases h
        · next hc =>
          rw [not_or] at hc
          have hl := mapM_length parse l vs (Option.some.inj h)
          rw [hl]
          refine ⟨fun hd => ?_, fun hd => ?_⟩
          · have : 0 < dims.length := List.length_pos_iff.2 hd
            by_contra hne
            exact hc.2 ⟨this, by rw [hp]; exact hne⟩
          · subst hd
            by_contra hne
            exact hc.1 ⟨rfl, by omega⟩

/-- C71: start and increment give the arithmetic progression, one value for each place of the variable. -/
theorem C71_start_increment (fuel : Nat) (parse : List Char → Res K) (start increment separator : List Char) (hs : start ≠ []) (hi : increment ≠ [])
    (a d : K) (ha : parse start = .ok a) (hd : parse increment = .ok d) (dims : List Nat) (hdims : dims.prod ≠ 0) :
    values fuel parse start increment [] separator dims = some (.ok ((List.range dims.prod).map fun (i : Nat) => a + (i : K) * d)) := by
  have hp : dataSize dims = dims.prod := by simp [dataSize, foldl_prod]
  have e1 : start.isEmpty = false := by cases start with | nil => exact absurd rfl hs | cons _ _ => rfl
  have e2 : increment.isEmpty = false := by cases increment with | nil => exact absurd rfl hi | cons _ _ => rfl
  unfold values progression
  simp only [e1, e2, hp, ha, hd, Res.ok_bind, if_neg hdims]
  simp
  obtain ⟨n, hn⟩ := Nat.exists_eq_succ_of_ne_zero hdims
  rw [hn, List.range_succ_eq_map]
  simp

/-- C71: a list of values gives them in order; a wrong number raises. -/
theorem C71_list_of_values (parse : List Char → Res K) (ts : List (List Char)) (v : List Char → K) (hv : ∀ t ∈ ts, parse t = .ok (v t))
    (hts : ∀ t ∈ ts, t ≠ [] ∧ ∀ c ∈ t, c ∉ " ,\t\r\n".toList) (hne : ts ≠ []) (dims : List Nat) (fuel : Nat) (hf : (join ts [' ']).length < fuel) :
    values fuel parse [] [] (join ts [' ']) [] dims =
      if (dims ≠ [] ∧ ts.length = dims.prod) ∨ (dims = [] ∧ ts.length = 1) then some (.ok (ts.map v)) else some .throws := by
  have hp : dataSize dims = dims.prod := by simp [dataSize, foldl_prod]
  have hc : (join ts [' ']).isEmpty = false := by
    cases ts with
    | nil => exact absurd rfl hne
    | cons t ts =>
      have := (hts t List.mem_cons_self).1
      obtain ⟨c, cs, rfl⟩ := List.exists_cons_of_ne_nil this
      simp [join, joinLoop_eq]
  have hsp : splitNcmlValues fuel (join ts [' ']) [] = some (.ok ts) := by
    unfold splitNcmlValues
    rw [if_pos rfl]
    exact C26_tokenize_of_join ts [' '] _ fuel hf hts (by simp) (by simp)
  have hm : ts.mapM parse = .ok (ts.map v) := by
    clear hts hne hf hc hsp
    induction ts with
    | nil => rfl
    | cons t ts ih =>
      rw [List.mapM_cons, hv t List.mem_cons_self, Res.ok_bind, ih fun t h => hv t (List.mem_cons_of_mem _ h)]
      rfl
  have h1 : 1 ≤ ts.length := List.length_pos_iff.2 hne
  unfold values
  simp only [hc, hsp, hp, hm]
  cases dims with
  | nil =>
    by_cases h : ts.length = 1
    · simp [h]
    · have : 1 < ts.length := by omega
      simp [h, this]
  | cons d ds =>
    by_cases h : ts.length = (d :: ds).prod
    · simp [h]
    · simp only [List.prod_cons] at h
      simp [h]

/-- C71: only one of start and increment, both ways of giving values, or neither: the document is refused. -/
theorem C71_ambiguous_values_raise (fuel : Nat) (parse : List Char → Res K) (start increment content separator : List Char) (dims : List Nat)
    (h : (start = [] ∧ increment ≠ []) ∨ (start ≠ [] ∧ increment = []) ∨ (start ≠ [] ∧ increment ≠ [] ∧ content ≠ []) ∨ (start = [] ∧ increment = [] ∧ content = [])) :
    values fuel parse start increment content separator dims = some .throws := by
  unfold values
  cases start with
  | nil => cases increment with
    | nil => cases content with
      | nil => rfl
      | cons _ _ => simp at h
    | cons _ _ => rfl
  | cons _ _ => cases increment with
    | nil => rfl
    | cons _ _ => cases content with
      | nil => simp at h
      | cons _ _ => rfl

/-- What does not hold: start and increment for a variable with an empty dimension write outside the array; white space as the value of a variable without dimensions
gives it no value at all. -/
theorem C71_empty_cases :
    values (K := ℚ) 9 (fun _ => .ok 1) ['1'] ['1'] [] [] [0, 2] = some .ub ∧
    values (K := ℚ) 9 (fun _ => .ok 1) [] [] [' '] [] [] = some (.ok []) := by
  decide +kernel

/-- A progression over two dimensions. -/
example : values (K := ℚ) 9 (fun s => .ok (if s = ['3'] then 3 else 1 / 2)) ['3'] ['h'] [] [] [2, 2] = some (.ok [3, 7 / 2, 4, 9 / 2]) := by decide +kernel

/-- A list with one value too few is refused. -/
example : values (K := ℚ) 9 (fun _ => .ok 1) [] [] ['1', ' ', '1'] [] [3] = some .throws ∧ values (K := ℚ) 9 (fun _ => .ok 1) [] [] ['1', ' ', '1'] [] [2] = some (.ok [1, 1]) := by
  decide +kernel

end Fimex.Ncml
