import Verif.Text.DottedProps
import Mathlib.Algebra.Order.Floor.Ring
import Mathlib.Data.Rat.Floor

/-!
# Axis and time specifications

Model of `TimeSpec` (`src/TimeSpec.cc:58-176`) and `SpatialAxisSpec` (`src/SpatialAxisSpec.cc:46-154`): a list of values with dots, either
absolute or relative to the range of the data, where `x` stands for the last value.

Numbers are elements of an ordered field with exact arithmetic.  `string2type<double>` is the parameter `parse`, `type2string` is
the parameter `render`.  `tokenize` is written as `words`, to which it is equal by `C26_tokenize_is_words`.  The conversions between time and
unit time are outside: `start` and `end` are numbers in the relative unit and so is the result.
-/

set_option linter.unusedSectionVars false

namespace Fimex.Text.AxisSpec

open Fimex.Text

/-! ## Model -/

/-- `\s` of the regular expression. -/
def isBlank (c : Char) : Bool := c = ' ' ∨ c = '\t' ∨ c = '\n' ∨ c = '\r' ∨ c = '\x0b' ∨ c = '\x0c'

/-- The group `([+-])?`. -/
def signGroup : List Char → List Char × List Char
  | c :: r => if c = '+' ∨ c = '-' then ([c], r) else ([], c :: r)
  | [] => ([], [])

/-- The group `(\d\.?\d*)?`: one digit, perhaps a point, digits. -/
def numberGroup : List Char → List Char
  | c :: r =>
    if c.isDigit then
      match r with
      | '.' :: r' => c :: '.' :: r'.takeWhile Char.isDigit
      | _ => c :: r.takeWhile Char.isDigit
    else []
  | [] => []

/-- src/TimeSpec.cc:62-63, src/SpatialAxisSpec.cc:62-64: `regex_search` for `x\s*([+-])?\s*(\d\.?\d*)?\s*`: the two groups (empty if they do
not take part).  All parts after the `x` may be empty, so that the leftmost `x` matches and nothing is taken back. -/
def finalVals (s : List Char) : Option (List Char × List Char) :=
  match s.dropWhile (· ≠ 'x') with
  | [] => none
  | _ :: r =>
    let g := signGroup (r.dropWhile isBlank)
    some (g.1, numberGroup (g.2.dropWhile isBlank))

/-- A specification after splitting: the list of values, `unit`, and `relativeUnit` or `relativeStart`. -/
structure Spec where
  steps : List Char
  unit : List Char
  relative : List Char
deriving DecidableEq

/-- src/TimeSpec.cc:112-131: the loop over the sections of a time specification. -/
def timeSections : List (List Char) → Spec → Res Spec
  | [], s => .ok s
  | t :: ts, s =>
    match words ['='].contains t with
    | [v] => if s.steps = [] then timeSections ts { s with steps := v } else .throws
    | [k, v] =>
      if k = "unit".toList then timeSections ts { s with unit := v }
      else if k = "relativeUnit".toList then timeSections ts { s with relative := v }
      else .throws
    | _ => .throws

/-- src/SpatialAxisSpec.cc:96-119: the loop over the sections of an axis specification; `unit` always raises. -/
def axisSections : List (List Char) → Spec → Res Spec
  | [], s => .ok s
  | t :: ts, s =>
    match words ['='].contains t with
    | [v] => if s.steps = [] then axisSections ts { s with steps := v } else .throws
    | [k, v] =>
      if k = "unit".toList then .throws
      else if k = "relativeStart".toList then axisSections ts { s with relative := v }
      else .throws
    | _ => .throws

section
variable {K : Type} [Field K] [LinearOrder K] [FloorRing K]

/-- `static_cast<int>`: rounds towards zero; undefined outside the range of `int`. -/
def castInt (x : K) : Res ℤ :=
  let n := if 0 ≤ x then ⌊x⌋ else ⌈x⌉
  if -2 ^ 31 ≤ n ∧ n < 2 ^ 31 then .ok n else .ub

/-- `static_cast<int>(u / delta) * delta`; `u / 0` is infinite or undefined, its conversion is undefined. -/
def multiple (u delta : K) : Res K :=
  if delta = 0 then .ub
  else castInt (u / delta) >>= fun n => .ok ((n : K) * delta)

/-- src/TimeSpec.cc:152-157, src/SpatialAxisSpec.cc:137-142: the value that `0` stands for. -/
def startOffset (start delta : K) : Res K :=
  multiple start delta >>= fun o => .ok (if start < o then o + delta else o)

/-- src/TimeSpec.cc:160, src/SpatialAxisSpec.cc:145: the value that `x` stands for. -/
def finalValue (end_ delta : K) : Res K := multiple end_ delta

/-- src/TimeSpec.cc:58-83 `translateRelativeTime`. -/
def translateTime (parse : List Char → Res K) (value : List Char) (start final : K) : Res K :=
  match finalVals value with
  | some (sign, num) =>
    if num = [] then .ok final
    else if sign = ['+'] then parse num >>= fun v => .ok (final + v)
    else if sign ≠ ['-'] then parse num >>= fun v => .ok (final - v)
    else .ok 0
  | none => parse value >>= fun v => .ok (start + v)

/-- src/SpatialAxisSpec.cc:47-86 `TranslateRelativePlace` (for a value that is not `...`). -/
def translatePlace (parse : List Char → Res K) (value : List Char) (start final : K) : Res K :=
  match finalVals value with
  | some (sign, num) =>
    if sign = ['+'] then parse num >>= fun v => .ok (final + v)
    else if sign = ['-'] then parse num >>= fun v => .ok (final - v)
    else .ok final
  | none => parse value >>= fun v => .ok (start + v)

/-- src/TimeSpec.cc:163-167, src/SpatialAxisSpec.cc:146-147: every value of the list that is not `...`. -/
def translateAll (translate : List Char → Res K) (render : K → List Char) (toks : List (List Char)) : Res (List (List Char)) :=
  toks.mapM fun t => if t = "...".toList then .ok t else translate t >>= fun v => .ok (render v)

/-- src/TimeSpec.cc:142-171, src/SpatialAxisSpec.cc:126-149: the relative values. `translate` is `translateTime parse` or
`translatePlace parse`.  `none`: more than `fuel` rounds of a loop. -/
def relativeSteps (parse : List Char → Res K) (translate : List Char → K → K → Res K) (render : K → List Char) (fuel : ℕ)
    (steps : List Char) (start end_ : K) : Option (Res (List K)) :=
  match words [','].contains steps with
  | t0 :: t1 :: rest =>
    match (do
      let v1 ← parse t1
      let v0 ← parse t0
      let so ← startOffset start (v1 - v0)
      let fin ← finalValue end_ (v1 - v0)
      translateAll (fun t => translate t so fin) render (t0 :: t1 :: rest)) with
    | .ok toks => tokenizeDotted parse fuel (join toks [',']) [',']
    | .throws => some .throws
    | .ub => some .ub
  | _ => some .throws

end

/-! ## Theorems: sections -/

/-- The words of a section. -/
def parts (t : List Char) : List (List Char) := words ['='].contains t

/-- The value of the last section `key=value`. -/
def lastOf (key : List Char) (ts : List (List Char)) : Option (List Char) :=
  (ts.filterMap fun t => match parts t with | [k, v] => if k = key then some v else none | _ => none).getLast?

/-- The sections without `=`. -/
def plain (ts : List (List Char)) : List (List Char) :=
  ts.filterMap fun t => match parts t with | [v] => some v | _ => none

/-- A section that is a list of values or sets one of the given keys. -/
def Known (keys : List (List Char)) (t : List Char) : Prop := (∃ v, parts t = [v]) ∨ ∃ k ∈ keys, ∃ v, parts t = [k, v]

theorem words_no_nil (p : Char → Bool) (s : List Char) : [] ∉ words p s := by
  unfold words; simp

theorem lastOf_cons (key t : List Char) (ts : List (List Char)) (d : List Char) :
    (lastOf key (t :: ts)).getD d =
      (lastOf key ts).getD ((match parts t with | [k, v] => if k = key then some v else none | _ => none).getD d) := by
  unfold lastOf
  rw [List.filterMap_cons]
  generalize (match parts t with | [k, v] => if k = key then some v else none | _ => none) = o
  cases o with
  | none => simp
  | some v =>
    dsimp only [Option.getD_some]
    rw [List.getLast?_cons]
    simp

/-- The common shape of the two loops over the sections. -/
theorem sections_spec (loop : List (List Char) → Spec → Res Spec) (keys : List (List Char))
    (setKey : List Char → List Char → Spec → Spec)
    (hnil : ∀ s, loop [] s = .ok s)
    (hone : ∀ t ts s v, parts t = [v] → loop (t :: ts) s = if s.steps = [] then loop ts { s with steps := v } else .throws)
    (htwo : ∀ t ts s k v, parts t = [k, v] → k ∈ keys → loop (t :: ts) s = loop ts (setKey k v s))
    (helse : ∀ t ts s, ¬ Known keys t → loop (t :: ts) s = .throws)
    (hsteps : ∀ k v s, (setKey k v s).steps = s.steps) (ts : List (List Char)) : ∀ s,
    (∀ r, loop ts s = .ok r → (∀ t ∈ ts, Known keys t) ∧ (plain ts).length + (if s.steps = [] then 0 else 1) ≤ 1 ∧
      r.steps = (plain ts).head?.getD s.steps) ∧
    ((∀ t ∈ ts, Known keys t) → (plain ts).length + (if s.steps = [] then 0 else 1) ≤ 1 → ∃ r, loop ts s = .ok r) ∧
    loop ts s ≠ .ub := by
  induction ts with
  | nil => intro s; rw [hnil]; refine ⟨?_, ?_, ?_⟩ <;> simp [plain]; split <;> omega
  | cons t ts ih =>
    intro s
    by_cases hk : Known keys t
    · rcases hk with ⟨v, hv⟩ | ⟨k, hkk, v, hv⟩
      · have hp : plain (t :: ts) = v :: plain ts := by unfold plain; rw [List.filterMap_cons, hv]
        have hvn : v ≠ [] := by
          rintro rfl
          exact words_no_nil _ t (by rw [show words _ t = [[]] from hv]; simp)
        rw [hone t ts s v hv, hp]
        by_cases hs : s.steps = []
        · rw [if_pos hs, if_pos hs]
          obtain ⟨i1, i2, i3⟩ := ih { s with steps := v }
          dsimp only at i1 i2
          rw [if_neg hvn] at i1 i2
          refine ⟨fun r hr => ?_, fun h1 h2 => ?_, i3⟩
          · obtain ⟨j1, j2, j3⟩ := i1 r hr
            have hn : plain ts = [] := List.eq_nil_of_length_eq_zero (by omega)
            refine ⟨by simp only [List.mem_cons, forall_eq_or_imp]; exact ⟨Or.inl ⟨v, hv⟩, j1⟩, by simp [hn], ?_⟩
            rw [j3, hn]; rfl
          · exact i2 (fun t ht => h1 t (by simp [ht])) (by simp at h2; rw [h2]; simp)
        · rw [if_neg hs, if_neg hs]
          refine ⟨fun r hr => (by cases hr), fun _ h2 => ?_, by simp⟩
          simp at h2
      · have hp : plain (t :: ts) = plain ts := by unfold plain; rw [List.filterMap_cons, hv]
        rw [htwo t ts s k v hv hkk, hp]
        obtain ⟨i1, i2, i3⟩ := ih (setKey k v s)
        rw [hsteps] at i1 i2
        refine ⟨fun r hr => ?_, fun h1 h2 => i2 (fun t ht => h1 t (by simp [ht])) h2, i3⟩
        obtain ⟨j1, j2, j3⟩ := i1 r hr
        exact ⟨by simp only [List.mem_cons, forall_eq_or_imp]; exact ⟨Or.inr ⟨k, hkk, v, hv⟩, j1⟩, j2, j3⟩
    · rw [helse t ts s hk]
      exact ⟨fun r hr => (by cases hr), fun h => absurd (h t (by simp)) hk, by simp⟩

theorem timeSections_keys (ts : List (List Char)) : ∀ s r, timeSections ts s = .ok r →
    r.unit = (lastOf "unit".toList ts).getD s.unit ∧ r.relative = (lastOf "relativeUnit".toList ts).getD s.relative := by
  induction ts with
  | nil => intro s r h; cases h; exact ⟨rfl, rfl⟩
  | cons t ts ih =>
    intro s r h
    rw [lastOf_cons, lastOf_cons]
    rw [timeSections] at h
    change (match parts t with | [v] => _ | [k, v] => _ | _ => _) = _ at h
    generalize parts t = ps at h
    match ps with
    | [] => cases h
    | [v] =>
      dsimp only at h
      split at h
      · exact ih { s with steps := v } r h
      · cases h
    | [k, v] =>
      dsimp only at h ⊢
      by_cases h1 : k = "unit".toList
      · rw [if_pos h1] at h
        rw [if_pos h1, if_neg (by rw [h1]; decide)]
        exact ih _ _ h
      · rw [if_neg h1] at h
        rw [if_neg h1]
        by_cases h2 : k = "relativeUnit".toList
        · rw [if_pos h2] at h
          rw [if_pos h2]
          exact ih _ _ h
        · rw [if_neg h2] at h; cases h
    | _ :: _ :: _ :: _ => cases h

theorem axisSections_keys (ts : List (List Char)) : ∀ s r, axisSections ts s = .ok r →
    r.relative = (lastOf "relativeStart".toList ts).getD s.relative := by
  induction ts with
  | nil => intro s r h; cases h; rfl
  | cons t ts ih =>
    intro s r h
    rw [lastOf_cons]
    rw [axisSections] at h
    change (match parts t with | [v] => _ | [k, v] => _ | _ => _) = _ at h
    generalize parts t = ps at h
    match ps with
    | [] => cases h
    | [v] =>
      dsimp only at h
      split at h
      · exact ih { s with steps := v } r h
      · cases h
    | [k, v] =>
      dsimp only at h ⊢
      by_cases h1 : k = "unit".toList
      · rw [if_pos h1] at h; cases h
      · rw [if_neg h1] at h
        by_cases h2 : k = "relativeStart".toList
        · rw [if_pos h2] at h
          rw [if_pos h2]
          exact ih _ _ h
        · rw [if_neg h2] at h; cases h
    | _ :: _ :: _ :: _ => cases h

theorem not_known_time (t : List Char) (ts : List (List Char)) (s : Spec)
    (h : ¬ Known ["unit".toList, "relativeUnit".toList] t) : timeSections (t :: ts) s = .throws := by
  rw [timeSections]
  change (match parts t with | [v] => _ | [k, v] => _ | _ => _) = _
  unfold Known at h
  generalize parts t = ps at h
  match ps with
  | [] => rfl
  | [v] => exact absurd (Or.inl ⟨v, rfl⟩) h
  | [k, v] =>
    dsimp only
    by_cases h1 : k = "unit".toList
    · exact absurd (Or.inr ⟨k, by simp [h1], v, rfl⟩) h
    · rw [if_neg h1]
      by_cases h2 : k = "relativeUnit".toList
      · exact absurd (Or.inr ⟨k, by simp [h2], v, rfl⟩) h
      · rw [if_neg h2]
  | _ :: _ :: _ :: _ => rfl

theorem not_known_axis (t : List Char) (ts : List (List Char)) (s : Spec)
    (h : ¬ Known ["relativeStart".toList] t) : axisSections (t :: ts) s = .throws := by
  rw [axisSections]
  change (match parts t with | [v] => _ | [k, v] => _ | _ => _) = _
  unfold Known at h
  generalize parts t = ps at h
  match ps with
  | [] => rfl
  | [v] => exact absurd (Or.inl ⟨v, rfl⟩) h
  | [k, v] =>
    dsimp only
    by_cases h1 : k = "unit".toList
    · rw [if_pos h1]
    · rw [if_neg h1]
      by_cases h2 : k = "relativeStart".toList
      · exact absurd (Or.inr ⟨k, by simp [h2], v, rfl⟩) h
      · rw [if_neg h2]
  | _ :: _ :: _ :: _ => rfl

/-- **C68.** A time specification is accepted exactly if every section is a list of values or sets `unit` or `relativeUnit`, and there is at
most one list of values; the last setting of a key counts. Everything else raises. -/
theorem C68_time_sections (ts : List (List Char)) (unit : List Char) :
    ((∀ t ∈ ts, Known ["unit".toList, "relativeUnit".toList] t) ∧ (plain ts).length ≤ 1 →
      timeSections ts ⟨[], unit, []⟩ =
        .ok ⟨(plain ts).head?.getD [], (lastOf "unit".toList ts).getD unit, (lastOf "relativeUnit".toList ts).getD []⟩) ∧
    (¬ ((∀ t ∈ ts, Known ["unit".toList, "relativeUnit".toList] t) ∧ (plain ts).length ≤ 1) →
      timeSections ts ⟨[], unit, []⟩ = .throws) := by
  obtain ⟨h1, h2, h3⟩ := sections_spec timeSections ["unit".toList, "relativeUnit".toList]
    (fun k v s => if k = "unit".toList then { s with unit := v } else { s with relative := v }) (fun _ => rfl)
    (fun t ts s v hv => by rw [timeSections]; change (match parts t with | [v] => _ | [k, v] => _ | _ => _) = _; rw [hv])
    (fun t ts s k v hv hk => by
      rw [timeSections]; change (match parts t with | [v] => _ | [k, v] => _ | _ => _) = _; rw [hv]
      dsimp only
      by_cases h1 : k = "unit".toList
      · rw [if_pos h1, if_pos h1]
      · rw [if_neg h1, if_neg h1, if_pos (by simp only [List.mem_cons, List.not_mem_nil, or_false] at hk; exact hk.resolve_left h1)])
    not_known_time (fun k v s => by split <;> rfl) ts ⟨[], unit, []⟩
  simp only [if_true, Nat.add_zero] at h1 h2
  refine ⟨fun ⟨a, b⟩ => ?_, fun h => ?_⟩
  · obtain ⟨r, hr⟩ := h2 a b
    obtain ⟨k1, k2⟩ := timeSections_keys ts _ r hr
    rw [hr]
    obtain ⟨_, _, k3⟩ := h1 r hr
    obtain ⟨x, y, z⟩ := r
    dsimp only at k1 k2 k3
    rw [k1, k2, k3]
  · cases hr : timeSections ts ⟨[], unit, []⟩ with
    | throws => rfl
    | ub => exact absurd hr h3
    | ok r => exact absurd ⟨(h1 r hr).1, (h1 r hr).2.1⟩ h

/-- **C68.** An axis specification is accepted exactly if every section is a list of values or sets `relativeStart`, and there is at most one
list of values. Everything else raises, also the documented `unit`. -/
theorem C68_axis_sections (ts : List (List Char)) :
    ((∀ t ∈ ts, Known ["relativeStart".toList] t) ∧ (plain ts).length ≤ 1 →
      ∃ r, axisSections ts ⟨[], [], []⟩ = .ok r ∧ r.steps = (plain ts).head?.getD [] ∧
        r.relative = (lastOf "relativeStart".toList ts).getD []) ∧
    (¬ ((∀ t ∈ ts, Known ["relativeStart".toList] t) ∧ (plain ts).length ≤ 1) → axisSections ts ⟨[], [], []⟩ = .throws) := by
  obtain ⟨h1, h2, h3⟩ := sections_spec axisSections ["relativeStart".toList]
    (fun _ v s => { s with relative := v }) (fun _ => rfl)
    (fun t ts s v hv => by rw [axisSections]; change (match parts t with | [v] => _ | [k, v] => _ | _ => _) = _; rw [hv])
    (fun t ts s k v hv hk => by
      rw [axisSections]; change (match parts t with | [v] => _ | [k, v] => _ | _ => _) = _; rw [hv]
      dsimp only
      have : k = "relativeStart".toList := by simpa using hk
      rw [if_neg (by rw [this]; decide), if_pos this])
    not_known_axis (fun k v s => rfl) ts ⟨[], [], []⟩
  simp only [if_true, Nat.add_zero] at h1 h2
  refine ⟨fun ⟨a, b⟩ => ?_, fun h => ?_⟩
  · obtain ⟨r, hr⟩ := h2 a b
    exact ⟨r, hr, (h1 r hr).2.2, axisSections_keys ts _ r hr⟩
  · cases hr : axisSections ts ⟨[], [], []⟩ with
    | throws => rfl
    | ub => exact absurd hr h3
    | ok r => exact absurd ⟨(h1 r hr).1, (h1 r hr).2.1⟩ h

example : timeSections ["0,3,...,x".toList, "relativeUnit=hours since 2000".toList] ⟨[], "s".toList, []⟩ =
    .ok ⟨"0,3,...,x".toList, "s".toList, "hours since 2000".toList⟩ := by decide
example : axisSections ["0,3".toList, "unit=km".toList] ⟨[], [], []⟩ = .throws := by decide

/-! ## Theorems: values -/

theorem dropWhile_no_x (t : List Char) (h : 'x' ∉ t) : t.dropWhile (· ≠ 'x') = [] := by
  induction t with
  | nil => rfl
  | cons c t ih =>
    simp only [List.mem_cons, not_or] at h
    rw [List.dropWhile_cons_of_pos (by simpa using Ne.symm h.1)]
    exact ih h.2

theorem takeWhile_digits (ds : List Char) (hd : ∀ d ∈ ds, d.isDigit = true) : ds.takeWhile Char.isDigit = ds := by
  induction ds with
  | nil => rfl
  | cons d ds ih =>
    rw [List.takeWhile_cons_of_pos (hd d (by simp)), ih fun x hx => hd x (by simp [hx])]

theorem numberGroup_digits (c : Char) (ds : List Char) (hc : c.isDigit = true) (hd : ∀ d ∈ ds, d.isDigit = true) :
    numberGroup (c :: ds) = c :: ds := by
  unfold numberGroup
  dsimp only
  rw [if_pos hc]
  have htw : ds.takeWhile Char.isDigit = ds := by
    exact takeWhile_digits ds hd
  cases ds with
  | nil => rfl
  | cons d r =>
    split
    · rename_i r' heq
      cases heq
      exact absurd (hd '.' (by simp)) (by decide)
    · rw [htw]

theorem numberGroup_point (c : Char) (ds : List Char) (hc : c.isDigit = true) (hd : ∀ d ∈ ds, d.isDigit = true) :
    numberGroup (c :: '.' :: ds) = c :: '.' :: ds := by
  unfold numberGroup
  dsimp only
  rw [if_pos hc]
  have htw : ds.takeWhile Char.isDigit = ds := by
    exact takeWhile_digits ds hd
  change c :: '.' :: ds.takeWhile Char.isDigit = _
  rw [htw]

/-- A number as the expression for `x` takes it: one digit, then digits, or a point and digits. -/
def Short (num : List Char) : Prop :=
  ∃ c ds, c.isDigit = true ∧ (∀ d ∈ ds, d.isDigit = true) ∧ (num = c :: ds ∨ num = c :: '.' :: ds)

theorem Short.group {num : List Char} (h : Short num) : numberGroup (num.dropWhile isBlank) = num ∧ num ≠ [] := by
  obtain ⟨c, ds, hc, hd, h | h⟩ := h
  all_goals
    have hb : isBlank c = false := by
      unfold isBlank
      simp only [decide_eq_false_iff_not]
      rintro (rfl | rfl | rfl | rfl | rfl | rfl) <;> revert hc <;> decide
    subst h
    rw [List.dropWhile_cons_of_neg (by simp [hb])]
  · exact ⟨numberGroup_digits c ds hc hd, by simp⟩
  · exact ⟨numberGroup_point c ds hc hd, by simp⟩

theorem finalVals_signed (sign : Char) (hs : sign = '+' ∨ sign = '-') (num : List Char) (h : Short num) :
    finalVals ('x' :: sign :: num) = some ([sign], num) := by
  unfold finalVals
  rw [List.dropWhile_cons_of_neg (by simp)]
  dsimp only
  have : isBlank sign = false := by rcases hs with rfl | rfl <;> decide
  rw [List.dropWhile_cons_of_neg (by simp [this])]
  unfold signGroup
  dsimp only
  rw [if_pos hs]
  dsimp only
  rw [h.group.1]

section
variable {K : Type} [Field K] [LinearOrder K]

/-- **C68.** A value without `x` counts from the start value; `x` alone is the final value; `x+d` lies `d` after it. -/
theorem C68_relative_values (parse : List Char → Res K) (translate : List Char → K → K → Res K)
    (htr : translate = translateTime parse ∨ translate = translatePlace parse) (start final : K) :
    (∀ t v, 'x' ∉ t → parse t = .ok v → translate t start final = .ok (start + v)) ∧
    translate ['x'] start final = .ok final ∧
    (∀ num v, Short num → parse num = .ok v → translate ('x' :: '+' :: num) start final = .ok (final + v)) := by
  refine ⟨fun t v hx hp => ?_, ?_, fun num v hn hp => ?_⟩
  · have hf : finalVals t = none := by unfold finalVals; rw [dropWhile_no_x t hx]
    rcases htr with rfl | rfl
    · unfold translateTime; rw [hf]; dsimp only; rw [hp]; rfl
    · unfold translatePlace; rw [hf]; dsimp only; rw [hp]; rfl
  · have hf : finalVals ['x'] = some ([], []) := by decide
    rcases htr with rfl | rfl
    · unfold translateTime; rw [hf]; rfl
    · unfold translatePlace; rw [hf]; rfl
  · have hf := finalVals_signed '+' (Or.inl rfl) num hn
    rcases htr with rfl | rfl
    · unfold translateTime
      rw [hf]
      dsimp only
      rw [if_neg hn.group.2, if_pos rfl, hp]
      rfl
    · unfold translatePlace
      rw [hf]
      dsimp only
      rw [if_pos rfl, hp]
      rfl

/-- **C68.** On a spatial axis `x-d` lies `d` before the final value. -/
theorem C68_place_minus (parse : List Char → Res K) (start final : K) (num : List Char) (v : K) (hn : Short num)
    (hp : parse num = .ok v) : translatePlace parse ('x' :: '-' :: num) start final = .ok (final - v) := by
  unfold translatePlace
  rw [finalVals_signed '-' (Or.inr rfl) num hn]
  dsimp only
  rw [if_neg (by decide), if_pos rfl, hp]
  rfl

/-- The negation of the claim for times: `x-d` is not `d` before the final time but the origin of the unit (`src/TimeSpec.cc:71`
compares with `!=`), while `xd` without sign is `d` before it. -/
theorem C68_time_minus_is_zero (parse : List Char → Res K) (start final : K) (num : List Char) (hn : Short num) :
    translateTime parse ('x' :: '-' :: num) start final = .ok 0 := by
  unfold translateTime
  rw [finalVals_signed '-' (Or.inr rfl) num hn]
  dsimp only
  rw [if_neg hn.group.2, if_neg (by decide), if_neg (by decide)]

end

/-- The number after `x` is cut: only one digit is accepted before the point. -/
theorem C68_number_cut : finalVals "x+12.5".toList = some (['+'], "12".toList) ∧ finalVals "x+1.25".toList = some (['+'], "1.25".toList) := by
  decide

/-! ## Theorems: range -/

section
variable {K : Type} [Field K] [LinearOrder K] [IsStrictOrderedRing K] [FloorRing K]

theorem multiple_ok (u delta : K) (n : ℤ) (hd : delta ≠ 0) (h : castInt (u / delta) = .ok n) : multiple u delta = .ok ((n : K) * delta) := by
  unfold multiple; rw [if_neg hd, h]; rfl

theorem castInt_ok {x : K} {n : ℤ} (h : castInt x = .ok n) : n = if 0 ≤ x then ⌊x⌋ else ⌈x⌉ := by
  unfold castInt at h
  dsimp only at h
  generalize (if 0 ≤ x then ⌊x⌋ else ⌈x⌉) = k at h
  split at h
  · cases h; rfl
  · cases h

theorem multiple_inv {u delta o : K} (h : multiple u delta = .ok o) :
    delta ≠ 0 ∧ o = ((if 0 ≤ u / delta then ⌊u / delta⌋ else ⌈u / delta⌉ : ℤ) : K) * delta := by
  unfold multiple at h
  by_cases hd : delta = 0
  · rw [if_pos hd] at h; cases h
  · rw [if_neg hd] at h
    cases hc : castInt (u / delta) with
    | ok n => rw [hc] at h; cases h; exact ⟨hd, by rw [castInt_ok hc]⟩
    | throws => rw [hc] at h; cases h
    | ub => rw [hc] at h; cases h

/-- **C68.** For data at positive values and a positive step: `x` is the last multiple of the step that is not after the end. -/
theorem C68_final_is_last_multiple (end_ delta f : K) (hd : 0 < delta) (he : 0 ≤ end_) (h : finalValue end_ delta = .ok f) :
    (∃ n : ℤ, f = n * delta) ∧ f ≤ end_ ∧ end_ < f + delta := by
  obtain ⟨_, hf⟩ := multiple_inv h
  rw [if_pos (div_nonneg he hd.le)] at hf
  refine ⟨⟨_, hf⟩, ?_, ?_⟩
  · rw [hf]
    calc (⌊end_ / delta⌋ : K) * delta ≤ end_ / delta * delta := mul_le_mul_of_nonneg_right (Int.floor_le _) hd.le
      _ = end_ := div_mul_cancel₀ _ hd.ne'
  · rw [hf]
    have h1 := Int.lt_floor_add_one (end_ / delta)
    have h2 := mul_lt_mul_of_pos_right h1 hd
    rw [div_mul_cancel₀ _ hd.ne'] at h2
    linarith

/-- **C68 (partial).** Where the start is a multiple of the step, `0` stands for it. The documentation says that `0` is the first multiple
not before the start; the next theorem shows that this is wrong for all other starts. -/
theorem C68_zero_is_start_partial (k : ℤ) (delta : K) (hd : delta ≠ 0) (hk : -2 ^ 31 ≤ k ∧ k < 2 ^ 31) :
    startOffset ((k : K) * delta) delta = .ok (k * delta) := by
  have : castInt ((k : K) * delta / delta) = .ok k := by
    rw [mul_div_cancel_right₀ _ hd]
    unfold castInt
    dsimp only
    rw [Int.floor_intCast, Int.ceil_intCast, ite_self, if_pos hk]
  unfold startOffset
  rw [multiple_ok _ _ _ hd this]
  simp

/-- For a start that is not a multiple of the step, `0` never stands for the first multiple after the start: it stands for the last multiple
before it, and for negative starts for the second multiple after it. -/
theorem C68_zero_is_not_first_multiple (start delta o : K) (hd : 0 < delta) (hn : ∀ n : ℤ, start ≠ n * delta)
    (h : startOffset start delta = .ok o) :
    (0 ≤ start → o < start ∧ start < o + delta) ∧ (start < 0 → start < o - delta ∧ o - 2 * delta < start) := by
  unfold startOffset at h
  cases hm : multiple start delta with
  | throws => rw [hm] at h; cases h
  | ub => rw [hm] at h; cases h
  | ok c =>
    rw [hm] at h
    cases h
    obtain ⟨_, hc⟩ := multiple_inv hm
    have hne : start ≠ c := by rw [hc]; exact hn _
    refine ⟨fun hs => ?_, fun hs => ?_⟩
    · rw [if_pos (div_nonneg hs hd.le)] at hc
      have h1 : c ≤ start := by
        rw [hc]
        calc (⌊start / delta⌋ : K) * delta ≤ start / delta * delta := mul_le_mul_of_nonneg_right (Int.floor_le _) hd.le
          _ = start := div_mul_cancel₀ _ hd.ne'
      have h2 : start < c + delta := by
        have h1 := Int.lt_floor_add_one (start / delta)
        have h2 := mul_lt_mul_of_pos_right h1 hd
        rw [div_mul_cancel₀ _ hd.ne'] at h2
        rw [hc]; linarith
      rw [if_neg (not_lt.mpr h1)]
      exact ⟨lt_of_le_of_ne h1 (Ne.symm hne), h2⟩
    · rw [if_neg (not_le.mpr (div_neg_of_neg_of_pos hs hd))] at hc
      have h1 : start ≤ c := by
        rw [hc]
        calc start = start / delta * delta := (div_mul_cancel₀ _ hd.ne').symm
          _ ≤ (⌈start / delta⌉ : K) * delta := mul_le_mul_of_nonneg_right (Int.le_ceil _) hd.le
      have h2 : c < start + delta := by
        have h1 := Int.ceil_lt_add_one (start / delta)
        have h2 := mul_lt_mul_of_pos_right h1 hd
        rw [add_mul, div_mul_cancel₀ _ hd.ne', one_mul] at h2
        rw [hc]; exact h2
      rw [if_pos (lt_of_le_of_ne h1 hne)]
      constructor
      · have := lt_of_le_of_ne h1 hne; linarith
      · linarith

/-- For negative ends `x` is after the end of the data. -/
theorem C68_final_after_negative_end (end_ delta f : K) (hd : 0 < delta) (he : end_ < 0) (hn : ∀ n : ℤ, end_ ≠ n * delta)
    (h : finalValue end_ delta = .ok f) : end_ < f := by
  obtain ⟨_, hf⟩ := multiple_inv h
  have hne : end_ ≠ f := by rw [hf]; exact hn _
  rw [if_neg (not_le.mpr (div_neg_of_neg_of_pos he hd))] at hf
  refine lt_of_le_of_ne ?_ hne
  rw [hf]
  calc end_ = end_ / delta * delta := (div_mul_cancel₀ _ hd.ne').symm
    _ ≤ (⌈end_ / delta⌉ : K) * delta := mul_le_mul_of_nonneg_right (Int.le_ceil _) hd.le

/-- How a rendered number is read back. -/
structure Renders (parse : List Char → Res K) (render : K → List Char) (v : K) : Prop where
  nonempty : render v ≠ []
  comma : ',' ∉ render v
  stands : Stands parse (render v) v
  parsed : parse (render v) = .ok v

/-- **C68.** The list `0,d,...,x` gives the arithmetic progression from the start value to the final value in steps of `d`. -/
theorem C68_relative_progression (parse : List Char → Res K) (translate : List Char → K → K → Res K)
    (htr : translate = translateTime parse ∨ translate = translatePlace parse) (render : K → List Char)
    (t0 t1 : List Char) (start end_ delta o f : K) (m fuel : ℕ)
    (ht : ∀ t ∈ [t0, t1], t ≠ [] ∧ ',' ∉ t ∧ 'x' ∉ t ∧ t ≠ "...".toList)
    (h0 : parse t0 = .ok 0) (h1 : parse t1 = .ok delta) (ho : startOffset start delta = .ok o) (hf : finalValue end_ delta = .ok f)
    (hm : 1 ≤ m) (hfo : f = o + delta + m * delta)
    (hr : ∀ v ∈ [o, o + delta, f], Renders parse render v)
    (hfuel : (join [render o, render (o + delta), "...".toList, render f] [',']).length + m < fuel) :
    relativeSteps parse translate render fuel (join [t0, t1, "...".toList, "x".toList] [',']) start end_ =
      some (.ok ((List.range (m + 2)).map fun i : ℕ => o + (i : K) * delta)) := by
  have hd : delta ≠ 0 := by
    intro h
    rw [h] at hf
    exact (multiple_inv hf).1 rfl
  obtain ⟨a1, a2, a3, a4⟩ := ht t0 (by simp)
  obtain ⟨b1, b2, b3, b4⟩ := ht t1 (by simp)
  have hw : words [','].contains (join [t0, t1, "...".toList, "x".toList] [',']) = [t0, t1, "...".toList, "x".toList] := by
    have key := C26_tokenize_of_join [t0, t1, "...".toList, "x".toList] [','] [','] ((join [t0, t1, "...".toList, "x".toList] [',']).length + 1)
      (by omega) (by
        intro t hmem
        simp only [List.mem_cons, List.not_mem_nil, or_false] at hmem
        rcases hmem with rfl | rfl | rfl | rfl
        · exact ⟨a1, fun c hc h => a2 (by simp at h; rw [← h]; exact hc)⟩
        · exact ⟨b1, fun c hc h => b2 (by simp at h; rw [← h]; exact hc)⟩
        · decide
        · decide) (by simp) (by simp)
    rw [C26_tokenize_is_words _ _ _ (by omega)] at key
    exact Res.ok.inj (Option.some.inj key)
  obtain ⟨v1, v2, _⟩ := C68_relative_values parse translate htr o f
  have hall : translateAll (fun t => translate t o f) render [t0, t1, "...".toList, "x".toList] =
      .ok [render o, render (o + delta), "...".toList, render f] := by
    unfold translateAll
    simp only [List.mapM_cons, List.mapM_nil]
    rw [if_neg a4, if_neg b4, if_neg (show ¬ "x".toList = "...".toList by decide)]
    have e0 := v1 t0 0 a3 h0
    have e1 := v1 t1 delta b3 h1
    have e2 : translate "x".toList o f = .ok f := v2
    rw [add_zero] at e0
    rw [e0, e1, e2]
    rfl
  unfold relativeSteps
  rw [hw]
  dsimp only
  rw [h0, h1]
  simp only [Res.ok_bind, sub_zero, ho, hf]
  rw [hall]
  dsimp only
  have r0 := hr o (by simp)
  have r1 := hr (o + delta) (by simp)
  have r2 := hr f (by simp)
  have hprog := C27_progression parse (render o) (render (o + delta)) "...".toList (render f) o (o + delta) f m fuel
    (by intro h; exact hd (by linarith)) hm (by rw [hfo]; ring)
    (by
      intro t hmem
      simp only [List.mem_cons, List.not_mem_nil, or_false] at hmem
      rcases hmem with rfl | rfl | rfl | rfl
      · exact ⟨r0.nonempty, r0.comma⟩
      · exact ⟨r1.nonempty, r1.comma⟩
      · decide
      · exact ⟨r2.nonempty, r2.comma⟩) r0.stands r1.stands (by decide) r2.parsed hfuel
  rw [hprog]
  congr 2
  apply List.map_congr_left
  intro i _
  ring

/-- Large quotients are undefined: from 2038 on, times in seconds since 1970 with a step of one second. -/
theorem C68_large_quotient_undefined : startOffset (2147483648 : ℚ) 1 = .ub := by decide +kernel

end

/-- Numbers up to 99 as text, for the example. -/
def renderSmall (v : ℚ) : List Char := (toString v.num.toNat).toList

example : relativeSteps digits (translateTime digits) renderSmall 100 "0,3,...,x,x+3".toList 7 20 = some (.ok [6, 9, 12, 15, 18, 21]) := by
  decide +kernel
/-- The start 7 is after the first value 6. -/
example : startOffset (7 : ℚ) 3 = .ok 6 ∧ startOffset (-7 : ℚ) 3 = .ok (-3) ∧ finalValue (20 : ℚ) 3 = .ok 18 ∧ finalValue (-20 : ℚ) 3 = .ok (-18) := by
  decide +kernel
example : Renders digits renderSmall 12 := by
  refine ⟨by decide +kernel, by decide +kernel, ⟨"12".toList, by decide +kernel, by decide, by decide +kernel⟩, by decide +kernel⟩

end Fimex.Text.AxisSpec
