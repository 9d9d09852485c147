import Verif.Files.Glob
import Mathlib.Tactic.Ring

/-!
# C124: files by a pattern, and extensions of file names
-/

namespace Fimex.Glob

open Fimex.Files

/-! ## Specification -/

/-- A text matches a pattern: `?` is one character other than `/`, `*` any number of characters other than `/`, `**` any number of characters
(on one line), everything else stands for itself. -/
inductive Matches : List Char → List Char → Prop
  | nil : Matches [] []
  | one (g : List Char) (c : Char) (t : List Char) : c ≠ '/' → Matches g t → Matches ('?' :: g) (c :: t)
  | deep (g u t : List Char) : (∀ c ∈ u, c ≠ '\n' ∧ c ≠ '\r') → Matches g t → Matches ('*' :: '*' :: g) (u ++ t)
  | flat (g u t : List Char) : g.head? ≠ some '*' → '/' ∉ u → Matches g t → Matches ('*' :: g) (u ++ t)
  | same (c : Char) (g t : List Char) : c ≠ '?' → c ≠ '*' → Matches g t → Matches (c :: g) (c :: t)

/-- Names in a tree have no `/`. -/
def Named : Dir → Prop
  | .done => True
  | .file n rest => '/' ∉ n ∧ Named rest
  | .other _ rest => Named rest
  | .dir n sub rest => '/' ∉ n ∧ Named sub ∧ Named rest

/-! ## The expression -/

/-- The classes of a pattern. -/
def itemsOf : List Char → List Item
  | [] => []
  | '?' :: s => ⟨.notSlash, false⟩ :: itemsOf s
  | '*' :: '*' :: s => ⟨.any, true⟩ :: itemsOf s
  | '*' :: s => ⟨.notSlash, true⟩ :: itemsOf s
  | c :: s => ⟨.lit c, false⟩ :: itemsOf s

theorem escape_one (c : Char) : Fimex.Text.regexEscape [c] = if Fimex.Text.isOperator c then ['\\', c] else [c] := by
  rw [Fimex.Text.isOperator_eq]
  rfl

theorem regText_no_star (g : List Char) : starNext (regText g) = (false, regText g) := by
  have key : ∀ s : List Char, s.head? ≠ some '*' → starNext s = (false, s) := by
    intro s hs
    unfold starNext
    split
    · simp at hs
    · rfl
  apply key
  fun_cases regText g with
  | case1 => simp
  | case2 s => simp
  | case3 s => simp
  | case4 s _ => simp
  | case5 c s h1 h2 h3 =>
    rw [escape_one]
    by_cases hc : Fimex.Text.isOperator c = true
    · simp [hc]
    · rw [if_neg hc]
      simp only [List.singleton_append, List.head?_cons, ne_eq, Option.some.injEq]
      rintro rfl
      exact hc rfl

theorem atom_escape (c : Char) (s : List Char) : atom (Fimex.Text.regexEscape [c] ++ s) = some (.lit c, s) := by
  rw [escape_one]
  by_cases hc : Fimex.Text.isOperator c = true
  · simp [hc, atom]
  · rw [if_neg hc]
    have h1 : c ≠ '\\' := by rintro rfl; exact hc rfl
    have h2 : c ≠ '[' := by rintro rfl; exact hc rfl
    have h3 : c ≠ '.' := by rintro rfl; exact hc rfl
    simp only [List.singleton_append]
    unfold atom
    split
    · rename_i heq; simp_all
    · rename_i heq; simp_all
    · rename_i heq; simp_all
    · rename_i heq
      simp only [List.cons.injEq] at heq
      obtain ⟨rfl, rfl⟩ := heq
      rw [if_neg hc]
    · rename_i heq; simp at heq

theorem parse_step (n : Nat) (s r : List Char) (a : Set) (h : atom s = some (a, r)) :
    parse (n + 1) s = (parse n (starNext r).2).map (⟨a, (starNext r).1⟩ :: ·) := by
  cases s with
  | nil => simp [atom] at h
  | cons c s => simp only [parse, h]

theorem parse_regText (g : List Char) : ∀ n, (regText g).length ≤ n → parse n (regText g) = some (itemsOf g) := by
  fun_induction regText g with
  | case1 => intro n _; cases n <;> simp [parse, itemsOf]
  | case2 s ih =>
    intro n hn
    obtain ⟨n, rfl⟩ : ∃ m, n = m + 1 := ⟨n - 1, by simp at hn; omega⟩
    have ha : atom ("[^/]".toList ++ regText s) = some (.notSlash, regText s) := rfl
    rw [parse_step n _ _ _ ha, regText_no_star, ih n (by simp at hn; omega)]
    rfl
  | case3 s ih =>
    intro n hn
    obtain ⟨n, rfl⟩ : ∃ m, n = m + 1 := ⟨n - 1, by simp at hn; omega⟩
    have ha : atom (".*".toList ++ regText s) = some (.any, '*' :: regText s) := rfl
    rw [parse_step n _ _ _ ha]
    show (parse n (regText s)).map _ = _
    rw [ih n (by simp at hn; omega)]
    rfl
  | case4 s hs ih =>
    intro n hn
    obtain ⟨n, rfl⟩ : ∃ m, n = m + 1 := ⟨n - 1, by simp at hn; omega⟩
    have ha : atom ("[^/]*".toList ++ regText s) = some (.notSlash, '*' :: regText s) := rfl
    rw [parse_step n _ _ _ ha]
    show (parse n (regText s)).map _ = _
    rw [ih n (by simp at hn; omega)]
    have : itemsOf ('*' :: s) = ⟨.notSlash, true⟩ :: itemsOf s := by
      rw [itemsOf]
      intro t ht
      exact hs t ht
    rw [this]
    rfl
  | case5 c s h1 h2 h3 ih =>
    intro n hn
    have hl : 1 ≤ (Fimex.Text.regexEscape [c]).length := by
      rw [escape_one]; split <;> simp
    rw [List.length_append] at hn
    obtain ⟨n, rfl⟩ : ∃ m, n = m + 1 := ⟨n - 1, by omega⟩
    rw [parse_step n _ _ _ (atom_escape c _), regText_no_star, ih n (by omega)]
    have : itemsOf (c :: s) = ⟨.lit c, false⟩ :: itemsOf s := by
      rw [itemsOf]
      · intro h; exact h1 h
      · intro t h ht; exact h2 t h ht
      · intro h; exact h3 h
    rw [this]
    rfl

theorem starMatch_iff (a : Set) (m : List Char → Bool) (s : List Char) :
    starMatch a m s = true ↔ ∃ u t, s = u ++ t ∧ (∀ c ∈ u, a.has c = true) ∧ m t = true := by
  induction s with
  | nil =>
    rw [starMatch]
    constructor
    · intro h; exact ⟨[], [], rfl, by simp, h⟩
    · rintro ⟨u, t, h1, _, h3⟩
      have := List.append_eq_nil_iff.1 h1.symm
      rw [this.2] at h3; exact h3
  | cons c s ih =>
    rw [starMatch, Bool.or_eq_true, Bool.and_eq_true, ih]
    constructor
    · rintro (h | ⟨h1, u, t, rfl, h2, h3⟩)
      · exact ⟨[], c :: s, rfl, by simp, h⟩
      · exact ⟨c :: u, t, rfl, by simpa using ⟨h1, h2⟩, h3⟩
    · rintro ⟨u, t, h1, h2, h3⟩
      cases u with
      | nil => left; rw [List.nil_append] at h1; rw [h1]; exact h3
      | cons x u =>
        simp only [List.cons_append, List.cons.injEq] at h1
        obtain ⟨rfl, rfl⟩ := h1
        exact Or.inr ⟨h2 c (by simp), u, t, rfl, fun y hy => h2 y (by simp [hy]), h3⟩

theorem any_has (c : Char) : Set.any.has c = true ↔ c ≠ '\n' ∧ c ≠ '\r' := by
  simp [Set.has, isEol]

theorem matchAll_iff (g : List Char) : ∀ t, matchAll (itemsOf g) t = true ↔ Matches g t := by
  fun_induction itemsOf g with
  | case1 =>
    intro t
    rw [matchAll, List.isEmpty_iff]
    constructor
    · rintro rfl; exact .nil
    · intro h; cases h; rfl
  | case2 s ih =>
    intro t
    cases t with
    | nil => exact ⟨fun h => by simp [matchAll] at h, fun h => by cases h⟩
    | cons c r =>
      rw [matchAll, Bool.and_eq_true, ih r]
      constructor
      · intro h
        exact .one s c r (by simpa [Set.has] using h.1) h.2
      · intro h
        cases h with
        | one g c r h1 h2 => exact ⟨by simpa [Set.has] using h1, h2⟩
        | same c g r h1 => exact absurd rfl h1
  | case3 s ih =>
    intro t
    rw [matchAll, starMatch_iff]
    constructor
    · rintro ⟨u, r, rfl, h1, h2⟩
      exact .deep s u r (fun c hc => (any_has c).1 (h1 c hc)) ((ih r).1 h2)
    · intro h
      cases h with
      | deep g u r h1 h2 => exact ⟨u, r, rfl, fun c hc => (any_has c).2 (h1 c hc), (ih r).2 h2⟩
      | flat g u r h1 => simp at h1
      | same c g r h1 h2 => exact absurd rfl h2
  | case4 s hs ih =>
    intro t
    have hh : s.head? ≠ some '*' := by
      intro hh
      cases s with
      | nil => simp at hh
      | cons c s =>
        simp only [List.head?_cons, Option.some.injEq] at hh
        exact hs s (by rw [hh])
    rw [matchAll, starMatch_iff]
    constructor
    · rintro ⟨u, r, rfl, h1, h2⟩
      refine .flat s u r hh ?_ ((ih r).1 h2)
      intro hc
      have := h1 _ hc
      simp [Set.has] at this
    · intro h
      cases h with
      | deep g u r h1 h2 => simp at hh
      | flat g u r h1 h2 h3 =>
        refine ⟨u, r, rfl, fun c hc => ?_, (ih r).2 h3⟩
        simp only [Set.has, ne_eq, decide_eq_true_eq]
        rintro rfl
        exact h2 hc
      | same c g r h1 h2 => exact absurd rfl h2
  | case5 c s h1 h2 h3 ih =>
    intro t
    have h3 : c ≠ '*' := fun h => h3 h
    have h1 : c ≠ '?' := fun h => h1 h
    cases t with
    | nil =>
      refine ⟨fun h => by simp [matchAll] at h, fun h => ?_⟩
      generalize hx : ([] : List Char) = x at h
      cases h with
      | one g y r => simp at hx
      | deep g u r => exact absurd rfl h3
      | flat g u r => exact absurd rfl h3
      | same y g r => simp at hx
    | cons x r =>
      rw [matchAll, Bool.and_eq_true, ih r]
      constructor
      · intro h
        simp only [Set.has, decide_eq_true_eq] at h
        rw [h.1]
        exact .same c s r h1 h3 h.2
      · intro h
        generalize hy : x :: r = y at h
        cases h with
        | one g x r => exact absurd rfl h1
        | deep g u r => exact absurd rfl h3
        | flat g u r => exact absurd rfl h3
        | same x g r _ _ h5 =>
          simp only [List.cons.injEq] at hy
          rw [hy.1, hy.2]
          exact ⟨by simp [Set.has], h5⟩

/-- **C124.** The expression made from a pattern can always be read, and it matches exactly the texts that match the pattern. -/
theorem C124_pattern (reg : List Char) :
    ∃ items, parse (regText reg).length (regText reg) = some items ∧ ∀ t, matchAll items t = true ↔ Matches reg t :=
  ⟨itemsOf reg, parse_regText reg _ le_rfl, matchAll_iff reg⟩

example : regText "a.b/?*/**".toList = "a\\.b/[^/][^/]*/.*".toList := by decide

example : Matches "?*.nc".toList "abc.nc".toList ∧ ¬ Matches "?*.nc".toList ".nc".toList ∧ ¬ Matches "*.nc".toList "d/a.nc".toList ∧
    Matches "**.nc".toList "d/a.nc".toList := by
  simp only [← matchAll_iff]
  decide

/-- A match of a pattern without `**` has as many `/` as the pattern. -/
theorem slashes (g t : List Char) (h : Matches g t) : hasDouble g = false → t.count '/' = g.count '/' := by
  induction h with
  | nil => intro _; rfl
  | one g c t hc _ ih =>
    intro hd
    have : hasDouble g = false := by
      cases g with
      | nil => rfl
      | cons b s => simp only [hasDouble] at hd; simpa using hd
    rw [List.count_cons_of_ne (by simpa using hc), ih this, List.count_cons_of_ne (by decide)]
  | deep g u t => intro hd; simp [hasDouble] at hd
  | flat g u t hh hu _ ih =>
    intro hd
    have : hasDouble g = false := by
      cases g with
      | nil => rfl
      | cons b s => simp only [hasDouble, Bool.or_eq_false_iff] at hd; exact hd.2
    rw [List.count_append, List.count_eq_zero.2 hu, ih this, List.count_cons_of_ne (by decide)]
    omega
  | same c g t h1 h2 _ ih =>
    intro hd
    have : hasDouble g = false := by
      cases g with
      | nil => rfl
      | cons b s => simp only [hasDouble, Bool.or_eq_false_iff] at hd; exact hd.2
    rw [List.count_cons, List.count_cons, ih this]

theorem allFiles_named (d : Dir) (h : Named d) : ∀ p ∈ allFiles d, ∀ n ∈ p, '/' ∉ n := by
  induction d with
  | done => intro p hp; cases hp
  | file n rest ih =>
    intro p hp m hm
    rcases List.mem_cons.1 hp with rfl | hp
    · rw [List.mem_singleton.1 hm]; exact h.1
    · exact ih h.2 p hp m hm
  | other n rest ih => exact ih h
  | dir n sub rest ih1 ih2 =>
    intro p hp m hm
    rcases List.mem_append.1 hp with hp | hp
    · obtain ⟨q, hq, rfl⟩ := List.mem_map.1 hp
      rcases List.mem_cons.1 hm with rfl | hm
      · exact h.1
      · exact ih1 h.2.1 q hq m hm
    · exact ih2 h.2.2 p hp m hm

theorem relPath_count (p : List (List Char)) (hp : p ≠ []) (h : ∀ n ∈ p, '/' ∉ n) : (relPath p).count '/' + 1 = p.length := by
  induction p with
  | nil => exact absurd rfl hp
  | cons n p ih =>
    cases p with
    | nil => simp [relPath, List.count_eq_zero.2 (h n (by simp))]
    | cons m p =>
      have := ih (by simp) (fun x hx => h x (List.mem_cons_of_mem _ hx))
      rw [relPath_cons n (m :: p) (by simp), List.count_append, List.count_append, List.count_eq_zero.2 (h n (by simp))]
      rw [List.length_cons, ← this]
      simp
      omega

/-- The depth to which directories are entered excludes no match. -/
theorem depth_enough (reg : List Char) (d : Dir) (hn : Named d) (p : List (List Char)) (hp : p ∈ allFiles d)
    (hm : Matches reg (relPath p)) : Within (depth reg) p := by
  unfold Within depth
  by_cases hd : hasDouble reg = true
  · rw [if_pos hd]; left; decide
  · rw [if_neg hd]
    right
    have h1 := slashes reg _ hm (by simpa using hd)
    have h2 := relPath_count p (allFiles_ne_nil d p hp) (allFiles_named d hn p hp)
    omega

/-! ## The initial directory -/

theorem initial_spec (g : List Char) :
    (∀ d r, initial g = some (d, r) → g = d ++ r ∧ d.getLast? = some '/' ∧ '*' ∉ d ∧ '?' ∉ d ∧ dotStar r = true) ∧
    (∀ d r, g = d ++ r → d.getLast? = some '/' → '*' ∉ d → '?' ∉ d → dotStar r = true →
      ∃ d' r', initial g = some (d', r') ∧ d.length ≤ d'.length) := by
  induction g with
  | nil =>
    refine ⟨by intro d r h; simp [initial] at h, ?_⟩
    intro d r h1 h2
    have := (List.append_eq_nil_iff.1 h1.symm).1
    simp [this] at h2
  | cons c s ih =>
    obtain ⟨i1, i2⟩ := ih
    by_cases hw : c = '*' ∨ c = '?'
    · have e : initial (c :: s) = none := by rw [initial, if_pos hw]
      rw [e]
      refine ⟨by intro d r h; simp at h, ?_⟩
      intro d r h1 h2 h3 h4
      cases d with
      | nil => simp at h2
      | cons x d =>
        simp only [List.cons_append, List.cons.injEq] at h1
        rcases hw with hw | hw
        · exact absurd (by rw [← hw, h1.1]; simp) h3
        · exact absurd (by rw [← hw, h1.1]; simp) h4
    · cases hi : initial s with
      | some dr =>
        have e : initial (c :: s) = some (c :: dr.1, dr.2) := by rw [initial, if_neg hw, hi]
        obtain ⟨j1, j2, j3, j4, j5⟩ := i1 dr.1 dr.2 hi
        rw [e]
        refine ⟨?_, ?_⟩
        · intro d r h
          simp only [Option.some.injEq, Prod.mk.injEq] at h
          obtain ⟨rfl, rfl⟩ := h
          refine ⟨by rw [j1]; simp [← j1], ?_, ?_, ?_, j5⟩
          · rw [List.getLast?_cons, j2]; rfl
          · intro hc
            rcases List.mem_cons.1 hc with hc | hc
            · exact hw (Or.inl hc.symm)
            · exact j3 hc
          · intro hc
            rcases List.mem_cons.1 hc with hc | hc
            · exact hw (Or.inr hc.symm)
            · exact j4 hc
        · intro d r h1 h2 h3 h4 h5
          refine ⟨_, _, rfl, ?_⟩
          cases d with
          | nil => simp
          | cons x d =>
            simp only [List.cons_append, List.cons.injEq] at h1
            by_cases hdn : d = []
            · simp [hdn]
            · rw [List.getLast?_cons_of_ne_nil hdn] at h2
              obtain ⟨d', r', k1, k2⟩ := i2 d r h1.2 h2 (fun h => h3 (by simp [h])) (fun h => h4 (by simp [h])) h5
              rw [hi, Option.some.injEq] at k1
              rw [k1]
              simpa using k2
      | none =>
        have e : initial (c :: s) = if c = '/' ∧ dotStar s = true then some ([c], s) else none := by rw [initial, if_neg hw, hi]
        rw [e]
        refine ⟨?_, ?_⟩
        · intro d r h
          by_cases hc : c = '/' ∧ dotStar s = true
          · rw [if_pos hc, Option.some.injEq, Prod.mk.injEq] at h
            obtain ⟨rfl, rfl⟩ := h
            refine ⟨rfl, by simp [hc.1], by simp [hc.1], by simp [hc.1], hc.2⟩
          · rw [if_neg hc] at h; simp at h
        · intro d r h1 h2 h3 h4 h5
          cases d with
          | nil => simp at h2
          | cons x d =>
            simp only [List.cons_append, List.cons.injEq] at h1
            by_cases hdn : d = []
            · rw [hdn] at h1 h2
              simp only [List.getLast?_singleton, Option.some.injEq] at h2
              rw [if_pos ⟨h1.1.trans h2, by rw [h1.2]; exact h5⟩]
              exact ⟨_, _, rfl, by simp [hdn]⟩
            · rw [List.getLast?_cons_of_ne_nil hdn] at h2
              obtain ⟨d', r', k1, k2⟩ := i2 d r h1.2 h2 (fun h => h3 (by simp [h])) (fun h => h4 (by simp [h])) h5
              rw [hi] at k1; simp at k1

/-- **C124.** For a pattern on one line, the initial directory is the longest beginning that ends with `/` and has no wildcards, and the
rest of the pattern is matched below it; without such a beginning the initial directory is the current one. -/
theorem C124_initial (glob : List Char) (hl : ∀ c ∈ glob, c ≠ '\n' ∧ c ≠ '\r') :
    (∃ d r, split glob = (d, r) ∧ glob = d ++ r ∧ d.getLast? = some '/' ∧ '*' ∉ d ∧ '?' ∉ d ∧
      (∀ a b, r = a ++ '/' :: b → '*' ∈ a ∨ '?' ∈ a)) ∨
    (split glob = (['.'], glob) ∧ ∀ a b, glob = a ++ '/' :: b → '*' ∈ a ∨ '?' ∈ a) := by
  obtain ⟨i1, i2⟩ := initial_spec glob
  have hdot : ∀ r, (∃ d, glob = d ++ r) → dotStar r = true := by
    rintro r ⟨d, rfl⟩
    simp only [dotStar, List.all_eq_true]
    intro c hc
    have := hl c (by simp [hc])
    simp [isEol, this.1, this.2]
  have lift : ∀ d r a b, glob = d ++ r → '*' ∉ d → '?' ∉ d → r = a ++ '/' :: b → ¬ ('*' ∈ a ∨ '?' ∈ a) →
      ∃ d' r', initial glob = some (d', r') ∧ d.length < d'.length := by
    intro d r a b h1 h2 h3 h4 h5
    obtain ⟨d', r', k1, k2⟩ := i2 (d ++ (a ++ ['/'])) b (by rw [h1, h4]; simp) (by simp)
      (by simp only [List.mem_append, List.mem_singleton, not_or]
          exact ⟨h2, fun h => h5 (Or.inl h), by decide⟩)
      (by simp only [List.mem_append, List.mem_singleton, not_or]
          exact ⟨h3, fun h => h5 (Or.inr h), by decide⟩)
      (hdot b ⟨d ++ (a ++ ['/']), by rw [h1, h4]; simp⟩)
    refine ⟨d', r', k1, ?_⟩
    simp only [List.length_append, List.length_singleton] at k2
    omega
  cases hi : initial glob with
  | some dr =>
    left
    obtain ⟨j1, j2, j3, j4, _⟩ := i1 dr.1 dr.2 hi
    refine ⟨dr.1, dr.2, by simp [split, hi], j1, j2, j3, j4, ?_⟩
    intro a b hab
    by_contra hne
    obtain ⟨d', r', k1, k2⟩ := lift dr.1 dr.2 a b j1 j3 j4 hab hne
    rw [hi, Option.some.injEq] at k1
    rw [k1] at k2
    exact absurd k2 (lt_irrefl _)
  | none =>
    right
    refine ⟨by simp [split, hi], ?_⟩
    intro a b hab
    by_contra hne
    obtain ⟨d', r', k1, _⟩ := lift [] glob a b rfl (by simp) (by simp) hab hne
    rw [hi] at k1; simp at k1

example : split "/data/a?/*.nc".toList = ("/data/".toList, "a?/*.nc".toList) ∧ split "*.nc".toList = (".".toList, "*.nc".toList) ∧
    split "d/x.nc".toList = ("d/".toList, "x.nc".toList) := by decide

/-! ## The files -/

theorem withSlash_split (glob : List Char) : withSlash (split glob).1 = if (initial glob).isSome then (split glob).1 else ['.', '/'] := by
  cases hi : initial glob with
  | none => simp [split, hi, withSlash]
  | some dr =>
    have := (initial_spec glob).1 dr.1 dr.2 hi
    simp [split, hi, withSlash, this.2.1]

/-- **C124.** For a pattern with wildcards only in the name of the file (and no `**`), the files found are exactly the regular files of
the initial directory whose name matches, each once, in the order of their names, with the path of the directory in front. -/
theorem C124_one_directory (tree : List Char → Dir) (glob d r : List Char) (hs : split glob = (d, r)) (hr : '/' ∉ r) (hd : hasDouble r = false)
    (m : List Char → Bool) (hm : ∀ t, m t = true ↔ Matches r t) :
    globFiles tree glob =
      .ok (((allFiles (tree d)).filter fun p => decide (p.length ≤ 1) && m (relPath p)).map fun p => withSlash d ++ relPath p) := by
  unfold globFiles
  rw [hs]
  dsimp only
  rw [parse_regText r _ le_rfl]
  dsimp only
  have h0 : depth r = 0 := by
    rw [depth, if_neg (by simp [hd]), List.count_eq_zero.2 hr]; rfl
  rw [C50_scan_paths_partial (matchAll (itemsOf r)) (tree d) (depth r) (Or.inr (by rw [h0]; decide)) (Or.inl h0), h0]
  show Res.ok _ = _
  congr 2
  apply List.filter_congr
  intro p _
  have h1 : matchAll (itemsOf r) (relPath p) = m (relPath p) := by
    rw [Bool.eq_iff_iff, matchAll_iff, hm]
  have h2 : Within 0 p ↔ p.length ≤ 1 := by unfold Within; omega
  rw [h1, decide_eq_decide.2 h2]

/-- **C124.** For any pattern, the files found are exactly the regular files below the initial directory whose path from there matches, if in
each directory nothing is listed after a directory and there are at most 1000 levels.  Missing for the full statement: other trees, for
which it is false (see below). -/
theorem C124_files_partial (tree : List Char → Dir) (glob d r : List Char) (hs : split glob = (d, r)) (hn : Named (tree d))
    (hl : DirsLast (tree d)) (hh : height (tree d) ≤ 1000) (m : List Char → Bool) (hm : ∀ t, m t = true ↔ Matches r t) :
    globFiles tree glob = .ok (((allFiles (tree d)).filter fun p => m (relPath p)).map fun p => withSlash d ++ relPath p) := by
  unfold globFiles
  rw [hs]
  dsimp only
  rw [parse_regText r _ le_rfl]
  dsimp only
  rw [C50_scan_paths_partial (matchAll (itemsOf r)) (tree d) (depth r) (Or.inl hh) (Or.inr hl)]
  show Res.ok _ = _
  congr 2
  apply List.filter_congr
  intro p hp
  have h1 : matchAll (itemsOf r) (relPath p) = m (relPath p) := by
    rw [Bool.eq_iff_iff, matchAll_iff, hm]
  rw [h1]
  by_cases hp' : m (relPath p) = true
  · have := depth_enough r (tree d) hn p hp ((hm _).1 hp')
    simp [this]
  · simp [hp']

theorem scan_real (m : List Char → Bool) (fo : Bool) (d : Dir) : ∀ (here : List (List Char)) (dep : Int) (rel : List Char) (c : Nat)
    (ps : List (List (List Char))), scanEntries m fo d here dep rel c = .ok ps →
    ∃ qs : List (List (List Char)), qs.Sublist (allFiles d) ∧ ps = qs.map (here ++ ·) := by
  induction d with
  | done =>
    intro here dep rel c ps h
    simp only [scanEntries, Res.ok.injEq] at h
    exact ⟨[], by simp, by simp [← h]⟩
  | file n rest ih =>
    intro here dep rel c ps h
    simp only [scanEntries] at h
    obtain ⟨r, h1, h2⟩ := Res.bind_eq_ok.1 h
    obtain ⟨qs, k1, k2⟩ := ih here dep rel c r h1
    simp only [Res.ok.injEq] at h2
    subst h2
    by_cases hm : m ((if fo then [] else rel) ++ n) = true
    · rw [if_pos hm]
      exact ⟨[n] :: qs, k1.cons_cons _, by simp [k2]⟩
    · rw [if_neg hm]
      exact ⟨qs, k1.cons _, k2⟩
  | other n rest ih => intro here dep rel c ps h; exact ih here dep rel c ps h
  | dir n sub rest ih1 ih2 =>
    intro here dep rel c ps h
    simp only [scanEntries] at h
    by_cases h0 : dep ≠ 0
    · rw [if_pos h0] at h
      by_cases hc : c + 1 > 1000
      · rw [if_pos hc] at h; simp at h
      · rw [if_neg hc] at h
        obtain ⟨a, h1, h⟩ := Res.bind_eq_ok.1 h
        obtain ⟨b, h2, h⟩ := Res.bind_eq_ok.1 h
        simp only [Res.ok.injEq] at h
        obtain ⟨q1, k1, k2⟩ := ih1 _ _ _ _ a h1
        obtain ⟨q2, k3, k4⟩ := ih2 _ _ _ _ b h2
        refine ⟨q1.map (n :: ·) ++ q2, (k1.map _).append k3, ?_⟩
        rw [← h, k2, k4, List.map_append, List.map_map]
        congr 1
        apply List.map_congr_left
        intro q _
        simp
    · rw [if_neg h0] at h
      obtain ⟨q2, k3, k4⟩ := ih2 _ _ _ _ ps h
      refine ⟨q2, ?_, k4⟩
      exact k3.trans (List.sublist_append_right _ _)

/-- **C124.** Whatever the pattern and the tree, the files reported are regular files below the initial directory, each at most once. -/
theorem C124_real_files (tree : List Char → Dir) (glob d r : List Char) (hs : split glob = (d, r)) (fs : List (List Char))
    (h : globFiles tree glob = .ok fs) :
    ∃ ps : List (List (List Char)), ps.Sublist (allFiles (tree d)) ∧ fs = ps.map fun p => withSlash d ++ relPath p := by
  unfold globFiles at h
  rw [hs] at h
  dsimp only at h
  rw [parse_regText r _ le_rfl] at h
  dsimp only at h
  cases hx : scanFiles (matchAll (itemsOf r)) false (tree d) (depth r) with
  | throws => rw [hx] at h; simp [Res.bind] at h
  | ub => rw [hx] at h; simp [Res.bind] at h
  | ok ps =>
    rw [hx] at h
    simp only [Res.bind, Res.ok.injEq] at h
    obtain ⟨qs, k1, k2⟩ := scan_real _ _ _ _ _ _ _ ps hx
    refine ⟨qs, k1, ?_⟩
    rw [← h, k2]
    simp

/-- Two directories `a` and `b` with a file `f.nc` each. -/
def two : Dir := .dir "a".toList (.file "f.nc".toList .done) (.dir "b".toList (.file "f.nc".toList .done) .done)

/-- Of the two files that match `*/f.nc` only the first is found; the second is found by a pattern it does not match. -/
theorem C124_second_directory_missed :
    globFiles (fun _ => two) "*/f.nc".toList = .ok ["./a/f.nc".toList] ∧ Matches "*/f.nc".toList "b/f.nc".toList ∧
    globFiles (fun _ => two) "*/*/f.nc".toList = .ok ["./b/f.nc".toList] ∧ ¬ Matches "*/*/f.nc".toList "b/f.nc".toList := by
  simp only [← matchAll_iff]
  decide

/-- A directory with files and then one directory meets the conditions of both theorems. -/
example : let t : Dir := .file "b.nc".toList (.file "c.txt".toList (.dir "d".toList (.file "a.nc".toList .done) .done))
    Named t ∧ DirsLast t ∧ height t ≤ 1000 ∧
    globFiles (fun d => if d = "/data/".toList then t else .done) "/data/*.nc".toList = .ok ["/data/b.nc".toList] ∧
    globFiles (fun d => if d = "/data/".toList then t else .done) "/data/**.nc".toList = .ok ["/data/b.nc".toList, "/data/d/a.nc".toList] := by
  refine ⟨by simp [Named], by simp [DirsLast, NoMore], by decide, by decide, by decide⟩

/-! ## The extension -/

theorem extensionGroup_spec (s : List Char) :
    (∀ e, extensionGroup s = some e → ∃ a, s = a ++ '.' :: e ∧ (∀ c ∈ a, isEol c = false) ∧ e ≠ [] ∧ ∀ c ∈ e, isWord c = true) ∧
    (∀ a e, s = a ++ '.' :: e → (∀ c ∈ a, isEol c = false) → e ≠ [] → (∀ c ∈ e, isWord c = true) → extensionGroup s = some e) := by
  induction s with
  | nil => exact ⟨by intro e h; simp [extensionGroup] at h, by intro a e h; simp at h⟩
  | cons c s ih =>
    obtain ⟨i1, i2⟩ := ih
    have hun : extensionGroup (c :: s) = match (if isEol c then none else extensionGroup s) with
      | some e => some e
      | none => if c = '.' ∧ s ≠ [] ∧ s.all isWord = true then some s else none := rfl
    have hdot : isEol '.' = false := by decide
    have hwd : isWord '.' = false := by decide
    refine ⟨?_, ?_⟩
    · intro e h
      rw [hun] at h
      cases hx : (if isEol c then none else extensionGroup s) with
      | some e' =>
        rw [hx] at h
        simp only [Option.some.injEq] at h
        subst h
        by_cases hc : isEol c = true
        · rw [if_pos hc] at hx; simp at hx
        · rw [if_neg hc] at hx
          obtain ⟨a, j1, j2, j3, j4⟩ := i1 e' hx
          refine ⟨c :: a, by rw [j1]; rfl, ?_, j3, j4⟩
          intro x hx
          rcases List.mem_cons.1 hx with rfl | hx
          · simpa using hc
          · exact j2 x hx
      | none =>
        rw [hx] at h
        dsimp only at h
        by_cases hc : c = '.' ∧ s ≠ [] ∧ s.all isWord = true
        · rw [if_pos hc, Option.some.injEq] at h
          subst h
          exact ⟨[], by rw [hc.1]; rfl, by simp, hc.2.1, List.all_eq_true.1 hc.2.2⟩
        · rw [if_neg hc] at h; simp at h
    · intro a e h1 h2 h3 h4
      cases a with
      | nil =>
        simp only [List.nil_append, List.cons.injEq] at h1
        obtain ⟨rfl, rfl⟩ := h1
        have hnone : extensionGroup s = none := by
          cases hx : extensionGroup s with
          | none => rfl
          | some e' =>
            obtain ⟨a, j1, _⟩ := i1 e' hx
            have := h4 '.' (by rw [j1]; simp)
            rw [hwd] at this; simp at this
        rw [hun, hdot, hnone]
        simp only [Bool.false_eq_true, if_false]
        rw [if_pos ⟨trivial, h3, List.all_eq_true.2 h4⟩]
      | cons x a =>
        simp only [List.cons_append, List.cons.injEq] at h1
        obtain ⟨rfl, h1⟩ := h1
        rw [hun, h2 c (by simp), i2 a e h1 (fun y hy => h2 y (by simp [hy])) h3 h4]
        simp

/-- **C124.** The extension of a file name is what follows its last dot, in small letters, if that is a non-empty sequence of letters, digits
and underscores (and nothing before the dot ends a line); otherwise it is empty. -/
theorem C124_extension (name : List Char) :
    (∀ a w, name = a ++ '.' :: w → (∀ c ∈ a, c ≠ '\n' ∧ c ≠ '\r') → w ≠ [] → (∀ c ∈ w, isWord c = true) →
      extension name = w.map Char.toLower) ∧
    ((¬ ∃ a w, name = a ++ '.' :: w ∧ (∀ c ∈ a, c ≠ '\n' ∧ c ≠ '\r') ∧ w ≠ [] ∧ ∀ c ∈ w, isWord c = true) → extension name = []) := by
  obtain ⟨i1, i2⟩ := extensionGroup_spec name
  have hE : ∀ c, isEol c = false ↔ c ≠ '\n' ∧ c ≠ '\r' := by intro c; simp [isEol]
  refine ⟨?_, ?_⟩
  · intro a w h1 h2 h3 h4
    rw [extension, i2 a w h1 (fun c hc => (hE c).2 (h2 c hc)) h3 h4]
    rfl
  · intro h
    cases hx : extensionGroup name with
    | none => simp [extension, hx]
    | some e =>
      obtain ⟨a, j1, j2, j3, j4⟩ := i1 e hx
      exact absurd ⟨a, e, j1, fun c hc => (hE c).1 (j2 c hc), j3, j4⟩ h

/-- **C124.** An extension never contains a dot or a slash; in particular a dot in the name of a directory is not taken for one. -/
theorem C124_extension_is_of_file (name : List Char) : '/' ∉ extension name ∧ '.' ∉ extension name := by
  have key : ∀ x : Char, (∀ c, isWord c = true → c.toLower ≠ x) → x ∉ extension name := by
    intro x hx hm
    rw [extension, List.mem_map] at hm
    obtain ⟨c, hc, e⟩ := hm
    cases hg : extensionGroup name with
    | none => rw [hg] at hc; simp at hc
    | some w =>
      rw [hg] at hc
      obtain ⟨a, _, _, _, j4⟩ := (extensionGroup_spec name).1 w hg
      exact hx c (j4 c hc) e
  have low : ∀ c : Char, isWord c = true → isWord c.toLower = true := by
    intro c hc
    unfold isWord at *
    unfold Char.toLower
    split
    · rename_i h
      simp only [Char.isAlphanum, Char.isAlpha, Char.isUpper, Char.isLower, Char.isDigit, Bool.or_eq_true, Bool.and_eq_true,
        decide_eq_true_eq] at *
      left; left; right
      have h1 : c.val + 32 = UInt32.ofNat (c.val.toNat + 32) := by
        apply UInt32.toNat_inj.1
        have := h.1; have := h.2
        simp
      have := h.1; have := h.2
      simp only [UInt32.le_iff_toNat_le] at *
      constructor <;> simp_all <;> omega
    · exact hc
  refine ⟨key '/' ?_, key '.' ?_⟩
  · intro c hc e
    have := low c hc
    rw [e] at this
    exact absurd this (by decide)
  · intro c hc e
    have := low c hc
    rw [e] at this
    exact absurd this (by decide)

example : extension "/data.d/x.GRB2".toList = "grb2".toList ∧ extension "/data.d/x".toList = [] ∧ extension "a.tar.gz".toList = "gz".toList ∧
    extension "a.".toList = [] := by decide

end Fimex.Glob
