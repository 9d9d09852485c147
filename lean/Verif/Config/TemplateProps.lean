import Verif.Config.TemplateModel

/-!
# C127: templates in the attributes of configurations

Specification: what a text is after the replacement of a template, said by how the text is made up: texts without the template, and the template with nothing,
with a format, or with a format and options, for which the text of the object stands then.
-/

namespace Fimex.Template

open Fimex.Text (words)

variable {σ A : Type}

/-! ## Specification -/

/-- The template does not occur in a text, neither plainly nor with brackets. -/
def Free (n s : List Char) : Prop := ∀ a b, s ≠ a ++ '%' :: n ++ '%' :: b ∧ s ≠ a ++ '%' :: n ++ '(' :: b

/-- No closing bracket is followed by a percent sign. -/
def NoClose (s : List Char) : Prop := ∀ a b, s ≠ a ++ ')' :: '%' :: b

/-- How a text with a template is read. -/
inductive Replaced (O : Object σ) (n : List Char) : List Char → σ → List Char → σ → Prop
  | done {s st} : Free n s → Replaced O n s st s st
  | plain {pre rest st st1 w out st2} :
      Free n (pre ++ ['%']) → O.set st [] [] = .ok st1 → O.put st1 = .ok w → Replaced O n rest st1 out st2 →
      Replaced O n (pre ++ '%' :: n ++ '%' :: rest) st (pre ++ w ++ out) st2
  | format {pre f rest st st1 w out st2} :
      Free n (pre ++ ['%']) → ',' ∉ f → NoClose rest → O.set st f [] = .ok st1 → O.put st1 = .ok w → Replaced O n rest st1 out st2 →
      Replaced O n (pre ++ '%' :: n ++ '(' :: f ++ ')' :: '%' :: rest) st (pre ++ w ++ out) st2
  | options {pre f o rest st st1 w out st2} :
      Free n (pre ++ ['%']) → ',' ∉ f → '\n' ∉ o → '\r' ∉ o → NoClose rest → O.set st f (words (· == ',') o) = .ok st1 → O.put st1 = .ok w →
      Replaced O n rest st1 out st2 →
      Replaced O n (pre ++ '%' :: n ++ '(' :: f ++ ',' :: o ++ ')' :: '%' :: rest) st (pre ++ w ++ out) st2

/-- One template after the other. -/
inductive ReplacedAll (O : Object σ) : List (List Char × σ) → List Char → List Char → List (List Char × σ) → Prop
  | nil {s} : ReplacedAll O [] s s []
  | cons {n st st' l l' s t u} : '%' ∉ n → Replaced O n s st t st' → ReplacedAll O l t u l' → ReplacedAll O ((n, st) :: l) s u ((n, st') :: l')

/-! ## The expression -/

theorem NoClose.tail {c : Char} {s : List Char} (h : NoClose (c :: s)) : NoClose s := fun a b e => h (c :: a) b (by rw [e]; rfl)

theorem noClose_percent {s : List Char} (h : NoClose s) : NoClose ('%' :: s) := by
  intro a b e
  cases a with
  | nil => simp at e
  | cons x a => simp only [List.cons_append, List.cons.injEq] at e; exact h a b e.2

theorem close_none {s : List Char} (h : NoClose s) : close s = none := by
  unfold close
  split
  · rename_i r; exact absurd rfl (h [] r)
  · rfl

theorem dots_none {s : List Char} (h : NoClose s) : dots s = none := by
  induction s with
  | nil => rfl
  | cons c s ih =>
    rw [dots, ih h.tail, close_none h]
    simp

theorem comma_none {s : List Char} (h : NoClose s) : comma s = none := by
  unfold comma
  split
  · rw [dots_none h.tail]; exact dots_none h
  · exact dots_none h

theorem bracket_none {s : List Char} (h : NoClose s) : bracket s = none := by
  induction s with
  | nil => rfl
  | cons c s ih =>
    rw [bracket, ih h.tail, comma_none h]
    simp

theorem dots_of {u r : List Char} (hn : '\n' ∉ u) (hr : '\r' ∉ u) (h : NoClose r) : dots (u ++ ')' :: '%' :: r) = some (u, r) := by
  induction u with
  | nil =>
    rw [List.nil_append, dots, dots_none (noClose_percent h)]
    simp [close, isLine]
  | cons c u ih =>
    simp only [List.mem_cons, not_or] at hn hr
    have e : isLine c = false := by
      simp only [isLine, Bool.or_eq_false_iff, beq_eq_false_iff_ne, ne_eq]
      exact ⟨fun e => hn.1 e.symm, fun e => hr.1 e.symm⟩
    rw [List.cons_append, dots, ih hn.2 hr.2, e]
    rfl

theorem bracket_format {f r : List Char} (hf : ',' ∉ f) (h : NoClose r) : bracket (f ++ ')' :: '%' :: r) = some (f, [], r) := by
  induction f with
  | nil =>
    have e := dots_of (u := []) (by simp) (by simp) h
    rw [List.nil_append] at e
    rw [List.nil_append, bracket, bracket_none (noClose_percent h)]
    simp [comma, e]
  | cons c f ih =>
    simp only [List.mem_cons, not_or] at hf
    rw [List.cons_append, bracket, ih hf.2, if_neg (fun e => hf.1 e.symm)]

theorem bracket_options {f o r : List Char} (hf : ',' ∉ f) (hn : '\n' ∉ o) (hr : '\r' ∉ o) (h : NoClose r) :
    bracket (f ++ ',' :: o ++ ')' :: '%' :: r) = some (f, o, r) := by
  induction f with
  | nil =>
    rw [List.nil_append, List.cons_append, bracket, if_pos rfl]
    simp [comma, dots_of hn hr h]
  | cons c f ih =>
    simp only [List.mem_cons, not_or] at hf
    rw [List.cons_append, List.cons_append, bracket, ih hf.2, if_neg (fun e => hf.1 e.symm)]

theorem behind_append (n s : List Char) : behind n (n ++ s) = some s := by
  induction n with
  | nil => rfl
  | cons x n ih => rw [List.cons_append, behind, if_pos rfl, ih]

theorem behind_some {n s r : List Char} (h : behind n s = some r) : s = n ++ r := by
  induction n generalizing s with
  | nil => simp only [behind, Option.some.injEq] at h; simp [h]
  | cons x n ih =>
    cases s with
    | nil => simp [behind] at h
    | cons c s =>
      rw [behind] at h
      by_cases e : x = c
      · rw [if_pos e] at h
        rw [ih h, e]; rfl
      · rw [if_neg e] at h; cases h

/-- A match begins with the template. -/
theorem matchAt_some {n s : List Char} {m} (h : matchAt n s = some m) : ∃ b, s = '%' :: n ++ '%' :: b ∨ s = '%' :: n ++ '(' :: b := by
  unfold matchAt at h
  split at h
  · rename_i q e; exact ⟨q, .inr (behind_some e)⟩
  · rename_i q e; exact ⟨q, .inl (behind_some e)⟩
  · cases h

theorem search_free {n s : List Char} (h : Free n s) : search n s = none := by
  induction s with
  | nil => rfl
  | cons c s ih =>
    have e : matchAt n (c :: s) = none := by
      cases em : matchAt n (c :: s) with
      | none => rfl
      | some m =>
        obtain ⟨b, e | e⟩ := matchAt_some em
        · exact absurd e (h [] b).1
        · exact absurd e (h [] b).2
    have f : Free n s := fun a b =>
      ⟨fun e => (h (c :: a) b).1 (by rw [e]; simp), fun e => (h (c :: a) b).2 (by rw [e]; simp)⟩
    rw [search, e, ih f]
    rfl

/-- No match begins in a text without the template before a percent sign. -/
theorem matchAt_before {n pre rest : List Char} {c : Char} (hn : '%' ∉ n) (h : Free n (c :: pre ++ ['%'])) : matchAt n (c :: pre ++ '%' :: rest) = none := by
  cases em : matchAt n (c :: pre ++ '%' :: rest) with
  | none => rfl
  | some m =>
    exfalso
    have key : ∀ x b, (x = '%' ∨ x = '(') → c :: pre ++ '%' :: rest = '%' :: n ++ x :: b → False := by
      intro x b hx e
      have e' : (c :: pre) ++ ('%' :: rest) = ('%' :: n) ++ (x :: b) := e
      rcases List.append_eq_append_iff.1 e' with ⟨l, h1, h2⟩ | ⟨l, h1, h2⟩
      · -- the text ends within the name
        cases l with
        | nil =>
          simp only [List.append_nil] at h1
          simp only [List.nil_append, List.cons.injEq] at h2
          refine (h [] []).1 ?_
          rw [List.nil_append, ← h1]
        | cons y l =>
          simp only [List.cons_append, List.cons.injEq] at h2
          have : '%' ∈ n := by
            simp only [List.cons_append, List.cons.injEq] at h1
            rw [h1.2, h2.1]; simp
          exact hn this
      · cases l with
        | nil =>
          simp only [List.append_nil] at h1
          simp only [List.nil_append, List.cons.injEq] at h2
          refine (h [] []).1 ?_
          rw [List.nil_append, h1]
        | cons y l =>
          simp only [List.cons_append, List.cons.injEq] at h2
          have e2 : c :: pre ++ ['%'] = [] ++ '%' :: n ++ x :: (l ++ ['%']) := by
            rw [h1, ← h2.1]; simp
          rcases hx with hx | hx
          · exact (h [] _).1 (by rw [e2, hx])
          · exact (h [] _).2 (by rw [e2, hx])
    obtain ⟨b, e | e⟩ := matchAt_some em
    · exact key _ b (.inl rfl) e
    · exact key _ b (.inr rfl) e

theorem search_before {n pre rest f o r : List Char} (hn : '%' ∉ n) (h : Free n (pre ++ ['%'])) (hm : matchAt n ('%' :: rest) = some (f, o, r)) :
    search n (pre ++ '%' :: rest) = some (pre, f, o, r) := by
  induction pre with
  | nil => rw [List.nil_append, search, hm]
  | cons c pre ih =>
    have f' : Free n (pre ++ ['%']) := fun a b =>
      ⟨fun e => (h (c :: a) b).1 (by rw [List.cons_append, e]; simp), fun e => (h (c :: a) b).2 (by rw [List.cons_append, e]; simp)⟩
    have e := matchAt_before (rest := rest) hn h
    rw [List.cons_append] at e
    rw [List.cons_append, search, e, ih f']
    rfl

theorem matchAt_plain (n rest : List Char) : matchAt n ('%' :: (n ++ '%' :: rest)) = some ([], [], rest) := by
  have e := behind_append ('%' :: n) ('%' :: rest)
  rw [List.cons_append] at e
  simp only [matchAt, e]

theorem matchAt_bracket (n q : List Char) : matchAt n ('%' :: (n ++ '(' :: q)) = bracket q := by
  have e := behind_append ('%' :: n) ('(' :: q)
  rw [List.cons_append] at e
  simp only [matchAt, e]

theorem options_words (o : List Char) : options o = .ok (words (· == ',') o) := by
  unfold options
  rw [Fimex.Text.C26_tokenize_is_words _ _ _ (Nat.lt_succ_self _)]
  simp only [Res.ok.injEq]
  congr 1
  funext c
  simp [List.contains_eq_mem, Bool.beq_eq_decide_eq]

theorem options_nil : options [] = .ok [] := by rw [options_words]; rfl

/-! ## Theorems -/

theorem replaced_loop {O : Object σ} {n s out : List Char} {st st' : σ} (hn : '%' ∉ n) (h : Replaced O n s st out st') :
    ∀ fuel, s.length < fuel → replaceLoop O n fuel s st = .ok (out, st') := by
  induction h with
  | done hf =>
    intro fuel hl
    obtain ⟨k, rfl⟩ : ∃ k, fuel = k + 1 := ⟨fuel - 1, by omega⟩
    rw [replaceLoop, search_free hf]
  | plain hf hs hp _ ih =>
    intro fuel hl
    obtain ⟨k, rfl⟩ : ∃ k, fuel = k + 1 := ⟨fuel - 1, by omega⟩
    simp only [List.append_assoc, List.cons_append, List.length_append, List.length_cons] at hl ⊢
    rw [replaceLoop, search_before hn hf (matchAt_plain _ _)]
    simp only [options_nil, Res.bind, hs, hp, ih k (by omega)]
    simp
  | format hf hc hr hs hp _ ih =>
    intro fuel hl
    obtain ⟨k, rfl⟩ : ∃ k, fuel = k + 1 := ⟨fuel - 1, by omega⟩
    simp only [List.append_assoc, List.cons_append, List.length_append, List.length_cons] at hl ⊢
    rw [replaceLoop, search_before hn hf ((matchAt_bracket _ _).trans (bracket_format hc hr))]
    simp only [options_nil, Res.bind, hs, hp, ih k (by omega)]
    simp
  | options hf hc h1 h2 hr hs hp _ ih =>
    intro fuel hl
    obtain ⟨k, rfl⟩ : ∃ k, fuel = k + 1 := ⟨fuel - 1, by omega⟩
    have e := bracket_options hc h1 h2 hr
    simp only [List.append_assoc, List.cons_append, List.length_append, List.length_cons] at hl e ⊢
    rw [replaceLoop, search_before hn hf ((matchAt_bracket _ _).trans e)]
    simp only [options_words, Res.bind, hs, hp, ih k (by omega)]
    simp

/-- **C127.** A text made up of texts without the template and of templates without brackets, with a format, or with a format and options, becomes the texts with
what the object gives in the places of the templates. -/
theorem C127_replaced {O : Object σ} {n s out : List Char} {st st' : σ} (hn : '%' ∉ n) (h : Replaced O n s st out st') :
    replaceOne O n s st = .ok (out, st') := replaced_loop hn h _ (Nat.lt_succ_self _)

/-- **C127.** All templates, one after the other. -/
theorem C127_replaced_all {O : Object σ} {ts ts' : List (List Char × σ)} {s out : List Char} (h : ReplacedAll O ts s out ts') :
    replaceAll O ts s = .ok (out, ts') := by
  induction h with
  | nil => rfl
  | cons hn h _ ih => simp only [replaceAll, C127_replaced hn h, Res.bind, ih]

/-- **C127.** A text in which no template occurs is kept, and no object is asked. -/
theorem C127_unchanged (O : Object σ) (ts : List (List Char × σ)) (s : List Char) (h : ∀ t ∈ ts, Free t.1 s) : replaceAll O ts s = .ok (s, ts) := by
  induction ts with
  | nil => rfl
  | cons t l ih =>
    have e : replaceOne O t.1 s t.2 = .ok (s, t.2) := by rw [replaceOne, replaceLoop, search_free (h t (by simp))]
    simp only [replaceAll, e, Res.bind, ih fun x hx => h x (List.mem_cons_of_mem _ hx)]

/-- A name and no percent sign: the template does not occur. -/
theorem free_of_no_percent {n s : List Char} (h : '%' ∉ s) : Free n s :=
  fun a b => ⟨fun e => h (by rw [e]; simp), fun e => h (by rw [e]; simp)⟩

theorem free_before {n s : List Char} (h : '%' ∉ s) : Free n (s ++ ['%']) := by
  have key : ∀ a (x : Char) b, s ++ ['%'] ≠ a ++ '%' :: n ++ x :: b := by
    intro a x b e
    have e2 : s ++ ['%'] = (a ++ '%' :: n) ++ (x :: b) := e
    rcases List.append_eq_append_iff.1 e2 with ⟨l, h1, h2⟩ | ⟨l, h1, h2⟩
    · cases l with
      | nil => exact h (by rw [List.append_nil] at h1; rw [← h1]; simp)
      | cons y l => simp at h2
    · exact h (by rw [h1]; simp)
  exact fun a b => ⟨key a _ b, key a _ b⟩

/-- **C127.** Every plain template is replaced, any number of them. -/
theorem C127_plain {O : Object σ} {n w : List Char} {st : σ} (hn : '%' ∉ n) (hs : O.set st [] [] = .ok st) (hp : O.put st = .ok w) (texts : List (List Char))
    (last : List Char) (ht : ∀ t ∈ texts, '%' ∉ t) (hl : '%' ∉ last) :
    replaceOne O n (texts.flatMap (fun t => t ++ '%' :: n ++ ['%']) ++ last) st = .ok (texts.flatMap (fun t => t ++ w) ++ last, st) := by
  apply C127_replaced hn
  induction texts with
  | nil => exact .done (free_of_no_percent hl)
  | cons t l ih =>
    have e := Replaced.plain (rest := l.flatMap (fun t => t ++ '%' :: n ++ ['%']) ++ last) (free_before (n := n) (ht t (by simp))) hs hp
      (ih fun x hx => ht x (List.mem_cons_of_mem _ hx))
    simpa only [List.flatMap_cons, List.append_assoc, List.cons_append, List.nil_append] using e

/-! ## Attributes -/

/-- What the elements are after the replacement. -/
inductive Filled (O : Object σ) (make : List Char → List Char → List Char → Res A) : List Child → List (List Char × σ) → List A → List (List Char × σ) → Prop
  | nil {ts} : Filled O make [] ts [] ts
  | skip {c l ts as ts'} : c.tag ≠ some "attribute" → Filled O make l ts as ts' → Filled O make (c :: l) ts as ts'
  | made {c l ts ts1 v a as ts'} : c.tag = some "attribute" → replaceAll O ts (c.prop "value") = .ok (v, ts1) →
      make (c.prop "name") (c.prop "type") v = .ok a → Filled O make l ts1 as ts' → Filled O make (c :: l) ts (a :: as) ts'

/-- **C127.** The attributes are those of the elements of that name, in their order, with name and type as given and the value after the replacement; the
objects keep what an earlier attribute set. -/
theorem C127_attributes (O : Object σ) (make : List Char → List Char → List Char → Res A) (l : List Child) (ts ts' : List (List Char × σ)) (as : List A) :
    fillAttributes O make l ts = .ok (as, ts') ↔ Filled O make l ts as ts' := by
  constructor
  · intro h
    induction l generalizing ts as with
    | nil =>
      simp only [fillAttributes, Res.ok.injEq, Prod.mk.injEq] at h
      obtain ⟨rfl, rfl⟩ := h
      exact .nil
    | cons c l ih =>
      rw [fillAttributes] at h
      by_cases hc : c.tag = some "attribute"
      · rw [if_pos hc] at h
        obtain ⟨p, h1, h⟩ := Res.bind_eq_ok.1 h
        obtain ⟨a, h2, h⟩ := Res.bind_eq_ok.1 h
        obtain ⟨q, h3, h⟩ := Res.bind_eq_ok.1 h
        simp only [Res.ok.injEq, Prod.mk.injEq] at h
        obtain ⟨rfl, rfl⟩ := h
        exact .made hc h1 h2 (ih _ _ h3)
      · rw [if_neg hc] at h
        exact .skip hc (ih _ _ h)
  · intro h
    induction h with
    | nil => rfl
    | skip hc _ ih => rw [fillAttributes, if_neg hc, ih]
    | made hc h1 h2 _ ih => rw [fillAttributes, if_pos hc, h1]; simp only [Res.bind, h2, ih]

/-- **C127.** Of the nodes found only the first counts: none gives nothing, one that is no element is an error, otherwise there are its attributes as written and
those made of its children. -/
theorem C127_node (O : Object σ) (make : List Char → List Char → List Char → Res A) (ts : List (List Char × σ)) :
    readNode O make [] ts = .ok (0, [], [], ts) ∧
    (∀ n l, n.element = false → readNode O make (n :: l) ts = .throws) ∧
    ∀ n l (ps : List (String × String)) as ts', n.element = true → n.props = ps.map (fun p => (p.1, some p.2)) → Filled O make n.children ts as ts' →
      readNode O make (n :: l) ts = .ok (l.length + 1, ps, as, ts') := by
  refine ⟨rfl, fun n l h => by simp only [readNode, h, if_true], fun n l ps as ts' he hp hf => ?_⟩
  have e : ∀ ps : List (String × String), properties (ps.map fun p => (p.1, some p.2)) = .ok ps := by
    intro ps
    induction ps with
    | nil => rfl
    | cons p ps ih => simp only [List.map_cons, properties, ih, Res.bind]
  simp only [readNode, he, Bool.true_eq_false, if_false, hp, e, Res.bind, (C127_attributes O make _ _ _ _).2 hf]

/-- **C127.** An attribute with an empty value, like `<parameter name="">`, is read through a null pointer. -/
theorem C127_empty_property (O : Object σ) (make : List Char → List Char → List Char → Res A) (ts : List (List Char × σ)) (n : Found) (l : List Found)
    (he : n.element = true) (h : ∃ k, (k, none) ∈ n.props) : readNode O make (n :: l) ts = .ub := by
  have e : ∀ ps : List (String × Option String), (∃ k, (k, none) ∈ ps) → properties ps = .ub := by
    intro ps
    induction ps with
    | nil => rintro ⟨_, h⟩; cases h
    | cons p ps ih =>
      rintro ⟨k, h⟩
      obtain ⟨a, v⟩ := p
      cases v with
      | none => rfl
      | some v =>
        rw [properties, ih ⟨k, by simpa using h⟩]
        rfl
  simp only [readNode, he, Bool.true_eq_false, if_false, e _ h, Res.bind]

/-! ## Times -/

variable (strftime : List Char → Int → List Char) (parse : List Char → Res Int)

/-- **C127.** A time with a format is written so, shifted by the first option if there is one and by the option of an earlier place otherwise. -/
theorem C127_time {n pre f rest : List Char} {st : Time} (hn : '%' ∉ n) (hp : '%' ∉ pre) (hf : ',' ∉ f) (hr : '%' ∉ rest)
    (hl : (strftime f (st.time + st.offset)).length < 80) :
    replaceOne (timeObject strftime parse) n (pre ++ '%' :: n ++ '(' :: f ++ ')' :: '%' :: rest) st
      = .ok (pre ++ strftime f (st.time + st.offset) ++ rest, { st with format := f }) := by
  refine C127_replaced hn (.format (free_before hp) hf ?_ rfl ?_ (.done (free_of_no_percent hr)))
  · intro a b e; exact hr (by rw [e]; simp)
  · simp only [timeObject, hl, if_true]

theorem C127_time_offset {n pre f o rest : List Char} {st : Time} {d : Int} (hn : '%' ∉ n) (hp : '%' ∉ pre) (hf : ',' ∉ f) (hr : '%' ∉ rest)
    (ho : o ≠ []) (hc : ',' ∉ o) (h1 : '\n' ∉ o) (h2 : '\r' ∉ o) (hd : parse o = .ok d) (hl : (strftime f (st.time + d)).length < 80) :
    replaceOne (timeObject strftime parse) n (pre ++ '%' :: n ++ '(' :: f ++ ',' :: o ++ ')' :: '%' :: rest) st
      = .ok (pre ++ strftime f (st.time + d) ++ rest, { st with format := f, offset := d }) := by
  have hw : words (· == ',') o = [o] := by
    have e := options_words o
    have k := Fimex.Text.C26_tokenize_of_join [o] [','] [','] (o.length + 1) (by simp [Fimex.Text.join, Fimex.Text.joinLoop])
      (by intro t ht; rw [List.mem_singleton.1 ht]; exact ⟨ho, fun c hc' hm => hc (by rw [List.mem_singleton.1 hm] at hc'; exact hc')⟩) (by simp) (by simp)
    have j : Fimex.Text.join [o] [','] = o := by simp [Fimex.Text.join, Fimex.Text.joinLoop]
    rw [j] at k
    rw [options, k] at e
    exact (Res.ok.inj e).symm
  refine C127_replaced hn (.options (free_before hp) hf h1 h2 ?_ (st1 := { st with format := f, offset := d }) ?_ ?_ (.done (free_of_no_percent hr)))
  · intro a b e; exact hr (by rw [e]; simp)
  · simp only [timeObject, hw, hd, Res.bind]
  · simp only [timeObject, hl, if_true]

/-- **C127.** The offset of one place stays with the object: a later place, of the same or of another attribute, without an offset of its own is shifted too. -/
theorem C127_offset_stays {n f o g : List Char} {st : Time} {d : Int} (hn : '%' ∉ n) (hf : ',' ∉ f) (hg : ',' ∉ g)
    (ho : o ≠ []) (hc : ',' ∉ o) (h1 : '\n' ∉ o) (h2 : '\r' ∉ o) (hd : parse o = .ok d) (hl : (strftime f (st.time + d)).length < 80)
    (hm : (strftime g (st.time + d)).length < 80) :
    ∃ st', replaceOne (timeObject strftime parse) n ('%' :: n ++ '(' :: f ++ ',' :: o ++ ")%".toList) st = .ok (strftime f (st.time + d), st') ∧
      ∃ st'', replaceOne (timeObject strftime parse) n ('%' :: n ++ '(' :: g ++ ")%".toList) st' = .ok (strftime g (st.time + d), st'') := by
  have e1 := C127_time_offset strftime parse (pre := []) (rest := []) hn (by simp) hf (by simp) ho hc h1 h2 hd hl
  have e2 := C127_time strftime parse (pre := []) (rest := []) (st := { st with format := f, offset := d }) hn (by simp) hg (by simp) hm
  simp only [List.nil_append, List.append_nil] at e1 e2
  exact ⟨_, e1, _, e2⟩

/-- **C127.** A template without brackets sets the empty format, so that the format the object was made with is never used: a time is written as nothing. -/
theorem C127_no_default {n pre rest : List Char} (hs : ∀ t, strftime [] t = []) (hn : '%' ∉ n) (hp : '%' ∉ pre) (hr : '%' ∉ rest) (st : Time) :
    replaceOne (timeObject strftime parse) n (pre ++ '%' :: n ++ '%' :: rest) st = .ok (pre ++ rest, { st with format := [] }) := by
  have e := C127_replaced (O := timeObject strftime parse) (st := st) hn (.plain (free_before hp) rfl (w := []) ?_ (.done (free_of_no_percent hr)))
  · simpa only [List.append_nil] using e
  · simp only [timeObject, hs]; rfl

/-- **C127.** A text of 80 characters or more is not written into the buffer, which is used all the same. -/
theorem C127_long {n f : List Char} {st : Time} (hn : '%' ∉ n) (hf : ',' ∉ f) (hl : 80 ≤ (strftime f (st.time + st.offset)).length) :
    replaceOne (timeObject strftime parse) n ('%' :: n ++ '(' :: f ++ ")%".toList) st = .ub := by
  have hb : bracket (f ++ ")%".toList) = some (f, [], []) := bracket_format hf (r := []) (by intro a b e; simp at e)
  have e : search n ([] ++ '%' :: (n ++ '(' :: (f ++ ")%".toList))) = some ([], f, [], []) :=
    search_before hn (free_before (by simp)) ((matchAt_bracket _ _).trans hb)
  simp only [List.nil_append] at e
  simp only [replaceOne, List.append_assoc, List.cons_append]
  rw [replaceLoop, e]
  simp only [options_nil, Res.bind, timeObject, Nat.not_lt.2 hl, if_false]

/-! ## Two templates with brackets -/

/-- **C127.** Two templates with formats are both replaced if the one whose name comes later in the alphabet is before the other. -/
theorem C127_two {O : Object σ} {a b p f m g t wa wb : List Char} {sa sb sa' sb' : σ} (ha : '%' ∉ a) (hb : '%' ∉ b) (hp : '%' ∉ p) (hm : '%' ∉ m) (ht : '%' ∉ t)
    (hw : '%' ∉ wa) (hf : ',' ∉ f) (hg : ',' ∉ g) (hfree : Free a (p ++ '%' :: b ++ '(' :: f ++ ')' :: '%' :: m ++ ['%']))
    (h1 : O.set sa g [] = .ok sa') (h2 : O.put sa' = .ok wa) (h3 : O.set sb f [] = .ok sb') (h4 : O.put sb' = .ok wb) :
    replaceAll O [(a, sa), (b, sb)] (p ++ '%' :: b ++ '(' :: f ++ ')' :: '%' :: m ++ '%' :: a ++ '(' :: g ++ ')' :: '%' :: t)
      = .ok (p ++ wb ++ m ++ wa ++ t, [(a, sa'), (b, sb')]) := by
  have nc : ∀ {s : List Char}, '%' ∉ s → NoClose s := fun h x y e => h (by rw [e]; simp)
  refine C127_replaced_all (.cons ha (.format hfree hg (nc ht) h1 h2 (.done (free_of_no_percent ht))) (t := p ++ '%' :: b ++ '(' :: f ++ ')' :: '%' :: m ++ wa ++ t)
    (.cons hb ?_ .nil))
  have hr : '%' ∉ m ++ wa ++ t := by simp [hm, hw, ht]
  have e := Replaced.format (free_before (n := b) hp) hf (nc hr) h3 h4 (.done (free_of_no_percent hr))
  simpa only [List.append_assoc, List.cons_append] using e

/-- **C127.** Two places of one template with formats are read as one, from the first opening bracket to the last closing one. -/
theorem C127_merged {O : Object σ} {n p f m g t w : List Char} {st st' : σ} (hn : '%' ∉ n) (hc : ',' ∉ n) (hp : '%' ∉ p) (hf : ',' ∉ f) (hm : ',' ∉ m) (hg : ',' ∉ g)
    (ht : '%' ∉ t) (h1 : O.set st (f ++ ")%".toList ++ m ++ '%' :: n ++ '(' :: g) [] = .ok st') (h2 : O.put st' = .ok w) :
    replaceOne O n (p ++ '%' :: n ++ '(' :: f ++ ")%".toList ++ m ++ '%' :: n ++ '(' :: g ++ ')' :: '%' :: t) st = .ok (p ++ w ++ t, st') := by
  have e := C127_replaced hn (Replaced.format (f := f ++ ")%".toList ++ m ++ '%' :: n ++ '(' :: g) (free_before (n := n) hp) (by simp [hf, hm, hg, hc])
    (fun x y e => ht (by rw [e]; simp)) h1 h2 (.done (free_of_no_percent ht)))
  simpa only [List.append_assoc, List.cons_append] using e

/-- **C127.** So the statement of the property does not hold of all texts: with a value that does not depend on the format, both places should be replaced. -/
theorem C127_merged_witness :
    replaceAll valueObject [("A".toList, "1".toList), ("B".toList, "2".toList)] "%A(x)% and %A(y)%".toList = .ok ("1".toList, [("A".toList, "1".toList), ("B".toList, "2".toList)]) ∧
    replaceAll valueObject [("A".toList, "1".toList), ("B".toList, "2".toList)] "%A(x)% to %B(y)%!".toList = .ok ("1!".toList, [("A".toList, "1".toList), ("B".toList, "2".toList)]) ∧
    replaceAll valueObject [("A".toList, "1".toList), ("B".toList, "2".toList)] "%B(y)% to %A(x)%!".toList = .ok ("2 to 1!".toList, [("A".toList, "1".toList), ("B".toList, "2".toList)]) ∧
    replaceAll valueObject [("A".toList, "1".toList), ("B".toList, "2".toList)] "50%A%50%".toList = .ok ("50150%".toList, [("A".toList, "1".toList), ("B".toList, "2".toList)]) := by
  refine ⟨?_, ?_, ?_, ?_⟩ <;> decide +kernel

/-! ## Cases -/

/-- A test for `Free`. -/
def freeB (n : List Char) : List Char → Bool
  | [] => true
  | c :: s =>
    (match behind ('%' :: n) (c :: s) with
    | some ('%' :: _) => false
    | some ('(' :: _) => false
    | _ => true) && freeB n s

theorem free_of_freeB {n s : List Char} (h : freeB n s = true) : Free n s := by
  have key : ∀ a (x : Char) b, x = '%' ∨ x = '(' → s ≠ a ++ '%' :: n ++ x :: b := by
    intro a
    induction a generalizing s with
    | nil =>
      rintro x b hx rfl
      have e := behind_append ('%' :: n) (x :: b)
      rw [List.cons_append] at e
      simp only [List.nil_append, List.cons_append, freeB, e] at h
      rcases hx with rfl | rfl <;> simp at h
    | cons y a ih =>
      rintro x b hx rfl
      simp only [List.cons_append, freeB, Bool.and_eq_true] at h
      refine ih h.2 x b hx ?_
      simp
  exact fun a b => ⟨key a _ b (.inl rfl), key a _ b (.inr rfl)⟩

/-- The times of a GRIB file in an attribute, the smallest before the largest. -/
example (strftime : List Char → Int → List Char) (parse : List Char → Res Int) (h : ∀ f t, (strftime f t).length < 80) (hp : ∀ f t, '%' ∉ strftime f t) :
    ∃ ts, replaceAll (timeObject strftime parse) [("MAX_DATETIME".toList, ⟨7200, [], 0⟩), ("MIN_DATETIME".toList, ⟨3600, [], 0⟩)]
        ("from ".toList ++ '%' :: "MIN_DATETIME".toList ++ '(' :: "%Y-%m-%d".toList ++ ')' :: '%' :: " to ".toList ++ '%' :: "MAX_DATETIME".toList ++ '(' :: "%H:%M".toList ++ ')' :: '%' :: [])
      = .ok ("from ".toList ++ strftime "%Y-%m-%d".toList 3600 ++ " to ".toList ++ strftime "%H:%M".toList 7200 ++ [], ts) :=
  ⟨_, C127_two (O := timeObject strftime parse) (sa' := ⟨7200, "%H:%M".toList, 0⟩) (sb' := ⟨3600, "%Y-%m-%d".toList, 0⟩) (by decide) (by decide) (by decide) (by decide)
    (by decide) (hp _ _) (by decide) (by decide) (free_of_freeB (by decide +kernel)) rfl (by simp only [timeObject, h, if_true]; rfl) rfl
    (by simp only [timeObject, h, if_true]; rfl)⟩

/-- Three plain places, with percent signs of their own around. -/
example : replaceOne valueObject "V".toList "a%V%b%V%%V% 100%".toList "x".toList = .ok ("axbxx 100%".toList, "x".toList) := by decide +kernel

example : replaceOne valueObject "V".toList (["a".toList, "b".toList, []].flatMap (fun t => t ++ '%' :: "V".toList ++ ['%']) ++ "c".toList) "x".toList
    = .ok (["a".toList, "b".toList, []].flatMap (fun t => t ++ "x".toList) ++ "c".toList, "x".toList) :=
  C127_plain (by decide) rfl rfl _ _ (by decide) (by decide)

/-- Options and an offset: the second attribute is shifted although it gives none. -/
example : fillAttributes (A := List Char × List Char) (timeObject (fun f t => f ++ (toString t).toList) fun o => .ok o.length) (fun n _ v => .ok (n, v))
    [⟨some "attribute", fun k => if k = "name" then "a".toList else if k = "value" then "%T(f,123,4)%".toList else []⟩, ⟨none, fun _ => []⟩,
      ⟨some "attribute", fun k => if k = "name" then "b".toList else if k = "value" then "%T(g)%".toList else []⟩] [("T".toList, ⟨10, [], 0⟩)]
    = .ok ([("a".toList, "f13".toList), ("b".toList, "g13".toList)], [("T".toList, ⟨10, "g".toList, 3⟩)]) := by decide +kernel

end Fimex.Template
