import Verif.Quality.Config
import Mathlib.Data.List.Induction

/-!
# C128: configuration of the quality control

Specification: what an element of the document means, said from the document and the datasets alone; which slices belong to which, as an inductive relation.
-/

namespace Fimex.QualityConfig

open Fimex.Quality

variable {K R D : Type}

/-! ## Specification -/

/-- What is to be done with a variable. -/
structure Control (K R : Type) where
  status : String
  reader : Option R
  fill : K
  rule : List K ⊕ String

/-- The status variable has the same dimensions, or its dimensions have the lengths of the first dimensions of the variable. -/
def Compatible (src ssrc : Source K) (v s : String) : Prop :=
  ∀ sh, src.shape v = some sh → sh = (ssrc.shape s).getD [] ∨
    ((ssrc.shape s).getD []).length ≤ sh.length ∧
      ∀ (i : Nat) a b, sh[i]? = some a → ((ssrc.shape s).getD [])[i]? = some b → ∃ k, src.length a = .ok k ∧ ssrc.length b = .ok k

/-- What an element says: it has one status variable with a name; a file, or no type and configuration either; values, or else a rule. -/
structure Means (L : Library K R) (src : Source K) (n : Variable) (c : Control K R) : Prop where
  status : ∃ s, n.status = [s] ∧ s.name ≠ "" ∧ c.status = s.name ∧
    ((s.file = "" ∧ s.type = "" ∧ s.config = "" ∧ c.reader = none ∧ Compatible src src n.name s.name) ∨
      (s.file ≠ "" ∧ ∃ r, L.create s.type s.file s.config = .ok r ∧ c.reader = some r ∧ Compatible src (L.source r) n.name s.name)) ∧
    ∃ text use, ((∃ a, s.allowed = [a] ∧ text = a.text.getD "" ∧ use = a.use) ∨ (s.allowed.length ≠ 1 ∧ text = "" ∧ use = "")) ∧
      ∃ vs, L.numbers text = .ok vs ∧ ((vs ≠ [] ∧ c.rule = .inl vs) ∨ (vs = [] ∧ use ≠ "" ∧ c.rule = .inr use))
  fill : (n.fill = "" ∧ src.fill n.name = .ok c.fill) ∨ (n.fill ≠ "" ∧ L.number n.fill = .ok c.fill)

/-- The maps after an element. -/
def apply (st : State K R) (v : String) (c : Control K R) : State K R where
  status := upd st.status v c.status
  readers := match c.reader with | none => st.readers | some r => upd st.readers v r
  fill := upd st.fill v c.fill
  values := match c.rule with | .inl vs => upd st.values v vs | .inr _ => st.values
  flags := match c.rule with | .inl _ => st.flags | .inr u => upd st.flags v u

/-- What the maps say of a variable. -/
def Controls (st : State K R) (v : String) (c : Control K R) : Prop :=
  st.status v = some c.status ∧ st.readers v = c.reader ∧ st.fill v = some c.fill ∧ ruleOf st v = some c.rule

/-! ## Shapes -/

theorem sameLengths_ok (src ssrc : Source K) (l m : List String) (h : m.length ≤ l.length) :
    sameLengths src ssrc l m = .ok () ↔ ∀ (i : Nat) a b, l[i]? = some a → m[i]? = some b → ∃ k, src.length a = .ok k ∧ ssrc.length b = .ok k := by
  induction m generalizing l with
  | nil => simp [sameLengths]
  | cons b m ih =>
    cases l with
    | nil => simp at h
    | cons a l =>
      simp only [List.length_cons, Nat.add_le_add_iff_right] at h
      rw [sameLengths]
      constructor
      · intro e
        obtain ⟨x, h1, e⟩ := Res.bind_eq_ok.1 e
        obtain ⟨y, h2, e⟩ := Res.bind_eq_ok.1 e
        by_cases hxy : x = y
        · rw [if_pos hxy] at e
          intro i a' b' ha hb
          cases i with
          | zero =>
            simp only [List.getElem?_cons_zero, Option.some.injEq] at ha hb
            subst ha hb hxy
            exact ⟨x, h1, h2⟩
          | succ i =>
            simp only [List.getElem?_cons_succ] at ha hb
            exact (ih l h).1 e i a' b' ha hb
        · rw [if_neg hxy] at e; cases e
      · intro e
        obtain ⟨k, h1, h2⟩ := e 0 a b rfl rfl
        rw [h1, h2]
        simp only [Res.bind, if_true]
        exact (ih l h).2 fun i a' b' ha hb => e (i + 1) a' b' (by simpa using ha) (by simpa using hb)

theorem checkShapes_ok (src ssrc : Source K) (v s : String) : checkShapes src ssrc v s = .ok () ↔ Compatible src ssrc v s := by
  unfold checkShapes Compatible
  cases e : src.shape v with
  | none => simp
  | some sh =>
    simp only [Option.some.injEq]
    by_cases h1 : sh = (ssrc.shape s).getD []
    · rw [if_pos h1]
      simp only [true_iff]
      rintro _ rfl
      exact .inl h1
    · rw [if_neg h1]
      by_cases h2 : sh.length < ((ssrc.shape s).getD []).length
      · rw [if_pos h2]
        simp only [reduceCtorEq, false_iff]
        intro h
        rcases h sh rfl with h | h
        · exact h1 h
        · omega
      · rw [if_neg h2, sameLengths_ok _ _ _ _ (by omega)]
        constructor
        · rintro h _ rfl; exact .inr ⟨by omega, h⟩
        · intro h
          rcases h sh rfl with h | h
          · exact absurd h h1
          · exact h.2

/-! ## One element -/

theorem addVariable_ok (L : Library K R) (src : Source K) (st st' : State K R) (n : Variable) :
    addVariable L src st n = .ok st' ↔ ∃ c, Means L src n c ∧ st' = apply st n.name c := by
  have tail : ∀ (name use text : String) (reader : Option R),
      ((checkShapes src (match reader with | none => src | some r => L.source r) n.name name).bind fun _ =>
        (if n.fill = "" then src.fill n.name else L.number n.fill).bind fun fill =>
        (L.numbers text).bind fun vs =>
        let st := { st with
          status := upd st.status n.name name
          readers := (match reader with | none => st.readers | some r => upd st.readers n.name r)
          fill := upd st.fill n.name fill }
        if vs ≠ [] then .ok { st with values := upd st.values n.name vs }
        else if use ≠ "" then .ok { st with flags := upd st.flags n.name use }
        else .throws) = .ok st' ↔
      Compatible src (match reader with | none => src | some r => L.source r) n.name name ∧
      ∃ fill, ((n.fill = "" ∧ src.fill n.name = .ok fill) ∨ (n.fill ≠ "" ∧ L.number n.fill = .ok fill)) ∧
      ∃ vs, L.numbers text = .ok vs ∧ ∃ rule : List K ⊕ String, ((vs ≠ [] ∧ rule = .inl vs) ∨ (vs = [] ∧ use ≠ "" ∧ rule = .inr use)) ∧
        st' = apply st n.name ⟨name, reader, fill, rule⟩ := by
    intro name use text reader
    constructor
    · intro h
      obtain ⟨u, h1, h⟩ := Res.bind_eq_ok.1 h
      obtain ⟨fill, h2, h⟩ := Res.bind_eq_ok.1 h
      obtain ⟨vs, h3, h⟩ := Res.bind_eq_ok.1 h
      refine ⟨(checkShapes_ok _ _ _ _).1 h1, fill, ?_, vs, h3, ?_⟩
      · by_cases hf : n.fill = ""
        · rw [if_pos hf] at h2; exact .inl ⟨hf, h2⟩
        · rw [if_neg hf] at h2; exact .inr ⟨hf, h2⟩
      · dsimp only at h
        by_cases hv : vs = []
        · rw [if_neg (by simpa using hv)] at h
          by_cases hu : use = ""
          · rw [if_neg (by simpa using hu)] at h; cases h
          · rw [if_pos hu] at h
            refine ⟨.inr use, .inr ⟨hv, hu, rfl⟩, ?_⟩
            exact (Res.ok.inj h).symm
        · rw [if_pos hv] at h
          refine ⟨.inl vs, .inl ⟨hv, rfl⟩, ?_⟩
          exact (Res.ok.inj h).symm
    · rintro ⟨h1, fill, h2, vs, h3, rule, h4, rfl⟩
      rw [(checkShapes_ok _ _ _ _).2 h1]
      have e : (if n.fill = "" then src.fill n.name else L.number n.fill) = .ok fill := by
        rcases h2 with ⟨a, b⟩ | ⟨a, b⟩
        · rw [if_pos a, b]
        · rw [if_neg a, b]
      simp only [Res.bind, e, h3]
      rcases h4 with ⟨a, rfl⟩ | ⟨a, b, rfl⟩
      · rw [if_pos a]; rfl
      · rw [if_neg (by simpa using a), if_pos b]; rfl
  unfold addVariable
  cases hs : n.status with
  | nil =>
    simp only [readStatus, hs, if_true]
    constructor
    · intro h; cases h
    · rintro ⟨c, ⟨⟨s, h, _⟩, _⟩, _⟩; rw [hs] at h; cases h
  | cons s l =>
    cases l with
    | cons s2 l =>
      simp only [readStatus, hs, if_true]
      constructor
      · intro h; cases h
      · rintro ⟨c, ⟨⟨s, h, _⟩, _⟩, _⟩; rw [hs] at h; simp at h
    | nil =>
      obtain ⟨use, text, hr, hat⟩ : ∃ use text, readStatus n = (s.name, use, text, s.file, s.type, s.config) ∧
          ((∃ a, s.allowed = [a] ∧ text = a.text.getD "" ∧ use = a.use) ∨ (s.allowed.length ≠ 1 ∧ text = "" ∧ use = "")) := by
        unfold readStatus
        rw [hs]
        dsimp only
        match ha : s.allowed with
        | [] => exact ⟨"", "", rfl, .inr ⟨by simp, rfl, rfl⟩⟩
        | [a] => exact ⟨a.use, a.text.getD "", rfl, .inl ⟨a, rfl, rfl, rfl⟩⟩
        | a :: b :: l => exact ⟨"", "", rfl, .inr ⟨by simp, rfl, rfl⟩⟩
      have hu : ∀ text' use', ((∃ a, s.allowed = [a] ∧ text' = a.text.getD "" ∧ use' = a.use) ∨ (s.allowed.length ≠ 1 ∧ text' = "" ∧ use' = "")) →
          text' = text ∧ use' = use := by
        intro text' use' h
        rcases hat with ⟨a, e1, e2, e3⟩ | ⟨e1, e2, e3⟩ <;> rcases h with ⟨b, f1, f2, f3⟩ | ⟨f1, f2, f3⟩
        · rw [e1] at f1
          simp only [List.cons.injEq, and_true] at f1
          subst f1
          exact ⟨f2.trans e2.symm, f3.trans e3.symm⟩
        · rw [e1] at f1; simp at f1
        · rw [f1] at e1; simp at e1
        · exact ⟨f2.trans e2.symm, f3.trans e3.symm⟩
      rw [hr]
      dsimp only
      by_cases hn : s.name = ""
      · rw [if_pos hn]
        constructor
        · intro h; cases h
        · rintro ⟨c, ⟨⟨s', h, h', _⟩, _⟩, _⟩
          rw [hs] at h
          simp only [List.cons.injEq, and_true] at h
          subst h
          exact absurd hn h'
      · rw [if_neg hn]
        by_cases hf : s.file = ""
        · by_cases hc : s.config ≠ "" ∨ s.type ≠ ""
          · rw [if_pos ⟨hf, hc⟩]
            constructor
            · intro h; cases h
            · rintro ⟨c, ⟨⟨s', h, _, _, h', _⟩, _⟩, _⟩
              rw [hs] at h
              simp only [List.cons.injEq, and_true] at h
              subst h
              rcases h' with ⟨_, h1, h2, _⟩ | ⟨h1, _⟩
              · rcases hc with hc | hc
                · exact absurd h2 hc
                · exact absurd h1 hc
              · exact absurd hf h1
          · rw [if_neg (fun h => hc h.2), if_pos hf]
            simp only [not_or, not_not] at hc
            refine Iff.trans (tail s.name use text none) ?_
            constructor
            · rintro ⟨h1, fill, h2, vs, h3, rule, h4, h5⟩
              exact ⟨⟨s.name, none, fill, rule⟩, ⟨⟨s, hs, hn, rfl, .inl ⟨hf, hc.2, hc.1, rfl, h1⟩, text, use, hat, vs, h3, h4⟩, h2⟩, h5⟩
            · rintro ⟨c, ⟨⟨s', h, _, h1, h2, text', use', h3, vs, h4, h5⟩, h6⟩, h7⟩
              rw [hs] at h
              simp only [List.cons.injEq, and_true] at h
              subst h
              obtain ⟨rfl, rfl⟩ := hu _ _ h3
              rcases h2 with ⟨_, _, _, h8, h9⟩ | ⟨h8, _⟩
              · refine ⟨h9, c.fill, h6, vs, h4, c.rule, h5, ?_⟩
                rw [h7, ← h1, ← h8]
              · exact absurd hf h8
        · rw [if_neg (fun h => hf h.1), if_neg hf]
          cases hcr : L.create s.type s.file s.config with
          | ok r =>
            simp only [Res.bind]
            refine Iff.trans (tail s.name use text (some r)) ?_
            constructor
            · rintro ⟨h1, fill, h2, vs, h3, rule, h4, h5⟩
              exact ⟨⟨s.name, some r, fill, rule⟩, ⟨⟨s, hs, hn, rfl, .inr ⟨hf, r, hcr, rfl, h1⟩, text, use, hat, vs, h3, h4⟩, h2⟩, h5⟩
            · rintro ⟨c, ⟨⟨s', h, _, h1, h2, text', use', h3, vs, h4, h5⟩, h6⟩, h7⟩
              rw [hs] at h
              simp only [List.cons.injEq, and_true] at h
              subst h
              obtain ⟨rfl, rfl⟩ := hu _ _ h3
              rcases h2 with ⟨h8, _⟩ | ⟨_, r', h8, h9, h10⟩
              · exact absurd h8 hf
              · rw [hcr] at h8
                cases h8
                refine ⟨h10, c.fill, h6, vs, h4, c.rule, h5, ?_⟩
                rw [h7, ← h1, ← h9]
          | throws =>
            constructor
            · intro h; cases h
            · rintro ⟨c, ⟨⟨s', h, _, _, h2, _⟩, _⟩, _⟩
              rw [hs] at h
              simp only [List.cons.injEq, and_true] at h
              subst h
              rcases h2 with ⟨h8, _⟩ | ⟨_, r', h8, _⟩
              · exact absurd h8 hf
              · rw [hcr] at h8; cases h8
          | ub =>
            constructor
            · intro h; cases h
            · rintro ⟨c, ⟨⟨s', h, _, _, h2, _⟩, _⟩, _⟩
              rw [hs] at h
              simp only [List.cons.injEq, and_true] at h
              subst h
              rcases h2 with ⟨h8, _⟩ | ⟨_, r', h8, _⟩
              · exact absurd h8 hf
              · rw [hcr] at h8; cases h8

/-! ## The document -/

theorem foldRes_append_ok {B C : Type} (f : B → C → Res B) (b : B) (l : List C) (c : C) : foldRes f b (l ++ [c]) = (foldRes f b l).bind fun b => f b c := by
  induction l generalizing b with
  | nil =>
    simp only [List.nil_append, foldRes, Res.bind]
    cases f b c <;> rfl
  | cons x l ih =>
    simp only [List.cons_append, foldRes]
    cases f b x with
    | ok y => simp only [Res.bind]; exact ih y
    | throws => rfl
    | ub => rfl

theorem upd_other {B : Type} (m : String → Option B) {k x : String} (v : B) (h : x ≠ k) : upd m k v x = m x := by simp [upd, h]

theorem upd_same {B : Type} (m : String → Option B) (k : String) (v : B) : upd m k v k = some v := by simp [upd]

theorem apply_other (st : State K R) {v x : String} (c : Control K R) (h : x ≠ v) :
    (apply st v c).status x = st.status x ∧ (apply st v c).readers x = st.readers x ∧ (apply st v c).fill x = st.fill x ∧
      (apply st v c).values x = st.values x ∧ (apply st v c).flags x = st.flags x := by
  refine ⟨upd_other _ _ h, ?_, upd_other _ _ h, ?_, ?_⟩
  · unfold apply; cases c.reader with
    | none => rfl
    | some r => exact upd_other _ _ h
  · unfold apply; cases c.rule with
    | inl vs => exact upd_other _ _ h
    | inr u => rfl
  · unfold apply; cases c.rule with
    | inl vs => rfl
    | inr u => exact upd_other _ _ h

/-- **C128.** A document is accepted exactly if it has one root and every element means something. -/
theorem C128_accepted (L : Library K R) (src : Source K) (roots : Nat) (nodes : List Variable) :
    (∃ st, configure L src "" (some (roots, nodes)) = .ok st) ↔ roots = 1 ∧ ∀ n ∈ nodes, ∃ c, Means L src n c := by
  have e : configure L src "" (some (roots, nodes)) = if roots = 1 then foldRes (addVariable L src) State.empty nodes else .throws := by
    simp [configure, configureAuto, Res.bind]
  have key : ∀ st, (∃ st', foldRes (addVariable L src) st nodes = .ok st') ↔ ∀ n ∈ nodes, ∃ c, Means L src n c := by
    induction nodes with
    | nil => intro st; simp [foldRes]
    | cons n l ih =>
      have ih := ih (by simp [configure, configureAuto, Res.bind])
      intro st
      simp only [List.mem_cons, forall_eq_or_imp]
      constructor
      · rintro ⟨st', h⟩
        rw [foldRes] at h
        obtain ⟨st1, h1, h2⟩ := Res.bind_eq_ok.1 h
        obtain ⟨c, hc, _⟩ := (addVariable_ok L src st st1 n).1 h1
        exact ⟨⟨c, hc⟩, (ih st1).1 ⟨_, h2⟩⟩
      · rintro ⟨⟨c, hc⟩, h⟩
        obtain ⟨st', h'⟩ := (ih (apply st n.name c)).2 h
        refine ⟨st', ?_⟩
        rw [foldRes, (addVariable_ok L src st _ n).2 ⟨c, hc, rfl⟩]
        exact h'
  rw [e]
  by_cases hr : roots = 1
  · rw [if_pos hr]; simp only [hr, true_and]; exact key _
  · rw [if_neg hr]; simp [hr]

/-- **C128.** If no variable has two elements, each is controlled as its element says, and others are not. -/
theorem C128_controls (L : Library K R) (src : Source K) (roots : Nat) (nodes : List Variable) (hd : (nodes.map (·.name)).Nodup) (st : State K R)
    (h : configure L src "" (some (roots, nodes)) = .ok st) :
    (∀ n ∈ nodes, ∃ c, Means L src n c ∧ Controls st n.name c) ∧ ∀ v, v ∉ nodes.map (·.name) → st.status v = none := by
  have e : configure L src "" (some (roots, nodes)) = if roots = 1 then foldRes (addVariable L src) State.empty nodes else .throws := by
    simp [configure, configureAuto, Res.bind]
  rw [e] at h
  by_cases hr : roots = 1
  · rw [if_pos hr] at h
    have key : ∀ (nodes : List Variable) (st : State K R), (nodes.map (·.name)).Nodup → foldRes (addVariable L src) State.empty nodes = .ok st →
        (∀ n ∈ nodes, ∃ c, Means L src n c ∧ Controls st n.name c) ∧
        ∀ v, v ∉ nodes.map (·.name) → st.status v = none ∧ st.readers v = none ∧ st.values v = none ∧ st.flags v = none := by
      intro nodes
      induction nodes using List.reverseRecOn with
      | nil =>
        intro st _ h
        simp only [foldRes, Res.ok.injEq] at h
        subst h
        exact ⟨by simp, fun v _ => ⟨rfl, rfl, rfl, rfl⟩⟩
      | append_singleton l n ih =>
        intro st hd h
        rw [foldRes_append_ok] at h
        obtain ⟨st1, h1, h2⟩ := Res.bind_eq_ok.1 h
        obtain ⟨c, hc, rfl⟩ := (addVariable_ok L src st1 _ n).1 h2
        simp only [List.map_append, List.map_cons, List.map_nil, List.nodup_append, List.mem_singleton] at hd
        obtain ⟨i1, i2⟩ := ih st1 hd.1 h1
        have hn : n.name ∉ l.map (·.name) := fun hm => hd.2.2 _ hm _ rfl rfl
        obtain ⟨j1, j2, j3, j4⟩ := i2 _ hn
        constructor
        · intro m hm
          rcases List.mem_append.1 hm with hm | hm
          · obtain ⟨c', hm', k1, k2, k3, k4⟩ := i1 m hm
            have hne : m.name ≠ n.name := fun e => hn (e ▸ List.mem_map.2 ⟨m, hm, rfl⟩)
            obtain ⟨a1, a2, a3, a4, a5⟩ := apply_other st1 c hne
            refine ⟨c', hm', a1.trans k1, a2.trans k2, a3.trans k3, ?_⟩
            rw [← k4]
            simp only [ruleOf, a4, a5]
          · rw [List.mem_singleton.1 hm]
            refine ⟨c, hc, upd_same _ _ _, ?_, upd_same _ _ _, ?_⟩
            · unfold apply
              cases c.reader with
              | none => exact j2
              | some r => exact upd_same _ _ _
            · unfold ruleOf apply
              cases c.rule with
              | inl vs => simp only [upd_same]
              | inr u => simp only [j3, upd_same, Option.map_some]
        · intro v hv
          simp only [List.map_append, List.map_cons, List.map_nil, List.mem_append, List.mem_singleton, not_or] at hv
          obtain ⟨a1, a2, a3, a4, a5⟩ := apply_other st1 c hv.2
          obtain ⟨b1, b2, b3, b4⟩ := i2 v hv.1
          exact ⟨a1.trans b1, a2.trans b2, a4.trans b3, a5.trans b4⟩
    obtain ⟨k1, k2⟩ := key nodes st hd h
    exact ⟨k1, fun v hv => (k2 v hv).1⟩
  · rw [if_neg hr] at h; cases h

/-- **C128.** Of two elements for one variable, the values of the first are used with the status variable of the second, if that gives a rule instead of values;
also the file of the first, if the second gives none. -/
theorem C128_two_elements (L : Library K R) (src : Source K) (n m : Variable) (c d : Control K R) (vs : List K) (u : String) (hn : m.name = n.name)
    (hc : Means L src n c) (hd : Means L src m d) (h1 : c.rule = .inl vs) (h2 : d.rule = .inr u) (h3 : d.reader = none) :
    ∃ st, configure L src "" (some (1, [n, m])) = .ok st ∧ Controls st n.name ⟨d.status, c.reader, d.fill, .inl vs⟩ := by
  refine ⟨apply (apply .empty n.name c) n.name d, ?_, ?_⟩
  · have e1 := (addVariable_ok L src .empty _ n).2 ⟨c, hc, rfl⟩
    have e2 := (addVariable_ok L src (apply .empty n.name c) _ m).2 ⟨d, hd, rfl⟩
    rw [hn] at e2
    simp only [configure, configureAuto, if_true, Res.bind, foldRes, e1, e2]
  · refine ⟨upd_same _ _ _, ?_, upd_same _ _ _, ?_⟩
    · simp only [apply, h3]
      cases c.reader with
      | none => rfl
      | some r => exact upd_same _ _ _
    · simp only [apply, ruleOf, h1, h2, upd_same]

/-- Number of values of a shape. -/
def volume (src : Source K) : List String → Res Nat
  | [] => .ok 1
  | a :: l => (src.length a).bind fun x => (volume src l).bind fun y => .ok (x * y)

/-- **C128.** The values of accepted variables are a whole number of times those of the status variable, if both are there. -/
theorem C128_sizes (src ssrc : Source K) (v s : String) (sh ss : List String) (x y : Nat) (h : Compatible src ssrc v s) (h1 : src.shape v = some sh)
    (h2 : ssrc.shape s = some ss) (hs : sh = ss → ∀ a ∈ ss, src.length a = ssrc.length a) (hx : volume src sh = .ok x) (hy : volume ssrc ss = .ok y) : ∃ k, x = y * k := by
  have key : ∀ (ss sh : List String) (x y : Nat), ss.length ≤ sh.length →
      (∀ (i : Nat) a b, sh[i]? = some a → ss[i]? = some b → ∃ k, src.length a = .ok k ∧ ssrc.length b = .ok k) →
      volume src sh = .ok x → volume ssrc ss = .ok y → ∃ k, x = y * k := by
    intro ss
    induction ss with
    | nil =>
      intro sh x y _ _ _ hy
      simp only [volume, Res.ok.injEq] at hy
      exact ⟨x, by rw [← hy, Nat.one_mul]⟩
    | cons b ss ih =>
      intro sh x y hl h hx hy
      cases sh with
      | nil => simp at hl
      | cons a sh =>
        obtain ⟨k, e1, e2⟩ := h 0 a b rfl rfl
        simp only [volume, e1, e2] at hx hy
        obtain ⟨x', hx', hx⟩ := Res.bind_eq_ok.1 hx
        obtain ⟨y', hy', hy⟩ := Res.bind_eq_ok.1 hy
        obtain ⟨x'', hx2, hx⟩ := Res.bind_eq_ok.1 hx
        obtain ⟨y'', hy2, hy⟩ := Res.bind_eq_ok.1 hy
        simp only [Res.ok.injEq] at hx hy hx' hy'
        subst hx' hy'
        simp only [List.length_cons, Nat.add_le_add_iff_right] at hl
        obtain ⟨j, hj⟩ := ih sh x'' y'' hl (fun i a' b' ha hb => h (i + 1) a' b' (by simpa using ha) (by simpa using hb)) hx2 hy2
        exact ⟨j, by rw [← hx, ← hy, hj, Nat.mul_assoc]⟩
  rcases h sh h1 with e | ⟨e1, e2⟩
  · rw [h2, Option.getD_some] at e
    subst e
    have ev : ∀ l : List String, (∀ a ∈ l, src.length a = ssrc.length a) → volume src l = volume ssrc l := by
      intro l
      induction l with
      | nil => intro _; rfl
      | cons a l ih =>
        intro h
        simp only [List.mem_cons, forall_eq_or_imp] at h
        simp only [volume, h.1, ih h.2]
    rw [ev _ (hs rfl), hy] at hx
    exact ⟨1, by rw [Nat.mul_one]; exact (Res.ok.inj hx).symm⟩
  · rw [h2] at e1 e2
    exact key ss sh x y e1 e2 hx hy

/-- **C128.** Lengths are not compared if the names of the dimensions are the same, although these may be of different files. -/
theorem C128_same_names (src ssrc : Source K) (v s : String) (sh : List String) (h1 : src.shape v = some sh) (h2 : ssrc.shape s = some sh) :
    checkShapes src ssrc v s = .ok () := (checkShapes_ok _ _ _ _).2 fun sh' h => .inl (by rw [h1] at h; cases h; rw [h2]; rfl)

/-- **C128.** A status variable that is not there is accepted. -/
theorem C128_missing_status (src ssrc : Source K) (v s : String) (h : ssrc.shape s = none) : checkShapes src ssrc v s = .ok () :=
  (checkShapes_ok _ _ _ _).2 fun sh _ => .inr (by rw [h]; exact ⟨by simp, fun i a b _ hb => by simp at hb⟩)

/-! ## Automatic configuration -/

/-- **C128.** The automatic configuration never controls any variable, whatever the attributes are. -/
theorem C128_auto_nothing (src : Source K) (conf : String) (h : conf = "" ∨ conf = "all" ∨ conf = "highest" ∨ conf = "lowest") :
    configureAuto (R := R) src conf = .ok .empty := by
  have hc : ∀ s, corresponding src s = [] := by
    intro s
    unfold corresponding
    dsimp only
    split
    · rfl
    · split <;> rfl
  unfold configureAuto
  by_cases h0 : conf = ""
  · rw [if_pos h0]
  · rw [if_neg h0, if_pos (h.resolve_left h0)]
    generalize src.flagged = l
    induction l with
    | nil => rfl
    | cons s l ih => rw [foldRes, hc s]; exact ih

/-- **C128.** Values, as in `values=0,1`, which the documentation describes, are refused like unknown words. -/
theorem C128_auto_refused (L : Library K R) (src : Source K) (conf : String) (doc : Option (Nat × List Variable)) (h0 : conf ≠ "") (h1 : conf ≠ "all") (h2 : conf ≠ "highest")
    (h3 : conf ≠ "lowest") : configure L src conf doc = .throws := by
  simp [configure, configureAuto, h0, h1, h2, h3, Res.bind]

/-! ## Slices -/

/-- The slices after the control: the status is that of the file if there is one, the variable itself, or the status variable after its own control; if the status
has no values at this position, those of the first position are taken. -/
inductive Slice (st : State K R) (rd : String → Nat → Res (List D)) (ext : R → String → Nat → Res (List D)) (mask : String → List D → List D → Res (List D)) :
    String → Nat → List D → Prop
  | free {v p d} : st.status v = none → rd v p = .ok d → Slice st rd ext mask v p d
  | file {v p d s r e o} : st.status v = some s → st.readers v = some r → rd v p = .ok d → ext r s p = .ok e → e ≠ [] → mask v d e = .ok o →
      Slice st rd ext mask v p o
  | fileFirst {v p d s r e o} : st.status v = some s → st.readers v = some r → rd v p = .ok d → ext r s p = .ok [] → ext r s 0 = .ok e → mask v d e = .ok o →
      Slice st rd ext mask v p o
  | self {v p d o} : st.status v = some v → st.readers v = none → rd v p = .ok d → mask v d d = .ok o → Slice st rd ext mask v p o
  | other {v p d s e o} : st.status v = some s → st.readers v = none → s ≠ v → rd v p = .ok d → Slice st rd ext mask s p e → e ≠ [] → mask v d e = .ok o →
      Slice st rd ext mask v p o
  | otherFirst {v p d s e o} : st.status v = some s → st.readers v = none → s ≠ v → rd v p = .ok d → Slice st rd ext mask s p [] → Slice st rd ext mask s 0 e →
      mask v d e = .ok o → Slice st rd ext mask v p o

variable (st : State K R) (rd : String → Nat → Res (List D)) (ext : R → String → Nat → Res (List D)) (mask : String → List D → List D → Res (List D))

theorem getSlice_more {fuel : Nat} {v : String} {p : Nat} {r : Res (List D)} (h : getSlice st rd ext mask fuel v p = some r) :
    ∀ k, fuel ≤ k → getSlice st rd ext mask k v p = some r := by
  induction fuel generalizing v p r with
  | zero => simp [getSlice] at h
  | succ fuel ih =>
    intro k hk
    obtain ⟨k, rfl⟩ : ∃ j, k = j + 1 := ⟨k - 1, by omega⟩
    have hk : fuel ≤ k := by omega
    rw [getSlice] at h ⊢
    cases hd : rd v p with
    | throws => rw [hd] at h; exact h
    | ub => rw [hd] at h; exact h
    | ok d =>
      rw [hd] at h
      dsimp only at h ⊢
      cases hs : st.status v with
      | none => rw [hs] at h; exact h
      | some s =>
        rw [hs] at h
        dsimp only at h ⊢
        cases hr : st.readers v with
        | some r => rw [hr] at h; exact h
        | none =>
          rw [hr] at h
          dsimp only at h ⊢
          by_cases e : s = v
          · rw [if_pos e] at h ⊢; exact h
          · rw [if_neg e] at h ⊢
            cases h1 : getSlice st rd ext mask fuel s p with
            | none => rw [h1] at h; cases h
            | some r1 =>
              rw [h1] at h
              rw [ih h1 k hk]
              cases r1 with
              | throws => exact h
              | ub => exact h
              | ok e =>
                dsimp only at h ⊢
                by_cases h0 : e.length = 0
                · rw [if_pos h0] at h ⊢
                  cases h2 : getSlice st rd ext mask fuel s 0 with
                  | none => rw [h2] at h; cases h
                  | some r2 => rw [h2] at h; rw [ih h2 k hk]; exact h
                · rw [if_neg h0] at h ⊢; exact h

/-- **C128.** What is delivered are exactly the slices so defined. -/
theorem C128_slices (v : String) (p : Nat) (o : List D) : (∃ fuel, getSlice st rd ext mask fuel v p = some (.ok o)) ↔ Slice st rd ext mask v p o := by
  constructor
  · rintro ⟨fuel, h⟩
    induction fuel generalizing v p o with
    | zero => simp [getSlice] at h
    | succ fuel ih =>
      rw [getSlice] at h
      cases hd : rd v p with
      | throws => rw [hd] at h; cases h
      | ub => rw [hd] at h; cases h
      | ok d =>
        rw [hd] at h
        dsimp only at h
        cases hs : st.status v with
        | none =>
          rw [hs] at h
          simp only [Option.some.injEq, Res.ok.injEq] at h
          subst h
          exact .free hs hd
        | some s =>
          rw [hs] at h
          dsimp only at h
          cases hr : st.readers v with
          | some r =>
            rw [hr] at h
            simp only [Option.some.injEq] at h
            obtain ⟨e, h1, h⟩ := Res.bind_eq_ok.1 h
            obtain ⟨e', h2, h⟩ := Res.bind_eq_ok.1 h
            by_cases h0 : e.length = 0
            · rw [if_pos h0] at h2
              rw [List.length_eq_zero_iff.1 h0] at h1
              exact .fileFirst hs hr hd h1 h2 h
            · rw [if_neg h0] at h2
              cases h2
              exact .file hs hr hd h1 (fun e => h0 (by rw [e]; rfl)) h
          | none =>
            rw [hr] at h
            dsimp only at h
            by_cases e : s = v
            · rw [if_pos e] at h
              simp only [Option.some.injEq] at h
              exact .self (e ▸ hs) hr hd h
            · rw [if_neg e] at h
              cases h1 : getSlice st rd ext mask fuel s p with
              | none => rw [h1] at h; cases h
              | some r1 =>
                rw [h1] at h
                cases r1 with
                | throws => cases h
                | ub => cases h
                | ok e1 =>
                  dsimp only at h
                  by_cases h0 : e1.length = 0
                  · rw [if_pos h0] at h
                    rw [List.length_eq_zero_iff.1 h0] at h1
                    cases h2 : getSlice st rd ext mask fuel s 0 with
                    | none => rw [h2] at h; cases h
                    | some r2 =>
                      rw [h2] at h
                      simp only [Option.some.injEq] at h
                      obtain ⟨e2, h3, h⟩ := Res.bind_eq_ok.1 h
                      rw [h3] at h2
                      exact .otherFirst hs hr e hd (ih _ _ _ h1) (ih _ _ _ h2) h
                  · rw [if_neg h0] at h
                    simp only [Option.some.injEq] at h
                    exact .other hs hr e hd (ih _ _ _ h1) (fun e => h0 (by rw [e]; rfl)) h
  · intro h
    induction h with
    | free hs hd => exact ⟨1, by simp only [getSlice, hd, hs]⟩
    | file hs hr hd h1 h2 h3 =>
      refine ⟨1, ?_⟩
      simp only [getSlice, hd, hs, hr, h1, Res.bind, List.length_eq_zero_iff, h2, if_false, h3]
    | fileFirst hs hr hd h1 h2 h3 =>
      refine ⟨1, ?_⟩
      simp only [getSlice, hd, hs, hr, h1, Res.bind, List.length_nil, if_true, h2, h3]
    | self hs hr hd h1 => exact ⟨1, by simp only [getSlice, hd, hs, hr, if_true, h1]⟩
    | other hs hr hne hd _ h2 h3 ih =>
      obtain ⟨f, hf⟩ := ih
      refine ⟨f + 1, ?_⟩
      simp only [getSlice, hd, hs, hr, hne, if_false, hf, List.length_eq_zero_iff, h2, h3]
    | otherFirst hs hr hne hd _ _ h3 ih1 ih2 =>
      obtain ⟨f, hf⟩ := ih1
      obtain ⟨g, hg⟩ := ih2
      refine ⟨max f g + 1, ?_⟩
      have e1 := getSlice_more st rd ext mask hf (max f g) (le_max_left _ _)
      have e2 := getSlice_more st rd ext mask hg (max f g) (le_max_right _ _)
      simp only [getSlice, hd, hs, hr, hne, if_false, e1, List.length_nil, if_true, e2, Res.bind, h3]

/-- **C128.** The recursion ends if no variable is controlled by itself through others. -/
theorem C128_ends (rank : String → Nat) (h : ∀ v s, st.status v = some s → st.readers v = none → s ≠ v → rank s < rank v) (v : String) (p : Nat) :
    ∃ r, getSlice st rd ext mask (rank v + 1) v p = some r := by
  have key : ∀ (k : Nat) v p, rank v < k → ∃ r, getSlice st rd ext mask k v p = some r := by
    intro k
    induction k with
    | zero => intro v p h; omega
    | succ k ih =>
      intro v p hk
      rw [getSlice]
      cases rd v p with
      | throws => exact ⟨_, rfl⟩
      | ub => exact ⟨_, rfl⟩
      | ok d =>
        dsimp only
        cases hs : st.status v with
        | none => exact ⟨_, rfl⟩
        | some s =>
          dsimp only
          cases hr : st.readers v with
          | some r => exact ⟨_, rfl⟩
          | none =>
            dsimp only
            by_cases e : s = v
            · rw [if_pos e]; exact ⟨_, rfl⟩
            · rw [if_neg e]
              have hlt := h v s hs hr e
              obtain ⟨r1, h1⟩ := ih s p (by omega)
              obtain ⟨r2, h2⟩ := ih s 0 (by omega)
              rw [h1]
              cases r1 with
              | throws => exact ⟨_, rfl⟩
              | ub => exact ⟨_, rfl⟩
              | ok e =>
                dsimp only
                by_cases h0 : e.length = 0
                · rw [if_pos h0, h2]; exact ⟨_, rfl⟩
                · rw [if_neg h0]; exact ⟨_, rfl⟩
  exact key _ v p (Nat.lt_succ_self _)

/-- **C128.** Otherwise it does not: two variables with each other as status, which are accepted, are never delivered. -/
theorem C128_circular (a b : String) (hab : a ≠ b) (h1 : st.status a = some b) (h2 : st.status b = some a) (h3 : st.readers a = none) (h4 : st.readers b = none)
    (ha : ∀ p, ∃ d, rd a p = .ok d) (hb : ∀ p, ∃ d, rd b p = .ok d) (fuel p : Nat) :
    getSlice st rd ext mask fuel a p = none ∧ getSlice st rd ext mask fuel b p = none := by
  induction fuel generalizing p with
  | zero => exact ⟨rfl, rfl⟩
  | succ k ih =>
    obtain ⟨d, hd⟩ := ha p
    obtain ⟨e, he⟩ := hb p
    obtain ⟨i1, i2⟩ := ih p
    constructor
    · simp only [getSlice, hd, h1, h3, hab.symm, if_false, i2]
    · simp only [getSlice, he, h2, h4, hab, if_false, i1]

/-! ## Cases -/

/-- A dataset with a variable, its status on the first two dimensions, and flags as the conventions say. -/
def sample : Source Int where
  shape := fun v => if v = "t" then some ["x", "y", "z"] else if v = "t_status" ∨ v = "s" then some ["x", "y"] else none
  length := fun d => if d = "x" then .ok 2 else if d = "y" then .ok 3 else if d = "z" then .ok 4 else .throws
  fill := fun _ => .ok (-999)
  standardName := fun v => if v = "t" then some "air_temperature" else if v = "t_status" then some "air_temperature status_flag" else none
  flagged := ["t_status"]
  named := fun n => if n = "air_temperature" then ["t"] else []
  flagValues := fun _ => [0, 1, 2]

def sampleLibrary : Library Int Unit where
  number := fun s => if s = "7" then .ok 7 else .throws
  numbers := fun s => if s = "1,2" then .ok [1, 2] else if s = "" then .ok [] else .throws
  create := fun _ _ _ => .ok ()
  source := fun _ => sample

/-- The variable should be controlled by its status variable, and is not. -/
example : sample.named "air_temperature" = ["t"] ∧ ∃ st, configureAuto (R := Unit) sample "all" = .ok st ∧ st.status "t" = none :=
  ⟨rfl, _, C128_auto_nothing sample "all" (by simp), rfl⟩

example (doc : Option (Nat × List Variable)) : configure sampleLibrary sample "values=0,1" doc = .throws :=
  C128_auto_refused _ _ _ _ (by decide) (by decide) (by decide) (by decide)

theorem sample_compatible (s : String) (hs : s = "t_status" ∨ s = "s") : Compatible sample sample "t" s := by
  intro sh h
  have e : sample.shape "t" = some ["x", "y", "z"] := rfl
  rw [e] at h
  cases h
  have e2 : sample.shape s = some ["x", "y"] := by rcases hs with rfl | rfl <;> rfl
  rw [e2]
  refine .inr ⟨by simp, ?_⟩
  intro i a b ha hb
  match i with
  | 0 => simp only [List.getElem?_cons_zero, Option.getD_some, Option.some.injEq] at ha hb; subst ha hb; exact ⟨2, rfl, rfl⟩
  | 1 => simp at ha hb; subst ha hb; exact ⟨3, rfl, rfl⟩
  | i + 2 => simp at hb

/-- An element with values, one with a rule. -/
def withValues : Variable := ⟨"t", "", [⟨"t_status", "", "", "", [⟨"", some "1,2"⟩]⟩]⟩

def withRule : Variable := ⟨"t", "7", [⟨"s", "", "", "", [⟨"max:3", none⟩]⟩]⟩

theorem withValues_means : Means sampleLibrary sample withValues ⟨"t_status", none, -999, .inl [1, 2]⟩ :=
  ⟨⟨_, rfl, by decide, rfl, .inl ⟨rfl, rfl, rfl, rfl, sample_compatible _ (.inl rfl)⟩, _, _, .inl ⟨_, rfl, rfl, rfl⟩, [1, 2], rfl, .inl ⟨by simp, rfl⟩⟩, .inl ⟨rfl, rfl⟩⟩

theorem withRule_means : Means sampleLibrary sample withRule ⟨"s", none, 7, .inr "max:3"⟩ :=
  ⟨⟨_, rfl, by decide, rfl, .inl ⟨rfl, rfl, rfl, rfl, sample_compatible _ (.inr rfl)⟩, _, _, .inl ⟨_, rfl, rfl, rfl⟩, [], rfl, .inr ⟨rfl, by decide, rfl⟩⟩, .inr ⟨by decide, rfl⟩⟩

example : ∃ st, configure sampleLibrary sample "" (some (1, [withRule])) = .ok st :=
  (C128_accepted _ _ _ _).2 ⟨rfl, fun n hn => by rw [List.mem_singleton.1 hn]; exact ⟨_, withRule_means⟩⟩

example : ∃ st, configure sampleLibrary sample "" (some (1, [withValues, withRule])) = .ok st ∧ Controls st "t" ⟨"s", none, 7, .inl [1, 2]⟩ :=
  C128_two_elements _ _ withValues withRule _ _ _ _ rfl withValues_means withRule_means rfl rfl rfl

/-- A variable in six values, its status in three which is itself controlled by a file. -/
example : getSlice (D := Int) (R := Unit) (K := Int) ⟨fun v => if v = "a" then some "b" else if v = "b" then some "q" else none, fun _ => none, fun _ => none, fun _ => none,
      fun v => if v = "b" then some () else none⟩
    (fun v p => .ok (if v = "a" then [1, 2, 3] else if p = 0 then [5, 6, 7] else [])) (fun _ _ p => .ok (if p = 0 then [0, 1, 0] else []))
    (fun _ d e => .ok (List.zipWith (fun x y => if y = 0 then x else 0) d e)) 5 "a" 3 = some (.ok [0, 2, 0]) := by decide +kernel

end Fimex.QualityConfig
