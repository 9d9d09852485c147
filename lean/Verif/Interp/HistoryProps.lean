import Verif.Interp.History

/-!
# C118: the interpolator over several changes of the projection

Whatever has been done with an interpolator before, also calls that failed, a change to new axes gives the dataset and the values that a new
interpolator of the same reader gives.
-/

namespace Fimex.History

open Cf (lookup)

section
variable {Rd D Sys Req Pts Sec I M : Type} {E : Env Rd D Sys Req Pts Sec I M}

/-! ## Specification -/

/-- The two interpolators describe the same dataset and take the values of the variable from the same place. -/
def SameAt (E : Env Rd D Sys Req Pts Sec I M) (a b : State Rd D I M) (n : String) : Prop :=
  a.rd = b.rd ∧ a.cdm = b.cdm ∧ source E a n = source E b n

/-- The variable is a component of a vector. -/
def IsVector (E : Env Rd D Sys Req Pts Sec I M) (d : D) (n : String) : Prop := ∃ i ∈ E.vars d, i.name = n ∧ i.pair.isSome

/-- What is known about the functions: the key of a variable that is interpolated is the key of a system, and the changes of the dataset only
remove such variables. -/
structure Sound (E : Env Rd D Sys Req Pts Sec I M) : Prop where
  keys : ∀ w rd m ss bad, E.systems w rd = (m, .ok (ss, bad)) → ∀ n k, lookup m n = some k → ∃ s, (k, s) ∈ ss
  change : ∀ r ss d m d' m', E.change r ss (d, m) = ((d', m'), .ok ()) → ∀ n k, lookup m' n = some k → lookup m n = some k
  points : ∀ p ss d m d' m', E.changePoints p ss (d, m) = ((d', m'), .ok ()) → ∀ n k, lookup m' n = some k → lookup m n = some k

/-- The call interpolates with coordinates. -/
def Call.needsCoordinates : Call Req Pts Sec → Prop
  | .axes k _ => k = .coordinates ∨ k = .forward
  | _ => False

/-! ## Calls that may fail -/

theorem bind_def {S α β : Type} (x : Act S α) (f : α → Act S β) (s : S) : (x >>= f) s = Act.bind x f s := rfl

theorem bind_run {S α β : Type} {x : Act S α} {f : α → Act S β} {s : S} {p : S × Res α} (h : x s = p) : (x >>= f) s = andThen f p := by
  subst h
  rfl

theorem bind_ok {S α β : Type} {x : Act S α} {f : α → Act S β} {s s' : S} {b : β} (h : (x >>= f) s = (s', .ok b)) :
    ∃ s1 a, x s = (s1, .ok a) ∧ f a s1 = (s', .ok b) := by
  obtain ⟨s1, r, hx⟩ : ∃ s1 r, x s = (s1, r) := ⟨_, _, rfl⟩
  rw [bind_run hx] at h
  cases r with
  | ok a => exact ⟨s1, a, hx, h⟩
  | throws => cases h
  | ub => cases h

/-- Two runs of a call that go the same way: the same outcome, and the states related. -/
def Both {S α : Type} (R : S → S → Prop) (Q : α → S → S → Prop) (x y : S × Res α) : Prop :=
  x.2 = y.2 ∧ R x.1 y.1 ∧ ∀ a, x.2 = .ok a → Q a x.1 y.1

theorem Both.bind {S α β : Type} {R : S → S → Prop} {Q : α → S → S → Prop} {Q' : β → S → S → Prop} {x : Act S α} {f : α → Act S β} {s t : S}
    (h : Both R Q (x s) (x t)) (hf : ∀ a s1 t1, R s1 t1 → Q a s1 t1 → Both R Q' (f a s1) (f a t1)) : Both R Q' ((x >>= f) s) ((x >>= f) t) := by
  obtain ⟨s1, r, hx⟩ : ∃ s1 r, x s = (s1, r) := ⟨_, _, rfl⟩
  obtain ⟨t1, q, hy⟩ : ∃ t1 q, x t = (t1, q) := ⟨_, _, rfl⟩
  rw [hx, hy] at h
  obtain ⟨h1, h2, h3⟩ := h
  cases h1
  rw [bind_run hx, bind_run hy]
  cases r with
  | ok a => exact hf a s1 t1 h2 (h3 a rfl)
  | throws => exact ⟨rfl, h2, fun a h => by cases h⟩
  | ub => exact ⟨rfl, h2, fun a h => by cases h⟩

/-! ## Maps -/

theorem lookup_put {α : Type} (k : String) (a : α) (m : List (String × α)) (j : String) :
    lookup (put k a m) j = if j = k then some a else lookup m j := by
  unfold put lookup
  by_cases h : j = k
  · subst h
    simp
  · have hk : (k == j) = false := by simpa using fun e => h e.symm
    rw [if_neg h, List.find?_cons, show (((k, a) : String × α).1 == j) = false from hk]
    congr 1
    show List.find? (fun p : String × α => p.1 == j) (m.filter fun p => p.1 != k) = _
    induction m with
    | nil => rfl
    | cons p m ih =>
      by_cases hp : p.1 = k
      · rw [List.filter_cons_of_neg (by simp [hp]), ih, List.find?_cons, show (p.1 == j) = false from by rw [hp]; exact hk]
      · rw [List.filter_cons_of_pos (by simp [hp]), List.find?_cons, List.find?_cons, ih]

/-! ## What the steps leave alone -/

/-- Everything that decides what the next step does. -/
def Like (a b : State Rd D I M) : Prop := a.rd = b.rd ∧ a.cdm = b.cdm ∧ a.vars = b.vars

/-- The steps of `best` and of the changes of the dataset do not touch what is kept for the keys. -/
def Kept (a b a' b' : State Rd D I M) : Prop := a'.grids = a.grids ∧ b'.grids = b.grids ∧ a'.vecs = a.vecs ∧ b'.vecs = b.vecs

/-- The result of `findBest…` after the coordinates. -/
def found (E : Env Rd D Sys Req Pts Sec I M) (w : Bool) (s : State Rd D I M) : State Rd D I M × Res (List (String × Sys)) :=
  match (E.systems w s.rd).2 with
  | .ok r => ({ s with vars := (E.systems w s.rd).1, cdm := r.2.foldl E.without s.cdm }, .ok r.1)
  | .throws => ({ s with vars := (E.systems w s.rd).1 }, .throws)
  | .ub => ({ s with vars := (E.systems w s.rd).1 }, .ub)

theorem best_true (s : State Rd D I M) : best E true s = found E true s := by
  show andThen _ ({ s with vars := (E.systems true s.rd).1 }, (E.systems true s.rd).2) = _
  unfold found
  cases (E.systems true s.rd).2 <;> rfl

theorem best_false (s : State Rd D I M) : best E false s =
    match (E.coordinates s.rd).2 with
    | .ok _ => found E false { s with rd := (E.coordinates s.rd).1 }
    | .throws => ({ s with rd := (E.coordinates s.rd).1 }, .throws)
    | .ub => ({ s with rd := (E.coordinates s.rd).1 }, .ub) := by
  show andThen _ ({ s with rd := (E.coordinates s.rd).1 }, (E.coordinates s.rd).2) = _
  cases (E.coordinates s.rd).2 with
  | ok u =>
    show andThen _ ({ s with rd := _, vars := (E.systems false (E.coordinates s.rd).1).1 }, (E.systems false (E.coordinates s.rd).1).2) = _
    unfold found
    cases (E.systems false (E.coordinates s.rd).1).2 <;> rfl
  | throws => rfl
  | ub => rfl

theorem found_both {w : Bool} {a b : State Rd D I M} (hr : a.rd = b.rd) (hc : a.cdm = b.cdm) :
    (found E w a).2 = (found E w b).2 ∧ Like (found E w a).1 (found E w b).1 ∧ Kept a b (found E w a).1 (found E w b).1 ∧ (found E w a).1.rd = a.rd := by
  obtain ⟨rd, d, m, g, v⟩ := a
  obtain ⟨rd', d', m', g', v'⟩ := b
  simp only at hr hc
  subst hr hc
  unfold found
  simp only
  cases (E.systems w rd).2 <;> exact ⟨rfl, ⟨rfl, rfl, rfl⟩, ⟨rfl, rfl, rfl, rfl⟩, rfl⟩

theorem best_both {w : Bool} {a b : State Rd D I M} (hr : a.rd = b.rd) (hc : a.cdm = b.cdm) :
    (best E w a).2 = (best E w b).2 ∧ (best E w a).1.rd = (best E w b).1.rd ∧ (best E w a).1.cdm = (best E w b).1.cdm ∧
    ((∃ ss, (best E w a).2 = .ok ss) → (best E w a).1.vars = (best E w b).1.vars) ∧ Kept a b (best E w a).1 (best E w b).1 := by
  cases w with
  | true =>
    rw [best_true, best_true]
    obtain ⟨h1, ⟨h2, h3, h4⟩, h5, -⟩ := found_both (E := E) (w := true) hr hc
    exact ⟨h1, h2, h3, fun _ => h4, h5⟩
  | false =>
    rw [best_false, best_false, hr]
    cases (E.coordinates b.rd).2 with
    | ok u =>
      obtain ⟨h1, ⟨h2, h3, h4⟩, h5, -⟩ := found_both (E := E) (w := false) (a := { a with rd := (E.coordinates b.rd).1 }) (b := { b with rd := (E.coordinates b.rd).1 }) rfl hc
      exact ⟨h1, h2, h3, fun _ => h4, h5⟩
    | throws => exact ⟨rfl, rfl, hc, fun ⟨_, h⟩ => (by cases h), rfl, rfl, rfl, rfl⟩
    | ub => exact ⟨rfl, rfl, hc, fun ⟨_, h⟩ => (by cases h), rfl, rfl, rfl, rfl⟩

theorem rewrite_both {f : D × List (String × String) → (D × List (String × String)) × Res Unit} {a b : State Rd D I M} (h : Like a b) :
    ((rewrite f : Act (State Rd D I M) Unit) a).2 = (rewrite f b).2 ∧ Like (rewrite f a).1 (rewrite f b).1 ∧ Kept a b (rewrite f a).1 (rewrite f b).1 := by
  obtain ⟨rd, d, m, g, v⟩ := a
  obtain ⟨rd', d', m', g', v'⟩ := b
  obtain ⟨h1, h2, h3⟩ := h
  simp only at h1 h2 h3
  subst h1 h2 h3
  exact ⟨rfl, ⟨rfl, rfl, rfl⟩, rfl, rfl, rfl, rfl⟩

/-! ## The interpolations that are kept -/

/-- What the two interpolators keep for the keys is the same for those keys. -/
def Agree {α : Type} (a b : List (String × α)) (k : String) : Prop := lookup a k = lookup b k

theorem agree_put {α : Type} {a b : List (String × α)} {k j : String} {x : α} (h : j ≠ k → Agree a b j) : Agree (put k x a) (put k x b) j := by
  unfold Agree
  rw [lookup_put, lookup_put]
  by_cases hj : j = k
  · rw [if_pos hj, if_pos hj]
  · rw [if_neg hj, if_neg hj]
    exact h hj

theorem storeMatrix_eq (f : Sys → Res M) (k : String) (s : Sys) (st : State Rd D I M) : storeMatrix E (some f) k s st =
    match hasVectors E st.cdm st.vars (E.vars st.cdm) with
    | .ok true =>
      match f s with
      | .ok m => ({ st with vecs := put k m st.vecs }, .ok ())
      | .throws => (st, .throws)
      | .ub => (st, .ub)
    | .ok false => (st, .ok ())
    | .throws => (st, .throws)
    | .ub => (st, .ub) := by
  show andThen _ (st, hasVectors E st.cdm st.vars (E.vars st.cdm)) = _
  cases hasVectors E st.cdm st.vars (E.vars st.cdm) with
  | ok v =>
    cases v with
    | true =>
      show andThen _ (st, f s) = _
      cases f s <;> rfl
    | false => rfl
  | throws => rfl
  | ub => rfl

theorem store_cons (g : Rd → Sys → Res I) (mx : Option (Sys → Res M)) (k : String) (s : Sys) (l : List (String × Sys)) (st : State Rd D I M) :
    store E g mx ((k, s) :: l) st =
    match g st.rd s with
    | .ok x => andThen (fun _ => store E g mx l) (storeMatrix E mx k s { st with grids := put k x st.grids })
    | .throws => (st, .throws)
    | .ub => (st, .ub) := by
  show andThen _ (st, g st.rd s) = _
  cases g st.rd s <;> rfl

theorem like_refl (a : State Rd D I M) : Like a a := ⟨rfl, rfl, rfl⟩

theorem Like.trans {a b c : State Rd D I M} (h : Like a b) (h' : Like b c) : Like a c := ⟨h.1.trans h'.1, h.2.1.trans h'.2.1, h.2.2.trans h'.2.2⟩

theorem Like.symm {a b : State Rd D I M} (h : Like a b) : Like b a := ⟨h.1.symm, h.2.1.symm, h.2.2.symm⟩

/-- One matrix: how it ends depends on the dataset only. -/
theorem storeMatrix_spec (mx : Option (Sys → Res M)) (k : String) (s : Sys) (a b : State Rd D I M) (h : Like a b) :
    (storeMatrix E mx k s a).2 = (storeMatrix E mx k s b).2 ∧ Like a (storeMatrix E mx k s a).1 ∧ Like b (storeMatrix E mx k s b).1 ∧
    (storeMatrix E mx k s a).1.grids = a.grids ∧ (storeMatrix E mx k s b).1.grids = b.grids ∧
    ((storeMatrix E mx k s a).2 = .ok () → (mx = none ∧ (storeMatrix E mx k s a).1.vecs = a.vecs ∧ (storeMatrix E mx k s b).1.vecs = b.vecs) ∨
      (hasVectors E a.cdm a.vars (E.vars a.cdm) = .ok false ∧ (storeMatrix E mx k s a).1.vecs = a.vecs ∧ (storeMatrix E mx k s b).1.vecs = b.vecs) ∨
      (hasVectors E a.cdm a.vars (E.vars a.cdm) = .ok true ∧ ∃ f m, mx = some f ∧ f s = .ok m ∧
        (storeMatrix E mx k s a).1.vecs = put k m a.vecs ∧ (storeMatrix E mx k s b).1.vecs = put k m b.vecs)) := by
  cases mx with
  | none => exact ⟨rfl, like_refl _, like_refl _, rfl, rfl, fun _ => .inl ⟨rfl, rfl, rfl⟩⟩
  | some f =>
    rw [storeMatrix_eq, storeMatrix_eq]
    obtain ⟨rd, d, m, g, v⟩ := a
    obtain ⟨rd', d', m', g', v'⟩ := b
    obtain ⟨h1, h2, h3⟩ := h
    simp only at h1 h2 h3
    subst h1 h2 h3
    simp only
    cases hasVectors E d m (E.vars d) with
    | ok v =>
      cases v with
      | true =>
        cases hm : f s with
        | ok m => exact ⟨rfl, ⟨rfl, rfl, rfl⟩, ⟨rfl, rfl, rfl⟩, rfl, rfl, fun _ => .inr (.inr ⟨rfl, f, m, rfl, hm, rfl, rfl⟩)⟩
        | throws => exact ⟨rfl, like_refl _, like_refl _, rfl, rfl, fun h => by cases h⟩
        | ub => exact ⟨rfl, like_refl _, like_refl _, rfl, rfl, fun h => by cases h⟩
      | false => exact ⟨rfl, like_refl _, like_refl _, rfl, rfl, fun _ => .inr (.inl ⟨rfl, rfl, rfl⟩)⟩
    | throws => exact ⟨rfl, like_refl _, like_refl _, rfl, rfl, fun h => by cases h⟩
    | ub => exact ⟨rfl, like_refl _, like_refl _, rfl, rfl, fun h => by cases h⟩

theorem store_both (g : Rd → Sys → Res I) (mx : Option (Sys → Res M)) (l : List (String × Sys)) (a b : State Rd D I M) (h : Like a b) :
    (store E g mx l a).2 = (store E g mx l b).2 ∧ Like a (store E g mx l a).1 ∧ Like b (store E g mx l b).1 ∧
    ((store E g mx l a).2 = .ok () →
      (∀ k, ((∀ s, (k, s) ∉ l) → Agree a.grids b.grids k) → Agree (store E g mx l a).1.grids (store E g mx l b).1.grids k) ∧
      (∀ k, ((∀ s, (k, s) ∉ l) ∨ mx = none ∨ hasVectors E a.cdm a.vars (E.vars a.cdm) = .ok false → Agree a.vecs b.vecs k) →
        Agree (store E g mx l a).1.vecs (store E g mx l b).1.vecs k)) := by
  induction l generalizing a b with
  | nil => exact ⟨rfl, like_refl _, like_refl _, fun _ => ⟨fun k hk => hk (by simp), fun k hk => hk (.inl (by simp))⟩⟩
  | cons p l ih =>
    obtain ⟨k, s⟩ := p
    rw [store_cons, store_cons]
    have hgb : g b.rd s = g a.rd s := by rw [h.1]
    rw [hgb]
    cases hg : g a.rd s with
    | throws => exact ⟨rfl, like_refl _, like_refl _, fun h => by cases h⟩
    | ub => exact ⟨rfl, like_refl _, like_refl _, fun h => by cases h⟩
    | ok x =>
      simp only
      obtain ⟨m1, m2, m3, m4, m5, m6⟩ := storeMatrix_spec (E := E) mx k s { a with grids := put k x a.grids } { b with grids := put k x b.grids } ⟨h.1, h.2.1, h.2.2⟩
      revert m1 m2 m3 m4 m5 m6
      generalize storeMatrix E mx k s { a with grids := put k x a.grids } = pa
      generalize storeMatrix E mx k s { b with grids := put k x b.grids } = pb
      obtain ⟨a1, ra⟩ := pa
      obtain ⟨b1, rb⟩ := pb
      intro m1 m2 m3 m4 m5 m6
      simp only at m1 m2 m3 m4 m5 m6
      subst m1
      cases ra with
      | throws => exact ⟨rfl, m2, m3, fun h => by cases h⟩
      | ub => exact ⟨rfl, m2, m3, fun h => by cases h⟩
      | ok u =>
        have hl : Like a1 b1 := (m2.symm.trans (show Like _ _ from ⟨h.1, h.2.1, h.2.2⟩)).trans m3
        obtain ⟨i1, i2, i3, i4⟩ := ih a1 b1 hl
        refine ⟨i1, ⟨m2.1.trans i2.1, m2.2.1.trans i2.2.1, m2.2.2.trans i2.2.2⟩, ⟨m3.1.trans i3.1, m3.2.1.trans i3.2.1, m3.2.2.trans i3.2.2⟩, fun hok => ?_⟩
        obtain ⟨j1, j2⟩ := i4 hok
        refine ⟨fun j hj => j1 j fun hn => ?_, fun j hj => j2 j fun hn => ?_⟩
        · rw [m4, m5]
          refine agree_put fun hne => hj fun t ht => ?_
          rcases List.mem_cons.1 ht with e | ht
          · exact hne (congrArg Prod.fst e)
          · exact hn t ht
        · have hcore : hasVectors E a1.cdm a1.vars (E.vars a1.cdm) = hasVectors E a.cdm a.vars (E.vars a.cdm) := by
            rw [← m2.2.1, ← m2.2.2]
          rw [hcore] at hn
          rcases m6 rfl with ⟨e, e1, e2⟩ | ⟨e, e1, e2⟩ | ⟨e, f, m, ef, -, e1, e2⟩
          · rw [e1, e2]
            exact hj (.inr (.inl e))
          · rw [e1, e2]
            exact hj (.inr (.inr e))
          · rw [e1, e2]
            refine agree_put fun hne => hj ?_
            rcases hn with hn | hn | hn
            · refine .inl fun t ht => ?_
              rcases List.mem_cons.1 ht with e | ht
              · exact hne (congrArg Prod.fst e)
              · exact hn t ht
            · exact .inr (.inl hn)
            · exact .inr (.inr hn)

/-- What is kept for a key of the list comes from a system with that key. -/
theorem store_ok (g : Rd → Sys → Res I) (mx : Option (Sys → Res M)) (l : List (String × Sys)) (a : State Rd D I M)
    (hok : (store E g mx l a).2 = .ok ()) :
    (∀ k, (∃ s, (k, s) ∈ l) → ∃ s x, (k, s) ∈ l ∧ g a.rd s = .ok x ∧ lookup (store E g mx l a).1.grids k = some x) ∧
    (∀ k, (∃ s, (k, s) ∈ l) → ∀ f, mx = some f → hasVectors E a.cdm a.vars (E.vars a.cdm) = .ok true →
      ∃ s m, (k, s) ∈ l ∧ f s = .ok m ∧ lookup (store E g mx l a).1.vecs k = some m) ∧
    (∀ k, (∀ s, (k, s) ∉ l) → lookup (store E g mx l a).1.grids k = lookup a.grids k ∧ lookup (store E g mx l a).1.vecs k = lookup a.vecs k) ∧
    (mx = none → (store E g mx l a).1.vecs = a.vecs) ∧
    (l ≠ [] → mx ≠ none → ∃ v, hasVectors E a.cdm a.vars (E.vars a.cdm) = .ok v) := by
  induction l generalizing a with
  | nil => exact ⟨fun k ⟨s, h⟩ => (by cases h), fun k ⟨s, h⟩ => (by cases h), fun k _ => ⟨rfl, rfl⟩, fun _ => rfl, fun h => absurd rfl h⟩
  | cons p l ih =>
    obtain ⟨k, s⟩ := p
    rw [store_cons] at hok ⊢
    cases hg : g a.rd s with
    | throws => rw [hg] at hok; cases hok
    | ub => rw [hg] at hok; cases hok
    | ok x =>
      rw [hg] at hok
      simp only at hok ⊢
      obtain ⟨-, m2, -, m4, -, m6⟩ := storeMatrix_spec (E := E) mx k s { a with grids := put k x a.grids } _ (like_refl _)
      revert m2 m4 m6 hok
      generalize storeMatrix E mx k s { a with grids := put k x a.grids } = pa
      obtain ⟨a1, ra⟩ := pa
      intro hok m2 m4 m6
      simp only at m2 m4 m6
      cases ra with
      | throws => cases hok
      | ub => cases hok
      | ok u =>
        have hcore : hasVectors E a1.cdm a1.vars (E.vars a1.cdm) = hasVectors E a.cdm a.vars (E.vars a.cdm) := by
          rw [← m2.2.1, ← m2.2.2]
        obtain ⟨i1, i2, i3, i4, i5⟩ := ih a1 hok
        rw [hcore] at i2 i5
        have hrd : a1.rd = a.rd := m2.1.symm
        rw [hrd] at i1
        show _ ∧ _
        refine ⟨fun j hj => ?_, fun j hj f hf hv => ?_, fun j hj => ?_, fun hn => ?_, fun _ hn => ?_⟩
        · by_cases hin : ∃ t, (j, t) ∈ l
          · obtain ⟨t, y, h1, h2, h3⟩ := i1 j hin
            exact ⟨t, y, .tail _ h1, h2, h3⟩
          · obtain ⟨t, ht⟩ := hj
            rcases List.mem_cons.1 ht with e | ht
            · cases e
              refine ⟨s, x, .head _, hg, ?_⟩
              refine ((i3 k fun t ht => hin ⟨t, ht⟩).1).trans ?_
              rw [m4, lookup_put, if_pos rfl]
            · exact absurd ⟨t, ht⟩ hin
        · by_cases hin : ∃ t, (j, t) ∈ l
          · obtain ⟨t, y, h1, h2, h3⟩ := i2 j hin f hf hv
            exact ⟨t, y, .tail _ h1, h2, h3⟩
          · obtain ⟨t, ht⟩ := hj
            rcases List.mem_cons.1 ht with e | ht
            · cases e
              rcases m6 rfl with ⟨e, -⟩ | ⟨e, -⟩ | ⟨-, f', m, ef, em, e1, -⟩
              · rw [hf] at e
                cases e
              · rw [hv] at e
                cases e
              · rw [hf] at ef
                cases ef
                refine ⟨s, m, .head _, em, ?_⟩
                refine ((i3 k fun t ht => hin ⟨t, ht⟩).2).trans ?_
                rw [e1, lookup_put, if_pos rfl]
            · exact absurd ⟨t, ht⟩ hin
        · have hne : j ≠ k := fun e => hj s (e ▸ .head _)
          obtain ⟨q1, q2⟩ := i3 j fun t ht => hj t (.tail _ ht)
          refine ⟨q1.trans ?_, q2.trans ?_⟩
          · rw [m4, lookup_put, if_neg hne]
          · rcases m6 rfl with ⟨-, e1, -⟩ | ⟨-, e1, -⟩ | ⟨-, f', m, -, -, e1, -⟩
            · rw [e1]
            · rw [e1]
            · rw [e1, lookup_put, if_neg hne]
        · refine (i4 hn).trans ?_
          rcases m6 rfl with ⟨-, e1, -⟩ | ⟨-, e1, -⟩ | ⟨-, f', m, ef, -⟩
          · exact e1
          · exact e1
          · rw [hn] at ef
            cases ef
        · rcases m6 rfl with ⟨e, -⟩ | ⟨e, -⟩ | ⟨e, -⟩
          · exact absurd e hn
          · exact ⟨_, e⟩
          · exact ⟨_, e⟩

theorem store_end {g : Rd → Sys → Res I} {mx : Option (Sys → Res M)} {l : List (String × Sys)} {a a' : State Rd D I M}
    (h : store E g mx l a = (a', .ok ())) : Like a a' ∧
    (∀ k, (∃ s, (k, s) ∈ l) → ∃ s x, (k, s) ∈ l ∧ g a.rd s = .ok x ∧ lookup a'.grids k = some x) ∧
    (∀ k, (∃ s, (k, s) ∈ l) → ∀ f, mx = some f → hasVectors E a.cdm a.vars (E.vars a.cdm) = .ok true →
      ∃ s m, (k, s) ∈ l ∧ f s = .ok m ∧ lookup a'.vecs k = some m) ∧
    (mx = none → a'.vecs = a.vecs) ∧ (l ≠ [] → mx ≠ none → ∃ v, hasVectors E a.cdm a.vars (E.vars a.cdm) = .ok v) := by
  obtain ⟨h1, h2, -, h4, h5⟩ := store_ok (E := E) g mx l a (by rw [h])
  have hl := (store_both (E := E) g mx l a a (like_refl a)).2.1
  rw [h] at h1 h2 h4 hl
  exact ⟨hl, h1, h2, h4, h5⟩

theorem hasVectors_false {d : D} {m : List (String × String)} {l : List Info} (h : hasVectors E d m l = .ok false) :
    ∀ i ∈ l, i.pair.isSome → lookup m i.name = none := by
  induction l with
  | nil => exact fun i hi => by cases hi
  | cons i l ih =>
    unfold hasVectors at h
    by_cases hc : i.pair.isSome ∧ (lookup m i.name).isSome
    · rw [if_pos hc] at h
      obtain ⟨-, -, h⟩ := Res.bind_eq_ok.1 h
      obtain ⟨-, -, h⟩ := Res.bind_eq_ok.1 h
      cases h
    · rw [if_neg hc] at h
      intro j hj hp
      rcases List.mem_cons.1 hj with rfl | hj
      · cases hl : lookup m j.name with
        | none => rfl
        | some x => exact absurd ⟨hp, by rw [hl]; rfl⟩ hc
      · exact ih h j hj hp

/-! ## Whole calls -/

/-- The common shape of the changes. -/
def flow (E : Env Rd D Sys Req Pts Sec I M) (w : Bool) (check : Rd → List (String × Sys) → Res Unit)
    (f : List (String × Sys) → D × List (String × String) → (D × List (String × String)) × Res Unit) (g : Rd → Sys → Res I)
    (mx : Option (Sys → Res M)) : Act (State Rd D I M) Unit := do
  let ss ← best E w
  let st ← get
  lift (check st.rd ss)
  rewrite (f ss)
  store E g mx ss

/-- Only removes variables that are interpolated. -/
def Removes (f : List (String × Sys) → D × List (String × String) → (D × List (String × String)) × Res Unit) : Prop :=
  ∀ ss d m d' m', f ss (d, m) = ((d', m'), .ok ()) → ∀ n k, lookup m' n = some k → lookup m n = some k

theorem best_keys (hE : Sound E) {w : Bool} {a : State Rd D I M} {ss : List (String × Sys)} (h : (best E w a).2 = .ok ss) :
    ∀ n k, lookup (best E w a).1.vars n = some k → ∃ s, (k, s) ∈ ss := by
  have hf : ∀ s : State Rd D I M, (found E w s).2 = .ok ss → ∀ n k, lookup (found E w s).1.vars n = some k → ∃ s, (k, s) ∈ ss := by
    intro s hs n k hk
    unfold found at hs hk
    cases hr : (E.systems w s.rd).2 with
    | throws => rw [hr] at hs; cases hs
    | ub => rw [hr] at hs; cases hs
    | ok r =>
      rw [hr] at hs hk
      cases hs
      exact hE.keys w s.rd _ r.1 r.2 (Prod.ext rfl hr) n k hk
  cases w with
  | true =>
    rw [best_true] at h ⊢
    exact hf a h
  | false =>
    rw [best_false] at h ⊢
    cases hc : (E.coordinates a.rd).2 with
    | ok u => rw [hc] at h; exact hf _ h
    | throws => rw [hc] at h; cases h
    | ub => rw [hc] at h; cases h

/-- The source of a variable is the same if dataset and variables are the same, and what is kept for its key. -/
theorem source_eq {a b : State Rd D I M} (h : Like a b) {n : String} (hg : ∀ k, lookup a.vars n = some k → Agree a.grids b.grids k)
    (hv : ∀ k, lookup a.vars n = some k → IsVector E a.cdm n → Agree a.vecs b.vecs k) : source E a n = source E b n := by
  unfold source
  rw [← h.2.1, ← h.2.2]
  cases hf : (E.vars a.cdm).find? fun i => i.name == n with
  | none => rfl
  | some i =>
    simp only
    by_cases hm : i.memory = true
    · rw [if_pos hm, if_pos hm]
    · rw [if_neg hm, if_neg hm]
      cases hk : lookup a.vars n with
      | none => rfl
      | some k =>
        simp only
        rw [show lookup a.grids k = lookup b.grids k from hg k hk]
        have hr : rotation a i k = rotation b i k := by
          unfold rotation
          cases hp : i.pair with
          | none => rfl
          | some c =>
            simp only
            rw [← h.2.2, show lookup a.vecs k = lookup b.vecs k from
              hv k hk ⟨i, List.mem_of_find?_eq_some hf, by simpa using List.find?_some hf, by rw [hp]; rfl⟩]
        cases lookup b.grids k with
        | none => rfl
        | some x => simp only [hr]

theorem flow_both (hE : Sound E) {w : Bool} {check : Rd → List (String × Sys) → Res Unit}
    {f : List (String × Sys) → D × List (String × String) → (D × List (String × String)) × Res Unit} (hf : Removes f) {g : Rd → Sys → Res I}
    {mx : Option (Sys → Res M)} {a b : State Rd D I M} (hr : a.rd = b.rd) (hc : a.cdm = b.cdm) :
    Both (fun s t => s.rd = t.rd ∧ s.cdm = t.cdm)
      (fun _ s t => Like s t ∧ ∀ n, mx.isSome ∨ ¬ IsVector E s.cdm n ∨ (∀ k, Agree a.vecs b.vecs k) → source E s n = source E t n)
      (flow E w check f g mx a) (flow E w check f g mx b) := by
  unfold flow
  refine Both.bind (Q := fun ss s t => Like s t ∧ Kept a b s t ∧ ∀ n k, lookup s.vars n = some k → ∃ x, (k, x) ∈ ss) ?_ ?_
  · obtain ⟨h1, h2, h3, h4, h5⟩ := best_both (E := E) (w := w) hr hc
    exact ⟨h1, ⟨h2, h3⟩, fun ss hs => ⟨⟨h2, h3, h4 ⟨ss, hs⟩⟩, h5, best_keys hE hs⟩⟩
  · rintro ss s t - ⟨h1, h2, h3⟩
    show Both _ _ ((lift (check s.rd ss) >>= fun _ => rewrite (f ss) >>= fun _ => store E g mx ss) s)
      ((lift (check t.rd ss) >>= fun _ => rewrite (f ss) >>= fun _ => store E g mx ss) t)
    rw [← h1.1]
    refine Both.bind (Q := fun _ s t => Like s t ∧ Kept a b s t ∧ ∀ n k, lookup s.vars n = some k → ∃ x, (k, x) ∈ ss)
      ⟨rfl, ⟨h1.1, h1.2.1⟩, fun _ _ => ⟨h1, h2, h3⟩⟩ ?_
    rintro - s t - ⟨h1, h2, h3⟩
    refine Both.bind (Q := fun _ s t => Like s t ∧ Kept a b s t ∧ ∀ n k, lookup s.vars n = some k → ∃ x, (k, x) ∈ ss) ?_ ?_
    · obtain ⟨q1, q2, q3⟩ := rewrite_both (f := f ss) h1
      refine ⟨q1, ⟨q2.1, q2.2.1⟩, fun u hu => ⟨q2, ⟨q3.1.trans h2.1, q3.2.1.trans h2.2.1, q3.2.2.1.trans h2.2.2.1, q3.2.2.2.trans h2.2.2.2⟩, fun n k hk => ?_⟩⟩
      exact h3 n k (hf ss s.cdm s.vars _ _ (Prod.ext rfl hu) n k hk)
    · rintro - s t - ⟨h1, h2, h3⟩
      obtain ⟨q1, q2, q3, q4⟩ := store_both (E := E) g mx ss s t h1
      have hl : Like (store E g mx ss s).1 (store E g mx ss t).1 := (q2.symm.trans h1).trans q3
      refine ⟨q1, ⟨hl.1, hl.2.1⟩, fun u hu => ⟨hl, fun n hn => source_eq hl (fun k hk => ?_) fun k hk hvec => ?_⟩⟩
      · rw [← q2.2.2] at hk
        obtain ⟨x, hx⟩ := h3 n k hk
        exact (q4 hu).1 k fun hno => absurd hx (hno x)
      · rw [← q2.2.2] at hk
        obtain ⟨x, hx⟩ := h3 n k hk
        refine (q4 hu).2 k fun hno => ?_
        rw [h2.2.2.1, h2.2.2.2]
        rcases hn with hn | hn | hn
        · rcases hno with hno | hno | hno
          · exact absurd hx (hno x)
          · rw [hno] at hn
            cases hn
          · rw [← q2.2.1] at hvec
            obtain ⟨i, hi, hin, hip⟩ := hvec
            have := hasVectors_false hno i hi hip
            rw [hin, hk] at this
            cases this
        · exact absurd hvec hn
        · exact hn k

theorem byProjection_flow (r : Req) : byProjection E r = flow E true (fun _ _ => .ok ()) (E.change r) (E.grid .projection r) (some (E.matrix r)) := rfl

theorem toPoints_flow (p : Pts) : toPoints E p = flow E true (readAll E) (E.changePoints p) (E.gridPoints p) (some (E.matrixPoints p)) := rfl

theorem byCoordinates_both (hE : Sound E) (kd : Kind) (r : Req) {a b : State Rd D I M} (hr : a.rd = b.rd) (hc : a.cdm = b.cdm) :
    Both (fun s t => s.rd = t.rd ∧ s.cdm = t.cdm)
      (fun _ s t => Like s t ∧ ∀ n, ¬ IsVector E s.cdm n ∨ (∀ k, Agree a.vecs b.vecs k) → source E s n = source E t n)
      (byCoordinates E kd r a) (byCoordinates E kd r b) := by
  have h := flow_both hE (w := false) (check := fun _ _ => .ok ()) (f := E.change r) (fun ss d m d' m' => hE.change r ss d m d' m') (g := E.grid kd r)
    (mx := none) hr hc
  have e : byCoordinates E kd r = (flow E false (fun _ _ => .ok ()) (E.change r) (E.grid kd r) none >>= fun _ => do
      let st ← get
      let _ ← lift (hasVectors E st.cdm st.vars (E.vars st.cdm))
      pure ()) := by
    funext s
    unfold byCoordinates flow
    simp only [bind_def, Act.bind]
    obtain ⟨s1, r1⟩ := best E false s
    cases r1 with
    | throws => rfl
    | ub => rfl
    | ok ss =>
      show andThen _ (rewrite (E.change r ss) s1) = andThen _ (andThen _ (rewrite (E.change r ss) s1))
      obtain ⟨s2, r2⟩ := rewrite (E.change r ss) s1
      cases r2 <;> rfl
  rw [e]
  refine h.bind fun u s t _ hq => ?_
  obtain ⟨hl, hs⟩ := hq
  show Both _ _ (andThen _ (s, hasVectors E s.cdm s.vars (E.vars s.cdm))) (andThen _ (t, hasVectors E t.cdm t.vars (E.vars t.cdm)))
  rw [← hl.2.1, ← hl.2.2]
  cases hasVectors E s.cdm s.vars (E.vars s.cdm) with
  | ok v => exact ⟨rfl, ⟨hl.1, hl.2.1⟩, fun _ _ => ⟨hl, fun n hn => hs n (.inr hn)⟩⟩
  | throws => exact ⟨rfl, ⟨hl.1, hl.2.1⟩, fun _ h => by cases h⟩
  | ub => exact ⟨rfl, ⟨hl.1, hl.2.1⟩, fun _ h => by cases h⟩

/-! ## Theorems -/

theorem axes_run (st : State Rd D I M) (kd : Kind) (r : Req) (h : E.refused r = false) : run E st (.axes kd r) =
    (match kd with
      | .projection => byProjection E r
      | .coordinates => byCoordinates E .coordinates r
      | .forward => byCoordinates E .forward r
      | .other => lift .throws : Act (State Rd D I M) Unit) { st with cdm := E.dataset st.rd, vars := [] } := by
  show axes E kd r st = _
  unfold axes
  rw [if_neg (by rw [h]; decide)]
  cases kd <;> rfl

theorem axes_refused (st : State Rd D I M) (kd : Kind) (r : Req) (h : E.refused r = true) : run E st (.axes kd r) = (st, .throws) := by
  show axes E kd r st = _
  unfold axes
  rw [if_pos h]
  rfl

/-- **C118.** After any calls, a change to new axes with a method that uses the projections ends as with a new interpolator of the same reader,
and then the dataset is the same and the values of all variables come from the same place. -/
theorem C118_projection (hE : Sound E) (rd : Rd) (hist : List (Call Req Pts Sec)) (r : Req) :
    (run E (runAll E (fresh E rd) hist) (.axes .projection r)).2 = (run E (fresh E (runAll E (fresh E rd) hist).rd) (.axes .projection r)).2 ∧
    ((run E (runAll E (fresh E rd) hist) (.axes .projection r)).2 = .ok () →
      ∀ n, SameAt E (run E (runAll E (fresh E rd) hist) (.axes .projection r)).1 (run E (fresh E (runAll E (fresh E rd) hist).rd) (.axes .projection r)).1 n) := by
  generalize runAll E (fresh E rd) hist = st
  cases hr : E.refused r with
  | true =>
    rw [axes_refused _ _ _ hr, axes_refused _ _ _ hr]
    exact ⟨rfl, fun h => by cases h⟩
  | false =>
    rw [axes_run _ _ _ hr, axes_run _ _ _ hr]
    simp only [byProjection_flow]
    obtain ⟨h1, h2, h3⟩ := flow_both hE (w := true) (check := fun _ _ => .ok ()) (f := E.change r) (fun ss d m d' m' => hE.change r ss d m d' m')
      (g := E.grid .projection r) (mx := some (E.matrix r)) (a := { st with cdm := E.dataset st.rd, vars := [] })
      (b := { fresh E st.rd with cdm := E.dataset st.rd, vars := [] }) rfl rfl
    exact ⟨h1, fun hok n => ⟨h2.1, h2.2, (h3 () hok).2 n (.inl rfl)⟩⟩

/-- **C118.** With methods that use coordinates the same holds for all variables but components of vectors, and for those if no matrices
are kept from before. -/
theorem C118_coordinates_partial (hE : Sound E) (rd : Rd) (hist : List (Call Req Pts Sec)) (kd : Kind) (hk : kd = .coordinates ∨ kd = .forward) (r : Req) :
    (run E (runAll E (fresh E rd) hist) (.axes kd r)).2 = (run E (fresh E (runAll E (fresh E rd) hist).rd) (.axes kd r)).2 ∧
    ((run E (runAll E (fresh E rd) hist) (.axes kd r)).2 = .ok () →
      ∀ n, ¬ IsVector E (run E (runAll E (fresh E rd) hist) (.axes kd r)).1.cdm n ∨ (runAll E (fresh E rd) hist).vecs = [] →
        SameAt E (run E (runAll E (fresh E rd) hist) (.axes kd r)).1 (run E (fresh E (runAll E (fresh E rd) hist).rd) (.axes kd r)).1 n) := by
  generalize runAll E (fresh E rd) hist = st
  cases hr : E.refused r with
  | true =>
    rw [axes_refused _ _ _ hr, axes_refused _ _ _ hr]
    exact ⟨rfl, fun h => by cases h⟩
  | false =>
    rw [axes_run _ _ _ hr, axes_run _ _ _ hr]
    have key : ∀ kd : Kind, _ := fun kd => byCoordinates_both hE kd r (a := { st with cdm := E.dataset st.rd, vars := [] })
      (b := { fresh E st.rd with cdm := E.dataset st.rd, vars := [] }) rfl rfl
    have fin : ∀ kd : Kind, (byCoordinates E kd r { st with cdm := E.dataset st.rd, vars := [] }).2 =
        (byCoordinates E kd r { fresh E st.rd with cdm := E.dataset st.rd, vars := [] }).2 ∧
        ((byCoordinates E kd r { st with cdm := E.dataset st.rd, vars := [] }).2 = .ok () → ∀ n,
          ¬ IsVector E (byCoordinates E kd r { st with cdm := E.dataset st.rd, vars := [] }).1.cdm n ∨ st.vecs = [] →
          SameAt E (byCoordinates E kd r { st with cdm := E.dataset st.rd, vars := [] }).1
            (byCoordinates E kd r { fresh E st.rd with cdm := E.dataset st.rd, vars := [] }).1 n) := by
      intro kd
      obtain ⟨h1, h2, h3⟩ := key kd
      refine ⟨h1, fun hok n hn => ⟨h2.1, h2.2, (h3 () hok).2 n (hn.imp id fun e k => ?_)⟩⟩
      show lookup st.vecs k = lookup [] k
      rw [e]
    rcases hk with rfl | rfl
    · exact fin .coordinates
    · exact fin .forward

/-- **C118.** A template gives exactly the state that a new interpolator of the same reader has. -/
theorem C118_template (rd : Rd) (hist : List (Call Req Pts Sec)) (kd : Kind) (p : Res Pts) :
    run E (runAll E (fresh E rd) hist) (.template kd p) = run E (fresh E (runAll E (fresh E rd) hist).rd) (.template kd p) := rfl

/-- **C118.** Lists of points and cross sections start from the dataset as it is: two interpolators of the same reader with the same dataset end in
the same way, whatever they keep, and then the values of all variables come from the same place. -/
theorem C118_points (hE : Sound E) {a b : State Rd D I M} (hr : a.rd = b.rd) (hc : a.cdm = b.cdm) (kd : Kind) (p : Pts) (hu : E.uneven p = false) :
    (run E a (.points kd p)).2 = (run E b (.points kd p)).2 ∧
    ((run E a (.points kd p)).2 = .ok () → ∀ n, SameAt E (run E a (.points kd p)).1 (run E b (.points kd p)).1 n) := by
  have e : ∀ s : State Rd D I M, run E s (.points kd p) = (match kd with
      | .projection => toPoints E p
      | _ => lift .throws : Act (State Rd D I M) Unit) s := by
    intro s
    show points E kd p s = _
    unfold points
    rw [if_neg (by rw [hu]; decide)]
    cases kd <;> rfl
  rw [e, e]
  cases kd with
  | projection =>
    simp only [toPoints_flow]
    obtain ⟨h1, h2, h3⟩ := flow_both hE (w := true) (check := readAll E) (f := E.changePoints p) (fun ss d m d' m' => hE.points p ss d m d' m')
      (g := E.gridPoints p) (mx := some (E.matrixPoints p)) hr hc
    exact ⟨h1, fun hok n => ⟨h2.1, h2.2, (h3 () hok).2 n (.inl rfl)⟩⟩
  | coordinates => exact ⟨rfl, fun h => by cases h⟩
  | forward => exact ⟨rfl, fun h => by cases h⟩
  | other => exact ⟨rfl, fun h => by cases h⟩

/-- **C118.** The same for cross sections. -/
theorem C118_sections (hE : Sound E) {a b : State Rd D I M} (hr : a.rd = b.rd) (hc : a.cdm = b.cdm) (kd : Kind) (x : Sec)
    (hu : ∀ ss d, ∀ p, (E.sections x a.rd ss d).2 = .ok p → E.uneven p = false) :
    (run E a (.sections kd x)).2 = (run E b (.sections kd x)).2 ∧
    ((run E a (.sections kd x)).2 = .ok () → ∀ n, SameAt E (run E a (.sections kd x)).1 (run E b (.sections kd x)).1 n) := by
  have hb : Both (fun s t : State Rd D I M => s.rd = t.rd ∧ s.cdm = t.cdm) (fun _ s t => ∀ n, SameAt E s t n) (crossSections E kd x a) (crossSections E kd x b) := by
    unfold crossSections
    refine Both.bind (Q := fun ss s t => Like s t ∧ s.rd = a.rd) ?_ ?_
    · obtain ⟨h1, h2, h3, h4, h5⟩ := best_both (E := E) (w := true) hr hc
      refine ⟨h1, ⟨h2, h3⟩, fun ss hs => ⟨⟨h2, h3, h4 ⟨ss, hs⟩⟩, ?_⟩⟩
      rw [best_true]
      exact (found_both (E := E) (w := true) hr hc).2.2.2
    · rintro ss s t - ⟨h1, h2⟩
      refine Both.bind (Q := fun p s t => (s.rd = t.rd ∧ s.cdm = t.cdm) ∧ E.uneven p = false) ?_ ?_
      · simp only [update, ← h1.1, ← h1.2.1]
        exact ⟨rfl, ⟨rfl, rfl⟩, fun p hp => ⟨⟨rfl, rfl⟩, hu ss s.cdm p (h2 ▸ hp)⟩⟩
      · rintro p s t hR ⟨h1, h2⟩
        obtain ⟨q1, q2⟩ := C118_points hE h1.1 h1.2 kd p h2
        refine ⟨q1, ?_, fun u hu => q2 hu⟩
        show (points E kd p s).1.rd = (points E kd p t).1.rd ∧ (points E kd p s).1.cdm = (points E kd p t).1.cdm
        unfold points
        rw [if_neg (by rw [h2]; decide)]
        cases kd with
        | projection =>
          simp only [toPoints_flow]
          exact (flow_both hE (w := true) (check := readAll E) (f := E.changePoints p) (fun ss d m d' m' => hE.points p ss d m d' m')
            (g := E.gridPoints p) (mx := some (E.matrixPoints p)) h1.1 h1.2).2.1
        | coordinates => exact h1
        | forward => exact h1
        | other => exact h1
  exact ⟨hb.1, fun h => hb.2.2 () h⟩

/-- **C118.** Calls that are refused, and lists of points of different lengths, change nothing. -/
theorem C118_refused (st : State Rd D I M) :
    (∀ kd r, E.refused r = true → run E st (.axes kd r) = (st, .throws)) ∧
    (∀ kd p, E.uneven p = true → run E st (.points kd p) = (st, .ok ())) ∧
    (∀ kd p, E.uneven p = false → kd ≠ .projection → run E st (.points kd p) = (st, .throws)) := by
  refine ⟨fun kd r h => axes_refused st kd r h, fun kd p h => ?_, fun kd p h hk => ?_⟩
  · show points E kd p st = _
    unfold points
    rw [if_pos h]
    rfl
  · show points E kd p st = _
    unfold points
    rw [if_neg (by rw [h]; decide)]
    cases kd with
    | projection => exact absurd rfl hk
    | coordinates => rfl
    | forward => rfl
    | other => rfl

/-- **C118.** After axes with an unknown method the dataset is that of the reader, and nothing is interpolated. -/
theorem C118_unknown (st : State Rd D I M) (r : Req) (h : E.refused r = false) :
    (run E st (.axes .other r)).2 = .throws ∧ (run E st (.axes .other r)).1.cdm = E.dataset st.rd ∧
    ∀ n, source E (run E st (.axes .other r)).1 n = source E (fresh E st.rd) n := by
  rw [axes_run _ _ _ h]
  refine ⟨rfl, rfl, fun n => ?_⟩
  exact source_eq (a := { st with cdm := E.dataset st.rd, vars := [] }) ⟨rfl, rfl, rfl⟩ (fun k hk => by cases hk) (fun k hk => by cases hk)

theorem flow_rd {check : Rd → List (String × Sys) → Res Unit}
    {f : List (String × Sys) → D × List (String × String) → (D × List (String × String)) × Res Unit} {g : Rd → Sys → Res I}
    {mx : Option (Sys → Res M)} (a : State Rd D I M) : (flow E true check f g mx a).1.rd = a.rd := by
  show (andThen _ (best E true a)).1.rd = a.rd
  rw [best_true]
  have hf := (found_both (E := E) (w := true) (a := a) (b := a) rfl rfl).2.2.2
  revert hf
  generalize found E true a = p
  obtain ⟨s, r⟩ := p
  intro hf
  simp only at hf
  cases r with
  | throws => exact hf
  | ub => exact hf
  | ok ss =>
    show (andThen _ (s, check s.rd ss)).1.rd = a.rd
    cases check s.rd ss with
    | throws => exact hf
    | ub => exact hf
    | ok u =>
      show (andThen _ ({ s with cdm := _, vars := _ }, (f ss (s.cdm, s.vars)).2)).1.rd = a.rd
      cases (f ss (s.cdm, s.vars)).2 with
      | throws => exact hf
      | ub => exact hf
      | ok u =>
        exact ((store_both (E := E) g mx ss _ _ (like_refl _)).2.1.1).symm.trans hf

theorem points_rd (kd : Kind) (p : Pts) (a : State Rd D I M) : (points E kd p a).1.rd = a.rd := by
  unfold points
  by_cases hu : E.uneven p = true
  · rw [if_pos hu]
    rfl
  · rw [if_neg hu]
    cases kd with
    | projection => exact flow_rd a
    | coordinates => rfl
    | forward => rfl
    | other => rfl

/-- **C118.** Only methods that use coordinates change the reader. -/
theorem C118_reader (rd : Rd) (hist : List (Call Req Pts Sec)) (h : ∀ c ∈ hist, ¬ c.needsCoordinates) : (runAll E (fresh E rd) hist).rd = rd := by
  have key : ∀ (l : List (Call Req Pts Sec)) (s : State Rd D I M), (∀ c ∈ l, ¬ c.needsCoordinates) → (runAll E s l).rd = s.rd := by
    intro l
    induction l with
    | nil => exact fun s _ => rfl
    | cons c l ih =>
      intro s hl
      refine (ih (run E s c).1 fun c' hc' => hl c' (.tail _ hc')).trans ?_
      have hc := hl c (.head _)
      cases c with
      | axes kd r =>
        cases hr : E.refused r with
        | true => rw [axes_refused _ _ _ hr]
        | false =>
          rw [axes_run _ _ _ hr]
          cases kd with
          | projection => exact flow_rd (E := E) (check := fun _ _ => .ok ()) (f := E.change r) (g := E.grid .projection r) (mx := some (E.matrix r)) { s with cdm := E.dataset s.rd, vars := [] }
          | coordinates => exact absurd (.inl rfl) hc
          | forward => exact absurd (.inr rfl) hc
          | other => rfl
      | points kd p => exact points_rd kd p s
      | template kd p =>
        cases kd with
        | projection =>
          cases p with
          | ok p => exact flow_rd (E := E) _
          | throws => rfl
          | ub => rfl
        | coordinates => rfl
        | forward => rfl
        | other => rfl
      | sections kd x =>
        show (andThen _ (best E true s)).1.rd = s.rd
        rw [best_true]
        have hf := (found_both (E := E) (w := true) (a := s) (b := s) rfl rfl).2.2.2
        revert hf
        generalize found E true s = p
        obtain ⟨s1, r⟩ := p
        intro hf
        simp only at hf
        cases r with
        | throws => exact hf
        | ub => exact hf
        | ok ss =>
          show (andThen _ ({ s1 with cdm := _ }, (E.sections x s1.rd ss s1.cdm).2)).1.rd = s.rd
          cases (E.sections x s1.rd ss s1.cdm).2 with
          | throws => exact hf
          | ub => exact hf
          | ok p => exact (points_rd kd p _).trans hf
  exact key hist (fresh E rd) h

/-- **C118.** After any number of changes that do not use coordinates, a change to new axes is as if it had been the first one. -/
theorem C118_as_first (hE : Sound E) (rd : Rd) (hist : List (Call Req Pts Sec)) (h : ∀ c ∈ hist, ¬ c.needsCoordinates) (r : Req) :
    (run E (runAll E (fresh E rd) hist) (.axes .projection r)).2 = (run E (fresh E rd) (.axes .projection r)).2 ∧
    ((run E (runAll E (fresh E rd) hist) (.axes .projection r)).2 = .ok () →
      ∀ n, SameAt E (run E (runAll E (fresh E rd) hist) (.axes .projection r)).1 (run E (fresh E rd) (.axes .projection r)).1 n) := by
  have hk := C118_projection hE rd hist r
  rw [C118_reader rd hist h] at hk
  exact hk

/-! ## What is used after a change -/

/-- The parts of a change that came to its end. -/
theorem flow_ok {w : Bool} {check : Rd → List (String × Sys) → Res Unit}
    {f : List (String × Sys) → D × List (String × String) → (D × List (String × String)) × Res Unit} {g : Rd → Sys → Res I}
    {mx : Option (Sys → Res M)} {a a' : State Rd D I M} (h : flow E w check f g mx a = (a', .ok ())) :
    ∃ s1 ss, best E w a = (s1, .ok ss) ∧ check s1.rd ss = .ok () ∧ (f ss (s1.cdm, s1.vars)).2 = .ok () ∧
      store E g mx ss { s1 with cdm := (f ss (s1.cdm, s1.vars)).1.1, vars := (f ss (s1.cdm, s1.vars)).1.2 } = (a', .ok ()) := by
  unfold flow at h
  obtain ⟨s1, ss, hb, h⟩ := bind_ok h
  obtain ⟨s2, x, e2, h⟩ := bind_ok h
  cases e2
  obtain ⟨s3, u, e3, h⟩ := bind_ok h
  have e31 : s1 = s3 := congrArg Prod.fst e3
  have e32 : check s1.rd ss = .ok u := congrArg Prod.snd e3
  subst e31
  obtain ⟨s4, u', e4, h⟩ := bind_ok h
  have e41 : _ = s4 := congrArg Prod.fst e4
  have e42 : (f ss (s1.cdm, s1.vars)).2 = .ok u' := congrArg Prod.snd e4
  subst e41
  exact ⟨s1, ss, hb, e32, e42, h⟩

theorem found_ok {w : Bool} {a s1 : State Rd D I M} {ss : List (String × Sys)} (h : found E w a = (s1, .ok ss)) :
    ∃ m bad, E.systems w a.rd = (m, .ok (ss, bad)) ∧ s1 = ⟨a.rd, bad.foldl E.without a.cdm, m, a.grids, a.vecs⟩ := by
  unfold found at h
  cases hr : (E.systems w a.rd).2 with
  | throws => rw [hr] at h; cases h
  | ub => rw [hr] at h; cases h
  | ok r =>
    rw [hr] at h
    cases h
    exact ⟨_, r.2, Prod.ext rfl hr, rfl⟩

/-- **C118.** The interpolation of a variable after a change to new axes is computed for these axes, on the reader, for a system with the key of
the variable; if the variable and its counterpart are both interpolated with the same key, the matrix is that of these axes, too. -/
theorem C118_current (hE : Sound E) (rd : Rd) (hist : List (Call Req Pts Sec)) (r : Req) {st' : State Rd D I M}
    (h : run E (runAll E (fresh E rd) hist) (.axes .projection r) = (st', .ok ())) :
    ∃ m ss bad, E.systems true st'.rd = (m, .ok (ss, bad)) ∧ E.change r ss (bad.foldl E.without (E.dataset st'.rd), m) = ((st'.cdm, st'.vars), .ok ()) ∧
    ∀ n i k, ((E.vars st'.cdm).find? fun i => i.name == n) = some i → i.memory = false → lookup st'.vars n = some k →
      ∃ s x q, (k, s) ∈ ss ∧ E.grid .projection r st'.rd s = .ok x ∧ source E st' n = .ok (.interpolated x q) ∧
        (∀ c, i.pair = some c → lookup st'.vars c = some k → ∃ s' mat, (k, s') ∈ ss ∧ E.matrix r s' = .ok mat ∧ q = some (c, mat)) ∧
        (∀ c mat, q = some (c, mat) → i.pair = some c ∧ lookup st'.vars c = some k) := by
  generalize runAll E (fresh E rd) hist = st at h
  cases hr : E.refused r with
  | true =>
    rw [axes_refused _ _ _ hr] at h
    cases h
  | false =>
    rw [axes_run _ _ _ hr] at h
    simp only [byProjection_flow] at h
    obtain ⟨s1, ss, hb, -, hch, hst⟩ := flow_ok h
    rw [best_true] at hb
    obtain ⟨m, bad, hsys, rfl⟩ := found_ok hb
    simp only at hch hst hsys
    obtain ⟨⟨l1, l2, l3⟩, q1, q2, -, q5⟩ := store_end hst
    simp only at q1 q2 q5 l1 l2 l3
    rw [l2, l3] at q2 q5
    rw [l1] at q1 hsys
    have hchg : E.change r ss (bad.foldl E.without (E.dataset st'.rd), m) = ((st'.cdm, st'.vars), .ok ()) := by
      rw [← l1, ← l2, ← l3]
      exact Prod.ext rfl hch
    refine ⟨m, ss, bad, hsys, hchg, fun n i k hi hmem hk => ?_⟩
    have hin : ∃ s, (k, s) ∈ ss := hE.keys _ _ _ _ _ hsys n k (hE.change _ _ _ _ _ _ hchg n k hk)
    obtain ⟨s, x, e1, e2, e3⟩ := q1 k hin
    refine ⟨s, x, rotation st' i k, e1, e2, ?_, fun c hc hck => ?_, fun c mat hq => ?_⟩
    · unfold source
      rw [hi]
      simp only [hmem, Bool.false_eq_true, if_false]
      rw [hk]
      simp only
      rw [e3]
    · have hne : ss ≠ [] := by
        rintro rfl
        cases e1
      obtain ⟨v, hv⟩ := q5 hne (by simp)
      cases v with
      | false =>
        have := hasVectors_false hv i (List.mem_of_find?_eq_some hi) (by rw [hc]; rfl)
        have hin' : i.name = n := by simpa using List.find?_some hi
        rw [hin', hk] at this
        cases this
      | true =>
        obtain ⟨s', mat, f1, f2, f3⟩ := q2 k hin _ rfl hv
        refine ⟨s', mat, f1, f2, ?_⟩
        unfold rotation
        rw [hc]
        simp only
        rw [if_pos hck, f3]
        rfl
    · unfold rotation at hq
      cases hp : i.pair with
      | none => rw [hp] at hq; cases hq
      | some c' =>
        rw [hp] at hq
        simp only at hq
        by_cases hck : lookup st'.vars c' = some k
        · rw [if_pos hck] at hq
          cases hl : lookup st'.vecs k with
          | none => rw [hl] at hq; cases hq
          | some mm =>
            rw [hl] at hq
            cases hq
            exact ⟨rfl, hck⟩
        · rw [if_neg hck] at hq
          cases hq

/-- **C118.** Methods that use coordinates never make a matrix: the matrix of a vector afterwards is the one that was kept for its key from an
earlier change, for whatever axes that was. -/
theorem C118_matrix_of_before (st : State Rd D I M) (kd : Kind) (hkd : kd = .coordinates ∨ kd = .forward) (r : Req) {st' : State Rd D I M}
    (h : run E st (.axes kd r) = (st', .ok ())) {n c k : String} {i : Info} {x : I} {q : Option (String × M)}
    (hi : ((E.vars st'.cdm).find? fun i => i.name == n) = some i) (hp : i.pair = some c) (hk : lookup st'.vars n = some k)
    (hck : lookup st'.vars c = some k) (hs : source E st' n = .ok (.interpolated x q)) : q = (lookup st.vecs k).map fun m => (c, m) := by
  cases hr : E.refused r with
  | true =>
    rw [axes_refused _ _ _ hr] at h
    cases h
  | false =>
    rw [axes_run _ _ _ hr] at h
    have hv : st'.vecs = st.vecs := by
      have key : ∀ kd, byCoordinates E kd r { st with cdm := E.dataset st.rd, vars := [] } = (st', .ok ()) → st'.vecs = st.vecs := by
        intro kd h
        unfold byCoordinates at h
        obtain ⟨s1, ss, hb, h⟩ := bind_ok h
        obtain ⟨s2, u, e2, h⟩ := bind_ok h
        have e2' : _ = s2 := congrArg Prod.fst e2
        subst e2'
        obtain ⟨s3, u', e3, h⟩ := bind_ok h
        have hs3 := (store_end e3).2.2.2.1 rfl
        obtain ⟨s4, y, e4, h⟩ := bind_ok h
        cases e4
        obtain ⟨s5, y, e5, h⟩ := bind_ok h
        have e5' : s3 = s5 := congrArg Prod.fst e5
        subst e5'
        cases h
        refine hs3.trans ?_
        show s1.vecs = st.vecs
        have := (best_both (E := E) (w := false) (a := { st with cdm := E.dataset st.rd, vars := [] }) rfl rfl).2.2.2.2.2.2.1
        rw [hb] at this
        exact this
      rcases hkd with rfl | rfl
      · exact key .coordinates h
      · exact key .forward h
    unfold source at hs
    rw [hi] at hs
    simp only at hs
    by_cases hm : i.memory = true
    · rw [if_pos hm] at hs
      cases hs
    · rw [if_neg hm, hk] at hs
      simp only at hs
      cases hg : lookup st'.grids k with
      | none => rw [hg] at hs; cases hs
      | some y =>
        rw [hg] at hs
        cases hs
        unfold rotation
        rw [hp]
        simp only
        rw [if_pos hck, hv]

end

/-! ## Cases -/

/-- A reader with a vector `u`, `v` and another variable `t` on one grid.  Readers are numbers of calls that have added coordinates. -/
def toy : Env Nat (List Info) Unit Nat Nat Nat (Kind × Nat) Nat where
  dataset _ := [⟨"u", false, some "v"⟩, ⟨"v", false, some "u"⟩, ⟨"t", false, none⟩, ⟨"x", true, none⟩]
  vars d := d
  without d n := d.filter fun i => i.name != n
  coordinates rd := (rd + 1, .ok ())
  systems _ _ := ([("u", "x,y"), ("v", "x,y"), ("t", "x,y")], .ok ([("x,y", ())], []))
  change _ _ s := (s, .ok ())
  changePoints _ _ s := (s, .ok ())
  readable _ _ := .ok ()
  comparable _ _ := .ok ()
  grid k r _ _ := .ok (k, r)
  gridPoints p _ _ := .ok (.projection, p)
  matrix r _ := .ok r
  matrixPoints p _ := .ok p
  refused r := r == 0
  uneven p := p == 0
  sections x _ _ d := (d, .ok x)

/-- The conditions on the functions are met. -/
theorem toy_sound : Sound toy where
  keys w rd m ss bad h n k hk := by
    cases h
    by_cases hn : n = "u" ∨ n = "v" ∨ n = "t"
    · rcases hn with rfl | rfl | rfl <;> (cases hk; exact ⟨(), by simp⟩)
    · exfalso
      simp only [lookup, List.find?_cons, List.find?_nil] at hk
      have e1 : ("u" == n) = false := by simpa using fun e : "u" = n => hn (.inl e.symm)
      have e2 : ("v" == n) = false := by simpa using fun e : "v" = n => hn (.inr (.inl e.symm))
      have e3 : ("t" == n) = false := by simpa using fun e : "t" = n => hn (.inr (.inr e.symm))
      simp only [e1, e2, e3] at hk
      cases hk
  change r ss d m d' m' h n k hk := by
    cases h
    exact hk
  points p ss d m d' m' h n k hk := by
    cases h
    exact hk

/-- A history with calls that fail, points, a template and other axes. -/
def before : List (Call Nat Nat Nat) := [.axes .projection 1, .axes .other 2, .points .projection 3, .axes .projection 0, .template .forward (.ok 4), .sections .projection 5]

example : (∀ c ∈ before, ¬ c.needsCoordinates) ∧ (run toy (runAll toy (fresh toy 0) before) (.axes .projection 7)).2 = .ok () ∧
    source toy (run toy (runAll toy (fresh toy 0) before) (.axes .projection 7)).1 "u" = .ok (.interpolated (.projection, 7) (some ("v", 7))) := by
  refine ⟨?_, by decide +kernel, by decide +kernel⟩
  intro c hc
  simp only [before, List.mem_cons, List.not_mem_nil, or_false] at hc
  rcases hc with rfl | rfl | rfl | rfl | rfl | rfl <;> simp [Call.needsCoordinates]

/-- With a method that uses coordinates the vectors of a new interpolator are not rotated; after a change with projections they are, with the matrix
of the earlier axes. -/
theorem C118_stale_matrix :
    source toy (run toy (fresh toy 0) (.axes .forward 7)).1 "u" = .ok (.interpolated (.forward, 7) none) ∧
    source toy (run toy (run toy (fresh toy 0) (.axes .projection 3)).1 (.axes .forward 7)).1 "u" = .ok (.interpolated (.forward, 7) (some ("v", 3))) ∧
    source toy (run toy (run toy (fresh toy 0) (.axes .projection 3)).1 (.axes .forward 7)).1 "t" = .ok (.interpolated (.forward, 7) none) := by
  decide +kernel

/-- The reader is another one after a method that uses coordinates. -/
theorem C118_reader_changed : (run toy (fresh toy 0) (.axes .coordinates 7)).1.rd = 1 := by decide +kernel

end Fimex.History
