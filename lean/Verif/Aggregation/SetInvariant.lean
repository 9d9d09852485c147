import Verif.Aggregation.SetLemmas
import Verif.Aggregation.Lemmas
import Verif.CoordSys.ChangeLemmas

/-! # The invariant of an aggregation -/

namespace Fimex.AggSet

open Cdm

variable {R D V CS : Type}

/-- A dataset as readers have them: names are unique, dimensions of variables exist, and there is at most one unlimited dimension. -/
structure Fine (r : DS R D V CS) : Prop where
  inv : Inv r
  shapes : ShapesExist r
  one : OneUnlimited r
  names : ∀ v ∈ r.vars, v.name ≠ globalNS

/-- The name of the joined dimension: for an existing one that of the first reader with an unlimited dimension. -/
def udName (t : Kind) (jd : String) (l : List (DS R D V CS × String)) : Option String :=
  match t with
  | .existing => l.findSome? fun p => (getUnlimitedDim p.1).map (·.name)
  | .new => some jd
  | .union => none

/-- What a reader adds to the joined dimension. -/
def part (t : Kind) (ud : Option String) (r : DS R D V CS) : ℕ :=
  match t with
  | .existing =>
    match getUnlimitedDim r with
    | some u => if some u.name = ud then u.length else 0
    | none => 0
  | .new => 1
  | .union => 0

/-- The coordinate values of a reader. -/
def coordOf (t : Kind) (ud : Option String) (p : DS R D V CS × String) : List String :=
  match t with
  | .existing =>
    match getUnlimitedDim p.1 with
    | some u => if some u.name = ud then tokens p.2 else []
    | none => []
  | .new => tokens p.2
  | .union => []

/-- A dimension on which the dataset of the aggregation and that of a reader do not agree: one of them is unlimited, the lengths differ, or there is
another unlimited dimension.  The length of the joined dimension does not matter. -/
def Clash (t : Kind) (c r : DS R D V CS) (n : String) : Prop :=
  ∃ e ∈ r.dims, e.name = n ∧
    ((∃ d ∈ c.dims, d.name = n ∧ (d.unlimited ≠ e.unlimited ∨ (d.length ≠ e.length ∧ (d.unlimited = true → t = .union)))) ∨
      (e.unlimited = true ∧ ∃ d ∈ c.dims, d.unlimited = true ∧ d.name ≠ n))

/-- `v` is the variable `w` of `r`, joined: without data and on the joined dimension, with the lengths of `r` in the others, or with the new dimension. -/
def JoinedAs (t : Kind) (jd : String) (c r : DS R D V CS) (w v : Var (Body R D)) : Prop :=
  match t with
  | .existing => v = noData w ∧ ∃ u, getUnlimitedDim c = some u ∧ u.name ∈ w.shape ∧ (getUnlimitedDim r).map (·.name) = some u.name ∧
      ∀ n ∈ w.shape, n ≠ u.name → ∃ d ∈ c.dims, ∃ e ∈ r.dims, d.name = n ∧ e.name = n ∧ d.length = e.length ∧ d.unlimited = false
  | .new => v = longer jd w
  | .union => False

/-- What holds of the aggregation of the readers `l`. -/
structure Good (t : Kind) (jd : String) (jv : List String) (l : List (DS R D V CS × String)) (s : State R D V CS) : Prop where
  readers : s.readers = l.map (·.1)
  inv : Inv s.cdm
  one : OneUnlimited s.cdm
  covered : Covered s
  joinNew : t = .new → s.join = jv
  joinUnion : t = .union → s.join = []
  named : t = .new → ∀ p ∈ l, ∀ w ∈ p.1.vars, w.name ∈ s.join → hasVariable s.cdm w.name = true
  joinHas : t = .existing → ∀ n ∈ s.join, hasVariable s.cdm n = true
  prov : ∀ n k, s.provider.lookup n = some k → n ∉ s.join ∧ ∃ p, l[k]? = some p ∧ ∃ v ∈ p.1.vars, v.name = n ∧ v ∈ s.cdm.vars ∧
    getAttributes s.cdm n = getAttributes p.1 n ∧
    ∀ m ∈ v.shape, ∃ d ∈ s.cdm.dims, ∃ e ∈ p.1.dims, d.name = m ∧ e.name = m ∧ d.length = e.length ∧ (t ≠ .union → d.unlimited = false)
  joins : ∀ v ∈ s.cdm.vars, v.name ∈ s.join → ∃ p ∈ l, ∃ w ∈ p.1.vars, w.name = v.name ∧ getAttributes s.cdm v.name = getAttributes p.1 v.name ∧
    JoinedAs t jd s.cdm p.1 w v
  complete : ∀ p ∈ l, ∀ w ∈ p.1.vars, hasVariable s.cdm w.name = true ∨ ∃ n ∈ w.shape, Clash t s.cdm p.1 n
  dims : ∀ d ∈ s.cdm.dims, (t = .new ∧ d.name = jd) ∨ ∃ p ∈ l, ∃ e ∈ p.1.dims, e.name = d.name ∧ ((d.unlimited = true → t = .union) → e.length = d.length)
  ulen : t ≠ .union → ∀ u, getUnlimitedDim s.cdm = some u → u.length = lastEnd s.ends
  uname : t ≠ .union → (getUnlimitedDim s.cdm).map (·.name) = udName t jd l
  ends : t ≠ .union → s.ends = Aggregation.endsOf (l.map fun p => part t (udName t jd l) p.1)
  coords : s.coords = (l.map (coordOf t (udName t jd l))).flatten
  counts : ∀ p ∈ l, coordOf t (udName t jd l) p = [] ∨ (coordOf t (udName t jd l) p).length = part t (udName t jd l) p.1

/-! ## Later datasets -/

/-- What is kept of a dataset while others are added. -/
structure Later (t : Kind) (c c' : DS R D V CS) : Prop where
  vars : ∃ ws, c'.vars = c.vars ++ ws
  attrs : ∀ n, hasVariable c n = true → getAttributes c' n = getAttributes c n
  dims : ∀ d ∈ c.dims, ∃ d' ∈ c'.dims, d'.name = d.name ∧ d'.unlimited = d.unlimited ∧ ((d.unlimited = true → t = .union) → d'.length = d.length)
  ud : ∀ u, getUnlimitedDim c = some u → ∃ u', getUnlimitedDim c' = some u' ∧ u'.name = u.name

theorem Later.refl (t : Kind) (c : DS R D V CS) : Later t c c :=
  ⟨⟨[], by simp⟩, fun _ _ => rfl, fun d hd => ⟨d, hd, rfl, rfl, fun _ => rfl⟩, fun u h => ⟨u, h, rfl⟩⟩

theorem Later.has {t : Kind} {c c' : DS R D V CS} (h : Later t c c') {n : String} (hn : hasVariable c n = true) : hasVariable c' n = true := by
  obtain ⟨ws, e⟩ := h.vars
  rw [hasVariable_iff] at hn ⊢
  rw [e, List.map_append]
  exact List.mem_append_left _ hn

theorem Later.mem {t : Kind} {c c' : DS R D V CS} (h : Later t c c') {v : Var (Body R D)} (hv : v ∈ c.vars) : v ∈ c'.vars := by
  obtain ⟨ws, e⟩ := h.vars
  rw [e]
  exact List.mem_append_left _ hv

theorem Later.trans {t : Kind} {c c1 c2 : DS R D V CS} (h : Later t c c1) (g : Later t c1 c2) : Later t c c2 := by
  refine ⟨?_, fun n hn => by rw [g.attrs n (h.has hn), h.attrs n hn], fun d hd => ?_, fun u hu => ?_⟩
  · obtain ⟨w1, e1⟩ := h.vars
    obtain ⟨w2, e2⟩ := g.vars
    exact ⟨w1 ++ w2, by rw [e2, e1, List.append_assoc]⟩
  · obtain ⟨d1, h1, h2, h3, h4⟩ := h.dims d hd
    obtain ⟨d2, g1, g2, g3, g4⟩ := g.dims d1 h1
    exact ⟨d2, g1, g2.trans h2, g3.trans h3, fun hx => (g4 (by rw [h3]; exact hx)).trans (h4 hx)⟩
  · obtain ⟨u1, h1, h2⟩ := h.ud u hu
    obtain ⟨u2, g1, g2⟩ := g.ud u1 h1
    exact ⟨u2, g1, g2.trans h2⟩

theorem Grown.later (t : Kind) {r c c' : DS R D V CS} {vs : List (Var (Body R D))} (h : Grown r c c' vs) : Later t c c' := by
  refine ⟨⟨vs, h.vars⟩, fun n hn => h.attrs n fun v hv e => ?_, fun d hd => ⟨d, h.mem hd, rfl, rfl, fun _ => rfl⟩, fun u hu => ?_⟩
  · have := h.inv.vars
    rw [h.vars, List.map_append, List.nodup_append] at this
    rw [hasVariable_iff] at hn
    exact this.2.2 _ hn _ (List.mem_map_of_mem hv) e.symm
  · obtain ⟨ds, e, -⟩ := h.dims
    refine ⟨u, ?_, rfl⟩
    unfold getUnlimitedDim at hu ⊢
    rw [e, List.find?_append, hu]
    rfl

theorem Later.clash {t : Kind} {c c' r : DS R D V CS} (h : Later t c c') {n : String} (hc : Clash t c r n) : Clash t c' r n := by
  obtain ⟨e, he, hen, hh⟩ := hc
  refine ⟨e, he, hen, ?_⟩
  rcases hh with ⟨d, hd, hdn, hh⟩ | ⟨hu, d, hd, hdu, hdn⟩
  · obtain ⟨d', h1, h2, h3, h4⟩ := h.dims d hd
    refine .inl ⟨d', h1, h2.trans hdn, ?_⟩
    rcases hh with hh | ⟨hh, hx⟩
    · exact .inl (by rw [h3]; exact hh)
    · exact .inr ⟨by rw [h4 hx]; exact hh, by rw [h3]; exact hx⟩
  · obtain ⟨d', h1, h2, h3, -⟩ := h.dims d hd
    exact .inr ⟨hu, d', h1, h3.trans hdu, by rw [h2]; exact hdn⟩

theorem Later.joinedAs {t : Kind} {jd : String} {c c' r : DS R D V CS} (h : Later t c c') {w v : Var (Body R D)} (hj : JoinedAs t jd c r w v) :
    JoinedAs t jd c' r w v := by
  cases t with
  | new => exact hj
  | union => exact hj
  | existing =>
    obtain ⟨h1, u, h2, h3, h4, h5⟩ := hj
    obtain ⟨u', g1, g2⟩ := h.ud u h2
    refine ⟨h1, u', g1, by rw [g2]; exact h3, by rw [g2]; exact h4, fun n hn hne => ?_⟩
    obtain ⟨d, hd, e, he, a1, a2, a3, a4⟩ := h5 n hn (by rw [← g2]; exact hne)
    obtain ⟨d', b1, b2, b3, b4⟩ := h.dims d hd
    exact ⟨d', b1, e, he, b2.trans a1, a2, (b4 fun hx => by rw [a4] at hx; cases hx).trans a3, b3.trans a4⟩

/-! ## Extending the joined dimension -/

theorem find_map_length {u : String} {k : ℕ} : ∀ (l : List Dim),
    (l.map fun d => if d.name = u then { d with length := k } else d).find? (·.unlimited) =
      (l.find? (·.unlimited)).map fun d => if d.name = u then { d with length := k } else d
  | [] => rfl
  | d :: l => by
    have : (if d.name = u then ({ d with length := k } : Dim) else d).unlimited = d.unlimited := by split <;> rfl
    cases hd : d.unlimited with
    | true => rw [List.map_cons, List.find?_cons_of_pos (by rw [this, hd]), List.find?_cons_of_pos hd]; rfl
    | false => rw [List.map_cons, List.find?_cons_of_neg (by rw [this, hd]; simp), List.find?_cons_of_neg (by rw [hd]; simp)]; exact find_map_length l

/-- A dataset in which the first unlimited dimension got a new length. -/
theorem setUnlimited_later (t : Kind) (ht : t ≠ .union) {c : DS R D V CS} (hi : Inv c) (k : ℕ) :
    Later t c (setUnlimited k c) ∧ Inv (setUnlimited k c) ∧ (OneUnlimited c → OneUnlimited (setUnlimited k c)) ∧ (setUnlimited k c).vars = c.vars ∧
      getUnlimitedDim (setUnlimited k c) = (getUnlimitedDim c).map (fun u => { u with length := k }) ∧
      (∀ n, getAttributes (setUnlimited k c) n = getAttributes c n) ∧
      ∀ d ∈ (setUnlimited k c).dims, ∃ d0 ∈ c.dims, d0.name = d.name ∧ d0.unlimited = d.unlimited ∧ (d.unlimited = false → d0 = d) := by
  unfold setUnlimited
  cases hu : getUnlimitedDim c with
  | none => exact ⟨Later.refl t c, hi, id, rfl, by rw [hu]; rfl, fun _ => rfl, fun d hd => ⟨d, hd, rfl, rfl, fun _ => rfl⟩⟩
  | some u =>
    have hum : u ∈ c.dims := List.mem_of_find?_eq_some hu
    have huu : u.unlimited = true := by simpa using List.find?_some hu
    simp only
    have e := Change.setFirstLength_eq u.name k c.dims hi.dims
    have hg : getUnlimitedDim ({ c with dims := Change.setFirstLength u.name k c.dims } : DS R D V CS) = some { u with length := k } := by
      unfold getUnlimitedDim at hu ⊢
      simp only
      rw [e, find_map_length, hu]
      simp
    have hname : ∀ d : Dim, (if d.name = u.name then ({ d with length := k } : Dim) else d).name = d.name := fun d => by split <;> rfl
    have hunl : ∀ d : Dim, (if d.name = u.name then ({ d with length := k } : Dim) else d).unlimited = d.unlimited := fun d => by split <;> rfl
    have hsame : ∀ d ∈ c.dims, d.unlimited = false → (if d.name = u.name then ({ d with length := k } : Dim) else d) = d := fun d hd hf => by
      rw [if_neg]
      intro hn
      rw [Inv.dim_eq hi hd hum hn, huu] at hf
      cases hf
    have hback : ∀ d ∈ Change.setFirstLength u.name k c.dims, ∃ d0 ∈ c.dims, (if d0.name = u.name then ({ d0 with length := k } : Dim) else d0) = d := fun d hd => by
      rw [e] at hd
      exact List.mem_map.1 hd
    refine ⟨⟨⟨[], by simp⟩, fun _ _ => rfl, fun d hd => ?_, fun v hv => ?_⟩, ⟨hi.vars, ?_, hi.attrNames, hi.owners⟩, fun ho => ?_, trivial, by rw [hg]; rfl, fun _ => by simp [getAttributes], fun d hd => ?_⟩
    · refine ⟨if d.name = u.name then { d with length := k } else d, ?_, hname d, hunl d, fun hx => ?_⟩
      · simp only
        rw [e]
        exact List.mem_map_of_mem hd
      · rw [hsame d hd]
        by_contra hy
        exact ht (hx (by simpa using hy))
    · rw [hu] at hv
      cases hv
      exact ⟨_, hg, rfl⟩
    · simp only
      rw [e, List.map_map]
      have : ((fun d : Dim => d.name) ∘ fun d => if d.name = u.name then ({ d with length := k } : Dim) else d) = fun d => d.name := by
        funext d
        exact hname d
      rw [this]
      exact hi.dims
    · intro a ha b hb hau hbu
      obtain ⟨a0, h1, rfl⟩ := hback a ha
      obtain ⟨b0, h2, rfl⟩ := hback b hb
      rw [hunl] at hau hbu
      rw [ho a0 h1 b0 h2 hau hbu]
    · obtain ⟨d0, h1, rfl⟩ := hback d hd
      exact ⟨d0, h1, (hname d0).symm, (hunl d0).symm, fun hx => (hsame d0 h1 (by rw [hunl] at hx; exact hx)).symm⟩

theorem endsOf_append (ls : List ℕ) (x : ℕ) : Aggregation.endsOf (ls ++ [x]) = Aggregation.endsOf ls ++ [ls.sum + x] := by
  unfold Aggregation.endsOf
  rw [List.length_append, List.length_singleton, List.range_succ, List.map_append]
  congr 1
  · apply List.map_congr_left
    intro k hk
    rw [List.mem_range] at hk
    rw [List.take_append_of_le_length (by omega)]
  · rw [List.map_singleton, List.take_of_length_le (by simp), List.sum_append]
    simp

theorem lastEnd_endsOf (ls : List ℕ) : lastEnd (Aggregation.endsOf ls) = ls.sum := by
  unfold lastEnd
  rcases List.eq_nil_or_concat ls with rfl | ⟨l, x, rfl⟩
  · simp [Aggregation.endsOf]
  · rw [List.concat_eq_append, endsOf_append]
    simp

/-- What `extendJoinedUnLimDimBy` does if it raises no error. -/
theorem extendBy_ok {len : ℕ} {cv : String} {s s' : State R D V CS} (h : extendBy len cv s = (s', .ok ())) :
    s' = { s with
      ends := s.ends ++ [lastEnd s.ends + len], cdm := setUnlimited (lastEnd s.ends + len) s.cdm, coords := s.coords ++ tokens cv } ∧
    (tokens cv = [] ∨ (tokens cv).length = len) := by
  unfold extendBy at h
  simp only at h
  split at h
  · rename_i hc
    have ht : tokens cv = [] := by rw [hc]; rfl
    rw [Prod.mk.injEq] at h
    rw [ht, List.append_nil]
    exact ⟨h.1.symm, .inl rfl⟩
  · split at h
    · cases h
    · rename_i hl
      rw [Prod.mk.injEq] at h
      exact ⟨h.1.symm, .inr (by simpa using hl)⟩

/-! ## The joined variables of a further reader -/

/-- What holds after the joined variables of the reader `p` have been added to the state `s` of the readers `l`: the variables `vs` are new. -/
structure Mid (t : Kind) (jd : String) (l : List (DS R D V CS × String)) (p : DS R D V CS × String) (s s2 : State R D V CS) (vs : List (Var (Body R D))) :
    Prop where
  later : Later t s.cdm s2.cdm
  inv : Inv s2.cdm
  one : OneUnlimited s2.cdm
  provider : s2.provider = s.provider
  readers : s2.readers = s.readers
  vars : s2.cdm.vars = s.cdm.vars ++ vs
  join : ∀ n, n ∈ s2.join ↔ n ∈ s.join ∨ (t = .existing ∧ ∃ v ∈ vs, v.name = n)
  joinSame : t ≠ .existing → s2.join = s.join
  new : ∀ v ∈ vs, v.name ∈ s2.join ∧ ∃ w ∈ p.1.vars, w.name = v.name ∧ getAttributes s2.cdm v.name = getAttributes p.1 v.name ∧ JoinedAs t jd s2.cdm p.1 w v
  dims : ∀ d ∈ s2.cdm.dims, (∃ d0 ∈ s.cdm.dims, d0.name = d.name ∧ d0.unlimited = d.unlimited ∧ ((d.unlimited = true → t = .union) → d0.length = d.length)) ∨
    ∃ e ∈ p.1.dims, e.name = d.name ∧ ((d.unlimited = true → t = .union) → e.length = d.length)
  rejected : t = .existing → ∀ v ∈ p.1.vars, ∀ m ∈ v.shape, (∃ d ∈ s2.cdm.dims, d.name = m ∧ d.unlimited = true) → (∃ e ∈ p.1.dims, e.name = m ∧ e.unlimited = true) →
    hasVariable s2.cdm v.name = true ∨ ∃ n ∈ v.shape, ∃ d ∈ s2.cdm.dims, ∃ e ∈ p.1.dims, d.name = n ∧ e.name = n ∧ d.unlimited = false ∧ d.length ≠ e.length
  hasU : t ≠ .union → (∃ d ∈ p.1.dims, d.unlimited = true) → ∃ d ∈ s2.cdm.dims, d.unlimited = true
  ulen : t ≠ .union → ∀ u, getUnlimitedDim s2.cdm = some u → u.length = lastEnd s2.ends
  uname : t ≠ .union → (getUnlimitedDim s2.cdm).map (·.name) = udName t jd (l ++ [p])
  ends : t ≠ .union → s2.ends = Aggregation.endsOf ((l ++ [p]).map fun q => part t (udName t jd (l ++ [p])) q.1)
  coords : s2.coords = ((l ++ [p]).map (coordOf t (udName t jd (l ++ [p])))).flatten
  counts : ∀ q ∈ l ++ [p], coordOf t (udName t jd (l ++ [p])) q = [] ∨ (coordOf t (udName t jd (l ++ [p])) q).length = part t (udName t jd (l ++ [p])) q.1
  news : t = .new → ∀ v ∈ p.1.vars, v.name ∈ s2.join → hasVariable s2.cdm v.name = true

theorem stable (t : Kind) (jd : String) (l : List (DS R D V CS × String)) (p : DS R D V CS × String) :
    ∀ q ∈ l, part t (udName t jd l) q.1 = part t (udName t jd (l ++ [p])) q.1 ∧ coordOf t (udName t jd l) q = coordOf t (udName t jd (l ++ [p])) q := by
  intro q hq
  cases t with
  | new => exact ⟨rfl, rfl⟩
  | union => exact ⟨rfl, rfl⟩
  | existing =>
    simp only [udName, List.findSome?_append]
    cases h : l.findSome? fun p => (getUnlimitedDim p.1).map (·.name) with
    | some n => exact ⟨rfl, rfl⟩
    | none =>
      rw [List.findSome?_eq_none_iff] at h
      have := h q hq
      rw [Option.map_eq_none_iff] at this
      simp [part, coordOf, this]

theorem uname_set {c : DS R D V CS} (hi : Inv c) (k : ℕ) : (getUnlimitedDim (setUnlimited k c)).map (·.name) = (getUnlimitedDim c).map (·.name) := by
  rw [(setUnlimited_later .new (by simp) hi k).2.2.2.2.1, Option.map_map]
  rfl

theorem Later.clash1 {t : Kind} {c c' : DS R D V CS} (h : Later t c c') {r : DS R D V CS} {n : String} {d : Dim} (hd : d ∈ c.dims) {e : Dim} (he : e ∈ r.dims)
    (h1 : d.name = n) (h2 : e.name = n) (h3 : d.unlimited = false) (h4 : d.length ≠ e.length) :
    ∃ d ∈ c'.dims, ∃ e ∈ r.dims, d.name = n ∧ e.name = n ∧ d.unlimited = false ∧ d.length ≠ e.length := by
  obtain ⟨d', a1, a2, a3, a4⟩ := h.dims d hd
  exact ⟨d', a1, e, he, a2.trans h1, h2, a3.trans h3, by rw [a4 fun hx => by rw [h3] at hx; cases hx]; exact h4⟩

/-- Adding variables and extending the joined dimension. -/
theorem mid_extend {t : Kind} (ht : t ≠ .union) {jd : String} {jv : List String} {l : List (DS R D V CS × String)} {s0 s s1 s2 : State R D V CS}
    {p : DS R D V CS × String} {vs : List (Var (Body R D))} {len : ℕ} {cv : String} (hg : Good t jd jv l s0) (hs : s = { s0 with readers := s.readers })
    (G : Grown p.1 s.cdm s1.cdm vs) (h1 : s1 = { s with cdm := s1.cdm, join := s1.join })
    (hj : ∀ n, n ∈ s1.join ↔ n ∈ s.join ∨ (t = .existing ∧ ∃ v ∈ vs, v.name = n)) (hjs : t ≠ .existing → s1.join = s.join)
    (hnew : ∀ v ∈ vs, v.name ∈ s1.join ∧ ∃ w ∈ p.1.vars, w.name = v.name ∧ JoinedAs t jd s1.cdm p.1 w v)
    (hrej : t = .existing → ∀ v ∈ p.1.vars, ∀ m ∈ v.shape, (∃ d ∈ s1.cdm.dims, d.name = m ∧ d.unlimited = true) →
      (∃ e ∈ p.1.dims, e.name = m ∧ e.unlimited = true) →
      hasVariable s1.cdm v.name = true ∨ ∃ n ∈ v.shape, ∃ d ∈ s1.cdm.dims, ∃ e ∈ p.1.dims, d.name = n ∧ e.name = n ∧ d.unlimited = false ∧ d.length ≠ e.length)
    (hU : (∃ d ∈ p.1.dims, d.unlimited = true) → ∃ d ∈ s1.cdm.dims, d.unlimited = true)
    (hnm : (getUnlimitedDim s1.cdm).map (·.name) = udName t jd (l ++ [p])) (hlen : len = part t (udName t jd (l ++ [p])) p.1)
    (hcv : tokens cv = coordOf t (udName t jd (l ++ [p])) p) (he : extendBy len cv s1 = (s2, .ok ()))
    (hnews : t = .new → ∀ v ∈ p.1.vars, v.name ∈ s1.join → hasVariable s1.cdm v.name = true) : Mid t jd l p s s2 vs := by
  obtain ⟨e1, e2⟩ := extendBy_ok he
  obtain ⟨L, I, O, Vs, U, A, B⟩ := setUnlimited_later t ht G.inv (lastEnd s1.ends + len)
  have hc2 : s2.cdm = setUnlimited (lastEnd s1.ends + len) s1.cdm := by rw [e1]
  have hends : s1.ends = s0.ends := by rw [h1, hs]
  have hcoords : s1.coords = s0.coords := by rw [h1, hs]
  have hj2 : s2.join = s1.join := by rw [e1]
  have hcdm : s.cdm = s0.cdm := by rw [hs]
  have L2 : Later t s1.cdm s2.cdm := by rw [hc2]; exact L
  refine ⟨(G.later t).trans L2, by rw [hc2]; exact I, by rw [hc2]; exact O (G.one (by rw [hcdm]; exact hg.one)), by rw [e1, h1], by rw [e1, h1],
    by rw [hc2, Vs, G.vars], fun n => by rw [hj2]; exact hj n, fun hx => by rw [hj2]; exact hjs hx, fun v hv => ?_, fun d hd => ?_, fun hx v hv m hm hd hee => ?_,
    fun _ hx => ?_, fun _ u hu => ?_, fun _ => ?_, fun _ => ?_, ?_, fun q hq => ?_, fun hx v hv hvj => ?_⟩
  · obtain ⟨a1, w, a2, a3, a4⟩ := hnew v hv
    refine ⟨by rw [hj2]; exact a1, w, a2, a3, ?_, L2.joinedAs a4⟩
    rw [hc2, A, G.own v hv]
  · rw [hc2] at hd
    obtain ⟨d0, b1, b2, b3, b4⟩ := B d hd
    obtain ⟨ds, f1, f2⟩ := G.dims
    rw [f1] at b1
    have hl : (d.unlimited = true → t = .union) → d0.length = d.length := fun hx => by
      rw [b4]
      by_contra hy
      exact ht (hx (by simpa using hy))
    rcases List.mem_append.1 b1 with b1 | b1
    · exact .inl ⟨d0, b1, b2, b3, hl⟩
    · exact .inr ⟨d0, f2 d0 b1, b2, hl⟩
  · obtain ⟨d, hd, hdn, hdu⟩ := hd
    rw [hc2] at hd
    obtain ⟨d0, b1, b2, b3, -⟩ := B d hd
    rcases hrej hx v hv m hm ⟨d0, b1, b2.trans hdn, b3.trans hdu⟩ hee with h' | ⟨n, hn, d1, q1, q2, q3, q4, q5, q6, q7⟩
    · exact .inl (L2.has h')
    · exact .inr ⟨n, hn, L2.clash1 q1 q3 q4 q5 q6 q7⟩
  · obtain ⟨d, hd, hdu⟩ := hU hx
    obtain ⟨d', a1, a2, a3, -⟩ := L2.dims d hd
    exact ⟨d', a1, a3.trans hdu⟩
  · rw [hc2, U] at hu
    cases hu1 : getUnlimitedDim s1.cdm with
    | none => rw [hu1] at hu; cases hu
    | some u1 =>
      rw [hu1] at hu
      cases hu
      rw [e1]
      simp [lastEnd]
  · rw [hc2, uname_set G.inv]
    exact hnm
  · rw [e1]
    simp only
    rw [List.map_append, List.map_singleton, endsOf_append, hends, hg.ends ht, lastEnd_endsOf, hlen]
    have : (l.map fun q => part t (udName t jd (l ++ [p])) q.1) = l.map fun q => part t (udName t jd l) q.1 :=
      List.map_congr_left fun q hq => ((stable t jd l p) q hq).1.symm
    rw [this]
  · rw [e1]
    simp only
    rw [List.map_append, List.flatten_append, hcoords, hg.coords, hcv]
    have : l.map (coordOf t (udName t jd (l ++ [p]))) = l.map (coordOf t (udName t jd l)) :=
      List.map_congr_left fun q hq => ((stable t jd l p) q hq).2.symm
    rw [this]
    simp
  · rcases List.mem_append.1 hq with hq | hq
    · rw [← ((stable t jd l p) q hq).1, ← ((stable t jd l p) q hq).2]
      exact hg.counts q hq
    · rw [List.mem_singleton.1 hq, ← hcv, ← hlen]
      exact e2
  · rw [hj2] at hvj
    exact L2.has (hnews hx v hv hvj)

theorem unl_of {c : DS R D V CS} {u : Dim} (h : getUnlimitedDim c = some u) : u ∈ c.dims ∧ u.unlimited = true :=
  ⟨List.mem_of_find?_eq_some h, by simpa using List.find?_some h⟩

theorem no_unl {c : DS R D V CS} (h : getUnlimitedDim c = none) : ∀ d ∈ c.dims, d.unlimited = false := fun d hd => by
  by_contra hx
  have := (getUnlimitedDim_isSome (c := c)).2 ⟨d, hd, by simpa using hx⟩
  rw [h] at this
  cases this

theorem andThen_ok {r : State R D V CS × Res Unit} {f : State R D V CS → State R D V CS × Res Unit} {s' : State R D V CS} (h : andThen r f = (s', .ok ())) :
    ∃ s, r = (s, .ok ()) ∧ f s = (s', .ok ()) := by
  obtain ⟨s, q⟩ := r
  cases q with
  | ok a => exact ⟨s, rfl, h⟩
  | throws => cases h
  | ub => cases h

/-- The variables of a reader that are joined along the existing dimension. -/
theorem mid_join {jd : String} {jv : List String} {l : List (DS R D V CS × String)} {s0 s sa s2 : State R D V CS} {p : DS R D V CS × String}
    (hg : Good .existing jd jv l s0) (hs : s = { s0 with readers := s.readers }) (hf : Fine p.1) {u : Dim} (hu : getUnlimitedDim p.1 = some u)
    (G0 : Grown p.1 s.cdm sa.cdm []) (hsa : sa = { s with cdm := sa.cdm }) {a : Dim} (ha : getUnlimitedDim sa.cdm = some a) (hau : a.name = u.name)
    (hn : udName .existing jd (l ++ [p]) = some u.name)
    (h : andThen (joinExistingVars p.1 u.name p.1.vars sa) (extendBy u.length p.2) = (s2, .ok ())) : ∃ vs, Mid .existing jd l p s s2 vs := by
  obtain ⟨s1, h1, h2⟩ := andThen_ok h
  obtain ⟨vs, k1, k2, k3, k4⟩ := joinExistingVars_grown hf.inv hf.one hf.names hu p.1.vars sa s1 (fun _ hv => hv) G0.inv h1
  have G : Grown p.1 s.cdm s1.cdm (vs.map noData) := by simpa using G0.trans k2
  have hjoin : s1.join = s.join ++ vs.map (·.name) := by rw [k3, hsa]
  have hone : OneUnlimited s1.cdm := G.one (by rw [hs]; exact hg.one)
  have hu1 : ∃ u1, getUnlimitedDim s1.cdm = some u1 ∧ u1.name = u.name := by
    obtain ⟨u1, q1, q2⟩ := (k2.later .existing).ud a ha
    exact ⟨u1, q1, q2.trans hau⟩
  obtain ⟨u1, hu1, hu1n⟩ := hu1
  have hlim : ∀ d ∈ s1.cdm.dims, d.name ≠ u.name → d.unlimited = false := fun d hd hne => by
    by_contra hx
    have := hone d hd u1 (unl_of hu1).1 (by simpa using hx) (unl_of hu1).2
    exact hne (by rw [this, hu1n])
  refine ⟨vs.map noData, mid_extend (by simp) hg hs G ?_ ?_ (fun hx => absurd rfl hx) ?_ ?_ ?_ ?_ ?_ ?_ h2 (fun hx => by cases hx)⟩
  · rw [k3, hsa]
  · intro n
    rw [hjoin, List.mem_append]
    simp only [List.mem_map, true_and, exists_exists_and_eq_and, noData_name]
  · intro v hv
    obtain ⟨w, hw, rfl⟩ := List.mem_map.1 hv
    obtain ⟨q1, q2, q3⟩ := k1 w hw
    refine ⟨by rw [hjoin]; exact List.mem_append_right _ (List.mem_map.2 ⟨w, hw, rfl⟩), w, q1, rfl, rfl, u1, hu1, by rw [hu1n]; exact q2, by rw [hu, hu1n]; rfl, fun n hnn hne => ?_⟩
    obtain ⟨d, hd, e, he, q4, q5, q6⟩ := q3 n hnn (by rw [← hu1n]; exact hne)
    exact ⟨d, hd, e, he, q4, q5, q6, hlim d hd (by rw [q4, ← hu1n]; exact hne)⟩
  · intro _ v hv m hm hd he
    obtain ⟨e, he, hen, heu⟩ := he
    have : e = u := hf.one e he u (unl_of hu).1 heu (unl_of hu).2
    subst this
    rcases k4 v hv (by rw [hen]; exact hm) with h' | ⟨n, q1, q2, d, q3, e', q4, q5, q6, q7⟩
    · exact .inl h'
    · exact .inr ⟨n, q1, d, q3, e', q4, q5, q6, hlim d q3 (by rw [q5]; exact q2), q7⟩
  · intro _
    exact ⟨u1, (unl_of hu1).1, (unl_of hu1).2⟩
  · rw [hu1, hn, ← hu1n]
    rfl
  · simp [part, hu, hn]
  · simp [coordOf, hu, hn]

theorem mid_existing {jd : String} {jv : List String} {l : List (DS R D V CS × String)} {s0 s s2 : State R D V CS} {p : DS R D V CS × String}
    (hg : Good .existing jd jv l s0) (hs : s = { s0 with readers := s.readers }) (hf : Fine p.1) (h : joinExisting p.2 p.1 s = (s2, .ok ())) :
    ∃ vs, Mid .existing jd l p s s2 vs := by
  have hcdm : s.cdm = s0.cdm := by rw [hs]
  have hinv : Inv s.cdm := by rw [hcdm]; exact hg.inv
  have hun := hg.uname (by simp)
  rw [← hcdm] at hun
  have hud : udName .existing jd (l ++ [p]) = ((getUnlimitedDim s.cdm).map (·.name)).or ((getUnlimitedDim p.1).map (·.name)) := by
    rw [hun]
    simp [udName, List.findSome?_append]
  unfold joinExisting at h
  cases hu : getUnlimitedDim p.1 with
  | none =>
    rw [hu] at h hud
    refine ⟨[], mid_extend (by simp) hg hs (Grown.refl p.1 hinv) rfl (by simp) (fun hx => absurd rfl hx) (by simp) ?_ ?_ ?_ ?_ ?_ h (fun hx => by cases hx)⟩
    · rintro - v hv m hm - ⟨e, he, hen, heu⟩
      rw [no_unl hu e he] at heu
      cases heu
    · rintro ⟨e, he, heu⟩
      rw [no_unl hu e he] at heu
      cases heu
    · rw [hud]; simp
    · simp [part, hu]
    · simp [coordOf, hu]; rfl
  | some u =>
    rw [hu] at h hud
    cases ha : getUnlimitedDim s.cdm with
    | some a =>
      simp only [ha] at h
      rw [ha] at hud
      have hud' : udName .existing jd (l ++ [p]) = some a.name := by rw [hud]; rfl
      split at h
      · rename_i hne
        refine ⟨[], mid_extend (by simp) hg hs (Grown.refl p.1 hinv) rfl (by simp) (fun hx => absurd rfl hx) (by simp) ?_ ?_ ?_ ?_ ?_ h (fun hx => by cases hx)⟩
        · rintro - v hv m hm ⟨d, hd, hdn, hdu⟩ ⟨e, he, hen, heu⟩
          have e1 : d = a := hg.one d (by rw [← hcdm]; exact hd) a (by rw [← hcdm]; exact (unl_of ha).1) hdu (unl_of ha).2
          have e2 : e = u := hf.one e he u (unl_of hu).1 heu (unl_of hu).2
          exact absurd (by rw [← e2, hen, ← hdn, e1]) hne
        · intro _
          exact ⟨a, (unl_of ha).1, (unl_of ha).2⟩
        · rw [hud', ha]; rfl
        · simp [part, hu, hud', hne]
        · simp [coordOf, hu, hud', hne]; rfl
      · rename_i hne
        have hne' : u.name = a.name := by simpa using hne
        exact mid_join hg hs hf hu (Grown.refl p.1 hinv) rfl ha hne'.symm (by rw [hud', hne']) h
    | none =>
      simp only [ha] at h
      rw [ha] at hud
      by_cases hd : hasDimension s.cdm u.name = true
      · have : hasDimension { s.cdm with coordsInitialized := false } u.name = true := hd
        rw [show addDimension s.cdm u = ({ s.cdm with coordsInitialized := false }, .throws) by simp [addDimension, this]] at h
        cases h
      · obtain ⟨q1, q2, q3⟩ := addDim_grown (r := p.1) hinv (unl_of hu).1 (Bool.eq_false_iff.2 hd) (fun _ e he => no_unl ha e he)
        rw [q1] at h
        have hx : getUnlimitedDim (addDimension s.cdm u).1 = some u := by
          unfold getUnlimitedDim at ha ⊢
          rw [q3, List.find?_append, ha]
          simp [(unl_of hu).2]
        exact mid_join (sa := { s with cdm := (addDimension s.cdm u).1 }) hg hs hf hu q2 rfl hx rfl (by rw [hud]; rfl) h

theorem mid_new {jd : String} {jv : List String} {l : List (DS R D V CS × String)} {s0 s s2 : State R D V CS} {p : DS R D V CS × String}
    (hg : Good .new jd jv l s0) (hs : s = { s0 with readers := s.readers }) (hf : Fine p.1)
    (h : andThen (joinNewVars p.1 jd p.1.vars s) (extendBy 1 p.2) = (s2, .ok ())) : ∃ vs, Mid .new jd l p s s2 vs := by
  have hcdm : s.cdm = s0.cdm := by rw [hs]
  have hinv : Inv s.cdm := by rw [hcdm]; exact hg.inv
  have hun : (getUnlimitedDim s.cdm).map (·.name) = some jd := by rw [hcdm]; exact hg.uname (by simp)
  obtain ⟨s1, h1, h2⟩ := andThen_ok h
  obtain ⟨s1', k0, vs, k1, k2, k3, k4, k5⟩ := joinNewVars_grown hf.inv hf.names (jd := jd) p.1.vars s (fun _ hv => hv) hinv
  rw [k0, Prod.mk.injEq] at h1
  obtain ⟨rfl, -⟩ := h1
  obtain ⟨u, hu, hun'⟩ := Option.map_eq_some_iff.1 hun
  have hu1 : getUnlimitedDim s1'.cdm = some u := by
    unfold getUnlimitedDim at hu ⊢
    rw [k4, hu]
  have hj : s1'.join = s.join := by rw [k3]
  refine ⟨vs.map (longer jd), mid_extend (by simp) hg hs k2 (by rw [k3]) (by rw [hj]; simp) (fun _ => hj) ?_ (fun hx => by cases hx)
    (fun _ => ⟨u, unl_of hu1⟩) (by rw [hu1, Option.map_some, hun']; rfl) rfl rfl h2 ?_⟩
  · intro v hv
    obtain ⟨w, hw, rfl⟩ := List.mem_map.1 hv
    exact ⟨by rw [hj]; exact (k1 w hw).2, w, (k1 w hw).1, rfl, rfl⟩
  · intro _ v hv hvj
    exact k5 v hv (by rw [← hj]; exact hvj)

end Fimex.AggSet
