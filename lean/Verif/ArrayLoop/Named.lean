import Verif.ArrayLoop.Props
import Mathlib.Algebra.BigOperators.Group.Finset.Basic
import Mathlib.Algebra.BigOperators.Group.List.Lemmas
import Mathlib.Data.Finset.Basic
import Mathlib.Tactic.Ring

/-!
# Loops over arrays with named dimensions

The offsets of a loop in terms of index assignments: an assignment gives every dimension, by its name, an index,
and an array is looked at in the place that the assignment gives for its dimensions.
-/

namespace Fimex.ArrayLoop

/-- Strides are those of a contiguous array. -/
def Contiguous (a : Dims) : Prop := ∀ i, i < a.rank → a.delta[i]? = some (a.length.take i).prod

/-- The multi-index of an array for an index assignment; 0 for the dimensions it keeps for itself. -/
def named (a : Dims) (σ : String → Nat) : List Nat :=
  List.zipWith (fun n sh => if sh then σ n else 0) a.name a.shared

/-! ## Positions as sums -/

theorem sum_mul_left (n : Nat) : ∀ l : List Nat, (l.map fun x => n * x).sum = n * l.sum
  | [] => rfl
  | a :: l => by rw [List.map_cons, List.sum_cons, sum_mul_left n l, List.sum_cons, Nat.mul_add]

theorem prod_positive : ∀ l : List Nat, (∀ x ∈ l, 0 < x) → 0 < l.prod
  | [], _ => by simp
  | a :: l, h => by
    rw [List.prod_cons]
    exact Nat.mul_pos (h a (by simp)) (prod_positive l fun x hx => h x (by simp [hx]))

theorem pos_eq_sum : ∀ (s is : List Nat), is.length = s.length →
    pos s is = ((List.range s.length).map fun i => is.getD i 0 * (s.take i).prod).sum
  | [], [], _ => rfl
  | n :: ns, i :: is, h => by
    have ih := pos_eq_sum ns is (by simpa using h)
    rw [pos, ih, List.length_cons, List.range_succ_eq_map, List.map_cons, List.sum_cons, List.map_map]
    have : (List.map ((fun j => (i :: is).getD j 0 * ((n :: ns).take j).prod) ∘ Nat.succ) (List.range ns.length)) =
        ((List.range ns.length).map fun j => is.getD j 0 * (ns.take j).prod).map fun x => n * x := by
      rw [List.map_map]
      refine List.map_congr_left fun j _ => ?_
      simp [Nat.mul_left_comm]
    rw [this, sum_mul_left]
    simp

theorem pos_append : ∀ (s1 s2 i1 i2 : List Nat), i1.length = s1.length →
    pos (s1 ++ s2) (i1 ++ i2) = pos s1 i1 + s1.prod * pos s2 i2
  | [], s2, [], i2, _ => by simp [pos]
  | n :: ns, s2, i :: is, i2, h => by
    have ih := pos_append ns s2 is i2 (by simpa using h)
    simp only [List.cons_append, pos, ih, List.prod_cons]
    ring_nf

theorem inShape_append : ∀ {s1 s2 i1 i2 : List Nat}, InShape s1 i1 → InShape s2 i2 → InShape (s1 ++ s2) (i1 ++ i2)
  | [], _, [], _, _, h => h
  | _ :: _, _, _ :: _, _, h1, h2 => ⟨h1.1, inShape_append h1.2 h2⟩

theorem inShape_map {l : List String} {len σ : String → Nat} (h : ∀ d ∈ l, σ d < len d) :
    InShape (l.map len) (l.map σ) := by
  induction l with
  | nil => exact trivial
  | cons a l ih => exact ⟨h a (by simp), ih fun d hd => h d (by simp [hd])⟩

/-! ## Offsets as positions -/

theorem offsetOf_sum (a : Dims) (σ : String → Nat) : ∀ ds : List String,
    offsetOf a ds (ds.map σ) = (((ds.map fun n => σ n * strideOf a n).sum : Nat) : Int)
  | [] => rfl
  | d :: ds => by
    rw [List.map_cons, offsetOf, offsetOf_sum a σ ds, List.map_cons, List.sum_cons]
    push_cast
    rfl

theorem strideOf_get {a : Dims} (hw : WF a) (hc : Contiguous a) {i : Nat} {n : String} (h : a.name[i]? = some n) :
    strideOf a n = if a.shared.getD i false then (a.length.take i).prod else 0 := by
  have hi : i < a.rank := by rw [← hw.name]; exact (List.getElem?_eq_some_iff.1 h).1
  unfold strideOf
  rw [findIdx?_of_get hw.nodup h]
  dsimp only
  rw [show a.delta.getD i 0 = (a.length.take i).prod by rw [List.getD_eq_getElem?_getD, hc i hi]; rfl]

theorem strideOf_ne_zero {a : Dims} (hw : WF a) {n : String} (h : strideOf a n ≠ 0) :
    ∃ i, i < a.rank ∧ a.name[i]? = some n ∧ a.shared.getD i false = true := by
  unfold strideOf at h
  cases hf : a.name.findIdx? (· == n) with
  | none => rw [hf] at h; exact absurd rfl h
  | some i =>
    rw [hf] at h
    dsimp only at h
    have hg := findIdx?_get hf
    refine ⟨i, by rw [← hw.name]; exact (List.getElem?_eq_some_iff.1 hg).1, hg, ?_⟩
    by_contra hc
    rw [if_neg hc] at h
    exact h rfl

/-- The offset of an array that takes part in a loop over the dimensions `ds`: the place of the array that the
index assignment names. -/
theorem offsetOf_eq_pos {a : Dims} (hw : WF a) (hc : Contiguous a) {ds : List String} (hn : ds.Nodup)
    (hin : ∀ i n, a.name[i]? = some n → a.shared.getD i false = true → n ∈ ds) (σ : String → Nat) :
    offsetOf a ds (ds.map σ) = (pos a.length (named a σ) : Int) := by
  rw [offsetOf_sum]
  congr 1
  have e1 : (ds.map fun n => σ n * strideOf a n).sum = (a.name.map fun n => σ n * strideOf a n).sum := by
    rw [← List.sum_toFinset _ hn, ← List.sum_toFinset _ hw.nodup]
    have h1 : ∑ n ∈ ds.toFinset, σ n * strideOf a n = ∑ n ∈ ds.toFinset ∪ a.name.toFinset, σ n * strideOf a n := by
      refine Finset.sum_subset Finset.subset_union_left fun x _ hx => ?_
      by_contra hne
      obtain ⟨i, -, hi, hs⟩ := strideOf_ne_zero hw (n := x) (fun h => hne (by rw [h, Nat.mul_zero]))
      exact hx (List.mem_toFinset.2 (hin i x hi hs))
    have h2 : ∑ n ∈ a.name.toFinset, σ n * strideOf a n = ∑ n ∈ ds.toFinset ∪ a.name.toFinset, σ n * strideOf a n := by
      refine Finset.sum_subset Finset.subset_union_right fun x _ hx => ?_
      by_contra hne
      obtain ⟨i, -, hi, -⟩ := strideOf_ne_zero hw (n := x) (fun h => hne (by rw [h, Nat.mul_zero]))
      exact hx (List.mem_toFinset.2 (List.mem_of_getElem? hi))
    rw [h1, h2]
  rw [e1, pos_eq_sum _ _ (by simp [named, hw.name, hw.shared, Dims.rank])]
  congr 1
  apply List.ext_getElem
  · simp [hw.name, Dims.rank]
  · intro i h1 h2
    simp only [List.getElem_map, List.getElem_range]
    have hi : i < a.name.length := by simpa using h1
    have hs : i < a.shared.length := by rw [hw.shared, ← hw.name]; exact hi
    rw [strideOf_get hw hc (List.getElem?_eq_getElem hi)]
    simp only [named, List.getD_eq_getElem?_getD, List.getElem?_zipWith, List.getElem?_eq_getElem hi,
      List.getElem?_eq_getElem hs, Option.getD_some]
    cases a.shared[i] <;> simp

/-! ## Groups of arrays with common lengths -/

/-- The group's dimensions have the lengths `len`, and they are the shared dimensions of its arrays. -/
structure Sized (len : String → Nat) (g : Group) : Prop where
  lengths : g.lengths = g.dims.map len
  dims : ∀ n, n ∈ g.dims → ∃ am ∈ g.arrays, ∃ i : Nat, am.1.name[i]? = some n ∧ am.1.shared.getD i false = true

/-- The shared dimensions of the array have the lengths `len`. -/
def LenOK (len : String → Nat) (a : Dims) : Prop :=
  ∀ (i : Nat) n, a.name[i]? = some n → a.shared.getD i false = true → a.length[i]? = some (len n)

theorem minimizeShared_cases (g : Group) (n : Nat) : g.minimizeShared n = .ub ∨
    ∃ g', g.minimizeShared n = .ok g' ∧ g'.dims = g.dims ∧ g'.lengths = g.lengths ∧ g'.arrays = g.arrays ∧
      (g.sharedDims = some 0 → g'.sharedDims = some 0) := by
  unfold Group.minimizeShared
  split_ifs with h1 h2
  · right
    refine ⟨_, rfl, rfl, rfl, rfl, fun h => ?_⟩
    rw [h] at h1; simp at h1
  · left; rfl
  · right; exact ⟨g, rfl, rfl, rfl, rfl, fun h => h⟩

/-- One step of adding an array with fitting lengths does not raise, and keeps the lengths. -/
theorem addStep_sized {len : String → Nat} {a : Dims} (hw : WF a) (hl : LenOK len a) {g : Group}
    {m : List (Option Nat)} {s : Nat} (hs : s < a.rank) (hg : g.lengths = g.dims.map len) :
    addStep a g m s = .ub ∨ ∃ g' m', addStep a g m s = .ok (g', m') ∧ g'.lengths = g'.dims.map len ∧
      g'.arrays.map Prod.fst = g.arrays.map Prod.fst ∧ (g.sharedDims = some 0 → g'.sharedDims = some 0) ∧
      (∀ n ∈ g'.dims, n ∈ g.dims ∨ (a.name[s]? = some n ∧ a.shared.getD s false = true)) := by
  have hsn : s < a.name.length := by rw [hw.name]; exact hs
  unfold addStep
  by_cases hsh : a.isShared s = false
  · rw [if_pos hsh]
    rcases minimizeShared_cases g s with e | ⟨g', e, h1, h2, h3, h4⟩
    · left; rw [e]; rfl
    · right; rw [e]
      exact ⟨g', m, rfl, by rw [h2, h1, hg], by rw [h3], h4, fun n hn => Or.inl (by rw [← h1]; exact hn)⟩
  · rw [if_neg hsh]
    have hshd : a.shared.getD s false = true := by
      unfold Dims.isShared at hsh
      rw [if_pos hs] at hsh
      simpa using hsh
    have hnm : a.name.getD s "" = a.name[s] := by
      rw [List.getD_eq_getElem?_getD, List.getElem?_eq_getElem hsn]; rfl
    have hlen : a.length.getD s 0 = len a.name[s] := by
      rw [List.getD_eq_getElem?_getD, hl s _ (List.getElem?_eq_getElem hsn) hshd]; rfl
    dsimp only
    cases hp : g.position (a.name.getD s "") with
    | some d =>
      dsimp only
      have hd : g.dims[d]? = some (a.name.getD s "") := findIdx?_get hp
      have : a.length.getD s 0 = g.lengths.getD d 0 := by
        rw [hlen, hg, List.getD_eq_getElem?_getD, List.getElem?_map, hd, hnm]; rfl
      rw [if_neg (by rw [this]; simp)]
      by_cases hds : d ≠ s
      · rw [if_pos hds]
        rcases minimizeShared_cases g (min s d) with e | ⟨g', e, h1, h2, h3, h4⟩
        · left; rw [e]; rfl
        · right; rw [e]
          exact ⟨g', _, rfl, by rw [h2, h1, hg], by rw [h3], h4, fun n hn => Or.inl (by rw [← h1]; exact hn)⟩
      · rw [if_neg hds]
        exact Or.inr ⟨g, _, rfl, hg, rfl, fun h => h, fun n hn => Or.inl hn⟩
    | none =>
      dsimp only
      have hnew : g.lengths ++ [a.length.getD s 0] = (g.dims ++ [a.name.getD s ""]).map len := by
        rw [List.map_append, hg, hlen, hnm]; rfl
      have hmem : ∀ n ∈ g.dims ++ [a.name.getD s ""],
          n ∈ g.dims ∨ (a.name[s]? = some n ∧ a.shared.getD s false = true) := by
        intro n hn
        rcases List.mem_append.1 hn with hn | hn
        · exact Or.inl hn
        · rw [List.mem_singleton] at hn
          rw [hn, hnm]
          exact Or.inr ⟨List.getElem?_eq_getElem hsn, hshd⟩
      by_cases hne : g.arrays ≠ []
      · rw [if_pos hne]
        rcases minimizeShared_cases { g with dims := g.dims ++ [a.name.getD s ""], lengths := g.lengths ++ [a.length.getD s 0] } s
          with e | ⟨g', e, h1, h2, h3, h4⟩
        · left; rw [e]; rfl
        · right; rw [e]
          refine ⟨_, _, rfl, ?_, ?_, h4, ?_⟩
          · show g'.lengths = g'.dims.map len
            rw [h2, h1]; exact hnew
          · show (g'.arrays.map fun o => (o.1, o.2 ++ [none])).map Prod.fst = _
            rw [h3, List.map_map]; rfl
          · intro n hn
            have hn : n ∈ g'.dims := hn
            rw [h1] at hn
            exact hmem n hn
      · rw [if_neg hne]
        exact Or.inr ⟨_, _, rfl, hnew, rfl, fun h => h, hmem⟩

theorem addLoop_sized {len : String → Nat} {a : Dims} (hw : WF a) (hl : LenOK len a) : ∀ (n s : Nat) (g : Group)
    (m : List (Option Nat)), s + n = a.rank → g.lengths = g.dims.map len →
    addLoop a n s g m = .ub ∨ ∃ g' m', addLoop a n s g m = .ok (g', m') ∧ g'.lengths = g'.dims.map len ∧
      g'.arrays.map Prod.fst = g.arrays.map Prod.fst ∧ (g.sharedDims = some 0 → g'.sharedDims = some 0) ∧
      (∀ n ∈ g'.dims, n ∈ g.dims ∨ ∃ i : Nat, a.name[i]? = some n ∧ a.shared.getD i false = true)
  | 0, s, g, m, _, hg => Or.inr ⟨g, m, rfl, hg, rfl, fun h => h, fun n hn => Or.inl hn⟩
  | n + 1, s, g, m, hs, hg => by
    rcases addStep_sized hw hl (m := m) (s := s) (by omega) hg with e | ⟨g', m', e, h1, h2, h3, h4⟩
    · left; rw [addLoop, e]; rfl
    · rcases addLoop_sized hw hl n (s + 1) g' m' (by omega) h1 with e' | ⟨g'', m'', e', k1, k2, k3, k4⟩
      · left; rw [addLoop, e]; exact e'
      · right
        refine ⟨g'', m'', by rw [addLoop, e]; exact e', k1, k2.trans h2, fun h => k3 (h3 h), ?_⟩
        intro x hx
        rcases k4 x hx with hx | hx
        · rcases h4 x hx with hx | hx
          · exact Or.inl hx
          · exact Or.inr ⟨s, hx⟩
        · exact Or.inr hx

/-- Adding an array with fitting lengths does not raise. -/
theorem add_sized {len : String → Nat} {g : Group} (hg : GroupOK g) (hz : Sized len g) {a : Dims} (hw : WF a)
    (hl : LenOK len a) (hne : g.arrays = [] → g.sharedDims = none) (hne' : g.sharedDims = none → g.dims = []) :
    ∃ g', g.add a = .ok g' ∧ GroupOK g' ∧ Sized len g' ∧ g'.arrays.map Prod.fst = g.arrays.map Prod.fst ++ [a] ∧
      g'.sharedDims ≠ none ∧ (g.sharedDims = some 0 → g'.sharedDims = some 0) := by
  have hok := add_ok hg hw hne hne'
  have hsz := addLoop_sized hw hl a.rank 0 g (List.replicate g.lengths.length none) (by omega) hz.lengths
  rcases hsz with e | ⟨g1, m1, e, h1, h2, h3, h4⟩
  · exfalso
    rcases hok with e' | ⟨g', e', -⟩
    · rw [Group.add, e] at e'; cases e'
    · rw [Group.add, e] at e'; cases e'
  · rcases minimizeShared_cases g1 a.rank with e2 | ⟨g2, e2, k1, k2, k3, k4⟩
    · exfalso
      rcases hok with e' | ⟨g', e', -⟩
      · rw [Group.add, e, Res.ok_bind] at e'; dsimp only at e'; rw [e2] at e'; cases e'
      · rw [Group.add, e, Res.ok_bind] at e'; dsimp only at e'; rw [e2] at e'; cases e'
    · have he : g.add a = .ok { g2 with arrays := g2.arrays ++ [(a, m1)] } := by
        rw [Group.add, e, Res.ok_bind]; dsimp only; rw [e2]; rfl
      rcases hok with e' | ⟨g', e', o1, o2, o3⟩
      · rw [he] at e'; cases e'
      · rw [he] at e'
        cases e'
        refine ⟨_, he, o1, ⟨?_, ?_⟩, o2, o3, fun h => k4 (h3 h)⟩
        · show g2.lengths = g2.dims.map len
          rw [k2, k1, h1]
        · intro n hn
          have hn : n ∈ g2.dims := hn
          rw [k1] at hn
          rcases h4 n hn with hn | ⟨i, hi⟩
          · obtain ⟨am, ham, i, hi⟩ := hz.dims n hn
            have : am.1 ∈ g2.arrays.map Prod.fst := by
              rw [k3, h2]; exact List.mem_map_of_mem ham
            obtain ⟨am', ham', he'⟩ := List.mem_map.1 this
            exact ⟨am', by simp [ham'], i, by rw [he']; exact hi⟩
          · exact ⟨(a, m1), by simp, i, hi⟩

theorem foldlM_add_sized {len : String → Nat} (as : List Dims) : ∀ (g : Group), GroupOK g → Sized len g →
    (g.arrays = [] → g.sharedDims = none) → (g.sharedDims = none → g.dims = []) →
    (∀ a ∈ as, WF a ∧ LenOK len a) →
    ∃ g', as.foldlM Group.add g = .ok g' ∧ GroupOK g' ∧ Sized len g' ∧
      g'.arrays.map Prod.fst = g.arrays.map Prod.fst ++ as ∧ (g'.arrays = [] → g'.sharedDims = none) ∧
      (g'.sharedDims = none → g'.dims = []) ∧ (g.sharedDims = some 0 → g'.sharedDims = some 0) := by
  induction as with
  | nil => intro g hg hz h1 h2 _; exact ⟨g, rfl, hg, hz, by simp, h1, h2, fun h => h⟩
  | cons a as ih =>
    intro g hg hz h1 h2 hw
    obtain ⟨g', e, hok, hz', hm, hs, h0⟩ := add_sized hg hz (hw a (by simp)).1 (hw a (by simp)).2 h1 h2
    have hne : g'.arrays ≠ [] := by
      intro h; rw [h] at hm; simp at hm
    obtain ⟨g'', e', hok', hz'', hm', k1, k2, k3⟩ := ih g' hok hz' (fun h => absurd h hne) (fun h => absurd h hs)
      (fun b hb => hw b (by simp [hb]))
    exact ⟨g'', by simp [List.foldlM_cons, e, e'], hok', hz'', by rw [hm', hm]; simp, k1, k2, fun h => k3 (h0 h)⟩

theorem emptyGroup_sized (len : String → Nat) : Sized len emptyGroup := ⟨rfl, by simp [emptyGroup]⟩

/-- All shared dimensions of the arrays are dimensions of the group. -/
theorem shared_in_dims {g : Group} (hg : GroupOK g) {am : Dims × List (Option Nat)} (ham : am ∈ g.arrays) {i : Nat}
    {n : String} (hi : am.1.name[i]? = some n) (hs : am.1.shared.getD i false = true) : n ∈ g.dims := by
  obtain ⟨w, mk⟩ := hg.arr am ham
  have hr : i < am.1.rank := by rw [← w.name]; exact (List.getElem?_eq_some_iff.1 hi).1
  obtain ⟨gd, h1, -⟩ := mk.cov i hr (by unfold Dims.isShared; rw [if_pos hr]; exact hs)
  rw [hi] at h1
  exact List.mem_of_getElem? h1

/-! ## Visits of a loop -/

/-- The index assignment of a list of indices. -/
def assign (ds : List String) (q : List Nat) (n : String) : Nat := q.getD (ds.idxOf n) 0

theorem map_assign {ds : List String} (hn : ds.Nodup) {q : List Nat} (hq : q.length = ds.length) :
    ds.map (assign ds q) = q := by
  apply List.ext_getElem
  · simp [hq]
  · intro i h1 h2
    simp only [List.getElem_map, assign]
    have hi : i < ds.length := by simpa using h1
    rw [List.Nodup.idxOf_getElem hn i hi, List.getD_eq_getElem?_getD, List.getElem?_eq_getElem h2]
    rfl

theorem inShape_of_map {l : List String} {len : String → Nat} {q : List Nat} (h : InShape (l.map len) q) :
    ∀ d ∈ l, assign l q d < len d := by
  intro d hd
  have hq : q.length = l.length := by have := InShape.length_eq h; simpa using this
  have key : ∀ (l : List String) (q : List Nat), InShape (l.map len) q → ∀ (i : Nat) (d : String) (x : Nat), l[i]? = some d →
      q[i]? = some x → x < len d := by
    intro l
    induction l with
    | nil => intro q _ i d x h; simp at h
    | cons a l ih =>
      intro q h i d x hd hx
      cases q with
      | nil => exact absurd h (by simp [InShape])
      | cons b q =>
        cases i with
        | zero => simp at hd hx; subst hd hx; exact h.1
        | succ i => exact ih q h.2 i d x (by simpa using hd) (by simpa using hx)
  have hi := List.idxOf_lt_length_iff.2 hd
  refine key l q h (l.idxOf d) d _ ?_ ?_
  · rw [List.getElem?_eq_getElem hi, List.getElem_idxOf]
  · unfold assign
    rw [List.getD_eq_getElem?_getD, List.getElem?_eq_getElem (by rw [hq]; exact hi)]
    rfl

/-- The visits of a loop without common block: each index assignment of the group's dimensions is visited exactly
once, and then the offset of every array is the place that the assignment names. -/
structure Visited (len : String → Nat) (g : Group) (as : List Dims) : Prop where
  positive : 0 < (g.dims.map len).prod
  /-- `next` tells whether there is another visit. -/
  last : ∀ n, n < (g.dims.map len).prod → ((next g (after g n)).2 = true ↔ n + 1 < (g.dims.map len).prod)
  /-- What is seen at visit `n`. -/
  visit : ∀ n, n < (g.dims.map len).prod → ∃ σ : String → Nat, (∀ d ∈ g.dims, σ d < len d) ∧
    pos (g.dims.map len) (g.dims.map σ) = n ∧ (after g n).idx = as.map fun a => (pos a.length (named a σ) : Int)

theorem visited {len : String → Nat} {g : Group} {as : List Dims} (hg : GroupOK g) (hz : Sized len g)
    (h0 : g.sharedDims = some 0) (hm : g.arrays.map Prod.fst = as) (hc : ∀ a ∈ as, Contiguous a)
    (hpos : ∀ d ∈ g.dims, 0 < len d) : Visited len g as := by
  have hll : loopLengths g = g.dims.map len := by simp [loopLengths, h0, hz.lengths]
  have hp' : ∀ l ∈ loopLengths g, 0 < l := by
    rw [hll]; intro l hl
    obtain ⟨d, hd, rfl⟩ := List.mem_map.1 hl
    exact hpos d hd
  refine ⟨prod_positive _ (by rw [← hll]; exact hp'), ?_, ?_⟩
  · intro n hn
    rw [← hll] at hn ⊢
    obtain ⟨h1, h2, h3, h4, h5⟩ := after_spec hg hp' n hn
    have := nextGo_spec g (g.lengths.length - g.sharedDims.getD g.lengths.length)
        (g.sharedDims.getD g.lengths.length) (after g n) _ (by rw [h0]; simp) h2 h1 rfl h4
    obtain ⟨-, -, -, i4, i5, i6⟩ := this
    have h5' : pos (List.drop (g.sharedDims.getD g.lengths.length) g.lengths)
      (List.drop (g.sharedDims.getD g.lengths.length) (after g n).pos) = n := h5
    rw [h5'] at i5 i6
    simp only [next, Bool.not_eq_true', loopLengths]
    constructor
    · intro hf
      have := i5 hf
      have hlt := pos_lt i4
      omega
    · intro hlt
      cases hc : (nextGo g (g.lengths.length - g.sharedDims.getD g.lengths.length)
        (g.sharedDims.getD g.lengths.length) (after g n)).2 with
      | false => rfl
      | true => have := (i6 hc).1; omega
  · intro n hn
    rw [← hll] at hn
    obtain ⟨h1, h2, h3, h4, h5⟩ := after_spec hg hp' n hn
    simp only [h0, Option.getD_some, List.drop_zero] at h4 h5
    rw [hll] at h4 h5
    have hq : (after g n).pos.length = g.dims.length := by rw [h2, hg.len]
    refine ⟨assign g.dims (after g n).pos, inShape_of_map h4, by rw [map_assign hg.nodup hq]; exact h5, ?_⟩
    rw [h1, ← hm, List.map_map]
    refine List.map_congr_left fun am ham => ?_
    have e := dot_eq_offsetOf hg ham (after g n).pos 0 (by rw [hq]; omega)
    rw [List.drop_zero] at e
    rw [e]
    have e2 := offsetOf_eq_pos (hg.arr am ham).1 (hc am.1 (by rw [← hm]; exact List.mem_map_of_mem ham)) hg.nodup
      (fun i n hi hs => shared_in_dims hg ham hi hs) (assign g.dims (after g n).pos)
    rw [map_assign hg.nodup hq] at e2
    exact e2

end Fimex.ArrayLoop
