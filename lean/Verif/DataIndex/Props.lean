import Verif.DataIndex.Model
import Verif.Slice.Lemmas

/-!
# Property C09: array index maps are bijective

`InShape`, `pos` are the independent vocabulary of `Verif/Slice/Spec.lean`.
-/

namespace Fimex.DataIndex

theorem fillSlices_spec (dims : List Nat) : ∀ (n i : Nat) (sl : List Nat),
    1 ≤ i → i + n = dims.length → dims.length ≤ sl.length →
    (∀ k, k < i → sl[k]? = some (dims.take k).prod) →
    (fillSlices dims n i sl).length = sl.length ∧
    (∀ k, k < dims.length → (fillSlices dims n i sl)[k]? = some (dims.take k).prod) ∧
    (∀ k, dims.length ≤ k → (fillSlices dims n i sl)[k]? = sl[k]?) := by
  intro n
  induction n with
  | zero => intro i sl _ h _ hk; exact ⟨rfl, fun k hk' => hk k (by omega), fun _ _ => rfl⟩
  | succ n ih =>
    intro i sl h1 h2 h3 hk
    have hlen : (sl.set i (sl.getD (i - 1) 0 * dims.getD (i - 1) 0)).length = sl.length := by simp
    obtain ⟨a, b, c⟩ := ih (i + 1) (sl.set i (sl.getD (i - 1) 0 * dims.getD (i - 1) 0))
      (by omega) (by omega) (by simpa using h3) (by
        intro k hk'
        by_cases hki : k = i
        · subst hki
          have hp := hk (k - 1) (by omega)
          have htake : dims.take k = dims.take (k - 1) ++ [dims.getD (k - 1) 0] := by
            have := take_succ_getD dims (k - 1) (by omega)
            rwa [show k - 1 + 1 = k by omega] at this
          rw [List.getElem?_set_self (by omega), List.getD_eq_getElem?_getD, hp, htake]
          simp
        · rw [List.getElem?_set_ne (by omega)]
          exact hk k (by omega))
    refine ⟨by rw [fillSlices, a, hlen], fun k hk' => b k hk', fun k hk' => ?_⟩
    rw [fillSlices, c k hk', List.getElem?_set_ne (by omega)]

/-- The strides held by an index: products of the faster dimensions; zero beyond the rank. -/
theorem mk_slices (dims : List Nat) :
    (mk dims).slices.length = max dims.length minDims ∧
    (∀ k, k < dims.length → (mk dims).slices[k]? = some (dims.take k).prod) ∧
    (∀ k, dims.length ≤ k → k < max dims.length minDims → (mk dims).slices[k]? = some 0) := by
  by_cases h0 : 0 < dims.length
  · obtain ⟨a, b, c⟩ := fillSlices_spec dims (dims.length - 1) 1
      ((List.replicate (max dims.length minDims) 0).set 0 1) (by omega) (by omega)
      (by simp; omega) (by
        intro k hk
        have : k = 0 := by omega
        subst this
        rw [List.getElem?_set_self (by simp [minDims]; omega)]; simp)
    refine ⟨by simpa [mk, h0] using a, by simpa [mk, h0] using b, fun k hk1 hk2 => ?_⟩
    have := c k hk1
    rw [List.getElem?_set_ne (by omega), List.getElem?_replicate, if_pos hk2] at this
    simpa [mk, h0] using this
  · have hz : dims = [] := List.length_eq_zero_iff.1 (by omega)
    subst hz
    refine ⟨by simp [mk, fillSlices], by simp, fun k _ hk2 => ?_⟩
    simp [mk, fillSlices, List.getElem?_replicate]
    simpa using hk2

theorem getPos_go (ix : Index) (f : Nat → Nat) : ∀ (p : List Nat) (i acc : Nat),
    (∀ k, i ≤ k → k < i + p.length → ix.slices[k]? = some (f k)) →
    getPos.go ix i p acc = .ok (acc + ((p.zipIdx i).map fun e => e.1 * f e.2).sum) := by
  intro p
  induction p with
  | nil => intro i acc _; simp [getPos.go]
  | cons a p ih =>
    intro i acc h
    simp only [List.length_cons] at h
    simp only [getPos.go, at', h i (by omega) (by omega), Res.ok_bind]
    rw [ih (i + 1) _ (fun k h1 h2 => h k (by omega) (by omega))]
    simp only [List.zipIdx_cons, List.map_cons, List.sum_cons, Nat.add_assoc]

theorem sum_strides : ∀ (dims p : List Nat) (acc : Nat) (g : Nat → Nat) (i : Nat),
    p.length = dims.length → (∀ k, k < dims.length → g (i + k) = acc * (dims.take k).prod) →
    ((p.zipIdx i).map fun e => e.1 * g e.2).sum = acc * pos dims p := by
  intro dims
  induction dims with
  | nil => intro p acc g i h _; cases p <;> simp_all [pos]
  | cons d ds ih =>
    intro p acc g i h hg
    cases p with
    | nil => simp at h
    | cons a as =>
      simp only [List.length_cons, Nat.succ.injEq] at h
      have h0 : g i = acc := by simpa using hg 0 (by simp)
      have ih' := ih as (acc * d) g (i + 1) h (by
        intro k hk
        have := hg (k + 1) (by simpa using hk)
        rw [List.take_succ_cons, List.prod_cons, ← Nat.mul_assoc] at this
        rw [← this]; congr 1; omega)
      simp only [List.zipIdx_cons, List.map_cons, List.sum_cons, ih', h0, pos]
      rw [Nat.mul_add, Nat.mul_assoc, Nat.mul_comm a]

/-- A full-rank multi-index is mapped to its flat position (first dimension fastest). -/
theorem C09_getPos_is_flat_position (dims p : List Nat) (h : p.length = dims.length) :
    getPos (mk dims) p = .ok (pos dims p) := by
  obtain ⟨hl, hs, -⟩ := mk_slices dims
  unfold getPos
  rw [getPos_go (mk dims) (fun k => (dims.take k).prod) p 0 0
    (fun k _ hk => hs k (by omega))]
  rw [sum_strides dims p 1 (fun k => (dims.take k).prod) 0 h (by simp)]
  simp

/-- **C09.** In every shape: in-range multi-indices give positions below the number of elements,
different ones give different positions, and every position is reached. -/
theorem C09_index_bijective (dims : List Nat) :
    (∀ p, InShape dims p → ∃ k, getPos (mk dims) p = .ok k ∧ k < dims.prod) ∧
    (∀ p q, InShape dims p → InShape dims q → getPos (mk dims) p = getPos (mk dims) q → p = q) ∧
    (∀ k, k < dims.prod → ∃ p, InShape dims p ∧ getPos (mk dims) p = .ok k) := by
  refine ⟨fun p hp => ⟨pos dims p, C09_getPos_is_flat_position dims p hp.length_eq, pos_lt hp⟩,
    fun p q hp hq h => ?_, fun k hk => ?_⟩
  · rw [C09_getPos_is_flat_position dims p hp.length_eq,
      C09_getPos_is_flat_position dims q hq.length_eq] at h
    exact pos_inj hp hq (Res.ok.inj h)
  · obtain ⟨p, hp, rfl⟩ := exists_pos hk
    exact ⟨p, hp, C09_getPos_is_flat_position dims p hp.length_eq⟩

/-- A shorter index means 0 in the missing dimensions, as documented. -/
theorem C09_short_index_is_zero_padded (dims p : List Nat) (h : p.length ≤ dims.length) :
    getPos (mk dims) p = getPos (mk dims) (p ++ List.replicate (dims.length - p.length) 0) := by
  obtain ⟨hl, hs, -⟩ := mk_slices dims
  unfold getPos
  rw [getPos_go (mk dims) (fun k => (dims.take k).prod) p 0 0 (fun k _ hk => hs k (by omega)),
    getPos_go (mk dims) (fun k => (dims.take k).prod) _ 0 0
      (fun k _ hk => hs k (by simp at hk; omega))]
  congr 2
  rw [List.zipIdx_append, List.map_append, List.sum_append]
  suffices ∀ n i, (((List.replicate n 0).zipIdx i).map
      fun e : Nat × Nat => e.1 * (dims.take e.2).prod).sum = 0 by
    rw [this]; simp
  intro n
  induction n with
  | zero => intro i; simp
  | succ n ih => intro i; simp [List.replicate_succ, ih]

/-- An index with more components than `max(rank, 10)` raises; components between the rank and 10
are silently ignored. -/
theorem C09_long_index (dims p : List Nat) (h : dims.length ≤ p.length) :
    (p.length ≤ max dims.length minDims →
      getPos (mk dims) p = getPos (mk dims) (p.take dims.length)) ∧
    (max dims.length minDims < p.length → getPos (mk dims) p = .throws) := by
  obtain ⟨hl, hs, hz⟩ := mk_slices dims
  constructor
  · intro h2
    unfold getPos
    have hf : ∀ k, 0 ≤ k → k < 0 + p.length → (mk dims).slices[k]? =
        some (if k < dims.length then (dims.take k).prod else 0) := by
      intro k _ hk
      by_cases hkd : k < dims.length
      · simp [hkd, hs k hkd]
      · simp [hkd, hz k (by omega) (by omega)]
    rw [getPos_go (mk dims) _ p 0 0 hf,
      getPos_go (mk dims) _ (p.take dims.length) 0 0 (fun k h1 h2 => hf k h1 (by simp at h2; omega))]
    congr 2
    conv => lhs; rw [← List.take_append_drop dims.length p]
    rw [List.zipIdx_append, List.map_append, List.sum_append]
    have : ((((p.drop dims.length).zipIdx (0 + (p.take dims.length).length)).map
        fun e : Nat × Nat => e.1 * (if e.2 < dims.length then (dims.take e.2).prod else 0))).sum = 0 := by
      rw [List.sum_eq_zero_iff_forall_eq_nat]
      intro x hx
      rw [List.mem_map] at hx
      obtain ⟨e, he, rfl⟩ := hx
      have := (List.mem_zipIdx he).1
      simp only [List.length_take] at this
      rw [if_neg (by omega), Nat.mul_zero]
    rw [this, Nat.add_zero]
  · intro h2
    have key : ∀ (p : List Nat) (i acc : Nat), i ≤ (mk dims).slices.length →
        (mk dims).slices.length < i + p.length → getPos.go (mk dims) i p acc = .throws := by
      intro p
      induction p with
      | nil => intro i acc h1 h2; simp at h2; omega
      | cons a p ih =>
        intro i acc h1 h2
        simp only [getPos.go, at']
        cases hi : (mk dims).slices[i]? with
        | none => rfl
        | some v =>
          have hlt := (List.getElem?_eq_some_iff.1 hi).1
          exact ih (i + 1) _ (by omega) (by simp at h2; omega)
    exact key p 0 0 (by omega) (by omega)

/-- The overloads for two, three and four components agree with the general one (for arrays of at
least that rank; the first stride is 1). -/
theorem C09_overloads_agree (dims : List Nat) (a b c d : Nat) (h : 1 ≤ dims.length) :
    getPos1 (mk dims) a = getPos (mk dims) [a] ∧
    getPos2 (mk dims) a b = getPos (mk dims) [a, b] ∧
    getPos3 (mk dims) a b c = getPos (mk dims) [a, b, c] ∧
    getPos4 (mk dims) a b c d = getPos (mk dims) [a, b, c, d] := by
  obtain ⟨hl, hs, hz⟩ := mk_slices dims
  have h0 : (mk dims).slices[0]? = some 1 := by simpa using hs 0 (by omega)
  have hk : ∀ k, k < 10 → ∃ v, (mk dims).slices[k]? = some v := by
    intro k hk
    have : k < (mk dims).slices.length := by rw [hl]; simp [minDims]; omega
    exact ⟨_, List.getElem?_eq_getElem this⟩
  obtain ⟨v1, e1⟩ := hk 1 (by omega)
  obtain ⟨v2, e2⟩ := hk 2 (by omega)
  obtain ⟨v3, e3⟩ := hk 3 (by omega)
  simp [getPos1, getPos2, getPos3, getPos4, getPos, getPos.go, at', h0, e1, e2, e3]

/-- Non-vacuity. -/
example : InShape [4, 3, 2] [1, 2, 1] ∧ getPos (mk [4, 3, 2]) [1, 2, 1] = .ok 21 ∧
    getPos3 (mk [4, 3, 2]) 1 2 1 = .ok 21 := by decide

/-- **C09** for indexed data: a dimension list is accepted for non-empty data exactly when it
describes the number of values, and then the index is that of the list. -/
theorem C09_setDims (n : Nat) (dims : List Nat) (hn : 0 < n) :
    (setDims n dims = .throws ↔ dims.prod ≠ n) ∧
    (∀ ix, setDims n dims = .ok ix → ix = mk dims ∧
      ∀ p, InShape dims p → ∃ k, getPos ix p = .ok k ∧ k < n) := by
  unfold setDims
  by_cases h : dims.prod = n
  · simp only [h, if_true, ne_eq, not_true_eq_false, iff_false]
    refine ⟨(by simp), ?_⟩
    intro ix hix
    cases hix
    refine ⟨rfl, ?_⟩
    rw [← h]
    exact (C09_index_bijective dims).1
  · have hn' : n ≠ 0 := by omega
    simp [h, hn']

example : setDims 6 [2, 3] = .ok (mk [2, 3]) ∧ setDims 6 [2, 2] = .throws := by decide

end Fimex.DataIndex
