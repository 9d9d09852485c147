import Verif.Interp.Forward
import Mathlib.Data.List.Induction
import Mathlib.Data.List.Sort
import Mathlib.Tactic.ByContra

/-!
# Forward interpolation: properties (C37)
-/

namespace Fimex.Interp.Forward

open Fimex.Interp

set_option linter.unusedSectionVars false

variable {K : Type} [Field K] [LinearOrder K] [FloorRing K] [IsStrictOrderedRing K]

/-! ## The aggregators -/

omit [FloorRing K] in
theorem sum_fold (k : Kind) (hk : k = .sum ∨ k = .mean) (vals : List K) : ∀ a : Agg K, ∀ v : K, a.val = some v →
    (vals.map some).foldl (Agg.push k) a = ⟨a.count + vals.length, some (v + vals.sum), a.values⟩ := by
  induction vals with
  | nil => intro a v hv; cases a; simp_all
  | cons x vals ih =>
    intro a v hv
    have h1 : Agg.push k a (some x) = ⟨a.count + 1, some (v + x), a.values⟩ := by
      rcases hk with rfl | rfl <;> simp [Agg.push, hv, oadd]
    rw [List.map_cons, List.foldl_cons, h1, ih _ (v + x) rfl]
    simp [add_assoc, add_comm 1]

omit [FloorRing K] in
theorem median_fold (vals : List K) : ∀ a : Agg K,
    (vals.map some).foldl (Agg.push .median) a = { a with values := a.values ++ vals.map some } := by
  induction vals with
  | nil => intro a; simp
  | cons x vals ih => intro a; rw [List.map_cons, List.foldl_cons, ih]; simp [Agg.push]

omit [FloorRing K] in
theorem min_fold (vals : List K) : ∃ a : Agg K, (vals.map some).foldl (Agg.push .min) Agg.new = a ∧
    a.count = vals.length ∧ a.values = [] ∧ (vals = [] → a.val = some 0) ∧
    (vals ≠ [] → ∃ m, a.val = some m ∧ m ∈ vals ∧ ∀ v ∈ vals, m ≤ v) := by
  induction vals using List.reverseRecOn with
  | nil => exact ⟨_, rfl, rfl, rfl, fun _ => rfl, fun h => absurd rfl h⟩
  | append_singleton vals x ih =>
    obtain ⟨a, ha, hc, hv, h0, h1⟩ := ih
    rw [List.map_append, List.foldl_append, ha]
    refine ⟨_, rfl, by simp [Agg.push, hc], by simp [Agg.push, hv], fun h => by simp at h, ?_⟩
    intro _
    by_cases hn : vals = []
    · subst hn
      exact ⟨x, by simp [Agg.push, hc], by simp, by simp⟩
    · obtain ⟨m, hm, hmem, hle⟩ := h1 hn
      have hc' : a.count ≠ 0 := by rw [hc]; simpa using hn
      by_cases hlt : x < m
      · refine ⟨x, by simp [Agg.push, hm, olt, hlt], by simp, ?_⟩
        intro v hv
        rcases List.mem_append.1 hv with hv | hv
        · exact le_trans hlt.le (hle v hv)
        · simp at hv; exact hv.ge
      · refine ⟨m, by simp [Agg.push, hm, olt, hlt, hc'], by simp [hmem], ?_⟩
        intro v hv
        rcases List.mem_append.1 hv with hv | hv
        · exact hle v hv
        · simp at hv; rw [hv]; exact not_lt.1 hlt

omit [FloorRing K] in
theorem max_fold (vals : List K) : ∃ a : Agg K, (vals.map some).foldl (Agg.push .max) Agg.new = a ∧
    a.count = vals.length ∧ a.values = [] ∧ (vals = [] → a.val = some 0) ∧
    (vals ≠ [] → ∃ m, a.val = some m ∧ m ∈ vals ∧ ∀ v ∈ vals, v ≤ m) := by
  induction vals using List.reverseRecOn with
  | nil => exact ⟨_, rfl, rfl, rfl, fun _ => rfl, fun h => absurd rfl h⟩
  | append_singleton vals x ih =>
    obtain ⟨a, ha, hc, hv, h0, h1⟩ := ih
    rw [List.map_append, List.foldl_append, ha]
    refine ⟨_, rfl, by simp [Agg.push, hc], by simp [Agg.push, hv], fun h => by simp at h, ?_⟩
    intro _
    by_cases hn : vals = []
    · subst hn
      exact ⟨x, by simp [Agg.push, hc], by simp, by simp⟩
    · obtain ⟨m, hm, hmem, hle⟩ := h1 hn
      have hc' : a.count ≠ 0 := by rw [hc]; simpa using hn
      by_cases hlt : m < x
      · refine ⟨x, by simp [Agg.push, hm, olt, hlt], by simp, ?_⟩
        intro v hv
        rcases List.mem_append.1 hv with hv | hv
        · exact le_trans (hle v hv) hlt.le
        · simp at hv; exact hv.le
      · refine ⟨m, by simp [Agg.push, hm, olt, hlt, hc'], by simp [hmem], ?_⟩
        intro v hv
        rcases List.mem_append.1 hv with hv | hv
        · exact hle v hv
        · simp at hv; rw [hv]; exact not_lt.1 hlt

omit [FloorRing K] [IsStrictOrderedRing K] in
theorem reset_new (a : Agg K) (v : Option K) (hv : a.values = []) :
    a.reset v = (if a.count = 0 then none else v, Agg.new) := by
  unfold Agg.reset Agg.new
  by_cases h : a.count = 0
  · rw [if_pos h, if_pos h]; cases a; simp_all
  · rw [if_neg h, if_neg h]; cases a; simp_all

omit [FloorRing K] in
/-- Pushing defined values into a fresh aggregator and reading it gives the aggregate and a fresh aggregator. -/
theorem agg_spec (k : Kind) (vals : List K) :
    ∃ r, ((vals.map some).foldl (Agg.push k) Agg.new).getAndReset k = .ok (r, Agg.new) ∧ IsAggregate k vals r := by
  have hlen : (vals.length = 0) ↔ vals = [] := List.length_eq_zero_iff
  unfold IsAggregate
  cases k with
  | sum =>
    rw [sum_fold .sum (Or.inl rfl) vals Agg.new 0 rfl]
    simp only [Agg.getAndReset]
    rw [reset_new _ _ rfl]
    refine ⟨_, rfl, ?_⟩
    by_cases h : vals = []
    · simp [h, Agg.new]
    · simp [h, Agg.new]
  | mean =>
    rw [sum_fold .mean (Or.inr rfl) vals Agg.new 0 rfl]
    simp only [Agg.getAndReset]
    rw [reset_new _ _ rfl]
    refine ⟨_, rfl, ?_⟩
    by_cases h : vals = []
    · simp [h, Agg.new]
    · have : 0 < vals.length := List.length_pos_iff.2 h
      simp [h, Agg.new, this]
  | min =>
    obtain ⟨a, ha, hc, hv, h0, h1⟩ := min_fold vals
    rw [ha]
    simp only [Agg.getAndReset]
    rw [reset_new _ _ hv]
    refine ⟨_, rfl, ?_⟩
    by_cases h : vals = []
    · rw [if_pos h, hc, if_pos (hlen.2 h)]
    · rw [if_neg h, hc, if_neg fun c => h (hlen.1 c)]
      exact h1 h
  | max =>
    obtain ⟨a, ha, hc, hv, h0, h1⟩ := max_fold vals
    rw [ha]
    simp only [Agg.getAndReset]
    rw [reset_new _ _ hv]
    refine ⟨_, rfl, ?_⟩
    by_cases h : vals = []
    · rw [if_pos h, hc, if_pos (hlen.2 h)]
    · rw [if_neg h, hc, if_neg fun c => h (hlen.1 c)]
      exact h1 h
  | median =>
    rw [median_fold]
    by_cases h : vals = []
    · subst h; exact ⟨none, rfl, by rw [if_pos rfl]⟩
    · have hm : vals.map some ≠ [] := by simpa using h
      have e : Agg.getAndReset .median (⟨0, some 0, vals.map some⟩ : Agg K) =
          (nthElement (vals.map some) ((vals.map some).length / 2) >>= fun m => .ok (m, ⟨0, some 0, []⟩)) := if_neg hm
      show ∃ r, Agg.getAndReset .median (⟨0, some 0, vals.map some⟩ : Agg K) = _ ∧ _
      rw [e]
      have hnn : ¬ (none : Option K) ∈ vals.map some := by simp
      have hfm : (vals.map some).filterMap id = vals := by simp
      unfold nthElement
      rw [if_neg hnn, hfm, List.length_map]
      have hpos : 0 < vals.length := List.length_pos_iff.2 h
      have hsorted : (vals.mergeSort fun a b => decide (a ≤ b)).Pairwise (· ≤ ·) := by
        have := List.pairwise_mergeSort (le := fun a b : K => decide (a ≤ b))
          (by intro a b c h1 h2; simp only [decide_eq_true_eq] at *; exact le_trans h1 h2)
          (by intro a b; simp only [Bool.or_eq_true, decide_eq_true_eq]; exact le_total a b) vals
        simpa using this
      have hl : vals.length / 2 < (vals.mergeSort fun a b => decide (a ≤ b)).length := by
        rw [List.length_mergeSort]; omega
      refine ⟨some ((vals.mergeSort fun a b => decide (a ≤ b))[vals.length / 2]), ?_,
        by rw [if_neg h]; exact ⟨(vals.mergeSort fun a b => decide (a ≤ b)), List.mergeSort_perm _ _, hsorted,
          by rw [List.getElem?_eq_getElem hl]⟩⟩
      · unfold readAt
        rw [List.getElem?_eq_getElem hl]
        rfl

/-! ## One layer -/

omit [FloorRing K] [IsStrictOrderedRing K] in
theorem pushAll_eq (k : Kind) (data : List (Option K)) (g : ℕ → Option K) (l : List ℕ) : ∀ a : Agg K,
    (∀ i ∈ l, readAt data i = .ok (g i)) →
    pushAll k false data l a = .ok (((l.filterMap g).map some).foldl (Agg.push k) a) := by
  induction l with
  | nil => intro a _; rfl
  | cons i l ih =>
    intro a h
    rw [pushAll, h i (by simp), Res.ok_bind, ih _ fun j hj => h j (by simp [hj])]
    cases hg : g i with
    | none => simp [hg]
    | some v => simp [hg]

omit [FloorRing K] in
theorem layer_eq (k : Kind) (data : List (Option K)) (g : ℕ → Option K) (pts : List (List ℕ)) :
    (∀ l ∈ pts, ∀ i ∈ l, readAt data i = .ok (g i)) →
    ∃ res, layer k false data pts Agg.new = .ok (res, Agg.new) ∧ res.length = pts.length ∧
      ∀ (o : ℕ) (l : List ℕ), pts[o]? = some l → ∃ r, res[o]? = some r ∧ IsAggregate k (l.filterMap g) r := by
  induction pts with
  | nil => intro _; exact ⟨[], rfl, rfl, by intro o l h; simp at h⟩
  | cons l pts ih =>
    intro h
    obtain ⟨res, hres, hlen, hr⟩ := ih fun l' hl' => h l' (by simp [hl'])
    obtain ⟨r, hr1, hr2⟩ := agg_spec k (l.filterMap g)
    rw [layer, pushAll_eq k data g l _ (h l (by simp)), Res.ok_bind, hr1, Res.ok_bind]
    simp only
    rw [hres, Res.ok_bind]
    refine ⟨_, rfl, by simp [hlen], ?_⟩
    intro o l' ho
    cases o with
    | zero =>
      simp only [List.getElem?_cons_zero, Option.some.injEq] at ho
      subst ho
      exact ⟨r, rfl, hr2⟩
    | succ o => exact hr o l' ho

omit [FloorRing K] [IsStrictOrderedRing K] in
theorem layers_eq (k : Kind) (data : List (Option K)) (pts : List (List ℕ)) (res : List (Option K))
    (h : layer k false data pts Agg.new = .ok (res, Agg.new)) (n : ℕ) :
    layers k false data pts n Agg.new = .ok ((List.range n).flatMap fun _ => res) := by
  induction n with
  | zero => rfl
  | succ n ih =>
    rw [layers, h, Res.ok_bind]
    simp only
    rw [ih, Res.ok_bind, List.range_succ_eq_map, List.flatMap_cons, List.flatMap_map]

/-! ## The assignment of input cells to output cells -/

/-- The input cells among the first `n` that belong to an output cell. -/
def sourcesTo (pos : List (K × K)) (outX outY n x y : ℕ) : List ℕ :=
  (List.range n).filter fun i => (pos[i]?.bind (target outX outY)) = some (x, y)

/-- Invariant of the loop over the input cells. -/
structure SI (pos : List (K × K)) (inX outX outY n : ℕ) (s : Scan) : Prop where
  len : s.points.length = outX * outY
  pts : ∀ x y, x < outX → y < outY → s.points[y * outX + x]? = some (sourcesTo pos outX outY n x y)
  empty : s.maxPoints = 0 → ∀ i < n, pos[i]?.bind (target outX outY) = none
  cover : ∀ i < n, pos[i]?.bind (target outX outY) ≠ none →
    s.range.minX ≤ i % inX ∧ i % inX ≤ s.range.maxX ∧ s.range.minY ≤ i / inX ∧ i / inX ≤ s.range.maxY
  ord : s.maxPoints ≠ 0 → s.range.minX ≤ s.range.maxX ∧ s.range.minY ≤ s.range.maxY

omit [IsStrictOrderedRing K] in
theorem sourcesTo_succ (pos : List (K × K)) (outX outY n x y : ℕ) : sourcesTo pos outX outY (n + 1) x y =
    sourcesTo pos outX outY n x y ++
      if (pos[n]?.bind (target outX outY)) = some (x, y) then [n] else [] := by
  unfold sourcesTo
  rw [List.range_succ, List.filter_append]
  congr 1
  by_cases h : (pos[n]?.bind (target outX outY)) = some (x, y)
  · simp [h]
  · simp [h]

theorem index_inj {outX x y x' y' : ℕ} (hx : x < outX) (hx' : x' < outX) (h : y * outX + x = y' * outX + x') :
    x = x' ∧ y = y' := by
  have h1 : (y * outX + x) % outX = x := by rw [Nat.add_comm, Nat.add_mul_mod_self_right, Nat.mod_eq_of_lt hx]
  have h2 : (y' * outX + x') % outX = x' := by rw [Nat.add_comm, Nat.add_mul_mod_self_right, Nat.mod_eq_of_lt hx']
  have hxx : x = x' := by rw [← h1, h, h2]
  subst hxx
  refine ⟨rfl, ?_⟩
  have : y * outX = y' * outX := by omega
  exact Nat.eq_of_mul_eq_mul_right (by omega) this

theorem extend_cover (r : Ranges) (ix iy : ℕ) :
    (extend r ix iy).minX ≤ ix ∧ (ix ≤ (extend r ix iy).maxX ∨ ix < r.minX) ∧
    (extend r ix iy).minY ≤ iy ∧ (iy ≤ (extend r ix iy).maxY ∨ iy < r.minY) ∧
    (extend r ix iy).minX ≤ r.minX ∧ r.maxX ≤ (extend r ix iy).maxX ∧
    (extend r ix iy).minY ≤ r.minY ∧ r.maxY ≤ (extend r ix iy).maxY := by
  unfold extend MinMax.minimaximize
  dsimp only
  refine ⟨?_, ?_, ?_, ?_, ?_, ?_, ?_, ?_⟩ <;> (split <;> (try split) <;> dsimp only <;> omega)

theorem scanCell_ok (pos : List (K × K)) {inX outX outY n : ℕ} {s : Scan} {p : K × K}
    (hX : 0 < outX) (hY : 0 < outY) (hX2 : outX ≤ invalid) (hY2 : outY ≤ invalid)
    (hp : pos[n]? = some p) (hr : IntRange p.1 ∧ IntRange p.2) (h : SI pos inX outX outY n s) :
    ∃ s', scanCell inX outX outY n p s = .ok s' ∧ SI pos inX outX outY (n + 1) s' := by
  unfold scanCell
  rw [roundAndClamp_eq hX hX2 hr.1, Res.ok_bind, roundAndClamp_eq hY hY2 hr.2, Res.ok_bind]
  by_cases hv : Near outX p.1 ∧ Near outY p.2
  · obtain ⟨i, hi, hi', hie⟩ := near_lround hv.1 hX
    obtain ⟨j, hj, hj', hje⟩ := near_lround hv.2 hY
    have ht : pos[n]?.bind (target outX outY) = some (i, j) := by
      rw [hp]
      show target outX outY p = _
      unfold target
      rw [if_pos hv, hie, hje]
    rw [if_pos hv.1, if_pos hv.2, hie, hje, if_pos (by omega)]
    dsimp only
    have hread : readAt s.points (j * outX + i) = .ok (sourcesTo pos outX outY n i j) := by
      unfold readAt; rw [h.pts i j hi' hj']
    rw [hread, Res.ok_bind]
    refine ⟨_, rfl, ?_⟩
    have hlt : j * outX + i < s.points.length := by
      rw [h.len]
      have : (j + 1) * outX ≤ outY * outX := Nat.mul_le_mul_right _ hj'
      rw [Nat.add_mul, Nat.mul_comm outY] at this
      omega
    refine ⟨by simp [h.len], ?_, ?_, ?_, ?_⟩
    · intro x y hx hy
      dsimp only
      rw [sourcesTo_succ, ht]
      by_cases hxy : j * outX + i = y * outX + x
      · obtain ⟨rfl, rfl⟩ := index_inj hi' hx hxy
        rw [List.getElem?_set_self hlt, if_pos rfl]
      · rw [List.getElem?_set_ne hxy, h.pts x y hx hy, if_neg, List.append_nil]
        intro he
        simp only [Option.some.injEq, Prod.mk.injEq] at he
        exact hxy (by rw [he.1, he.2])
    · intro hm
      exfalso
      dsimp only at hm
      unfold MinMax.maximize at hm
      rw [List.length_append, List.length_singleton] at hm
      by_cases hgt : (sourcesTo pos outX outY n i j).length + 1 > s.maxPoints
      · rw [if_pos hgt] at hm; dsimp only at hm; omega
      · rw [if_neg hgt] at hm; dsimp only at hm; omega
    · intro q hq hq2
      dsimp only
      by_cases hm : s.maxPoints = 0
      · rw [if_pos hm]
        dsimp only
        rcases Nat.lt_succ_iff_lt_or_eq.1 hq with hq' | rfl
        · exact absurd (h.empty hm q hq') hq2
        · omega
      · rw [if_neg hm]
        have e := extend_cover s.range (n % inX) (n / inX)
        have ho := h.ord hm
        rcases Nat.lt_succ_iff_lt_or_eq.1 hq with hq' | rfl
        · have := h.cover q hq' hq2
          omega
        · omega
    · intro _
      dsimp only
      by_cases hm : s.maxPoints = 0
      · rw [if_pos hm]
        exact ⟨le_rfl, le_rfl⟩
      · rw [if_neg hm]
        have e := extend_cover s.range (n % inX) (n / inX)
        have ho := h.ord hm
        omega
  · have ht : pos[n]?.bind (target outX outY) = none := by
      rw [hp]
      show target outX outY p = _
      unfold target
      rw [if_neg hv]
    have hinv : ¬ ((if Near outX p.1 then ⌊p.1 + 1 / 2⌋.toNat else invalid) ≠ invalid ∧
        (if Near outY p.2 then ⌊p.2 + 1 / 2⌋.toNat else invalid) ≠ invalid) := by
      rintro ⟨a, b⟩
      apply hv
      constructor
      · by_contra c; rw [if_neg c] at a; exact a rfl
      · by_contra c; rw [if_neg c] at b; exact b rfl
    rw [if_neg hinv]
    refine ⟨s, rfl, h.len, ?_, ?_, ?_, h.ord⟩
    · intro x y hx hy
      rw [sourcesTo_succ, ht, h.pts x y hx hy]
      simp
    · intro hm q hq
      rcases Nat.lt_succ_iff_lt_or_eq.1 hq with hq' | rfl
      · exact h.empty hm q hq'
      · exact ht
    · intro q hq hq2
      rcases Nat.lt_succ_iff_lt_or_eq.1 hq with hq' | rfl
      · exact h.cover q hq' hq2
      · exact absurd ht hq2

theorem scan_ok (pos : List (K × K)) {inX outX outY : ℕ}
    (hX : 0 < outX) (hY : 0 < outY) (hX2 : outX ≤ invalid) (hY2 : outY ≤ invalid)
    (hr : ∀ p ∈ pos, IntRange p.1 ∧ IntRange p.2) (rest : List (K × K)) : ∀ (done : List (K × K)) (s : Scan),
    pos = done ++ rest → SI pos inX outX outY done.length s →
    ∃ s', scan inX outX outY rest done.length s = .ok s' ∧ SI pos inX outX outY pos.length s' := by
  induction rest with
  | nil =>
    intro done s hp h
    rw [List.append_nil] at hp
    subst hp
    exact ⟨s, rfl, h⟩
  | cons p rest ih =>
    intro done s hp h
    obtain ⟨s1, hs1, i1⟩ := scanCell_ok pos hX hY hX2 hY2 (p := p) (by rw [hp]; simp) (hr p (by rw [hp]; simp)) h
    rw [scan, hs1, Res.ok_bind]
    have := ih (done ++ [p]) s1 (by rw [hp]; simp) (by rw [List.length_append]; exact i1)
    rwa [List.length_append] at this

theorem scan_new (pos : List (K × K)) (inX outX outY : ℕ) :
    SI pos inX outX outY 0 ⟨List.replicate (outX * outY) [], ⟨0, 0, 0, 0⟩, 0⟩ := by
  refine ⟨by simp, ?_, by intro _ i hi; omega, by intro i hi; omega, by intro h; exact absurd rfl h⟩
  intro x y hx hy
  have : y * outX + x < outX * outY := by
    have : (y + 1) * outX ≤ outY * outX := Nat.mul_le_mul_right _ hy
    rw [Nat.add_mul, Nat.mul_comm outY] at this
    omega
  rw [List.getElem?_replicate, if_pos this]
  rfl

theorem create_ok (F : List (Option K)) (inX inY inZ outX outY : ℕ) (pos : List (K × K))
    (hl : F.length = inX * inY * inZ) (hpos : pos.length = inX * inY) (hX : 0 < inX) (hY : 0 < inY) (hZ : 0 < inZ)
    (h64 : inX * inY < two64) (hoX : 0 < outX) (hoY : 0 < outY) (hoX2 : outX ≤ invalid) (hoY2 : outY ≤ invalid)
    (hr : ∀ p ∈ pos, IntRange p.1 ∧ IntRange p.2) :
    ∃ (c : CachedForward) (red : ℕ → ℕ), create pos inX inY outX outY = .ok c ∧
      0 < c.inX ∧ 0 < c.inY ∧ (inputData F inX inY inZ c.origin c.inX c.inY).length = c.inX * c.inY * inZ ∧
      c.points.length = outX * outY ∧
      (∀ x y, x < outX → y < outY → c.points[y * outX + x]? = some ((sources pos outX outY x y).map red)) ∧
      (∀ x y i, i ∈ sources pos outX outY x y →
        readAt (inputData F inX inY inZ c.origin c.inX c.inY) (red i) = .ok (F.getD i none)) := by
  have hinX64 : inX < two64 := lt_of_le_of_lt (Nat.le_mul_of_pos_right _ hY) h64
  have hinY64 : inY < two64 := lt_of_le_of_lt (Nat.le_mul_of_pos_left _ hX) h64
  obtain ⟨s, hs, hi⟩ := scan_ok pos (inX := inX) hoX hoY hoX2 hoY2 hr pos [] _ rfl (scan_new pos inX outX outY)
  have hsrc : ∀ x y i, i ∈ sources pos outX outY x y → i < inX * inY ∧ pos[i]?.bind (target outX outY) ≠ none := by
    intro x y i h
    unfold sources at h
    rw [List.mem_filter, List.mem_range, hpos] at h
    refine ⟨h.1, ?_⟩
    have := h.2
    simp only [decide_eq_true_eq] at this
    rw [this]
    exact Option.some_ne_none _
  unfold create
  rw [show ([] : List (K × K)).length = 0 from rfl] at hs
  rw [hs, Res.ok_bind]
  simp only [wsub_eq hX hinX64, wsub_eq hY hinY64]
  split
  · rename_i hred
    obtain ⟨-, hrx, hry⟩ := hred
    generalize hm : lower s.range.minX = m at *
    generalize hn : lower s.range.minY = n at *
    generalize hM : min (inX - 1) (s.range.maxX + 2) = M at *
    generalize hN : min (inY - 1) (s.range.maxY + 2) = N at *
    have hsub := subField_spec F inX inY inZ m n (M - m + 1) (N - n + 1)
    refine ⟨_, fun i => wsub (i / inX) n * (M - m + 1) + wsub (i % inX) m, rfl, by dsimp only; omega,
      by dsimp only; omega, hsub.1, by simp [hi.len], ?_, ?_⟩
    · intro x y hx hy
      dsimp only
      rw [List.getElem?_map, hi.pts x y hx hy]
      rfl
    · intro x y i hmem
      obtain ⟨hlt, hne⟩ := hsrc x y i hmem
      obtain ⟨c1, c2, c3, c4⟩ := hi.cover i (by omega) hne
      have hix : i % inX < inX := Nat.mod_lt _ hX
      have hiy : i / inX < inY := Nat.div_lt_of_lt_mul hlt
      have hmi : m ≤ i % inX := by rw [← hm]; unfold lower; split <;> omega
      have hnj : n ≤ i / inX := by rw [← hn]; unfold lower; split <;> omega
      have hiM : i % inX ≤ M := by rw [← hM]; omega
      have hjN : i / inX ≤ N := by rw [← hN]; omega
      have hMX : M ≤ inX - 1 := by rw [← hM]; omega
      have hNY : N ≤ inY - 1 := by rw [← hN]; omega
      dsimp only
      rw [wsub_eq hnj (by omega), wsub_eq hmi (by omega)]
      have h1 := (readI_cell (subField F inX inY inZ m n (M - m + 1) (N - n + 1)) hsub.1
        (i := i % inX - m) (j := i / inX - n) (z := 0) (by omega) (by omega) hZ).2
      rw [hsub.2 (i % inX - m) (i / inX - n) 0 (by omega) (by omega) hZ, show m + (i % inX - m) = i % inX by omega,
        show n + (i / inX - n) = i / inX by omega] at h1
      unfold readI at h1
      rw [if_neg (by omega), Int.toNat_natCast] at h1
      have he : (i / inX) * inX + i % inX = i := by rw [Nat.mul_comm]; exact Nat.div_add_mod i inX
      have hcell : cell F inX inY 0 (i % inX) (i / inX) = F.getD i none := by
        unfold cell
        rw [Nat.zero_mul, Nat.zero_add, he]
      rw [← hcell, ← h1]
      unfold inputData
      dsimp only
      congr 1
      ring
  · refine ⟨_, fun i => i, rfl, hX, hY, hl, hi.len, ?_, ?_⟩
    · intro x y hx hy
      dsimp only
      rw [hi.pts x y hx hy, List.map_id']
      rfl
    · intro x y i hmem
      obtain ⟨hlt, -⟩ := hsrc x y i hmem
      have hlen : i < F.length := by
        rw [hl]
        calc i < inX * inY := hlt
          _ = inX * inY * 1 := (Nat.mul_one _).symm
          _ ≤ inX * inY * inZ := Nat.mul_le_mul_left _ hZ
      unfold inputData readAt
      dsimp only
      rw [List.getElem?_eq_getElem hlen, List.getD_eq_getElem?_getD, List.getElem?_eq_getElem hlen]
      rfl

/-- The result for all layers: each is the aggregation of the first layer. -/
theorem forward_all (F : List (Option K)) (inX inY inZ outX outY : ℕ) (pos : List (K × K)) (k : Kind)
    (hl : F.length = inX * inY * inZ) (hpos : pos.length = inX * inY) (hX : 0 < inX) (hY : 0 < inY) (hZ : 0 < inZ)
    (h64 : inX * inY < two64) (hoX : 0 < outX) (hoY : 0 < outY) (hoX2 : outX ≤ invalid) (hoY2 : outY ≤ invalid)
    (hr : ∀ p ∈ pos, IntRange p.1 ∧ IntRange p.2) :
    ∃ c out, create pos inX inY outX outY = .ok c ∧
      interpolateValues k false c (inputData F inX inY inZ c.origin c.inX c.inY) = .ok out ∧
      out.length = outX * outY * inZ ∧
      ∀ x y z, x < outX → y < outY → z < inZ →
        IsAggregate k ((sources pos outX outY x y).filterMap fun i => F.getD i none) (cell out outX outY z x y) ∧
        cell out outX outY z x y = cell out outX outY 0 x y := by
  obtain ⟨c, red, hc, hcX, hcY, hlen, hpl, hpts, hread⟩ :=
    create_ok F inX inY inZ outX outY pos hl hpos hX hY hZ h64 hoX hoY hoX2 hoY2 hr
  set data := inputData F inX inY inZ c.origin c.inX c.inY with hdata
  obtain ⟨res, hres, hrl, hragg⟩ := layer_eq k data (fun i => data.getD i none) c.points (by
    intro l hl i hi
    obtain ⟨o, ho, rfl⟩ := List.getElem_of_mem hl
    rw [hpl] at ho
    have hy : o / outX < outY := Nat.div_lt_of_lt_mul ho
    have hx : o % outX < outX := Nat.mod_lt _ hoX
    have := hpts (o % outX) (o / outX) hx hy
    rw [Nat.mul_comm, Nat.div_add_mod, List.getElem?_eq_getElem (by rw [hpl]; exact ho), Option.some.injEq] at this
    rw [this, List.mem_map] at hi
    obtain ⟨j, hj, rfl⟩ := hi
    have := hread _ _ _ hj
    rw [this]
    unfold readAt at this
    rw [List.getD_eq_getElem?_getD]
    cases hd : data[red j]? with
    | none => rw [hd] at this; cases this
    | some v => rw [hd] at this; dsimp only at this; rw [List.getD_eq_getElem?_getD] at this; rw [← this, List.getD_eq_getElem?_getD, hd]; rfl)
  refine ⟨c, (List.range inZ).flatMap fun _ => res, hc, ?_, ?_, ?_⟩
  · unfold interpolateValues
    rw [if_neg (by have := Nat.mul_pos hcX hcY; omega), hlen, Nat.mul_div_cancel_left _ (Nat.mul_pos hcX hcY)]
    exact layers_eq k data c.points res hres inZ
  · have := (flatMap_range_get (fun _ => res) (outX * outY) inZ (by intro z _; rw [hrl, hpl])).1
    rw [this, Nat.mul_comm]
  · intro x y z hx hy hz
    have hget := (flatMap_range_get (fun _ => res) (outX * outY) inZ (by intro z _; rw [hrl, hpl])).2
    have hi : y * outX + x < outX * outY := by
      have : (y + 1) * outX ≤ outY * outX := Nat.mul_le_mul_right _ hy
      rw [Nat.add_mul, Nat.mul_comm outY] at this
      omega
    have hcellz : ∀ z, z < inZ →
        cell ((List.range inZ).flatMap fun _ => res) outX outY z x y = res.getD (y * outX + x) none := by
      intro z hz
      unfold cell
      rw [List.getD_eq_getElem?_getD, List.getD_eq_getElem?_getD,
        show (z * outY + y) * outX + x = z * (outX * outY) + (y * outX + x) by ring, hget z (y * outX + x) hz hi]
    obtain ⟨r, hr1, hr2⟩ := hragg _ _ (hpts x y hx hy)
    refine ⟨?_, by rw [hcellz z hz, hcellz 0 hZ]⟩
    rw [hcellz z hz, List.getD_eq_getElem?_getD, hr1]
    show IsAggregate k _ r
    rw [List.filterMap_map] at hr2
    rw [List.filterMap_congr (g := fun i => F.getD i none)] at hr2
    · exact hr2
    · intro i hi
      have := hread x y i hi
      unfold readAt at this
      show data.getD (red i) none = _
      rw [List.getD_eq_getElem?_getD]
      cases hd : data[red i]? with
      | none => rw [hd] at this; cases this
      | some v => rw [hd] at this; simpa using this

/-- The values of layer `z` that belong to an output cell. -/
def layerValues (F : List (Option K)) (size z : ℕ) (cells : List ℕ) : List K :=
  cells.filterMap fun i => F.getD (z * size + i) none

/-- **C37**, for the first layer.  Whether or not the input domain is reduced, the value of an output cell is the
aggregate of the defined values of the input cells whose nearest output cell it is; it is undefined when there is
none.  The full claim is the same for every layer `z`, with `layerValues F (inX * inY) z` and `cell out outX outY z`;
it is false, see `C37_second_layer_repeats_first`. -/
theorem C37_forward_partial (F : List (Option K)) (inX inY inZ outX outY : ℕ) (pos : List (K × K)) (k : Kind)
    (hl : F.length = inX * inY * inZ) (hpos : pos.length = inX * inY) (hX : 0 < inX) (hY : 0 < inY) (hZ : 0 < inZ)
    (h64 : inX * inY < two64) (hoX : 0 < outX) (hoY : 0 < outY) (hoX2 : outX ≤ invalid) (hoY2 : outY ≤ invalid)
    (hr : ∀ p ∈ pos, IntRange p.1 ∧ IntRange p.2) :
    ∃ c out, create pos inX inY outX outY = .ok c ∧
      interpolateValues k false c (inputData F inX inY inZ c.origin c.inX c.inY) = .ok out ∧
      out.length = outX * outY * inZ ∧
      ∀ x y, x < outX → y < outY →
        IsAggregate k (layerValues F (inX * inY) 0 (sources pos outX outY x y)) (cell out outX outY 0 x y) := by
  obtain ⟨c, out, h1, h2, h3, h4⟩ := forward_all F inX inY inZ outX outY pos k hl hpos hX hY hZ h64 hoX hoY hoX2 hoY2 hr
  refine ⟨c, out, h1, h2, h3, ?_⟩
  intro x y hx hy
  have := (h4 x y 0 hx hy hZ).1
  unfold layerValues
  simpa only [Nat.zero_mul, Nat.zero_add] using this

/-- What forward interpolation computes for the other layers: the first layer again, whatever they contain. -/
theorem C37_all_layers_repeat_first (F : List (Option K)) (inX inY inZ outX outY : ℕ) (pos : List (K × K)) (k : Kind)
    (hl : F.length = inX * inY * inZ) (hpos : pos.length = inX * inY) (hX : 0 < inX) (hY : 0 < inY) (hZ : 0 < inZ)
    (h64 : inX * inY < two64) (hoX : 0 < outX) (hoY : 0 < outY) (hoX2 : outX ≤ invalid) (hoY2 : outY ≤ invalid)
    (hr : ∀ p ∈ pos, IntRange p.1 ∧ IntRange p.2) :
    ∃ c out, create pos inX inY outX outY = .ok c ∧
      interpolateValues k false c (inputData F inX inY inZ c.origin c.inX c.inY) = .ok out ∧
      ∀ x y z, x < outX → y < outY → z < inZ → cell out outX outY z x y = cell out outX outY 0 x y := by
  obtain ⟨c, out, h1, h2, -, h4⟩ := forward_all F inX inY inZ outX outY pos k hl hpos hX hY hZ h64 hoX hoY hoX2 hoY2 hr
  exact ⟨c, out, h1, h2, fun x y z hx hy hz => (h4 x y z hx hy hz).2⟩

/-- The full claim fails for two layers: the sum 30 of the second layer is lost. -/
theorem C37_second_layer_repeats_first :
    ∃ c, create [((0 : ℚ), (0 : ℚ)), (1 / 4, 0)] 2 1 1 1 = .ok c ∧
      interpolateValues .sum false c [some (1 : ℚ), some 2, some 10, some 20] = .ok [some 3, some 3] ∧
      layerValues [some (1 : ℚ), some 2, some 10, some 20] 2 1 (sources [((0 : ℚ), (0 : ℚ)), (1 / 4, 0)] 1 1 0 0) =
        [10, 20] := ⟨⟨[[0, 1]], 2, 1, none⟩, by decide +kernel, by decide +kernel, by decide +kernel⟩

/-- The variants that keep undefined values: the extremes depend on the order of the input cells, and the median
hands NaN to `std::nth_element`. -/
theorem C37_undefined_values_order :
    interpolateValues .min true ⟨[[0, 1]], 2, 1, none⟩ [none, some (1 : ℚ)] = .ok [none] ∧
    interpolateValues .min true ⟨[[0, 1]], 2, 1, none⟩ [some (1 : ℚ), none] = .ok [some 1] ∧
    interpolateValues .median true ⟨[[0, 1]], 2, 1, none⟩ [some (1 : ℚ), none] = .ub := by
  refine ⟨?_, ?_, ?_⟩ <;> decide +kernel

/-- A concrete case: six input cells, two output cells, one input cell outside, one undefined. -/
example : (create [((0 : ℚ), (0 : ℚ)), (1 / 4, 0), (1, 1 / 4), (-1 / 4, 0), (3, 0), (5 / 4, 0)] 3 2 2 1 >>= fun c =>
      interpolateValues .mean false c [some (5 : ℚ), some 7, some 2, some 6, some 100, none]) =
    .ok [some 6, some 2] := by decide +kernel

end Fimex.Interp.Forward
