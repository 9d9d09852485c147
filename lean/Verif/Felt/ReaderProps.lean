import Verif.Felt.Reader
import Verif.Felt.ArraysProps

/-!
# Data of Felt files (C115): properties
-/

set_option linter.unusedSectionVars false

namespace Fimex.Felt

variable {K : Type}

/-! ## Blocks of equal length -/

theorem flatMap_length {A B : Type} (p : A → List B) (n : ℕ) (ks : List A) (h : ∀ k ∈ ks, (p k).length = n) : (ks.flatMap p).length = n * ks.length := by
  induction ks with
  | nil => simp
  | cons k ks ih =>
    rw [List.flatMap_cons, List.length_append, ih fun k hk => h k (List.mem_cons_of_mem _ hk), h k (by simp), List.length_cons]
    ring

theorem flatMap_at {A B : Type} (p : A → List B) (n : ℕ) (ks : List A) (h : ∀ k ∈ ks, (p k).length = n) (i j : ℕ) (k : A) (hi : ks[i]? = some k) (hj : j < n) :
    (ks.flatMap p)[j + n * i]? = (p k)[j]? := by
  induction ks generalizing i with
  | nil => simp at hi
  | cons k' ks ih =>
    have hk' : (p k').length = n := h k' (by simp)
    rw [List.flatMap_cons]
    cases i with
    | zero =>
      simp only [List.getElem?_cons_zero, Option.some.injEq] at hi
      subst hi
      rw [Nat.mul_zero, Nat.add_zero, List.getElem?_append_left (by omega)]
    | succ i =>
      rw [List.getElem?_cons_succ] at hi
      have e : j + n * (i + 1) = (j + n * i) + (p k').length := by rw [hk']; ring
      rw [e, List.getElem?_append_right (by omega), Nat.add_sub_cancel]
      exact ih (fun k hk => h k (List.mem_cons_of_mem _ hk)) i hi

section
variable [_root_.Field K] [LinearOrder K] [IsStrictOrderedRing K] [Inhabited K]

/-- Values that fill the rest of the cells exactly. -/
theorem fillCells_eq (a : Arr K) (delta : List K) (fill : Res K) (t : ℤ) (p : ℤ × ℤ → List K) (n : ℕ) (ks : List (ℤ × ℤ)) (pre : List (Option K))
    (hp : ∀ k ∈ ks, a.plane delta fill t k = .ok (p k)) (hn : ∀ k ∈ ks, (p k).length = n) :
    fillCells a delta fill (.ok t) ks (pre ++ List.replicate (n * ks.length) none) pre.length = .ok (pre ++ (ks.flatMap p).map some) := by
  induction ks generalizing pre with
  | nil => simp [fillCells]
  | cons k ks ih =>
    have hk := hn k (by simp)
    simp only [fillCells, Res.bind, hp k (by simp)]
    have e1 : copyInto (pre ++ List.replicate (n * (k :: ks).length) (none : Option K)) pre.length (p k) =
        .ok ((pre ++ (p k).map some) ++ List.replicate (n * ks.length) none) := by
      unfold copyInto
      rw [if_pos (by simp)]
      have e2 : (pre ++ List.replicate (n * (k :: ks).length) (none : Option K)).length - pre.length = n + n * ks.length := by
        simp
        ring
      have e3 : min ((pre ++ List.replicate (n * (k :: ks).length) (none : Option K)).length - pre.length) (p k).length = n := by
        rw [e2, hk]
        omega
      simp only [e3]
      rw [List.take_left, List.take_of_length_le (by omega), List.drop_append, List.drop_of_length_le (by omega)]
      congr 2
      rw [List.nil_append, List.drop_replicate]
      congr 1
      rw [List.length_cons, Nat.mul_add, Nat.mul_one]
      omega
    rw [e1]
    simp only
    have := ih (pre ++ (p k).map some) (fun k hk => hp k (List.mem_cons_of_mem _ hk)) fun k hk => hn k (List.mem_cons_of_mem _ hk)
    rw [List.length_append, List.length_map] at this
    rw [this]
    simp

/-- One of the levels cannot be read. -/
theorem fillCells_ok (a : Arr K) (delta : List K) (fill : Res K) (t : ℤ) (ks : List (ℤ × ℤ)) (cells d : List (Option K)) (pos : ℕ)
    (h : fillCells a delta fill (.ok t) ks cells pos = .ok d) : ∀ k ∈ ks, ∃ vs, a.plane delta fill t k = .ok vs := by
  induction ks generalizing cells pos with
  | nil => simp
  | cons k ks ih =>
    simp only [fillCells, Res.bind] at h
    intro k' hk'
    cases e : a.plane delta fill t k with
    | ok vs =>
      rw [e] at h
      simp only at h
      cases e2 : copyInto cells pos vs with
      | ok c =>
        rw [e2] at h
        simp only at h
        rcases List.mem_cons.1 hk' with rfl | hk'
        · exact ⟨vs, e⟩
        · exact ih _ _ h k' hk'
      | throws => rw [e2] at h; cases h
      | ub => rw [e2] at h; cases h
    | throws => rw [e] at h; cases h
    | ub => rw [e] at h; cases h

/-! ## Specification -/

/-- All fields of an array have the size of the grid. -/
structure SameSize (ff : FeltFile K) (a : Arr K) (gs : List (Field K)) (W H : ℕ) : Prop where
  file : ff.size = ((W : ℤ), (H : ℤ))
  first : a.first.nx = W ∧ a.first.ny = H
  values : ∀ g ∈ gs, g.values.length = W * H

/-- Levels of a variable: of the axis, or the only one of the array. -/
def levelsOf (ff : FeltFile K) (a : Arr K) : List (ℤ × ℤ) := if a.vertical then ff.levels a.first.vcoord else a.levels

/-- Number of members of a variable. -/
def memberCount (ff : FeltFile K) (a : Arr K) : ℕ := if a.ensemble then ff.members.length else 1

/-- Member `e` of level `lp`: of the axis, or the second level. -/
def IsMember (ff : FeltFile K) (a : Arr K) (lp : ℤ × ℤ) (e : ℕ) (m : ℤ) : Prop := if a.ensemble then ff.members[e]? = some m else e = 0 ∧ m = lp.2

theorem mem_levels (ff : FeltFile K) (a : Arr K) (n : String) (ha : (n, a) ∈ ff.arrays) (p : ℤ × ℤ) (hp : p ∈ a.levels) : p ∈ ff.levels a.first.vcoord := by
  unfold FeltFile.levels
  rw [(setOf_spec levelLess_total _).2, List.mem_flatMap]
  exact ⟨(n, a), List.mem_filter.2 ⟨ha, by simp⟩, hp⟩

theorem mem_members (ff : FeltFile K) (a : Arr K) (n : String) (ha : (n, a) ∈ ff.arrays) (m : ℤ) (hm : m ∈ a.members) : m ∈ ff.members := by
  unfold FeltFile.members
  rw [(setOf_spec timeLess_total _).2, List.mem_flatMap]
  exact ⟨(n, a), ha, hm⟩

theorem mem_times (ff : FeltFile K) (a : Arr K) (n : String) (ha : (n, a) ∈ ff.arrays) (t : ℤ) (ht : t ∈ a.times) : t ∈ ff.times := by
  unfold FeltFile.times
  rw [(setOf_spec timeLess_total _).2, List.mem_flatMap]
  exact ⟨(n, a), ha, ht⟩

theorem levels_ne_nil (a : Arr K) (gs : List (Field K)) (h : Holds a gs) : a.levels ≠ [] := by
  intro e
  have hm := (flat_iff a gs h (fun l => if isEps a.first.header then (l.1, 0) else l)
    (if isEps a.first.header then (a.first.level.1, 0) else a.first.level)).2 ⟨a.first, List.mem_of_head? h.first, rfl⟩
  have := ((setOf_spec levelLess_total _).2 _).2 hm
  unfold Arr.levels at e
  rw [e] at this
  simp at this

theorem vertical_false (a : Arr K) (gs : List (Field K)) (h : Holds a gs) (hv : a.vertical = false) : ∃ p, a.levels = [p] := by
  unfold Arr.vertical at hv
  cases hl : a.levels with
  | nil => exact absurd hl (levels_ne_nil a gs h)
  | cons p r =>
    cases r with
    | nil => exact ⟨p, rfl⟩
    | cons q r => rw [hl] at hv; simp at hv

theorem layers_eq (ff : FeltFile K) (a : Arr K) (gs : List (Field K)) (h : Holds a gs) (n : String) (ha : (n, a) ∈ ff.arrays) :
    ff.layers a = .ok (levelsOf ff a) := by
  unfold FeltFile.layers levelsOf
  cases hv : a.vertical with
  | true =>
    have : 0 < (ff.levels a.first.vcoord).length := by
      obtain ⟨p, hp⟩ := List.exists_mem_of_ne_nil _ (levels_ne_nil a gs h)
      exact List.length_pos_of_mem (mem_levels ff a n ha p hp)
    simp [this]
  | false =>
    obtain ⟨p, hp⟩ := vertical_false a gs h hv
    simp [hp]

theorem levelsOf_length (ff : FeltFile K) (a : Arr K) (gs : List (Field K)) (h : Holds a gs) :
    (levelsOf ff a).length = if a.vertical then (ff.levels a.first.vcoord).length else 1 := by
  unfold levelsOf
  cases hv : a.vertical with
  | true => simp
  | false =>
    obtain ⟨p, hp⟩ := vertical_false a gs h hv
    simp [hp]

theorem keys_length (ff : FeltFile K) (a : Arr K) (ls : List (ℤ × ℤ)) : (ff.keys a ls).length = memberCount ff a * ls.length := by
  unfold FeltFile.keys memberCount
  split_ifs
  · exact flatMap_length _ _ _ fun k _ => by simp
  · simp

theorem keys_at (ff : FeltFile K) (a : Arr K) (ls : List (ℤ × ℤ)) (l e : ℕ) (lp : ℤ × ℤ) (m : ℤ) (hl : ls[l]? = some lp) (hm : IsMember ff a lp e m) :
    e < memberCount ff a ∧ (ff.keys a ls)[e + memberCount ff a * l]? = some (lp.1, m) := by
  unfold FeltFile.keys memberCount
  unfold IsMember at hm
  split_ifs at hm ⊢ with he
  · have hlt : e < ff.members.length := by
      by_contra hc
      rw [List.getElem?_eq_none (by omega)] at hm
      cases hm
    refine ⟨hlt, ?_⟩
    rw [flatMap_at (fun l : ℤ × ℤ => ff.members.map fun m => (l.1, m)) ff.members.length ls (fun k _ => by simp) l e lp hl hlt]
    simp [hm]
  · obtain ⟨rfl, rfl⟩ := hm
    simp [hl]

/-- Size of a slice: the grid, times members, times levels. -/
theorem sliceSize_eq (ff : FeltFile K) (a : Arr K) (gs : List (Field K)) (h : Holds a gs) (W H : ℕ) (hs : ff.size = ((W : ℤ), (H : ℤ))) :
    ff.sliceSize a = W * H * (memberCount ff a * (levelsOf ff a).length) := by
  rw [levelsOf_length ff a gs h]
  unfold FeltFile.sliceSize Arr.shape memberCount
  cases a.ensemble <;> cases a.vertical <;> by_cases ht : a.times = [] <;> simp [ht, FeltFile.length, hs] <;> ring

/-- A plane has as many values as the grid. -/
theorem plane_length (ff : FeltFile K) (a : Arr K) (gs : List (Field K)) (h : Holds a gs) (W H : ℕ) (hs : SameSize ff a gs W H) (delta : List K) (fill : Res K)
    (t : ℤ) (k : ℤ × ℤ) (vs : List K) (hv : a.plane delta fill t k = .ok vs) : vs.length = W * H := by
  unfold Arr.plane at hv
  split at hv
  · rename_i ws hw
    injection hv with hv
    subst hv
    cases hf : a.field t k with
    | none => rw [((C114_slice a delta t k).1).2 hf] at hw; cases hw
    | some f =>
      rw [(C114_values a delta t k f hf ws hw).1]
      rw [C114_field a gs h] at hf
      exact hs.values f (last_mem hf).1
  · cases fill with
    | ok v =>
      simp only [Res.bind, Res.ok.injEq] at hv
      subst hv
      simp [hs.first.1, hs.first.2]
    | throws => cases hv
    | ub => cases hv
  · cases hv

theorem timeAt_eq (ff : FeltFile K) (pos : ℕ) (hpos : pos < ff.times.length ∨ ff.times = [] ∧ pos = 0) : ff.timeAt pos = .ok (ff.times.getD pos 0) := by
  unfold FeltFile.timeAt
  rcases hpos with hp | ⟨h1, h2⟩
  · rw [if_pos (by omega)]
    unfold readAt
    rw [List.getElem?_eq_getElem hp]
    simp [List.getD, hp]
  · simp [h1]

theorem dataSlice_eq (ff : FeltFile K) (a : Arr K) (gs : List (Field K)) (h : Holds a gs) (n : String) (ha : (n, a) ∈ ff.arrays) (delta : List K) (fill : Res K)
    (pos : ℕ) (hpos : pos < ff.times.length ∨ ff.times = [] ∧ pos = 0) (hin : a.times = [] ∨ ff.times.getD pos 0 ∈ a.times) :
    ff.dataSlice a delta fill pos =
      fillCells a delta fill (.ok (ff.times.getD pos 0)) (ff.keys a (levelsOf ff a)) (List.replicate (ff.sliceSize a) none) 0 := by
  unfold FeltFile.dataSlice
  rw [if_neg (by rcases hpos with hp | ⟨h1, h2⟩ <;> simp_all; omega), layers_eq ff a gs h n ha, timeAt_eq ff pos hpos]
  by_cases ht : a.times = []
  · simp [ht, Res.bind]
  · have hp : pos < ff.times.length := by
      rcases hpos with hp | ⟨h1, h2⟩
      · exact hp
      · obtain ⟨t, htm⟩ := List.exists_mem_of_ne_nil _ ht
        have := mem_times ff a n ha t htm
        rw [h1] at this
        simp at this
    have hin' := hin.resolve_left ht
    unfold readAt
    rw [List.getElem?_eq_getElem hp]
    simp only [List.getD, List.getElem?_eq_getElem hp, Option.getD_some] at hin'
    simp [ht, Res.bind, hin', List.getD, List.getElem?_eq_getElem hp]

/-- **C115.** When a slice can be read: for each level and member there is no field at all, and the fill value is known, or a field that can be read. -/
theorem C115_readable (ff : FeltFile K) (a : Arr K) (gs : List (Field K)) (h : Holds a gs) (n : String) (ha : (n, a) ∈ ff.arrays) (W H : ℕ)
    (hs : SameSize ff a gs W H) (delta : List K) (fill : Res K) (pos : ℕ) (hpos : pos < ff.times.length ∨ ff.times = [] ∧ pos = 0)
    (hin : a.times = [] ∨ ff.times.getD pos 0 ∈ a.times) :
    (∃ d, ff.dataSlice a delta fill pos = .ok d) ↔ ∀ (l e : ℕ) (lp : ℤ × ℤ) (m : ℤ), (levelsOf ff a)[l]? = some lp → IsMember ff a lp e m →
      (a.field (ff.times.getD pos 0) (lp.1, m) = none ∧ ∃ v, fill = .ok v) ∨ ∃ vs, a.scaledSlice delta (ff.times.getD pos 0) (lp.1, m) = .ok vs := by
  have hplane : ∀ k, (∃ vs, a.plane delta fill (ff.times.getD pos 0) k = .ok vs) ↔
      (a.field (ff.times.getD pos 0) k = none ∧ ∃ v, fill = .ok v) ∨ ∃ vs, a.scaledSlice delta (ff.times.getD pos 0) k = .ok vs := by
    intro k
    rw [← (C114_slice a delta (ff.times.getD pos 0) k).1]
    unfold Arr.plane
    cases a.scaledSlice delta (ff.times.getD pos 0) k with
    | ok vs => simp
    | noField => cases fill <;> simp [Res.bind]
    | throws => simp
  rw [dataSlice_eq ff a gs h n ha delta fill pos hpos hin]
  constructor
  · rintro ⟨d, hd⟩ l e lp m hl hm
    obtain ⟨-, hk⟩ := keys_at ff a _ l e lp m hl hm
    exact (hplane _).1 (fillCells_ok a delta fill _ _ _ _ _ hd _ (List.mem_of_getElem? hk))
  · intro hall
    have hk : ∀ k ∈ ff.keys a (levelsOf ff a), ∃ vs, a.plane delta fill (ff.times.getD pos 0) k = .ok vs := by
      intro k hk
      rw [hplane]
      unfold FeltFile.keys at hk
      split_ifs at hk with he
      · obtain ⟨lp, h1, h2⟩ := List.mem_flatMap.1 hk
        obtain ⟨m, h3, rfl⟩ := List.mem_map.1 h2
        obtain ⟨l, hl⟩ := List.mem_iff_getElem?.1 h1
        obtain ⟨e, hee⟩ := List.mem_iff_getElem?.1 h3
        exact hall l e lp m hl (by unfold IsMember; rw [if_pos he]; exact hee)
      · obtain ⟨l, hl⟩ := List.mem_iff_getElem?.1 hk
        exact hall l 0 k k.2 hl (by unfold IsMember; rw [if_neg he]; exact ⟨rfl, rfl⟩)
    choose! p hp using hk
    refine ⟨[] ++ ((ff.keys a (levelsOf ff a)).flatMap p).map some, ?_⟩
    have := fillCells_eq a delta fill (ff.times.getD pos 0) p (W * H) (ff.keys a (levelsOf ff a)) [] hp
      fun k hk => plane_length ff a gs h W H hs delta fill _ k _ (hp k hk)
    rw [keys_length, ← sliceSize_eq ff a gs h W H hs.file] at this
    exact this

/-- **C115.** A slice has as many values as x, y, members and levels need. The value at x, y, member and level is the one of the field of that time, level and
member; if there is no such field it is the fill value. -/
theorem C115_slice (ff : FeltFile K) (a : Arr K) (gs : List (Field K)) (h : Holds a gs) (n : String) (ha : (n, a) ∈ ff.arrays) (W H : ℕ)
    (hs : SameSize ff a gs W H) (delta : List K) (fill : Res K) (pos : ℕ) (hpos : pos < ff.times.length ∨ ff.times = [] ∧ pos = 0)
    (hin : a.times = [] ∨ ff.times.getD pos 0 ∈ a.times) (d : List (Option K)) (hd : ff.dataSlice a delta fill pos = .ok d) :
    d.length = W * H * (memberCount ff a * (levelsOf ff a).length) ∧
    ∀ x < W, ∀ y < H, ∀ (l e : ℕ) (lp : ℤ × ℤ) (m : ℤ), (levelsOf ff a)[l]? = some lp → IsMember ff a lp e m →
      ∃ v, d[x + W * (y + H * (e + memberCount ff a * l))]? = some (some v) ∧
        (a.field (ff.times.getD pos 0) (lp.1, m) = none → fill = .ok v) ∧
        ∀ f, a.field (ff.times.getD pos 0) (lp.1, m) = some f → ∃ raw, f.values[x + W * y]? = some raw ∧
          (raw = -32767 → v = a.fill) ∧ (raw ≠ -32767 → v * a.scalingFactor = (raw : K) * 10 ^ f.scale) := by
  rw [dataSlice_eq ff a gs h n ha delta fill pos hpos hin] at hd
  have hk := fillCells_ok a delta fill _ _ _ _ _ hd
  choose! p hp using hk
  have hlen : ∀ k ∈ ff.keys a (levelsOf ff a), (p k).length = W * H := fun k hk => plane_length ff a gs h W H hs delta fill _ k _ (hp k hk)
  have := fillCells_eq a delta fill (ff.times.getD pos 0) p (W * H) (ff.keys a (levelsOf ff a)) [] hp hlen
  rw [keys_length, ← sliceSize_eq ff a gs h W H hs.file, List.nil_append, List.nil_append, List.length_nil, hd] at this
  injection this with this
  subst this
  refine ⟨by rw [List.length_map, flatMap_length p _ _ hlen, keys_length], fun x hx y hy l e lp m hl hm => ?_⟩
  obtain ⟨he, hkey⟩ := keys_at ff a _ l e lp m hl hm
  have hxy : x + W * y < W * H := by
    calc x + W * y < W + W * y := by omega
      _ = W * (y + 1) := by ring
      _ ≤ W * H := Nat.mul_le_mul_left _ hy
  have hmem := List.mem_of_getElem? hkey
  have e1 : x + W * (y + H * (e + memberCount ff a * l)) = (x + W * y) + W * H * (e + memberCount ff a * l) := by ring
  have hl2 := hlen _ hmem
  have hpk := hp _ hmem
  rw [e1, List.getElem?_map, flatMap_at p (W * H) _ hlen _ _ _ hkey hxy, List.getElem?_eq_getElem (by omega)]
  refine ⟨_, rfl, ?_, ?_⟩
  · intro hnone
    unfold Arr.plane at hpk
    rw [((C114_slice a delta _ _).1).2 hnone] at hpk
    cases hfill : fill with
    | ok v =>
      rw [hfill] at hpk
      simp only [Res.bind, Res.ok.injEq] at hpk
      have : ∀ w ∈ p (lp.1, m), w = v := by
        rw [← hpk]
        intro w hw
        exact List.eq_of_mem_replicate hw
      rw [this _ (List.getElem_mem _)]
    | throws => rw [hfill] at hpk; cases hpk
    | ub => rw [hfill] at hpk; cases hpk
  · intro f hf
    have hsl : a.scaledSlice delta (ff.times.getD pos 0) (lp.1, m) = .ok (p (lp.1, m)) := by
      unfold Arr.plane at hpk
      split at hpk
      · rename_i ws hw
        rw [hw]
        injection hpk with hpk
        rw [hpk]
      · rename_i hw
        rw [((C114_slice a delta _ _).1).1 hw] at hf
        cases hf
      · cases hpk
    obtain ⟨c1, c2⟩ := C114_values a delta _ _ f hf _ hsl
    have hlt : x + W * y < f.values.length := by omega
    obtain ⟨r1, r2⟩ := c2 (x + W * y) f.values[x + W * y] (p (lp.1, m))[x + W * y] (List.getElem?_eq_getElem hlt) (List.getElem?_eq_getElem (by omega))
    exact ⟨_, List.getElem?_eq_getElem hlt, r1, r2⟩

/-- **C115.** No field is lost: each one of an array that is kept has a place in time, levels and members, unless the array is one of an ensemble with one
member. -/
theorem C115_kept (ff : FeltFile K) (a : Arr K) (gs : List (Field K)) (h : Holds a gs) (n : String) (ha : (n, a) ∈ ff.arrays)
    (hu : ∀ f ∈ gs, isEps f.header = isEps a.first.header) (hens : isEps a.first.header = true → a.ensemble = true)
    (f : Field K) (hf : (atKey gs f.time f.level).getLast? = some f) :
    (a.times = [] ∨ ∃ pos : ℕ, ff.times[pos]? = some f.time ∧ f.time ∈ a.times) ∧
    ∃ (l e : ℕ) (lp : ℤ × ℤ) (m : ℤ), (levelsOf ff a)[l]? = some lp ∧ IsMember ff a lp e m ∧ a.field f.time (lp.1, m) = some f := by
  have hmem := (last_mem hf).1
  constructor
  · cases ht : a.hasTime with
    | false => left; unfold Arr.times; simp [ht]
    | true =>
      right
      have h1 := ((C114_times a gs h ht).2 f.time).2 ⟨f, hmem, rfl⟩
      obtain ⟨pos, hp⟩ := List.mem_iff_getElem?.1 (mem_times ff a n ha _ h1)
      exact ⟨pos, hp, h1⟩
  · obtain ⟨-, hl, -, hm⟩ := C114_levels a gs h hu
    have hlev := (hl _).2 ⟨f, hmem, rfl⟩
    have hlev' : (word f.header 12, if isEps a.first.header then 0 else word f.header 13) ∈ levelsOf ff a := by
      unfold levelsOf
      cases a.vertical with
      | true => exact mem_levels ff a n ha _ hlev
      | false => exact hlev
    obtain ⟨l, hl'⟩ := List.mem_iff_getElem?.1 hlev'
    have hfield : ∀ t, (a.hasTime = true → t = f.time) → a.field t f.level = some f := by
      intro t ht
      rw [C114_field a gs h]
      cases hh : a.hasTime with
      | true => rw [ht hh]; simpa using hf
      | false =>
        have : a.first.time = f.time := by
          have h2 := (time_iff a gs h f.time).2 ⟨f, hmem, rfl⟩
          have h3 := (time_iff a gs h a.first.time).2 ⟨_, List.mem_of_head? h.first, rfl⟩
          unfold Arr.hasTime at hh
          rw [Bool.not_eq_false', Bool.and_eq_true, beq_iff_eq] at hh
          obtain ⟨p, hp⟩ := List.length_eq_one_iff.1 hh.1
          rw [hp] at h2 h3
          simp only [List.map_cons, List.map_nil, List.mem_singleton] at h2 h3
          rw [h2, h3]
        simpa [this] using hf
    have hlevel : f.level = (word f.header 12, word f.header 13) := by
      unfold Field.level level2 dataVersion
      rw [hu f hmem]
      cases isEps a.first.header <;> simp
    cases he : isEps a.first.header with
    | true =>
      have hens' := hens he
      have hmm := mem_members ff a n ha _ ((hm _).2 ⟨he, f, hmem, rfl⟩)
      obtain ⟨e, hee⟩ := List.mem_iff_getElem?.1 hmm
      refine ⟨l, e, _, word f.header 13, hl', by unfold IsMember; rw [if_pos hens']; exact hee, ?_⟩
      rw [← hlevel]
      exact hfield _ fun _ => rfl
    | false =>
      have hens' : a.ensemble = false := by
        unfold Arr.ensemble Arr.members
        simp [he]
      refine ⟨l, 0, _, word f.header 13, hl', by unfold IsMember; rw [hens']; simp [he], ?_⟩
      rw [← hlevel]
      exact hfield _ fun _ => rfl

/-- **C115.** Times of other variables have no data; positions behind the times are an error. -/
theorem C115_other_times (ff : FeltFile K) (a : Arr K) (delta : List K) (fill : Res K) (pos : ℕ) :
    (∀ t, ff.times[pos]? = some t → a.times ≠ [] → t ∉ a.times → ff.dataSlice a delta fill pos = .ok []) ∧
    (ff.times.length < pos → ff.dataSlice a delta fill pos = .throws) := by
  constructor
  · intro t ht hne hnot
    have hlt : pos < ff.times.length := by
      by_contra hc
      rw [List.getElem?_eq_none (by omega)] at ht
      cases ht
    unfold FeltFile.dataSlice readAt
    rw [if_neg (by omega), if_neg hne, ht]
    simp [Res.bind, hnot]
  · intro hlt
    unfold FeltFile.dataSlice
    rw [if_pos hlt]

/-- **C115, fails.** The position just behind the times is no error: a time behind the end of the vector is read. -/
theorem C115_behind (ff : FeltFile K) (a : Arr K) (delta : List K) (fill : Res K) (ht : a.times ≠ []) :
    ff.dataSlice a delta fill ff.times.length = .ub := by
  unfold FeltFile.dataSlice readAt
  rw [if_neg (by omega), if_neg ht, List.getElem?_eq_none (by omega)]
  rfl

/-- **C115, fails.** An array of an ensemble with one member only has no axis of members, and all of its fields are missing unless the member is 0. -/
theorem C115_one_member (ff : FeltFile K) (a : Arr K) (gs : List (Field K)) (h : Holds a gs) (n : String) (ha : (n, a) ∈ ff.arrays) (W H : ℕ)
    (hs : SameSize ff a gs W H) (hu : ∀ f ∈ gs, isEps f.header = true ∧ word f.header 13 ≠ 0) (hone : a.ensemble = false)
    (hlv : ∀ k ∈ ff.levels a.first.vcoord, k.2 = 0) (delta : List K) (v : K) (pos : ℕ) (hpos : pos < ff.times.length ∨ ff.times = [] ∧ pos = 0)
    (hin : a.times = [] ∨ ff.times.getD pos 0 ∈ a.times) :
    ff.dataSlice a delta (.ok v) pos = .ok (List.replicate (W * H * (levelsOf ff a).length) (some v)) := by
  have hfirst := (hu a.first (List.mem_of_head? h.first)).1
  have hlv' : ∀ k ∈ levelsOf ff a, k.2 = 0 := by
    intro k hk
    unfold levelsOf at hk
    split_ifs at hk
    · exact hlv k hk
    · exact hlv k (mem_levels ff a n ha k hk)
  have hkeys : ff.keys a (levelsOf ff a) = levelsOf ff a := by unfold FeltFile.keys; rw [hone]; simp
  have hnone : ∀ k ∈ levelsOf ff a, a.field (ff.times.getD pos 0) k = none := by
    intro k hk
    rw [C114_field a gs h]
    cases hl : (atKey gs (if a.hasTime then ff.times.getD pos 0 else a.first.time) k).getLast? with
    | none => rfl
    | some f =>
      obtain ⟨h1, -, h3⟩ := last_mem hl
      have h4 := hlv' k hk
      rw [← h3] at h4
      unfold Field.level dataVersion at h4
      rw [(hu f h1).1] at h4
      exact absurd h4 (by simpa using (hu f h1).2)
  have hplane : ∀ k ∈ ff.keys a (levelsOf ff a), a.plane delta (.ok v) (ff.times.getD pos 0) k = .ok (List.replicate (W * H) v) := by
    intro k hk
    rw [hkeys] at hk
    unfold Arr.plane
    rw [((C114_slice a delta _ _).1).2 (hnone k hk)]
    simp [Res.bind, hs.first.1, hs.first.2]
  rw [dataSlice_eq ff a gs h n ha delta _ pos hpos hin]
  have := fillCells_eq a delta (.ok v) (ff.times.getD pos 0) (fun _ => List.replicate (W * H) v) (W * H) (ff.keys a (levelsOf ff a)) [] hplane (by simp)
  rw [keys_length, ← sliceSize_eq ff a gs h W H hs.file] at this
  rw [List.nil_append, List.nil_append, List.length_nil] at this
  rw [this, hkeys]
  congr 1
  induction levelsOf ff a with
  | nil => simp
  | cons k ks ih =>
    rw [List.flatMap_cons, List.map_append, ih, List.length_cons, Nat.mul_add, Nat.mul_one, Nat.add_comm (W * H * ks.length), List.replicate_add, List.map_replicate]

end

/-! ## Cases -/

/-- Field of a file with hours, type and number of levels, second level, parameter, size of the grid and values. -/
def cellField (hours vcoord l1 l2 param nx ny : ℤ) (values : List ℤ) : Field ℚ :=
  ⟨[88, 1841, 2011, 228, 1800, 4, 6, 24, 3, hours, vcoord, param, l1, l2, 1, 0], [0, 0, 0, 0, 0, 0, 0, 0, 0, nx, ny, 0, 0, 0, 0, 0, 0, 0, 0, 0], values, [1, 2, 3, 4, 5, 6]⟩

/-- Two variables with values of a type. -/
def cellParams (dtype : String) : Params ℚ := ⟨[("a", diana "17".toList), ("b", diana "18".toList), ("e", diana "2017".toList)], fun _ => dtype, fun _ => -32767⟩

/-- Shape and data of the variables of a file, for a position. -/
structure Shown where
  name : String
  shape : List Axis
  data : Res (List (Option ℚ))
deriving DecidableEq

/-- All variables of a file. -/
def shown (dtype : String) (fill : ℚ) (pos : ℕ) (fs : List (Field ℚ)) : Res (List Shown) :=
  (init (cellParams dtype) fs).bind fun ff => .ok (ff.arrays.map fun a => ⟨a.1, a.2.shape, ff.dataSlice a.2 [] (.ok fill) pos⟩)

/-- Two members and two levels; one field is missing, and the other variable has one level of another kind and no data at the second time. -/
theorem C115_toy : shown "short" (-99) 0 [cellField 3 1 850 1 2017 2 1 [81, 82], cellField 3 1 500 1 2017 2 1 [51, -32767], cellField 3 1 850 2 2017 2 1 [83, 84],
      cellField 3 2 1000 0 17 2 1 [7, 8], cellField 9 1 500 2 2017 2 1 [53, 54]] =
    .ok [⟨"a", [.x, .y, .time], .ok [some 7, some 8]⟩,
      ⟨"e", [.x, .y, .member, .level, .time], .ok [some 51, some (-32767), some (-99), some (-99), some 81, some 82, some 83, some 84]⟩] ∧
    shown "short" (-99) 1 [cellField 3 1 850 1 2017 2 1 [81, 82], cellField 3 1 500 1 2017 2 1 [51, -32767], cellField 3 1 850 2 2017 2 1 [83, 84],
      cellField 3 2 1000 0 17 2 1 [7, 8], cellField 9 1 500 2 2017 2 1 [53, 54]] =
    .ok [⟨"a", [.x, .y, .time], .ok []⟩,
      ⟨"e", [.x, .y, .member, .level, .time], .ok [some (-99), some (-99), some 53, some 54, some (-99), some (-99), some (-99), some (-99)]⟩] := by
  decide +kernel

/-- **C115, fails.** The only member of an ensemble is number 4: all data are missing. -/
theorem C115_toy_one_member : shown "short" (-99) 0 [cellField 3 1 850 4 2017 2 1 [81, 82], cellField 3 1 500 4 2017 2 1 [51, 52]] =
    .ok [⟨"e", [.x, .y, .level, .time], .ok [some (-99), some (-99), some (-99), some (-99)]⟩] := by
  decide +kernel

/-- **C115, fails.** Values of a variable with a smaller grid than another variable are at wrong places, and the last ones are never written. -/
theorem C115_small_grid : shown "short" (-99) 0 [cellField 3 1 850 0 17 2 1 [81, 82], cellField 3 1 500 0 17 2 1 [51, 52], cellField 3 1 500 0 18 3 1 [1, 2, 3]] =
    .ok [⟨"a", [.x, .y, .level, .time], .ok [some 51, some 52, some 81, some 82, none, none]⟩,
      ⟨"b", [.x, .y, .level, .time], .ok [some 1, some 2, some 3, some (-99), some (-99), some (-99)]⟩] := by
  decide +kernel

/-- **C115, fails.** A field that is larger than the first one of its variable, with the same parameters of the grid, is accepted; values are written behind
the end of the data. -/
theorem C115_large_field : shown "short" (-99) 0 [cellField 3 1 850 0 17 2 1 [81, 82], cellField 3 1 500 0 17 5 1 [51, 52, 53, 54, 55]] =
    .ok [⟨"a", [.x, .y, .level, .time], .ub⟩] := by
  decide +kernel

/-- **C115, fails.** Without `_FillValue` in the configuration, values of a float variable that are missing in a field are -32767, which is no fill value of
the variable. -/
theorem C115_two_fills : shown "float" 9969209968386869046778552952102584320 0 [cellField 3 1 850 0 17 2 1 [81, -32767], cellField 3 1 500 0 18 2 1 [1, 2]] =
    .ok [⟨"a", [.x, .y, .level, .time], .ok [some 9969209968386869046778552952102584320, some 9969209968386869046778552952102584320, some 81, some (-32767)]⟩,
      ⟨"b", [.x, .y, .level, .time], .ok [some 1, some 2, some 9969209968386869046778552952102584320, some 9969209968386869046778552952102584320]⟩] := by
  decide +kernel

end Fimex.Felt
