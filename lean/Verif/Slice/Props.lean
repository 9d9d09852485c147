import Verif.Slice.Lemmas

/-!
# Properties C03, C04, C05: slicing a data array

The theorems are about `Slice.slice` (the model of `DataImpl<C>::slice`); the vocabulary of the
statements (`InShape`, `pos`, `addIdx`, `RegionIn`) is in `Verif/Slice/Spec.lean` and does not
mention the code.
-/

namespace Fimex.Slice

variable {α : Type}

/-- **C03.** A slice of an array of any rank contains exactly the requested hyper-rectangle, each
value at its own place: cell `j` of the result is cell `start + j` of the source. -/
theorem C03_slice_is_hyperrectangle (src : List α) (dims start size : List Nat)
    (hrank : dims ≠ []) (hr : RegionIn dims start size) (hd : ∀ n ∈ dims, n < two64)
    (hp : dims.prod = src.length) :
    ∃ out, slice src dims start size = .ok out ∧ out.length = size.prod ∧
      ∀ j, InShape size j →
        ∃ v, out[pos size j]? = some v ∧ src[pos dims (addIdx start j)]? = some v := by
  obtain ⟨out, e, g⟩ := slice_ok src dims start size hrank hr hd hp
  have hl : out.length = size.prod := by
    have := congrArg List.length g
    simpa [cells_length] using this
  refine ⟨out, e, hl, fun j hj => ?_⟩
  have hlt : pos dims (addIdx start j) < src.length := hp ▸ pos_lt (hr.shift hj)
  refine ⟨src[pos dims (addIdx start j)], ?_, List.getElem?_eq_getElem hlt⟩
  have := congrArg (fun l => l[pos size j]?) g
  simp only [List.getElem?_map, cells_getElem? hj, Option.map_some, List.getElem?_eq_getElem hlt] at this
  cases ho : out[pos size j]? with
  | none => simp [ho] at this
  | some v => simp [ho] at this; simp [this]

/-- Slicing rank-0 data returns the data unchanged. -/
theorem C03_slice_scalar (src : List α) (start size : List Nat) :
    slice src [] start size = .ok src := by simp [slice]

/-- A slice is determined by the region: two arrays that agree on the region have equal slices. -/
theorem C03_slice_depends_only_on_region (src src' : List α) (dims start size : List Nat)
    (hrank : dims ≠ []) (hr : RegionIn dims start size) (hd : ∀ n ∈ dims, n < two64)
    (hp : dims.prod = src.length) (hp' : dims.prod = src'.length)
    (hag : ∀ j, InShape size j →
      src[pos dims (addIdx start j)]? = src'[pos dims (addIdx start j)]?) :
    slice src dims start size = slice src' dims start size := by
  obtain ⟨out, e, g⟩ := slice_ok src dims start size hrank hr hd hp
  obtain ⟨out', e', g'⟩ := slice_ok src' dims start size hrank hr hd hp'
  rw [e, e']
  congr 1
  have : out.map some = out'.map some := by
    rw [g, g']
    exact List.map_congr_left fun j hj => hag j (mem_cells.1 hj)
  exact (List.map_inj_right (fun _ _ h => Option.some.inj h)).1 this

/-- Non-vacuity: a 3×2 source, inner column. -/
example : RegionIn [3, 2] [1, 0] [2, 2] ∧ (∀ n ∈ [3, 2], n < two64) ∧
    slice [10, 11, 12, 20, 21, 22] [3, 2] [1, 0] [2, 2] = .ok [11, 12, 21, 22] := by decide

/-- **C04.** When the upper end of the request is representable, slicing either succeeds or throws:
it throws exactly when the region is not inside the shape or the shape does not match the number
of values; it never touches memory outside the source or the result. -/
theorem C04_slice_rejects_or_succeeds (src : List α) (dims start size : List Nat)
    (hrank : dims ≠ []) (h1 : start.length = dims.length) (h2 : size.length = dims.length)
    (hw : NoWrap start size) :
    slice src dims start size ≠ .ub ∧
    (slice src dims start size = .throws ↔ ¬ RegionIn dims start size ∨ dims.prod ≠ src.length) := by
  have hlen : dims.length ≠ 0 := fun h => hrank (List.length_eq_zero_iff.1 h)
  have hcheck := checkDims_eq h1 h2 hw
  by_cases hr : RegionIn dims start size
  · by_cases hp : dims.prod = src.length
    · rw [if_pos hr] at hcheck
      have hk : dims.length - 1 + 1 = dims.length := by omega
      have td : dims.take (dims.length - 1 + 1) = dims := by rw [hk, List.take_length]
      have tz : size.take (dims.length - 1 + 1) = size := by rw [hk, ← h2, List.take_length]
      have tz' : size.take dims.length = size := by rw [← h2, List.take_length]
      obtain ⟨vals, e, -⟩ := copyRec_spec src size.prod dims start size hr (dims.length - 1)
        (by omega) 0 [] (by rw [td]; omega) (by rw [tz]; simp)
      have : slice src dims start size = .ok vals := by
        simp only [slice, if_neg hlen, hcheck, Res.ok_bind, hp, ne_eq, not_true_eq_false, if_false,
          tz']
        rw [e]; simp
      simp [this, hr, hp]
    · rw [if_pos hr] at hcheck
      have : slice src dims start size = .throws := by
        simp [slice, hlen, hcheck, hp]
      simp [this, hp]
  · rw [if_neg hr] at hcheck
    have : slice src dims start size = .throws := by
      simp [slice, hlen, hcheck]
    simp [this, hr]

/-- Non-vacuity: all three outcomes of the decision occur. -/
example : slice [1, 2, 3, 4] [2, 2] [1, 0] [2, 1] = .throws ∧
    slice [1, 2, 3] [2, 2] [0, 0] [1, 1] = .throws ∧
    slice [1, 2, 3, 4] [2, 2] [1, 0] [1, 2] = .ok [2, 4] := by decide

/-- The range check of the code is done in `size_t`: a start close to `2^64` wraps around, is
accepted, and the copy then leaves the source array. Hence `NoWrap` cannot be dropped in C04. -/
theorem C04_wraparound_is_accepted :
    checkDims [4] [two64 - 1] [1] = .ok () ∧
    slice [1, 2, 3, 4] [4] [two64 - 1] [1] = .ub := by decide

/-- **C05.** A slice of a slice is one slice: the starts add up. -/
theorem C05_slice_of_slice (src mid : List α) (dims s1 z1 s2 z2 : List Nat) (hrank : dims ≠ [])
    (h1 : RegionIn dims s1 z1) (h2 : RegionIn z1 s2 z2) (hd : ∀ n ∈ dims, n < two64)
    (hp : dims.prod = src.length) (hm : slice src dims s1 z1 = .ok mid) :
    slice mid z1 s2 z2 = slice src dims (addIdx s1 s2) z2 := by
  obtain ⟨mid', em, hml, hmv⟩ := C03_slice_is_hyperrectangle src dims s1 z1 hrank h1 hd hp
  rw [hm] at em
  cases em
  have hz : ∀ n ∈ z1, n < two64 := by
    have : ∀ {d s z : List Nat}, RegionIn d s z → (∀ n ∈ d, n < two64) → ∀ n ∈ z, n < two64 := by
      intro d
      induction d with
      | nil => intro s z h _; cases s <;> cases z <;> simp_all [RegionIn]
      | cons a d ih =>
        intro s z h hd
        cases s <;> cases z <;> try exact absurd h id
        intro n hn
        simp only [List.mem_cons] at hn
        rcases hn with rfl | hn
        · have := h.1; have := hd a (by simp); omega
        · exact ih h.2 (fun m hm => hd m (by simp [hm])) n hn
    exact this h1 hd
  have hsum : ∀ {d a z b w : List Nat}, RegionIn d a z → RegionIn z b w → RegionIn d (addIdx a b) w := by
    intro d
    induction d with
    | nil =>
      intro a z b w h h'
      cases a <;> cases z <;> try exact absurd h id
      cases b <;> cases w <;> try exact absurd h' id
      trivial
    | cons n d ih =>
      intro a z b w h h'
      cases a <;> cases z <;> try exact absurd h id
      cases b <;> cases w <;> try exact absurd h' id
      refine ⟨?_, ih h.2 h'.2⟩
      have := h.1; have := h'.1
      show _ + _ + _ ≤ _
      omega
  have hr3 := hsum h1 h2
  have hz1 : z1 ≠ [] := by
    intro h
    have := h1.lengths.2
    rw [h] at this
    exact hrank (List.length_eq_zero_iff.1 this.symm)
  obtain ⟨o1, e1, g1⟩ := slice_ok mid z1 s2 z2 hz1 h2 hz hml.symm
  obtain ⟨o2, e2, g2⟩ := slice_ok src dims (addIdx s1 s2) z2 hrank hr3 hd hp
  rw [e1, e2]
  congr 1
  have hassoc : ∀ a b c : List Nat, addIdx (addIdx a b) c = addIdx a (addIdx b c) := by
    intro a
    induction a with
    | nil => intro b c; simp [addIdx]
    | cons x a ih =>
      intro b c
      cases b <;> cases c <;> try simp [addIdx]
      exact ⟨Nat.add_assoc _ _ _, ih _ _⟩
  have : o1.map some = o2.map some := by
    rw [g1, g2]
    refine List.map_congr_left fun j hj => ?_
    obtain ⟨v, hv1, hv2⟩ := hmv (addIdx s2 j) (h2.shift (mem_cells.1 hj))
    rw [hv1, hassoc, hv2]
  exact (List.map_inj_right (fun _ _ h => Option.some.inj h)).1 this

/-- The full slice is the array itself. -/
theorem C05_full_slice_is_identity (src : List α) (dims : List Nat)
    (hd : ∀ n ∈ dims, n < two64) (hp : dims.prod = src.length) :
    slice src dims (dims.map fun _ => 0) dims = .ok src := by
  by_cases hrank : dims = []
  · subst hrank; simp [slice]
  have hr : RegionIn dims (dims.map fun _ => 0) dims := by
    clear hd hp hrank
    induction dims with
    | nil => trivial
    | cons a l ih => exact ⟨by simp, ih⟩
  obtain ⟨out, e, hl, hv⟩ := C03_slice_is_hyperrectangle src dims _ dims hrank hr hd hp
  rw [e]
  congr 1
  apply List.ext_getElem?
  intro k
  by_cases hk : k < dims.prod
  · obtain ⟨i, hi, rfl⟩ := exists_pos hk
    obtain ⟨v, h1, h2⟩ := hv i hi
    have hz : ∀ {d i : List Nat}, InShape d i → addIdx (d.map fun _ => 0) i = i := by
      intro d
      induction d with
      | nil => intro i h; cases i <;> simp_all [addIdx, InShape]
      | cons a d ih =>
        intro i h
        cases i with
        | nil => exact absurd h id
        | cons b i => simpa [addIdx] using ih h.2
    rw [hz hi] at h2
    rw [h1, h2]
  · rw [List.getElem?_eq_none (by omega), List.getElem?_eq_none (by omega)]

/-- Non-vacuity of C05: a two-step slice of a 4×3 array. -/
example :
    let src := [0, 1, 2, 3, 10, 11, 12, 13, 20, 21, 22, 23]
    RegionIn [4, 3] [1, 1] [3, 2] ∧ RegionIn [3, 2] [1, 0] [2, 2] ∧
    slice src [4, 3] [1, 1] [3, 2] = .ok [11, 12, 13, 21, 22, 23] ∧
    slice [11, 12, 13, 21, 22, 23] [3, 2] [1, 0] [2, 2] = .ok [12, 13, 22, 23] ∧
    slice src [4, 3] [2, 1] [2, 2] = .ok [12, 13, 22, 23] := by decide

end Fimex.Slice
