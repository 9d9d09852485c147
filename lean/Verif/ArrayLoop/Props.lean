import Verif.ArrayLoop.Lemmas

/-!
# Property C10: loops over groups of arrays
-/

namespace Fimex.ArrayLoop

/-! ## Specification vocabulary -/

/-- Stride of the dimension called `n` in the array, if the array takes part in the loop over it;
0 if it does not have the dimension or keeps it for itself. -/
def strideOf (a : Dims) (n : String) : Nat :=
  match a.name.findIdx? (· == n) with
  | some i => if a.shared.getD i false then a.delta.getD i 0 else 0
  | none => 0

/-- Sum of index times stride over named dimensions. -/
def offsetOf (a : Dims) : List String → List Nat → Int
  | n :: ns, p :: ps => (p : Int) * strideOf a n + offsetOf a ns ps
  | _, _ => 0

/-- The dimensions the loop runs over (those behind the common contiguous block). -/
def loopLengths (g : Group) : List Nat := g.lengths.drop (g.sharedDims.getD g.lengths.length)

/-! ## C10 -/

theorem start_synced (g : Group) : Synced g (start g) := by
  unfold Synced start
  simp only
  refine List.map_congr_left fun am _ => ?_
  have : ∀ n i, dot (deltaOf am) i (List.replicate n 0) = 0 := by
    intro n
    induction n with
    | zero => intro i; rfl
    | succ n ih => intro i; simp [List.replicate_succ, dot, ih]
  exact (this _ _).symm

theorem deltaOf_eq_strideOf {g : Group} (hg : GroupOK g) {am : Dims × List (Option Nat)}
    (ham : am ∈ g.arrays) {gd : Nat} {n : String} (hn : g.dims[gd]? = some n) :
    deltaOf am gd = strideOf am.1 n := by
  obtain ⟨w, mk⟩ := hg.arr am ham
  have hm := mk.map gd n hn
  unfold deltaOf strideOf
  rw [List.getD_eq_getElem?_getD, hm]
  simp only [Option.getD_some, sharedBelow, Dims.dimIndex]
  cases hf : am.1.name.findIdx? (· == n) with
  | none => rfl
  | some j =>
    have hj : j < am.1.rank := by
      rw [← w.name]; exact (List.getElem?_eq_some_iff.1 (findIdx?_get hf)).1
    have hsh : am.1.isShared j = am.1.shared.getD j false := by simp [Dims.isShared, hj]
    simp only [hj, true_and, hsh]
    by_cases hc : am.1.shared.getD j false = true
    · rw [if_pos hc, if_pos hc]; simp [Dims.deltaAt, hj]
    · rw [if_neg hc, if_neg hc]; rfl

theorem dot_eq_offsetOf {g : Group} (hg : GroupOK g) {am : Dims × List (Option Nat)}
    (ham : am ∈ g.arrays) : ∀ (ps : List Nat) (i : Nat), i + ps.length = g.dims.length →
    dot (deltaOf am) i ps = offsetOf am.1 (g.dims.drop i) ps := by
  intro ps
  induction ps with
  | nil => intro i _; cases g.dims.drop i <;> rfl
  | cons p ps ih =>
    intro i h
    simp only [List.length_cons] at h
    have hi : i < g.dims.length := by omega
    rw [List.drop_eq_getElem_cons hi]
    simp only [dot, offsetOf]
    rw [ih (i + 1) (by omega), deltaOf_eq_strideOf hg ham (List.getElem?_eq_getElem hi)]

/-- State after `n` steps, for any well-formed group whose loop dimensions have positive length. -/
theorem after_spec {g : Group} (hg : GroupOK g) (hpos : ∀ l ∈ loopLengths g, 0 < l) :
    ∀ n, n < (loopLengths g).prod →
      let k := g.sharedDims.getD g.lengths.length
      Synced g (after g n) ∧ (after g n).pos.length = g.lengths.length ∧
      (after g n).pos.take k = List.replicate k 0 ∧
      InShape (loopLengths g) ((after g n).pos.drop k) ∧
      pos (loopLengths g) ((after g n).pos.drop k) = n := by
  have hk : g.sharedDims.getD g.lengths.length ≤ g.lengths.length := by
    cases h : g.sharedDims with
    | none => simp
    | some k => simpa using (hg.vol k h).1
  intro n
  induction n with
  | zero =>
    intro _
    have hz : ∀ l : List Nat, (∀ x ∈ l, 0 < x) → InShape l (List.replicate l.length 0) ∧
        pos l (List.replicate l.length 0) = 0 := by
      intro l
      induction l with
      | nil => intro _; exact ⟨trivial, rfl⟩
      | cons a l ih =>
        intro h
        obtain ⟨i1, i2⟩ := ih fun x hx => h x (by simp [hx])
        simp only [List.length_cons, List.replicate_succ]
        exact ⟨⟨h a (by simp), i1⟩, by simp [pos, i2]⟩
    have hl : g.lengths.length - g.sharedDims.getD g.lengths.length = (loopLengths g).length := by
      simp [loopLengths]
    refine ⟨start_synced g, by simp [after, start], ?_, ?_, ?_⟩
    · simp [after, start, Nat.min_eq_left hk]
    · simp only [after, start, List.drop_replicate, hl]; exact (hz _ hpos).1
    · simp only [after, start, List.drop_replicate, hl]; exact (hz _ hpos).2
  | succ n ih =>
    intro hn
    obtain ⟨h1, h2, h3, h4, h5⟩ := ih (by omega)
    have := nextGo_spec g (g.lengths.length - g.sharedDims.getD g.lengths.length)
      (g.sharedDims.getD g.lengths.length) (after g n) _ (by omega) h2 h1 rfl h4
    obtain ⟨i1, i2, i3, i4, i5, i6⟩ := this
    refine ⟨i1, i2, i3.trans h3, i4, ?_⟩
    cases hc : (nextGo g (g.lengths.length - g.sharedDims.getD g.lengths.length)
      (g.sharedDims.getD g.lengths.length) (after g n)).2 with
    | false =>
      have := i5 hc
      have h5' : pos (List.drop (g.sharedDims.getD g.lengths.length) g.lengths)
        (List.drop (g.sharedDims.getD g.lengths.length) (after g n).pos) = n := h5
      rw [h5'] at this
      exact this
    | true =>
      have := (i6 hc).1
      have h5' : pos (List.drop (g.sharedDims.getD g.lengths.length) g.lengths)
        (List.drop (g.sharedDims.getD g.lengths.length) (after g n).pos) = n := h5
      rw [h5'] at this
      have hn' : n + 1 < (List.drop (g.sharedDims.getD g.lengths.length) g.lengths).prod := hn
      omega

/-- **C10.** Building a group from arrays either raises or gives a group; the loop over a group whose
loop dimensions have positive length makes exactly as many visits as there are index combinations
of the loop dimensions: visit number `n` (from 0) is the `n`-th combination in order (first loop
dimension fastest, the dimensions of the common block at 0), `next` returns false exactly after
the last one, and at every visit the offset of every array is the sum of index times stride over
the dimensions it shares with the group. -/
theorem C10_loop_visits_each_combination_once (as : List Dims) (hw : ∀ a ∈ as, WF a) (g : Group)
    (hb : groupOf as = .ok g) (hpos : ∀ l ∈ loopLengths g, 0 < l) :
    g.arrays.map Prod.fst = as ∧
    ∀ n, n < (loopLengths g).prod →
      (∃ p, (cells (loopLengths g))[n]? = some p ∧
        (after g n).pos = List.replicate (g.sharedDims.getD g.lengths.length) 0 ++ p) ∧
      (after g n).idx = as.map (fun a => offsetOf a g.dims (after g n).pos) ∧
      ((next g (after g n)).2 = true ↔ n + 1 < (loopLengths g).prod) := by
  rcases foldlM_add_ok as emptyGroup emptyGroup_ok (fun _ => rfl) (fun _ => rfl) hw with
    e | ⟨g', e, hg, hm⟩
  · unfold groupOf at hb; rw [e] at hb; cases hb
  · unfold groupOf at hb; rw [e] at hb; cases hb
    have hm' : g.arrays.map Prod.fst = as := by simpa [emptyGroup] using hm
    refine ⟨hm', fun n hn => ?_⟩
    obtain ⟨h1, h2, h3, h4, h5⟩ := after_spec hg hpos n hn
    refine ⟨⟨(after g n).pos.drop (g.sharedDims.getD g.lengths.length), ?_, ?_⟩, ?_, ?_⟩
    · have := cells_getElem? h4
      rw [h5] at this; exact this
    · rw [← h3]; exact (List.take_append_drop _ _).symm
    · rw [h1, ← hm', List.map_map]
      refine List.map_congr_left fun am ham => ?_
      have := dot_eq_offsetOf hg ham (after g n).pos 0 (by rw [h2, hg.len]; omega)
      simpa using this
    · have hk : g.sharedDims.getD g.lengths.length ≤ g.lengths.length := by
        cases h : g.sharedDims with
        | none => simp
        | some k => simpa using (hg.vol k h).1
      have := nextGo_spec g (g.lengths.length - g.sharedDims.getD g.lengths.length)
        (g.sharedDims.getD g.lengths.length) (after g n) _ (by omega) h2 h1 rfl h4
      obtain ⟨-, -, -, i4, i5, i6⟩ := this
      have h5' : pos (List.drop (g.sharedDims.getD g.lengths.length) g.lengths)
        (List.drop (g.sharedDims.getD g.lengths.length) (after g n).pos) = n := h5
      rw [h5'] at i5 i6
      simp only [next, Bool.not_eq_true', loopLengths]
      constructor
      · intro hf
        have := i5 hf
        have hlt := pos_lt i4
        omega
      · intro hlt
        cases hc : (nextGo g (g.lengths.length - g.sharedDims.getD g.lengths.length)
          (g.sharedDims.getD g.lengths.length) (after g n)).2 with
        | false => rfl
        | true => have := (i6 hc).1; omega

/-- **C10** (building is safe). Adding well-formed arrays never reads outside the group's members:
the outcome is a group or an exception. -/
theorem C10_group_building_is_safe (as : List Dims) (hw : ∀ a ∈ as, WF a) : groupOf as ≠ .ub := by
  rcases foldlM_add_ok as emptyGroup emptyGroup_ok (fun _ => rfl) (fun _ => rfl) hw with
    e | ⟨g', e, -, -⟩ <;> simp [groupOf, e]

/-- **C10** (common block). The first `sharedDims` dimensions of the group are, for every array of
the group, its first dimensions, taking part in the loop and having the group's length; the shared
volume is their product. With contiguous strides each array therefore holds the block contiguously. -/
theorem C10_common_block (as : List Dims) (hw : ∀ a ∈ as, WF a) (g : Group)
    (hb : groupOf as = .ok g) (k : Nat) (hk : g.sharedDims = some k) :
    g.sharedVolume = (g.lengths.take k).prod ∧
    ∀ a ∈ as, ∀ i, i < k → a.shared.getD i false = true ∧ a.name[i]? = g.dims[i]? ∧
      a.length[i]? = g.lengths[i]? := by
  rcases foldlM_add_ok as emptyGroup emptyGroup_ok (fun _ => rfl) (fun _ => rfl) hw with
    e | ⟨g', e, hg, hm⟩
  · unfold groupOf at hb; rw [e] at hb; cases hb
  · unfold groupOf at hb; rw [e] at hb; cases hb
    have hm' : g.arrays.map Prod.fst = as := by simpa [emptyGroup] using hm
    obtain ⟨v1, v2⟩ := hg.vol k hk
    refine ⟨v2, fun a ha i hi => ?_⟩
    rw [← hm', List.mem_map] at ha
    obtain ⟨am, ham, rfl⟩ := ha
    obtain ⟨p1, p2⟩ := hg.pre k hk am ham
    obtain ⟨w, mk⟩ := hg.arr am ham
    have hid : i < g.dims.length := by rw [hg.len]; omega
    have hmi := mk.map i _ (List.getElem?_eq_getElem hid)
    rw [p1 i hi (by omega)] at hmi
    obtain ⟨-, s2, s3⟩ := sharedBelow_some (Option.some.inj hmi).symm
    have hsh : am.1.isShared i = am.1.shared.getD i false := by
      have : i < am.1.rank := by omega
      simp [Dims.isShared, this]
    refine ⟨by rw [← hsh]; exact s2, by rw [s3, List.getElem?_eq_getElem hid], ?_⟩
    obtain ⟨gd, c1, c2⟩ := mk.cov i (by omega) s2
    rw [s3] at c1
    have : gd = i := nodup_get_inj hg.nodup c1 (List.getElem?_eq_getElem hid)
    subst this
    exact c2.symm

/-- Array dimensions built by `add` calls are well-formed with contiguous strides, for distinct
names. -/
theorem C10_added_dims_wellformed (a : Dims) (h : WF a)
    (hs : ∀ i, i < a.rank → a.delta[i]? = some (a.length.take i).prod)
    (n : String) (len : Nat) (hn : n ∉ a.name) (hl : 0 < len) :
    ∃ a', a.add n len = .ok a' ∧ WF a' ∧ a'.length = a.length ++ [len] ∧
      (∀ i, i < a'.rank → a'.delta[i]? = some (a'.length.take i).prod) ∧
      a'.volume = a'.length.prod := by
  have hl' : len ≠ 0 := by omega
  have hlast : (if a.length = [] then 1 else a.delta.getLastD 0 * a.length.getLastD 0) = a.length.prod := by
    by_cases he : a.length = []
    · simp [he]
    · rw [if_neg he]
      have hlen : a.length.length ≠ 0 := fun h => he (List.length_eq_zero_iff.1 h)
      have h1 := hs (a.length.length - 1) (by unfold Dims.rank; omega)
      have hd : a.delta.getLastD 0 = (a.length.take (a.length.length - 1)).prod := by
        rw [List.getLastD_eq_getLast?, List.getLast?_eq_getElem?, h.delta]
        unfold Dims.rank; rw [h1]; rfl
      rw [hd]
      have hlc : a.length = a.length.take (a.length.length - 1) ++ [a.length.getLastD 0] := by
        have := take_succ_getD a.length (a.length.length - 1) (by omega)
        rw [show a.length.length - 1 + 1 = a.length.length by omega, List.take_length] at this
        rw [List.getLastD_eq_getLast?, List.getLast?_eq_getElem?, ← List.getD_eq_getElem?_getD]
        exact this
      conv => rhs; rw [hlc]
      simp
  refine ⟨_, by rw [Dims.add, if_neg hl'], ⟨?_, ?_, ?_, ?_⟩, rfl, ?_, ?_⟩
  · have := h.name; simp [Dims.rank] at *; exact this
  · have := h.delta; simp [Dims.rank] at *; exact this
  · have := h.shared; simp [Dims.rank] at *; exact this
  · simp only [List.nodup_append]
    refine ⟨h.nodup, by simp, ?_⟩
    intro x hx y hy
    simp at hy
    rintro rfl
    exact hn (by rw [← hy]; exact hx)
  · intro i hi
    simp [Dims.rank] at hi
    by_cases hlt : i < a.rank
    · show (a.delta ++ _)[i]? = some ((a.length ++ [len]).take i).prod
      rw [List.getElem?_append_left (by rw [h.delta]; exact hlt), hs i hlt,
        List.take_append_of_le_length (by unfold Dims.rank at hlt; omega)]
    · have : i = a.length.length := by unfold Dims.rank at hlt; omega
      subst this
      show (a.delta ++ _)[_]? = some ((a.length ++ [len]).take _).prod
      rw [List.getElem?_append_right (by rw [h.delta]; exact Nat.le_refl _), h.delta]
      simp only [Dims.rank, Nat.sub_self, List.getElem?_cons_zero, hlast]
      rw [List.take_append_of_le_length (Nat.le_refl _), List.take_length]
  · simp only [Dims.volume]
    rw [if_neg (by simp)]
    simp only [List.getLastD_concat, hlast, List.prod_append, List.prod_cons, List.prod_nil, Nat.mul_one]

theorem deltasFrom_spec (ls : List Nat) : ∀ d prev, 0 ∉ (prev :: ls).dropLast →
    deltasFrom d prev ls = .ok ((List.range ls.length).map fun i => d * ((prev :: ls).take (i + 1)).prod) := by
  induction ls with
  | nil => intro d prev _; rfl
  | cons l ls ih =>
    intro d prev h
    have hp : prev ≠ 0 := by
      rintro rfl
      exact h (by simp [List.dropLast])
    have ht : 0 ∉ (l :: ls).dropLast := fun hc => h (by rw [List.dropLast_cons_of_ne_nil (by simp)]; exact List.mem_cons_of_mem _ hc)
    rw [deltasFrom, if_neg hp, ih (d * prev) l ht, Res.ok_bind, List.length_cons, List.range_succ_eq_map, List.map_cons, List.map_map]
    congr 2
    · simp
    · apply List.map_congr_left
      intro i _
      simp [Nat.mul_assoc]

theorem deltasFrom_zero (ls : List Nat) : ∀ d prev, 0 ∈ (prev :: ls).dropLast → deltasFrom d prev ls = .throws := by
  induction ls with
  | nil => intro d prev h; simp at h
  | cons l ls ih =>
    intro d prev h
    rw [deltasFrom]
    by_cases hp : prev = 0
    · rw [if_pos hp]
    · rw [List.dropLast_cons_of_ne_nil (by simp), List.mem_cons] at h
      rcases h with h | h
      · exact absurd h.symm hp
      · rw [if_neg hp, ih _ l h]; rfl

/-- **C10** (construction). The constructor from names and lengths refuses lists of different lengths, a zero length at the beginning or
before the last place; otherwise the dimensions have the given names and lengths, all take part in loops, the strides are the products of the
preceding lengths, and the volume is the product of all lengths. -/
theorem C10_constructed_dims (names : List String) (lengths : List Nat) :
    (names.length = lengths.length ∧ lengths.head? ≠ some 0 ∧ 0 ∉ lengths.dropLast →
      ∃ a, mkDims names lengths = .ok a ∧ a.name = names ∧ a.length = lengths ∧ a.shared = lengths.map (fun _ => true) ∧
        a.delta = (List.range lengths.length).map (fun i => (lengths.take i).prod) ∧ a.volume = lengths.prod ∧ (names.Nodup → WF a)) ∧
    (¬ (names.length = lengths.length ∧ lengths.head? ≠ some 0 ∧ 0 ∉ lengths.dropLast) → mkDims names lengths = .throws) := by
  constructor
  · rintro ⟨h1, h2, h3⟩
    unfold mkDims
    rw [if_neg (by simp [h1])]
    cases lengths with
    | nil => exact ⟨_, rfl, rfl, rfl, rfl, rfl, rfl, fun hn => ⟨h1, rfl, rfl, hn⟩⟩
    | cons l ls =>
      have hl : l ≠ 0 := by rintro rfl; exact h2 rfl
      dsimp only
      rw [if_neg hl, deltasFrom_spec ls 1 l h3, Res.ok_bind]
      have hd : (1 :: (List.range ls.length).map fun i => 1 * ((l :: ls).take (i + 1)).prod) =
          (List.range (l :: ls).length).map fun i => ((l :: ls).take i).prod := by
        rw [List.length_cons, List.range_succ_eq_map, List.map_cons, List.map_map]
        congr 1
        apply List.map_congr_left
        intro i _
        simp
      rw [hd]
      refine ⟨_, rfl, rfl, rfl, rfl, rfl, ?_, fun hn => ⟨h1, by simp [Dims.rank], by simp [Dims.rank], hn⟩⟩
      unfold Dims.volume
      dsimp only
      rw [if_neg (by simp), List.length_cons, List.range_succ, List.map_append, List.map_cons, List.map_nil, List.getLastD_concat]
      have hlc : l :: ls = (l :: ls).take ls.length ++ [(l :: ls).getLastD 0] := by
        have := take_succ_getD (l :: ls) ls.length (by simp)
        rw [show (l :: ls).take (ls.length + 1) = l :: ls by rw [← List.length_cons (a := l), List.take_length]] at this
        rw [List.getLastD_eq_getLast?, List.getLast?_eq_getElem?, ← List.getD_eq_getElem?_getD]
        exact this
      conv => rhs; rw [hlc]
      simp
  · intro h
    unfold mkDims
    by_cases h0 : names.length ≠ lengths.length
    · rw [if_pos h0]
    have h1 : names.length = lengths.length := Decidable.not_not.1 h0
    rw [if_neg h0]
    cases lengths with
    | nil => exact absurd ⟨h1, by simp, by simp⟩ h
    | cons l ls =>
      dsimp only
      by_cases hl : l = 0
      · rw [if_pos hl]
      rw [if_neg hl]
      have h3 : 0 ∈ (l :: ls).dropLast := by
        by_cases hc : 0 ∈ (l :: ls).dropLast
        · exact hc
        · exact absurd ⟨h1, by simpa using hl, hc⟩ h
      rw [deltasFrom_zero ls 1 l h3]
      rfl

example : ∃ a, mkDims ["x", "y", "z"] [4, 2, 3] = .ok a ∧ a.delta = [1, 4, 8] ∧ a.volume = 24 := ⟨_, rfl, rfl, rfl⟩

/-- Non-vacuity: two arrays `(x,y)` and `(z,x,y)` where `z` belongs to the second array alone. -/
example :
    let a : Dims := ⟨["x", "y"], [2, 3], [1, 2], [true, true]⟩
    let b : Dims := ⟨["z", "x", "y"], [4, 2, 3], [1, 4, 8], [false, true, true]⟩
    let g : Group := ⟨some 0, 1, ["x", "y"], [2, 3], [(a, [some 0, some 1]), (b, [some 1, some 2])]⟩
    groupOf [a, b] = .ok g ∧ loopLengths g = [2, 3] ∧
      after g 3 = ⟨[1, 1], [3, 12]⟩ ∧ (next g (after g 5)).2 = false := by decide

example : WF ⟨["z", "x", "y"], [4, 2, 3], [1, 4, 8], [false, true, true]⟩ :=
  ⟨rfl, rfl, rfl, by decide⟩

/-- The constructor from vectors does not check the last length: a zero length is accepted there
(the `add` method and all other positions reject it), and the loop over such a dimension does not
stop at the right place. -/
theorem C10_constructor_accepts_zero_last_length :
    mkDims ["x", "y"] [2, 0] = .ok ⟨["x", "y"], [2, 0], [1, 2], [true, true]⟩ ∧
    mkDims ["x", "y"] [0, 2] = .throws := by decide

/-- **C10** (changes). Setting a length changes this length only, leaves the strides as they were, and refuses zero;
leaving a dimension out of the loop changes the flag of this dimension only; both ignore dimensions that do not
exist. -/
theorem C10_changed_dims (a : Dims) (h : WF a) (i : Option Nat) (len : Nat) :
    ((∃ k, i = some k ∧ k < a.rank) → len = 0 → a.setLength i len = .throws) ∧
    (¬ ((∃ k, i = some k ∧ k < a.rank) ∧ len = 0) → ∃ a', a.setLength i len = .ok a' ∧ WF a' ∧ a'.name = a.name ∧ a'.delta = a.delta ∧
      (∀ j, a'.isShared j = a.isShared j) ∧ ∀ j, j < a.rank → a'.length[j]? = if i = some j then some len else a.length[j]?) ∧
    WF (a.setNotShared i) ∧ (a.setNotShared i).name = a.name ∧ (a.setNotShared i).delta = a.delta ∧ (a.setNotShared i).length = a.length ∧
    ∀ j, (a.setNotShared i).isShared j = if i = some j then false else a.isShared j := by
  refine ⟨?_, ?_, ?_⟩
  · rintro ⟨k, rfl, hk⟩ rfl
    simp [Dims.setLength, hk]
  · intro hne
    cases i with
    | none => exact ⟨a, rfl, h, rfl, rfl, fun _ => rfl, fun j _ => by simp⟩
    | some k =>
      unfold Dims.setLength
      dsimp only
      by_cases hk : k < a.rank
      · have hl : len ≠ 0 := fun e => hne ⟨⟨k, rfl, hk⟩, e⟩
        rw [if_pos hk, if_neg hl]
        refine ⟨_, rfl, ⟨?_, ?_, ?_, h.nodup⟩, rfl, rfl, ?_, ?_⟩
        · simpa [Dims.rank] using h.name
        · simpa [Dims.rank] using h.delta
        · simpa [Dims.rank] using h.shared
        · intro j; simp [Dims.isShared, Dims.rank]
        · intro j hj
          dsimp only
          rw [List.getElem?_set]
          unfold Dims.rank at hj
          by_cases e : k = j
          · subst e; simp [hj]
          · have : ¬ (some k = some j) := by simpa using e
            rw [if_neg e, if_neg this]
      · rw [if_neg hk]
        refine ⟨a, rfl, h, rfl, rfl, fun _ => rfl, fun j hj => ?_⟩
        rw [if_neg]
        intro e
        cases e
        exact hk hj
  · cases i with
    | none => exact ⟨h, rfl, rfl, rfl, fun j => by simp [Dims.setNotShared]⟩
    | some k =>
      unfold Dims.setNotShared
      dsimp only
      by_cases hk : k < a.rank
      · rw [if_pos hk]
        refine ⟨⟨h.name, h.delta, ?_, h.nodup⟩, rfl, rfl, rfl, fun j => ?_⟩
        · simpa [Dims.rank] using h.shared
        · unfold Dims.isShared
          show (if j < a.rank then (a.shared.set k false).getD j false else false) = _
          by_cases e : k = j
          · subst e
            simp only [if_true, if_pos hk, List.getD_eq_getElem?_getD, List.getElem?_set]
            by_cases q : k < a.shared.length
            · rw [if_pos q]; rfl
            · rw [if_neg q]; rfl
          · have : ¬ (some k = some j) := by simpa using e
            rw [if_neg this]
            simp only [List.getD_eq_getElem?_getD, List.getElem?_set, if_neg e]
      · rw [if_neg hk]
        refine ⟨h, rfl, rfl, rfl, fun j => ?_⟩
        by_cases e : k = j
        · subst e; simp [Dims.isShared, hk]
        · have : ¬ (some k = some j) := by simpa using e
          rw [if_neg this]

example : WF ⟨["x", "y"], [2, 3], [1, 2], [true, true]⟩ ∧
    (⟨["x", "y"], [2, 3], [1, 2], [true, true]⟩ : Dims).setLength (some 1) 5 = .ok ⟨["x", "y"], [2, 5], [1, 2], [true, true]⟩ ∧
    (⟨["x", "y"], [2, 3], [1, 2], [true, true]⟩ : Dims).setNotShared (some 0) = ⟨["x", "y"], [2, 3], [1, 2], [false, true]⟩ :=
  ⟨⟨rfl, rfl, rfl, by decide⟩, by decide, by decide⟩

end Fimex.ArrayLoop
