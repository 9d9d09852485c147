import Verif.Extractor.Lemmas
import Mathlib.Data.List.Chain
import Mathlib.Tactic.Linarith
import Mathlib.Data.Rat.Floor

/-!
# Properties C17 to C22: extraction
-/

namespace Fimex.Extractor

open Slice DataCopy

variable {α : Type}

/-! ## C17 -/

/-- **C17 (partial).** Reading a region through the extractor gives, at index `j` of the region, the
source value whose index in every dimension is the one selected there, provided that no dimension which
is read with more than one element without being reduced is slower than a dimension reduced to
non-consecutive positions. Missing: without that condition the statement is false for the code
(`C17_order_wrong_after_split`); requests of size zero in a reduced dimension are excluded too
(`C17_empty_request_reads_data`). -/
theorem C17_extracted_values_partial (full : List α) (fill : α) (ds : List DimReq) (hne : ds ≠ [])
    (hfull : (ds.map (·.length)).prod = full.length) (hv : ∀ d ∈ ds, d.Valid)
    (ho : ds.Pairwise fun a b => b.sel = none → 1 < b.size → Contig a.wanted)
    (hbig : (ds.map fun d => d.wanted.length).prod < two64) :
    ∃ out, getDataSlice_ full fill ds = .ok out ∧
      out.length = (ds.map fun d => d.wanted.length).prod ∧
      ∀ j, InShape (ds.map fun d => d.wanted.length) j →
        out[pos (ds.map fun d => d.wanted.length) j]? =
          full[pos (ds.map (·.length)) (pick (ds.map (·.wanted)) j)]? := by
  obtain ⟨boxes, hb, hi⟩ := buildBoxes_ok ds [] [[]] binv_nil hv (by simpa using ho)
  rw [List.nil_append] at hi
  have hdims : ds.map (·.length) ≠ [] := by simpa using hne
  have hd64 : ∀ n ∈ ds.map (·.length), n < two64 := by
    intro n hn
    obtain ⟨d, hd, rfl⟩ := List.mem_map.1 hn
    exact (hv d hd).1
  have hread : ∀ b ∈ boxes, ∃ vals, slice full (ds.map (·.length)) (b.map (·.1)) (b.map (·.2)) = .ok vals ∧
      vals.map some = (boxIdx b).map fun i => full[pos (ds.map (·.length)) i]? := by
    intro b hb
    obtain ⟨out, h1, h2⟩ := slice_ok full _ _ _ hdims (hi.region b hb) hd64 hfull
    refine ⟨out, h1, ?_⟩
    rw [h2, boxIdx_eq, List.map_map]
    rfl
  have hmapmap : ds.map (fun d => d.wanted.length) = (ds.map (·.wanted)).map List.length := by simp
  suffices hs : ∃ out, getDataSlice_ full fill ds = .ok out ∧
      out.map some = (prodIdx (ds.map (·.wanted))).map fun i => full[pos (ds.map (·.length)) i]? by
    obtain ⟨out, h1, h2⟩ := hs
    refine ⟨out, h1, ?_, ?_⟩
    · have := congrArg List.length h2
      rw [List.length_map, List.length_map, prodIdx_length] at this
      rw [this, hmapmap]
    · intro j hj
      rw [hmapmap] at hj ⊢
      have hj' := prodIdx_getElem? hj
      have := congrArg (fun l => l[pos ((ds.map (·.wanted)).map List.length) j]?) h2
      simp only [List.getElem?_map, hj', Option.map_some] at this
      cases ho : out[pos ((ds.map (·.wanted)).map List.length) j]? with
      | none => rw [ho] at this; simp at this
      | some v => rw [ho] at this; simpa using this
  simp only [getDataSlice_, hb, Res.ok_bind]
  cases boxes with
  | nil => exact absurd rfl hi.ne
  | cons b bs =>
    cases bs with
    | nil =>
      obtain ⟨vals, h1, h2⟩ := hread b (by simp)
      refine ⟨vals, by simpa [joinSlices] using h1, ?_⟩
      rw [h2, ← hi.idx]
      simp
    | cons b' bs =>
      let vals : Box → List α := fun b =>
        match slice full (ds.map (·.length)) (b.map (·.1)) (b.map (·.2)) with
        | .ok v => v
        | _ => []
      have hvals : ∀ x ∈ b :: b' :: bs,
          slice full (ds.map (·.length)) (x.map (·.1)) (x.map (·.2)) = .ok (vals x) ∧
          (vals x).map some = (boxIdx x).map fun i => full[pos (ds.map (·.length)) i]? := by
        intro x hx
        obtain ⟨v, h1, h2⟩ := hread x hx
        have : vals x = v := by simp only [vals, h1]
        rw [this]
        exact ⟨h1, h2⟩
      have hlen : ∀ x ∈ b :: b' :: bs, (vals x).length = (x.map (·.2)).prod := by
        intro x hx
        have := congrArg List.length (hvals x hx).2
        rwa [List.length_map, List.length_map, boxIdx_length] at this
      have htotal : ((b :: b' :: bs).map fun x => (x.map (·.2)).prod).sum =
          (ds.map fun d => d.wanted.length).prod := by
        have := congrArg List.length hi.idx
        rw [prodIdx_length, List.length_flatMap] at this
        rw [hmapmap, ← this]
        congr 1
        exact List.map_congr_left fun x _ => (boxIdx_length x).symm
      refine ⟨(b :: b' :: bs).flatMap vals, ?_, ?_⟩
      · simp only [joinSlices]
        have := joinLoop_ok (fun b => slice full (ds.map (·.length)) (b.map (·.1)) (b.map (·.2)))
          (b :: b' :: bs) vals []
          (List.replicate ((b :: b' :: bs).map fun x => (x.map (·.2)).prod).sum fill)
          (fun x hx => ⟨(hvals x hx).1, hlen x hx⟩) (by simp)
          (by rw [List.nil_append, List.length_replicate, htotal]; exact hbig)
        simpa using this
      · rw [← hi.idx, List.map_flatMap, List.map_flatMap]
        exact flatMap_congr2 fun x hx => (hvals x hx).2

/-- Non-trivial case: a 3x4x2 variable, second dimension reduced to {0,1,3}, last reduced to {1}; the
middle part of the region is split into two reads. -/
example : getDataSlice_ (List.range 24) 99
      [⟨3, none, 1, 2⟩, ⟨4, some [0, 1, 3], 1, 2⟩, ⟨2, some [1], 0, 1⟩] = .ok [16, 17, 22, 23] := by
  decide
example : (∀ d ∈ [⟨3, none, 1, 2⟩, ⟨4, some [0, 1, 3], 1, 2⟩, ⟨2, some [1], 0, 1⟩], DimReq.Valid d) ∧
    [⟨3, none, 1, 2⟩, ⟨4, some [0, 1, 3], 1, 2⟩, ⟨2, some [1], 0, 1⟩].Pairwise
      fun a b : DimReq => b.sel = none → 1 < b.size → Contig a.wanted := by
  simp [DimReq.Valid, two64]

/-- The code violates C17 when the fastest dimension is reduced to non-consecutive positions and a slower
dimension is read completely: a 3x2 variable with x reduced to {0,2} should give 0,2,3,5. -/
theorem C17_order_wrong_after_split :
    getDataSlice_ [0, 1, 2, 3, 4, 5] 99 [⟨3, some [0, 2], 0, 2⟩, ⟨2, none, 0, 2⟩] = .ok [0, 3, 2, 5] := by
  decide

/-- A request for zero elements of a reduced dimension returns one element. -/
theorem C17_empty_request_reads_data :
    getDataSlice_ [0, 1, 2] 99 [⟨3, some [0, 2], 1, 0⟩] = .ok [2] := by
  decide

/-! ## C18 -/

/-- **C18.** The runs read for a sub-range of the selected positions: together, in order, they contain
exactly that sub-range, and none is empty. -/
theorem C18_chunks_cover_selection (positions : List Nat) (start size : Nat) (hz : 1 ≤ size)
    (h : start + size ≤ positions.length) :
    ∃ cs, chunks positions start size = .ok cs ∧
      cs.flatMap (fun c => List.range' c.1 c.2) = (positions.drop start).take size ∧ ∀ c ∈ cs, 1 ≤ c.2 :=
  chunks_ok positions start size hz h

theorem chunkLoop_sep (ps : List Nat) (hs : ps.Pairwise (· < ·)) :
    ∀ (n i start last : Nat) (acc cs : List (Nat × Nat)),
    i + n ≤ ps.length → start ≤ last → (∀ k (h : k < ps.length), i ≤ k → last < ps[k]) →
    (acc ++ [(start, last - start + 1)]).IsChain (fun a b => a.1 + a.2 < b.1) →
    chunkLoop ps i n start last acc = .ok cs → cs.IsChain (fun a b => a.1 + a.2 < b.1) := by
  intro n
  induction n with
  | zero =>
    intro i start last acc cs _ _ _ hc h
    rw [← Res.ok.inj h]
    exact hc
  | succ n ih =>
    intro i start last acc cs hl hsl hlast hc h
    have hi : i < ps.length := by omega
    have hlt := hlast i hi (Nat.le_refl _)
    have hnext : ∀ k (hk : k < ps.length), i + 1 ≤ k → ps[i] < ps[k] := by
      intro k hk hik
      exact List.pairwise_iff_getElem.1 hs i k hi hk (by omega)
    rw [chunkLoop, atT_ok hi, Res.ok_bind] at h
    by_cases hp : ps[i] = last + 1
    · rw [if_pos hp] at h
      refine ih (i + 1) start ps[i] acc cs (by omega) (by omega) hnext ?_ h
      rw [List.isChain_append] at hc ⊢
      refine ⟨hc.1, by simp, ?_⟩
      intro x hx y hy
      have := hc.2.2 x hx (start, last - start + 1) (by simp)
      simp at hy
      rw [← hy]
      exact this
    · rw [if_neg hp] at h
      refine ih (i + 1) ps[i] ps[i] (acc ++ [(start, last - start + 1)]) cs (by omega) (Nat.le_refl _)
        hnext ?_ h
      rw [List.isChain_append]
      refine ⟨hc, by simp, ?_⟩
      intro x hx y hy
      simp at hx hy
      rw [← hx, ← hy]
      show start + (last - start + 1) < ps[i]
      omega

/-- **C18, second part.** For strictly increasing positions the runs are increasing, disjoint and maximal:
between the end of one run and the start of the next at least one position is left out. -/
theorem C18_chunks_are_maximal_runs (positions : List Nat) (start size : Nat)
    (h : start + size ≤ positions.length) (hz : 1 ≤ size) (hs : positions.Pairwise (· < ·))
    (cs : List (Nat × Nat)) (hc : chunks positions start size = .ok cs) :
    cs.IsChain (fun a b => a.1 + a.2 < b.1) := by
  have hi : start < positions.length := by omega
  rw [chunks, atT_ok hi, Res.ok_bind] at hc
  refine chunkLoop_sep positions hs (size - 1) (start + 1) positions[start] positions[start] [] cs
    (by omega) (Nat.le_refl _) ?_ (by simp) hc
  intro k hk hik
  exact List.pairwise_iff_getElem.1 hs start k hi hk (by omega)

example : chunks [1, 2, 3, 5, 8, 9, 12] 1 5 = .ok [(2, 2), (5, 1), (8, 2)] := by decide

/-! ## C19 -/

/-- **C19 (partial).** A reduction is accepted exactly when no position is larger than the length; it
then records the positions and sets the length to their number, otherwise it raises and changes nothing.
Missing: the position equal to the length is accepted although it is outside
(`C19_position_equal_to_length_accepted`), and a second reduction is taken relative to the original
dimension (`C19_second_reduction_relative_to_source`). -/
theorem C19_reduction_partial (s : DimState) (slices : List Nat) :
    ((∃ p ∈ slices, s.length < p) → reduceDimension s slices = (s, .throws)) ∧
    ((∀ p ∈ slices, p < s.length) → reduceDimension s slices = (⟨slices.length, some slices⟩, .ok ())) ∧
    ((reduceDimension s slices).2 = .ok () → ∀ p ∈ slices, p ≤ s.length) := by
  refine ⟨?_, ?_, ?_⟩
  · rintro ⟨p, hp, h⟩
    rw [reduceDimension, if_pos (List.any_eq_true.2 ⟨p, hp, by simpa using h⟩)]
  · intro h
    rw [reduceDimension, if_neg]
    simp only [List.any_eq_true, decide_eq_true_eq, not_exists, not_and]
    intro p hp
    have := h p hp
    omega
  · unfold reduceDimension
    split
    · intro h; simp at h
    · rename_i h
      intro _ p hp
      simp only [List.any_eq_true, decide_eq_true_eq, not_exists, not_and] at h
      have := h p hp
      omega

/-- **C19 with C17.** Reducing one dimension of length `n` to in-range positions and then reading all of
it gives the source values at those positions, in order. -/
theorem C19_reduce_then_read (full : List α) (fill : α) (slices : List Nat) (hne : slices ≠ [])
    (hn : full.length < two64) (hb : slices.length < two64) (hp : ∀ p ∈ slices, p < full.length) :
    let s := (reduceDimension ⟨full.length, none⟩ slices).1
    ∃ out, getDataSlice_ full fill [⟨full.length, s.slices, 0, s.length⟩] = .ok out ∧
      out.length = slices.length ∧ ∀ k (h : k < slices.length), out[k]? = full[slices[k]]? := by
  dsimp only
  rw [(C19_reduction_partial ⟨full.length, none⟩ slices).2.1 hp]
  dsimp only
  have hw : DimReq.wanted ⟨full.length, some slices, 0, slices.length⟩ = slices := by
    simp [DimReq.wanted]
  obtain ⟨out, h1, h2, h3⟩ := C17_extracted_values_partial full fill
    [⟨full.length, some slices, 0, slices.length⟩] (by simp) (by simp)
    (by
      intro d hd
      obtain rfl := List.mem_singleton.1 hd
      cases slices with
      | nil => exact absurd rfl hne
      | cons a l => exact ⟨hn, by simp, by simp, hp⟩)
    (by simp) (by simpa [hw] using hb)
  refine ⟨out, h1, by simpa [hw] using h2, ?_⟩
  intro k hk
  have := h3 [k] (by simp only [List.map_cons, List.map_nil, hw, InShape]; exact ⟨hk, trivial⟩)
  simpa [hw, pos, pick, List.getD, hk] using this

example : getDataSlice_ [10, 11, 12, 13] 0 [⟨4, some [1, 3], 0, 2⟩] = .ok [11, 13] := by decide

/-- The code accepts the position equal to the length, and reading then fails. -/
theorem C19_position_equal_to_length_accepted :
    (reduceDimension ⟨4, none⟩ [1, 4]).2 = .ok () ∧
    getDataSlice_ [10, 11, 12, 13] 0 [⟨4, some [1, 4], 0, 2⟩] = .throws := by
  decide

/-- Reducing {0..4} to {2,3,4} and then selecting the first two of those reads source positions 0 and 1. -/
theorem C19_second_reduction_relative_to_source :
    let s := (reduceDimension (reduceDimension ⟨5, none⟩ [2, 3, 4]).1 [0, 1]).1
    s = ⟨2, some [0, 1]⟩ ∧
    getDataSlice_ [10, 11, 12, 13, 14] 0 [⟨5, s.slices, 0, s.length⟩] = .ok [10, 11] := by
  decide

/-! ## C20 -/

theorem setInsert_append (x : Nat) : ∀ l : List Nat, (∀ y ∈ l, y < x) → setInsert x l = l ++ [x]
  | [], _ => rfl
  | y :: ys, h => by
    have h1 := h y (by simp)
    rw [setInsert, if_neg (by omega), if_neg (by omega), setInsert_append x ys fun z hz => h z (by simp [hz])]
    rfl

theorem foldl_setInsert (start : Nat) : ∀ n, start + n ≤ two64 →
    (List.range n).foldl (fun acc i => setInsert (wadd start i) acc) [] = List.range' start n
  | 0, _ => rfl
  | n + 1, h => by
    rw [List.range_succ, List.foldl_append, foldl_setInsert start n (by omega), List.foldl_cons,
      List.foldl_nil, wadd_eq (by omega), setInsert_append, List.range'_concat, Nat.one_mul]
    intro y hy
    rw [List.mem_range'] at hy
    obtain ⟨i, hi, rfl⟩ := hy
    omega

theorem startLen_ok (s : DimState) (start len : Nat) (h : start + len ≤ s.length) (hs : s.length < two64) :
    reduceDimensionStartLen s start len = (⟨len, some (List.range' start len)⟩, .ok ()) := by
  rw [reduceDimensionStartLen, foldl_setInsert start len (by omega),
    (C19_reduction_partial s _).2.1, List.length_range']
  intro p hp
  rw [List.mem_range'] at hp
  obtain ⟨i, hi, rfl⟩ := hp
  omega

theorem toSizeT_nonneg {z : Int} (h0 : 0 ≤ z) (h1 : z < two64) : toSizeT z = z.toNat := by
  rw [toSizeT, Int.emod_eq_of_lt h0 h1]

theorem toSizeT_neg {z : Int} (h0 : z < 0) (h1 : -(two64 : Int) ≤ z) : toSizeT z = (z + two64).toNat := by
  rw [toSizeT, ← Int.add_emod_right, Int.emod_eq_of_lt (by omega) (by omega)]

/-- **C20.** For a positive end inside the dimension the positions `start..end` are kept. -/
theorem C20_positive_end (s : DimState) (start : Nat) (end_ : Int) (hs : s.length < two64)
    (h0 : 0 < end_) (h1 : (start : Int) ≤ end_ + 1) (h2 : end_ < s.length) :
    reduceDimensionStartEnd s start end_ =
      (⟨end_.toNat + 1 - start, some (List.range' start (end_.toNat + 1 - start))⟩, .ok ()) := by
  have hlen : startEndLength s.length start end_ = end_.toNat + 1 - start := by
    rw [startEndLength, if_pos h0, toSizeT_nonneg (by omega) (by omega)]
    unfold wadd wsub
    by_cases h : start ≤ end_.toNat
    · have : end_.toNat + two64 - start = (end_.toNat - start) + two64 := by omega
      simp only [two64] at *
      omega
    · simp only [two64] at *
      omega
  rw [reduceDimensionStartEnd, hlen, startLen_ok s start _ (by omega) hs]

/-- **C20.** For an end of zero or below, counted from the end of the dimension, the positions
`start .. length-1+end` are kept; in particular zero keeps everything from `start`. -/
theorem C20_end_counted_from_back (s : DimState) (start : Nat) (end_ : Int) (hs : s.length < two64)
    (h0 : end_ ≤ 0) (h1 : (start : Int) ≤ s.length + end_) :
    reduceDimensionStartEnd s start end_ =
      (⟨s.length - (-end_).toNat - start, some (List.range' start (s.length - (-end_).toNat - start))⟩,
        .ok ()) := by
  have hlen : startEndLength s.length start end_ = s.length - (-end_).toNat - start := by
    rw [startEndLength, if_neg (by omega)]
    by_cases h : end_ = 0
    · subst h
      rw [toSizeT_nonneg (by omega) (by simp [two64]), wsub_eq (by omega) (by omega)]
      rw [wadd_eq (by simp; omega)]
      simp
    · rw [toSizeT_neg (by omega) (by omega), wsub_eq (by omega) (by omega)]
      unfold wadd
      simp only [two64] at *
      omega
  rw [reduceDimensionStartEnd, hlen, startLen_ok s start _ (by omega) hs]

example : (reduceDimensionStartEnd ⟨10, none⟩ 3 6).1 = ⟨4, some [3, 4, 5, 6]⟩ := by decide
example : (reduceDimensionStartEnd ⟨10, none⟩ 3 (-4)).1 = ⟨3, some [3, 4, 5]⟩ := by decide
example : (reduceDimensionStartEnd ⟨4, none⟩ 1 0).1 = ⟨3, some [1, 2, 3]⟩ := by decide

/-- Outside those ranges the length wraps: an end before the start asks for almost 2^64 positions (the
code then builds a set of that size), instead of raising. -/
theorem C20_reversed_range_wraps (dimLen start : Nat) (end_ : Int) (h0 : 0 < end_) (h1 : end_ + 1 < start)
    (hs : start < two64) : startEndLength dimLen start end_ = two64 - (start - 1 - end_.toNat) := by
  rw [startEndLength, if_pos h0, toSizeT_nonneg (by omega) (by omega)]
  unfold wadd wsub
  simp only [two64] at *
  omega

/-- The same for a negative end which reaches back before the start. -/
theorem C20_too_negative_end_wraps (dimLen start : Nat) (end_ : Int) (h0 : end_ ≤ 0)
    (h1 : dimLen + end_ < start) (hd : dimLen < two64) (hs : start ≤ dimLen) (hb : -(2 ^ 63) ≤ end_) :
    startEndLength dimLen start end_ = two64 - (start + (-end_).toNat - dimLen) := by
  rw [startEndLength, if_neg (by omega), toSizeT_neg (by omega) (by simp [two64]; omega),
    wsub_eq (by omega) (by omega)]
  unfold wadd
  simp only [two64] at *
  omega

/-- An end equal to the length is accepted (one position too many). -/
theorem C20_end_equal_to_length_accepted :
    reduceDimensionStartEnd ⟨4, none⟩ 2 4 = (⟨3, some [2, 3, 4]⟩, .ok ()) := by decide

/-! ## C21 -/

section Axis

variable {K : Type} [Field K] [LinearOrder K] [IsStrictOrderedRing K]

theorem range_sorted (w : List K) (hw : w.Pairwise (· ≤ ·)) (lo hi : K) :
    Search.lowerBound w lo ≤ w.length ∧ Search.upperBound w hi ≤ w.length ∧
    ∀ i (h : i < w.length), (Search.lowerBound w lo ≤ i ∧
      i < Search.lowerBound w lo + (Search.upperBound w hi - Search.lowerBound w lo)) ↔
      (lo ≤ w[i] ∧ w[i] ≤ hi) := by
  obtain ⟨l1, l2⟩ := Search.lowerBound_spec w hw lo
  obtain ⟨u1, u2⟩ := Search.upperBound_spec w hw hi
  refine ⟨l1, u1, fun i h => ?_⟩
  rw [← l2 i h, ← u2 i h]
  omega

/-- Specification: the tolerance is one percent of the first step of the axis, and 0.00001 without such a step. -/
def tolerance (v : List K) : K :=
  if 2 ≤ v.length ∧ v.getD 0 0 ≠ v.getD 1 0 then |v.getD 1 0 - v.getD 0 0| / 100 else 1 / 100000

theorem roundingDelta_eq (v : List K) : roundingDelta v = tolerance v := by
  match v with
  | [] => simp [roundingDelta, tolerance]
  | [_] => simp [roundingDelta, tolerance]
  | a :: b :: _ =>
    simp only [roundingDelta, tolerance, List.length_cons, List.getD_cons_zero, List.getD_cons_succ]
    by_cases h : a = b
    · rw [if_neg (not_not.2 h), if_neg (fun h' => h'.2 h)]
    · rw [if_pos h, if_pos ⟨by omega, h⟩, abs_sub_comm]; ring

/-- **C21.** On an ascending axis the kept block is inside the axis and consists of exactly the positions
whose value lies in the requested range (in the axis' unit), widened by the tolerance at both ends. -/
theorem C21_ascending_axis_range (v : List K) (hv : v.Pairwise (· ≤ ·)) (slope offset startVal endVal : K) :
    (axisRange v slope offset startVal endVal).1 + (axisRange v slope offset startVal endVal).2 ≤ v.length ∧
    ∀ i (h : i < v.length),
      ((axisRange v slope offset startVal endVal).1 ≤ i ∧
        i < (axisRange v slope offset startVal endVal).1 + (axisRange v slope offset startVal endVal).2) ↔
      (startVal * slope + offset - tolerance v ≤ v[i] ∧ v[i] ≤ endVal * slope + offset + tolerance v) := by
  rw [← roundingDelta_eq]
  have hr : isReverse v = false := by
    match v, hv with
    | [], _ => rfl
    | [_], _ => rfl
    | a :: b :: _, hv =>
      have : a ≤ b := (List.pairwise_cons.1 hv).1 b (by simp)
      simpa [isReverse] using this
  obtain ⟨h1, h2, h3⟩ := range_sorted v hv (startVal * slope + offset - roundingDelta v)
    (endVal * slope + offset + roundingDelta v)
  unfold axisRange
  simp only [hr, Bool.false_eq_true, if_false]
  exact ⟨by omega, h3⟩

/-- **C21.** The same on a descending axis. -/
theorem C21_descending_axis_range (a b : K) (t : List K) (hab : a > b)
    (hv : (a :: b :: t).Pairwise (· ≥ ·)) (slope offset startVal endVal : K) :
    let v := a :: b :: t
    (axisRange v slope offset startVal endVal).1 + (axisRange v slope offset startVal endVal).2 ≤ v.length ∧
    ∀ i (h : i < v.length),
      ((axisRange v slope offset startVal endVal).1 ≤ i ∧
        i < (axisRange v slope offset startVal endVal).1 + (axisRange v slope offset startVal endVal).2) ↔
      (startVal * slope + offset - tolerance v ≤ v[i] ∧ v[i] ≤ endVal * slope + offset + tolerance v) := by
  dsimp only
  rw [← roundingDelta_eq]
  generalize hvv : (a :: b :: t) = v at *
  have hr : isReverse v = true := by
    subst hvv; simpa [isReverse] using hab
  have hrev : v.reverse.Pairwise (· ≤ ·) := by
    rw [List.pairwise_reverse]; exact hv
  obtain ⟨h1, h2, h3⟩ := range_sorted v.reverse hrev (startVal * slope + offset - roundingDelta v)
    (endVal * slope + offset + roundingDelta v)
  unfold axisRange
  simp only [hr, if_true]
  simp only [List.length_reverse] at h1 h2 h3 ⊢
  generalize Search.lowerBound v.reverse (startVal * slope + offset - roundingDelta v) = L at *
  generalize Search.upperBound v.reverse (endVal * slope + offset + roundingDelta v) = U at *
  refine ⟨by omega, fun i h => ?_⟩
  have := h3 (v.length - 1 - i) (by omega)
  rw [List.getElem_reverse] at this
  have hidx : v.length - 1 - (v.length - 1 - i) = i := by omega
  simp only [hidx] at this
  rw [← this]
  omega

example : axisRange [0, 10, 20, 30, (40 : ℚ)] 1 0 10 30 = (1, 3) := by decide +kernel
example : axisRange [40, 30, 20, 10, (0 : ℚ)] 1 0 5 25 = (2, 2) := by decide +kernel
/-- Outside the axis nothing is kept. -/
example : axisRange [40, 30, 20, 10, (0 : ℚ)] 1 0 50 60 = (0, 0) := by decide +kernel

/-- A descending axis whose first two values are equal is not recognised as descending: the value 1 lies
in the range [0, 2] but nothing is kept. -/
theorem C21_descending_with_equal_start_loses_values :
    axisRange [5, 5, 3, (1 : ℚ)] 1 0 0 2 = (0, 0) := by decide +kernel

/-! ## C22 -/

/-- Specification: the point lies in the latitude/longitude box; with `west > east` the box crosses the
date line. -/
def InBox (south north west east lon lat : K) : Prop :=
  south ≤ lat ∧ lat ≤ north ∧
    if west ≤ east then west ≤ lon ∧ lon ≤ east else lon ≤ east ∨ west ≤ lon

theorem outside_iff (south north west east lon lat : K) :
    outside south north west east (some lon) (some lat) = false ↔ InBox south north west east lon lat := by
  unfold outside InBox
  simp only [flt, Bool.or_eq_true, decide_eq_true_eq, Bool.and_eq_true, Bool.not_eq_true',
    decide_eq_false_iff_not, gt_iff_lt, not_lt]
  by_cases hw : west ≤ east
  · have hw' : ¬ east < west := not_lt.2 hw
    by_cases h1 : lat < south ∨ north < lat
    · simp only [if_pos h1, if_pos hw]
      constructor
      · intro h; cases h
      · rintro ⟨h2, h3, _⟩
        rcases h1 with h1 | h1
        · exact absurd h2 (not_le.2 h1)
        · exact absurd h3 (not_le.2 h1)
    · rw [if_neg h1, if_neg (by tauto), if_pos hw]
      push Not at h1
      by_cases h2 : lon < west ∨ east < lon
      · rw [if_pos ⟨hw, h2⟩]
        constructor
        · intro h; cases h
        · rintro ⟨_, _, h3, h4⟩
          rcases h2 with h2 | h2
          · exact absurd h3 (not_le.2 h2)
          · exact absurd h4 (not_le.2 h2)
      · rw [if_neg (by tauto)]
        push Not at h2
        simp [h1, h2]
  · have hw' : east < west := not_le.1 hw
    by_cases h1 : lat < south ∨ north < lat
    · simp only [if_pos h1, if_neg hw]
      constructor
      · intro h; cases h
      · rintro ⟨h2, h3, _⟩
        rcases h1 with h1 | h1
        · exact absurd h2 (not_le.2 h1)
        · exact absurd h3 (not_le.2 h1)
    · rw [if_neg h1, if_neg hw]
      push Not at h1
      by_cases h2 : east < lon ∧ lon < west
      · rw [if_pos ⟨⟨hw', h2.1⟩, h2.2⟩]
        constructor
        · intro h; cases h
        · rintro ⟨_, _, h3 | h3⟩
          · exact absurd h3 (not_le.2 h2.1)
          · exact absurd h3 (not_le.2 h2.2)
      · rw [if_neg (by tauto), if_neg (by tauto)]
        simp only [true_iff]
        refine ⟨h1.1, h1.2, ?_⟩
        by_contra hc
        push Not at hc
        exact h2 hc

theorem mem_setInsert (x y : Nat) : ∀ l : List Nat, y ∈ setInsert x l ↔ y = x ∨ y ∈ l
  | [] => by simp [setInsert]
  | z :: zs => by
    unfold setInsert
    split
    · simp
    · split
      · rename_i h; subst h; simp
      · rw [List.mem_cons, mem_setInsert x y zs, List.mem_cons]
        tauto

theorem setInsert_sorted (x : Nat) : ∀ l : List Nat, l.Pairwise (· < ·) → (setInsert x l).Pairwise (· < ·)
  | [], _ => by simp [setInsert]
  | z :: zs, h => by
    unfold setInsert
    obtain ⟨h1, h2⟩ := List.pairwise_cons.1 h
    split
    · rename_i hx
      rw [List.pairwise_cons]
      refine ⟨fun a ha => ?_, h⟩
      rcases List.mem_cons.1 ha with rfl | ha
      · exact hx
      · exact Nat.lt_trans hx (h1 a ha)
    · split
      · exact h
      · rw [List.pairwise_cons]
        refine ⟨fun a ha => ?_, setInsert_sorted x zs h2⟩
        rcases (mem_setInsert x a zs).1 ha with rfl | ha
        · omega
        · exact h1 a ha

theorem boxRow_spec (south north west east : K) (lon lat : Nat → Option K) (ix : Nat) :
    ∀ (n iy i : Nat) (xs ys : List Nat),
    let r := boxRow south north west east lon lat ix n iy i (xs, ys)
    (xs.Pairwise (· < ·) → r.1.Pairwise (· < ·)) ∧ (ys.Pairwise (· < ·) → r.2.Pairwise (· < ·)) ∧
    (∀ x, x ∈ r.1 ↔ x ∈ xs ∨ (x = ix ∧ ∃ k < n, outside south north west east (lon (i + k)) (lat (i + k)) = false)) ∧
    (∀ y, y ∈ r.2 ↔ y ∈ ys ∨ ∃ k < n, y = iy + k ∧ outside south north west east (lon (i + k)) (lat (i + k)) = false) := by
  intro n
  induction n with
  | zero => intro iy i xs ys; simp [boxRow]
  | succ n ih =>
    intro iy i xs ys
    dsimp only
    rw [boxRow]
    have split_k : ∀ (P : Nat → Prop), (∃ k < n + 1, P k) ↔ P 0 ∨ ∃ k < n, P (k + 1) := by
      intro P
      constructor
      · rintro ⟨k, hk, h⟩
        cases k with
        | zero => exact .inl h
        | succ k => exact .inr ⟨k, by omega, h⟩
      · rintro (h | ⟨k, hk, h⟩)
        · exact ⟨0, by omega, h⟩
        · exact ⟨k + 1, by omega, h⟩
    have e : ∀ k, i + 1 + k = i + (k + 1) := fun k => by omega
    have e2 : ∀ k, iy + 1 + k = iy + (k + 1) := fun k => by omega
    cases ho : outside south north west east (lon i) (lat i) with
    | true =>
      simp only [if_true]
      obtain ⟨a, b, c, d⟩ := ih (iy + 1) (i + 1) xs ys
      simp only [e, e2] at c d
      refine ⟨a, b, fun x => ?_, fun y => ?_⟩
      · rw [c x, split_k]
        simp only [Nat.add_zero, ho, Bool.true_eq_false, false_or]
      · rw [d y, split_k]
        simp only [Nat.add_zero, ho, Bool.true_eq_false, and_false, false_or]
    | false =>
      simp only [Bool.false_eq_true, if_false]
      obtain ⟨a, b, c, d⟩ := ih (iy + 1) (i + 1) (setInsert ix xs) (setInsert iy ys)
      simp only [e, e2] at c d
      refine ⟨fun h => a (setInsert_sorted ix xs h), fun h => b (setInsert_sorted iy ys h),
        fun x => ?_, fun y => ?_⟩
      · rw [c x, mem_setInsert, split_k]
        simp only [Nat.add_zero, ho, true_or, and_true]
        tauto
      · rw [d y, mem_setInsert, split_k]
        simp only [Nat.add_zero, ho, and_true]
        tauto

theorem boxLoop_spec (south north west east : K) (lon lat : Nat → Option K) (ny : Nat) :
    ∀ (n ix i : Nat) (xs ys : List Nat),
    let r := boxLoop south north west east lon lat ny n ix i (xs, ys)
    (xs.Pairwise (· < ·) → r.1.Pairwise (· < ·)) ∧ (ys.Pairwise (· < ·) → r.2.Pairwise (· < ·)) ∧
    (∀ x, x ∈ r.1 ↔ x ∈ xs ∨ ∃ m < n, x = ix + m ∧ ∃ k < ny,
      outside south north west east (lon (i + m * ny + k)) (lat (i + m * ny + k)) = false) ∧
    (∀ y, y ∈ r.2 ↔ y ∈ ys ∨ ∃ m < n, ∃ k < ny, y = k ∧
      outside south north west east (lon (i + m * ny + k)) (lat (i + m * ny + k)) = false) := by
  intro n
  induction n with
  | zero => intro ix i xs ys; simp [boxLoop]
  | succ n ih =>
    intro ix i xs ys
    dsimp only
    rw [boxLoop]
    have split_m : ∀ (P : Nat → Prop), (∃ k < n + 1, P k) ↔ P 0 ∨ ∃ k < n, P (k + 1) := by
      intro P
      constructor
      · rintro ⟨k, hk, h⟩
        cases k with
        | zero => exact .inl h
        | succ k => exact .inr ⟨k, by omega, h⟩
      · rintro (h | ⟨k, hk, h⟩)
        · exact ⟨0, by omega, h⟩
        · exact ⟨k + 1, by omega, h⟩
    have e : ∀ m, i + ny + m * ny = i + (m + 1) * ny := fun m => by rw [Nat.succ_mul]; omega
    have e2 : ∀ k, ix + 1 + k = ix + (k + 1) := fun k => by omega
    obtain ⟨a, b, c, d⟩ := boxRow_spec south north west east lon lat ix ny 0 i xs ys
    generalize boxRow south north west east lon lat ix ny 0 i (xs, ys) = r at *
    obtain ⟨r1, r2⟩ := r
    obtain ⟨a', b', c', d'⟩ := ih (ix + 1) (i + ny) r1 r2
    simp only [e, e2] at c' d'
    refine ⟨fun h => a' (a h), fun h => b' (b h), fun x => ?_, fun y => ?_⟩
    · rw [c' x, c x, split_m]
      simp only [Nat.zero_mul, Nat.add_zero, or_assoc]
    · rw [d' y, d y, split_m]
      simp only [Nat.zero_mul, Nat.add_zero, Nat.zero_add, or_assoc]

/-- **C22.** For a valid box and a projection giving a position for every grid point, the kept x positions
are, in increasing order, exactly those of the columns containing a point inside the box, and the kept y
positions exactly those of the rows containing one; so every grid point inside the box is kept. -/
theorem C22_box_keeps_exactly_rows_and_columns (south north west east : K) (nx ny : Nat) (lon lat : Nat → K)
    (h1 : south ≤ north) (h2 : -90 ≤ south) (h3 : north ≤ 90) (h4 : -180 ≤ west) (h5 : west ≤ 180)
    (h6 : -180 ≤ east) (h7 : east ≤ 180) :
    ∃ xs ys, latLonBox south north west east nx ny (fun i => some (lon i)) (fun i => some (lat i)) = .ok (xs, ys) ∧
      xs.Pairwise (· < ·) ∧ ys.Pairwise (· < ·) ∧
      (∀ x, x ∈ xs ↔ x < nx ∧ ∃ y < ny, InBox south north west east (lon (x * ny + y)) (lat (x * ny + y))) ∧
      (∀ y, y ∈ ys ↔ y < ny ∧ ∃ x < nx, InBox south north west east (lon (x * ny + y)) (lat (x * ny + y))) ∧
      (∀ x < nx, ∀ y < ny, InBox south north west east (lon (x * ny + y)) (lat (x * ny + y)) →
        x ∈ xs ∧ y ∈ ys) := by
  obtain ⟨a, b, c, d⟩ := boxLoop_spec south north west east (fun i => some (lon i)) (fun i => some (lat i))
    ny nx 0 0 [] []
  have hok : latLonBox south north west east nx ny (fun i => some (lon i)) (fun i => some (lat i)) =
      .ok (boxLoop south north west east (fun i => some (lon i)) (fun i => some (lat i)) ny nx 0 0 ([], [])) := by
    unfold latLonBox
    rw [if_neg (not_lt.2 h1), if_neg, if_neg, if_neg, if_neg] <;>
      (rintro (h | h) <;> linarith)
  generalize boxLoop south north west east (fun i => some (lon i)) (fun i => some (lat i)) ny nx 0 0 ([], []) = r at *
  obtain ⟨xs, ys⟩ := r
  have hx : ∀ x, x ∈ xs ↔ x < nx ∧ ∃ y < ny, InBox south north west east (lon (x * ny + y)) (lat (x * ny + y)) := by
    intro x
    rw [c x]
    simp only [List.not_mem_nil, false_or, Nat.zero_add, outside_iff]
    constructor
    · rintro ⟨m, hm, rfl, h⟩; exact ⟨hm, h⟩
    · rintro ⟨hm, h⟩; exact ⟨x, hm, rfl, h⟩
  have hy : ∀ y, y ∈ ys ↔ y < ny ∧ ∃ x < nx, InBox south north west east (lon (x * ny + y)) (lat (x * ny + y)) := by
    intro y
    rw [d y]
    simp only [List.not_mem_nil, false_or, Nat.zero_add, outside_iff]
    constructor
    · rintro ⟨m, hm, k, hk, rfl, h⟩; exact ⟨hk, m, hm, h⟩
    · rintro ⟨hk, m, hm, h⟩; exact ⟨m, hm, y, hk, rfl, h⟩
  exact ⟨xs, ys, hok, a List.Pairwise.nil, b List.Pairwise.nil, hx, hy,
    fun x hxn y hyn h => ⟨(hx x).2 ⟨hxn, y, hyn, h⟩, (hy y).2 ⟨hyn, x, hxn, h⟩⟩⟩

/-- **C22.** Boxes outside the globe, or with south above north, are rejected. -/
theorem C22_invalid_boxes_raise (south north west east : K) (nx ny : Nat) (lon lat : Nat → Option K)
    (h : south > north ∨ south < -90 ∨ north > 90 ∨ west < -180 ∨ west > 180 ∨ east < -180 ∨ east > 180) :
    latLonBox south north west east nx ny lon lat = .throws := by
  unfold latLonBox
  split
  · rfl
  · split
    · rfl
    · split
      · rfl
      · split
        · rfl
        · split
          · rfl
          · rename_i h1 h2 h3 h4 h5
            push Not at h1 h2 h3 h4 h5
            rcases h with h | h | h | h | h | h | h
            · exact absurd h (not_lt.2 h1)
            · exact absurd h (not_lt.2 h2.1)
            · exact absurd h (not_lt.2 h3.2)
            · exact absurd h (not_lt.2 h4.1)
            · exact absurd h (not_lt.2 h4.2)
            · exact absurd h (not_lt.2 h5.1)
            · exact absurd h (not_lt.2 h5.2)

/-- A 3x2 grid crossing the date line, box from 170 to -170. -/
example : latLonBox (K := ℚ) 0 10 170 (-170) 3 2 (fun i => [some 160, some 165, some 175, some 175, some (-175), some (-160)].getD i none)
    (fun i => [some 5, some 5, some 5, some 20, some 5, some 5].getD i none) = .ok ([1, 2], [0]) := by
  decide +kernel

/-- A grid point which the projection cannot place (NaN) counts as inside every box, so its row and column
are kept. -/
theorem C22_undefined_position_counts_as_inside :
    latLonBox (K := ℚ) 0 10 0 10 2 1 (fun i => [some 50, none].getD i none)
      (fun i => [some 50, none].getD i none) = .ok ([1], [0]) := by
  decide +kernel

end Axis

end Fimex.Extractor
