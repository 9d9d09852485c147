import Verif.Reader.Lemmas
import Verif.DataCopy.Props

/-!
# Property C16: generic reading equals slicing the complete data

Specification: the complete variable is the concatenation of its blocks along the unlimited dimension,
where a position without data counts as a block of fill values.
-/

namespace Fimex.Reader

open Slice DataCopy

variable {α : Type}

/-- The block of the complete variable at one unlimited position. -/
def block (fill : α) (n : Nat) (d : List α) : List α := if d = [] then List.replicate n fill else d

/-- **C16.** Reading any region inside a variable whose last dimension is the unlimited one, slice by
slice, gives exactly the slice of the complete variable (missing positions filled). -/
theorem C16_region_equals_slice_of_complete (fill : α) (readSlice : Nat → Res (List α)) (d : Nat → List α)
    (ud : String) (ns : List String) (dims start size : List Nat) (un us uz : Nat)
    (hns : ns.length = dims.length) (hud : ud ∉ ns)
    (hread : ∀ i, i < un → readSlice i = .ok (d i))
    (hsize : ∀ i, i < un → d i = [] ∨ (d i).length = dims.prod)
    (hr : RegionIn dims start size) (hu : us + uz ≤ un)
    (hd : ∀ n ∈ dims, n < two64) (hun : un < two64) (hbig : uz * size.prod < two64) :
    getDataSlice none fill readSlice (some ud) ⟨ns ++ [ud], dims ++ [un], start ++ [us], size ++ [uz]⟩ =
      slice ((List.range un).flatMap fun i => block fill dims.prod (d i))
        (dims ++ [un]) (start ++ [us]) (size ++ [uz]) := by
  obtain ⟨hls, hlz⟩ := hr.lengths
  have hbl : ∀ i, i < un → (block fill dims.prod (d i)).length = dims.prod := by
    intro i hi
    unfold block
    split
    · simp
    · rename_i h; rcases hsize i hi with h' | h'
      · exact absurd h' h
      · exact h'
  have hex : ∀ i, ∃ p : List α, p.length = size.prod ∧
      (i < uz → slice (block fill dims.prod (d (us + i))) dims start size = .ok p) := by
    intro i
    by_cases hi : i < uz
    · by_cases hz : dims = []
      · subst hz
        have hz0 : size = [] := List.length_eq_zero_iff.1 hlz
        exact ⟨block fill [].prod (d (us + i)), by rw [hbl (us + i) (by omega), hz0], fun _ => by simp [slice]⟩
      · obtain ⟨out, e, h, _⟩ := C03_slice_is_hyperrectangle (block fill dims.prod (d (us + i))) dims start size
          hz hr hd (hbl _ (by omega)).symm
        exact ⟨out, h, fun _ => e⟩
    · exact ⟨List.replicate size.prod fill, by simp, fun h => absurd h hi⟩
  have hsb : ∃ part : Nat → List α, (∀ i, (part i).length = size.prod) ∧
      ∀ i, i < uz → slice (block fill dims.prod (d (us + i))) dims start size = .ok (part i) :=
    ⟨fun i => (hex i).choose, fun i => (hex i).choose_spec.1, fun i => (hex i).choose_spec.2⟩
  obtain ⟨part, hpl, hps⟩ := hsb
  rw [slice_blocks (fun i => block fill dims.prod (d i)) dims start size un us uz hbl hr hu hd hun part hps]
  simp only [getDataSlice, getDataSliceUnlim]
  rw [splitDims_last ud ns start size dims us uz un hud (by omega) (by omega) (by omega), Res.ok_bind]
  by_cases huz : uz = 0
  · simp [huz]
  · simp only [huz, if_false]
    have := joinLoop_spec readSlice ⟨us, uz, start, size, dims, size.prod⟩ fill part hpl uz hbig
      (fun i hi => ⟨d (us + i), by
        show readSlice (i + us) = _
        rw [Nat.add_comm]; exact hread _ (by omega), ?_, ?_⟩) uz 0 (by omega)
    · rw [← this]
      simp [Nat.mul_comm]
    · intro hne
      have := hps i hi
      unfold block at this
      rwa [if_neg (fun e => hne (by rw [e]; rfl))] at this
    · intro he
      have := hps i hi
      unfold block at this
      rw [if_pos (List.length_eq_zero_iff.1 he), slice_replicate fill dims start size hr hd] at this
      exact (Res.ok.inj this).symm

/-- Non-vacuity: 2×3 variable with unlimited second dimension, position 1 without data. -/
example : getDataSlice none 9 (fun i => .ok (if i = 1 then [] else [10 * i, 10 * i + 1])) (some "t")
    ⟨["x", "t"], [2, 3], [1, 0], [1, 3]⟩ = .ok [1, 9, 21] ∧
    slice [0, 1, 9, 9, 20, 21] [2, 3] [1, 0] [1, 3] = .ok [1, 9, 21] := by decide

/-- **C16**, other storage: data in memory, or no unlimited dimension, is sliced directly. -/
theorem C16_memory_and_fixed (fill : α) (readSlice : Nat → Res (List α)) (full : List α) (ud : Option String)
    (r : Request) :
    getDataSlice (some full) fill readSlice ud r = slice full r.max r.start r.size ∧
    (readSlice 0 = .ok full → getDataSlice none fill readSlice none r = slice full r.max r.start r.size) := by
  refine ⟨rfl, fun h => ?_⟩
  simp [getDataSlice, h]

/-- A slice that does not have the size of the others is reported, not misplaced: for a single
unlimited position the call raises. -/
theorem C16_wrong_slice_size_raises (fill : α) (readSlice : Nat → Res (List α)) (d : List α) (us un : Nat)
    (ud : String) (hread : readSlice us = .ok d) (hd : d ≠ []) (h : d.length ≠ 1) :
    getDataSlice none fill readSlice (some ud) ⟨[ud], [un], [us], [1]⟩ = .throws := by
  have hl : d.length ≠ 0 := fun e => hd (List.length_eq_zero_iff.1 e)
  simp [getDataSlice, getDataSliceUnlim, splitDims, joinLoop, hread, hd, slice, h]

example : getDataSlice none 0 (fun _ => .ok [1, 2]) (some "t") ⟨["t"], [4], [2], [1]⟩ = .throws := by decide

/-- **C16** for complete reading: with all slices present `getData` is the concatenation. -/
theorem C16_getData_is_concatenation (readSlice : Nat → Res (List α)) (d : Nat → List α) (sz un : Nat)
    (hread : ∀ i, i < un → readSlice i = .ok (d i)) (hsize : ∀ i, i < un → (d i).length = sz)
    (hbig : un * sz < two64) :
    getDataUnlim readSlice sz un = .ok (((List.range un).flatMap d).map some) := by
  have key : ∀ n i, i + n = un →
      getDataLoop readSlice sz i n
        (((List.range i).flatMap d).map some ++ List.replicate (n * sz) none) =
        .ok (((List.range un).flatMap d).map some) := by
    intro n
    induction n with
    | zero => intro i h; simp [getDataLoop, ← h]
    | succ n ih =>
      intro i h
      have hpl : (((List.range i).flatMap d).map some).length = i * sz := by
        rw [List.length_map, length_flatMap_const _ _ sz (fun a ha => hsize a (by
          have : a < i := by simpa using ha
          omega))]; simp
      rw [getDataLoop, hread i (by omega), Res.ok_bind]
      have htot : i * sz + (n + 1) * sz = un * sz := by rw [← Nat.add_mul, h]
      have hc := copyData_append (((List.range i).flatMap d).map some)
        (List.replicate ((n + 1) * sz) none) ((d i).map some) sz
        (by rw [List.length_map, hsize i (by omega)]; exact Nat.le_refl _)
        (by rw [List.length_map, hsize i (by omega), List.length_replicate]; exact Nat.le_mul_of_pos_left _ (by omega))
        (by rw [List.length_append, hpl, List.length_replicate, htot]; exact hbig)
      rw [hpl] at hc
      rw [hc, Res.ok_bind, ← ih (i + 1) (by omega)]
      congr 1
      rw [List.range_succ, List.flatMap_append, List.map_append]
      simp only [List.flatMap_cons, List.flatMap_nil, List.append_nil, List.length_map, List.drop_replicate]
      congr 2
      rw [hsize i (by omega), Nat.succ_mul]; omega
  have := key un 0 (by omega)
  simpa [getDataUnlim] using this

example : getDataUnlim (fun i => .ok [2 * i, 2 * i + 1]) 2 3 =
    .ok [some 0, some 1, some 2, some 3, some 4, some 5] := by decide

/-- The two reading functions disagree on positions without data: `getDataSlice` returns fill values
there, `getData` leaves the freshly allocated memory uninitialised. -/
theorem C16_getData_missing_slice_is_indeterminate :
    getDataUnlim (fun i => .ok (if i = 1 then [] else [i])) 1 3 = .ok [some 0, none, some 2] ∧
    getDataSlice none 9 (fun i => .ok (if i = 1 then [] else [i])) (some "t") ⟨["t"], [3], [0], [3]⟩ =
      .ok [0, 9, 2] := by decide

/-- **C16** for data in memory: the slice at an unlimited position is the corresponding block. -/
theorem C16_slice_from_memory (full : List α) (d : Nat → List α) (sz un p : Nat)
    (hfull : full = (List.range un).flatMap d) (hsize : ∀ i, i < un → (d i).length = sz)
    (hsz : 0 < sz) (hp : p < un) (hbig : un * sz + sz < two64) :
    getSliceFromMemory full true sz p = .ok ((d p).map some) := by
  have hl : full.length = un * sz := by
    rw [hfull, length_flatMap_const _ _ sz (fun a ha => hsize a (by simpa using ha))]; simp
  have h1 : (p + 1) * sz ≤ un * sz := Nat.mul_le_mul_right _ hp
  rw [Nat.succ_mul] at h1
  unfold getSliceFromMemory
  rw [if_neg (by omega)]
  simp only [if_true]
  obtain ⟨out, e, g1, g2⟩ := C06_createDataSlice full (p * sz) sz (by omega) (by omega)
  rw [e]
  congr 1
  apply List.ext_getElem?
  intro i
  by_cases hi : i < sz
  · rw [g2 i hi, hfull, Nat.mul_comm,
      getElem?_flatMap_const _ _ sz (fun a ha => hsize a (by simpa using ha)) p i hi, List.getElem?_range hp,
      List.getElem?_map]
    simp [List.getElem?_eq_getElem (show i < (d p).length by rw [hsize p hp]; exact hi)]
  · rw [List.getElem?_eq_none (by omega), List.getElem?_eq_none (by rw [List.length_map, hsize p hp]; omega)]

example : getSliceFromMemory [1, 2, 3, 4] true 2 1 = .ok [some 3, some 4] := by decide

/-- A position beyond the data is not rejected one block after the end: the values returned are
indeterminate; later positions raise. -/
theorem C16_memory_position_beyond_end :
    getSliceFromMemory [1, 2, 3, 4] true 2 2 = .ok [none, none] ∧
    getSliceFromMemory [1, 2, 3, 4] true 2 3 = .throws := by decide

end Fimex.Reader
