import Verif.Aggregation.Model
import Verif.Reader.Lemmas
import Verif.Slice.Props

/-! # Lemmas about joins -/

namespace Fimex.Aggregation

open Slice DataCopy

variable {α : Type}

theorem foldl_extendBy : ∀ (lens pre : List Nat) (s : Nat), s = pre.getLast?.getD 0 →
    lens.foldl extendBy pre = pre ++ (List.range lens.length).map fun k => s + (lens.take (k + 1)).sum
  | [], pre, s, _ => by simp
  | l :: ls, pre, s, hs => by
    rw [List.foldl_cons, foldl_extendBy ls (extendBy pre l) (s + l) (by simp [extendBy, hs])]
    rw [List.length_cons, List.range_succ_eq_map, List.map_cons, List.map_map, extendBy, List.append_assoc]
    simp [hs, Nat.add_assoc]

/-- End positions of the readers in the joined dimension. -/
def endsOf (lens : List Nat) : List Nat := (List.range lens.length).map fun k => (lens.take (k + 1)).sum

theorem foldl_extendBy_nil (lens : List Nat) : lens.foldl extendBy [] = endsOf lens := by
  rw [foldl_extendBy lens [] 0 rfl]
  simp [endsOf]

theorem take_sum_mono (lens : List Nat) {i j : Nat} (h : i ≤ j) : (lens.take i).sum ≤ (lens.take j).sum := by
  have : lens.take j = lens.take i ++ (lens.drop i).take (j - i) := by
    rw [← List.take_add]
    congr 1
    omega
  rw [this, List.sum_append]
  omega

theorem take_sum_succ (lens : List Nat) {k : Nat} (h : k < lens.length) :
    (lens.take (k + 1)).sum = (lens.take k).sum + lens[k] := by
  rw [List.take_add_one, List.getElem?_eq_getElem h, List.sum_append]
  rfl

theorem endsOf_sorted (lens : List Nat) : (endsOf lens).Pairwise (· ≤ ·) := by
  rw [List.pairwise_iff_getElem]
  intro i j hi hj hij
  simp only [endsOf, List.getElem_map, List.getElem_range]
  exact take_sum_mono lens (by omega)

/-- The reader found for a position holds it: the lengths of the earlier readers and the local position add
up to the position. -/
theorem findJoinReader_spec (lens : List Nat) (p : Nat) :
    (p < lens.sum → ∃ k q, findJoinReader (endsOf lens) p = some (k, q) ∧ ∃ h : k < lens.length,
      q < lens[k] ∧ (lens.take k).sum + q = p) ∧
    (lens.sum ≤ p → findJoinReader (endsOf lens) p = none) := by
  obtain ⟨hU, hspec⟩ := Search.upperBound_spec (endsOf lens) (endsOf_sorted lens) p
  have hlen : (endsOf lens).length = lens.length := by simp [endsOf]
  have hget : ∀ i (h : i < (endsOf lens).length), (endsOf lens)[i] = (lens.take (i + 1)).sum := by
    intro i h; simp [endsOf]
  have hlast : (lens.take lens.length).sum = lens.sum := by simp
  refine ⟨fun hp => ?_, fun hp => ?_⟩
  · have hlt : Search.upperBound (endsOf lens) p < lens.length := by
      rcases Nat.lt_or_eq_of_le hU with h | h
      · omega
      · exfalso
        have hne : 0 < lens.length := by
          cases lens with
          | nil => simp at hp
          | cons _ _ => simp
        have := (hspec (lens.length - 1) (by omega)).1 (by omega)
        rw [hget, show lens.length - 1 + 1 = lens.length by omega, hlast] at this
        omega
    have h1 : p < (lens.take (Search.upperBound (endsOf lens) p + 1)).sum := by
      have := (not_congr (hspec _ (by omega : Search.upperBound (endsOf lens) p < (endsOf lens).length))).1
        (Nat.lt_irrefl _)
      rw [hget] at this
      omega
    have h2 : (lens.take (Search.upperBound (endsOf lens) p)).sum ≤ p := by
      by_cases h0 : Search.upperBound (endsOf lens) p = 0
      · simp [h0]
      · have := (hspec (Search.upperBound (endsOf lens) p - 1) (by omega)).1 (by omega)
        rw [hget, show Search.upperBound (endsOf lens) p - 1 + 1 = Search.upperBound (endsOf lens) p by omega] at this
        exact this
    rw [take_sum_succ lens hlt] at h1
    refine ⟨Search.upperBound (endsOf lens) p, p - (lens.take (Search.upperBound (endsOf lens) p)).sum, ?_, hlt, by omega, by omega⟩
    unfold findJoinReader
    simp only
    rw [if_neg (by omega)]
    congr 2
    by_cases h0 : Search.upperBound (endsOf lens) p = 0
    · simp [h0]
    · rw [if_neg h0]
      congr 1
      have hb : Search.upperBound (endsOf lens) p - 1 < (endsOf lens).length := by omega
      simp only [List.getD, List.getElem?_eq_getElem hb, Option.getD_some]
      rw [hget, show Search.upperBound (endsOf lens) p - 1 + 1 = Search.upperBound (endsOf lens) p by omega]
  · unfold findJoinReader
    simp only
    rw [if_pos]
    rcases Nat.lt_or_eq_of_le hU with h | h
    · exfalso
      have := (not_congr (hspec _ h)).1 (Nat.lt_irrefl _)
      rw [hget] at this
      have := take_sum_mono lens (i := Search.upperBound (endsOf lens) p + 1) (j := lens.length) (by omega)
      omega
    · exact h

/-- Block `q` of an array made of blocks of size `bs`. -/
def blk (l : List α) (bs q : Nat) : List α := (l.drop (q * bs)).take bs

theorem blk_length (l : List α) (bs q n : Nat) (h : l.length = n * bs) (hq : q < n) :
    (blk l bs q).length = bs := by
  have : (q + 1) * bs ≤ n * bs := Nat.mul_le_mul_right _ hq
  rw [Nat.succ_mul] at this
  simp only [blk, List.length_take, List.length_drop]
  omega

theorem flatMap_blk (l : List α) (bs : Nat) : ∀ n, l.length = n * bs →
    (List.range n).flatMap (blk l bs) = l := by
  suffices h : ∀ n, n * bs ≤ l.length → (List.range n).flatMap (blk l bs) = l.take (n * bs) by
    intro n hn
    rw [h n (by omega), List.take_of_length_le (by omega)]
  intro n
  induction n with
  | zero => simp
  | succ n ih =>
    intro h
    rw [Nat.succ_mul] at h
    rw [List.range_succ, List.flatMap_append, ih (by omega), Nat.succ_mul, List.take_add]
    simp [blk]

theorem slice_total (d : List α) (dims start size : List Nat) (hl : d.length = dims.prod)
    (hr : RegionIn dims start size) (hd : ∀ n ∈ dims, n < two64) :
    ∃ out, slice d dims start size = .ok out ∧ out.length = size.prod := by
  by_cases hz : dims = []
  · subst hz
    have hz0 : size = [] := List.length_eq_zero_iff.1 hr.lengths.2
    exact ⟨d, by simp [slice], by rw [hl, hz0]⟩
  · obtain ⟨out, e, h, _⟩ := C03_slice_is_hyperrectangle d dims start size hz hr hd hl.symm
    exact ⟨out, e, h⟩

/-- Reading one position of the last dimension is slicing that block. -/
theorem slice_one_block (d : List α) (dims start size : List Nat) (n q : Nat) (hl : d.length = n * dims.prod)
    (hq : q < n) (hn : n < two64) (hr : RegionIn dims start size) (hd : ∀ n ∈ dims, n < two64) :
    slice d (dims ++ [n]) (start ++ [q]) (size ++ [1]) = slice (blk d dims.prod q) dims start size := by
  obtain ⟨out, h1, _⟩ := slice_total (blk d dims.prod q) dims start size (blk_length _ _ _ _ hl hq) hr hd
  have := Reader.slice_blocks (blk d dims.prod) dims start size n q 1
    (fun a ha => blk_length _ _ _ _ hl ha) hr (by omega) hd hn (fun _ => out)
    (fun a ha => by
      have : a = 0 := by omega
      subst this; exact h1)
  rw [flatMap_blk d dims.prod n hl] at this
  rw [this, h1]
  simp

/-- Block of a concatenation. -/
theorem blk_flatMap (fs : List (List α)) (lens : List Nat) (bs : Nat)
    (hl : fs.map List.length = lens.map (· * bs)) (k q : Nat) (hk : k < lens.length) (hk' : k < fs.length)
    (hq : q < lens[k]) :
    blk fs.flatten bs ((lens.take k).sum + q) = blk fs[k] bs q := by
  induction fs generalizing lens k with
  | nil => simp at hk'
  | cons f fs ih =>
    cases lens with
    | nil => simp at hk
    | cons l ls =>
      simp only [List.map_cons, List.cons.injEq] at hl
      cases k with
      | zero =>
        simp only [List.getElem_cons_zero] at hq
        simp only [List.take_zero, List.sum_nil, Nat.zero_add, List.getElem_cons_zero, List.flatten_cons, blk]
        have : (q + 1) * bs ≤ l * bs := Nat.mul_le_mul_right _ hq
        rw [Nat.succ_mul] at this
        rw [List.drop_append, List.take_append, List.length_drop,
          show bs - (f.length - q * bs) = 0 by omega]
        simp
      | succ k =>
        simp only [List.getElem_cons_succ] at hq
        simp only [List.take_succ_cons, List.sum_cons, List.getElem_cons_succ, List.flatten_cons]
        rw [← ih ls hl.2 k (by simpa using hk) (by simpa using hk') hq]
        have e : (l + (List.take k ls).sum + q) * bs = f.length + ((List.take k ls).sum + q) * bs := by
          rw [hl.1, ← Nat.add_mul]
          congr 1
          omega
        simp only [blk]
        rw [e, List.drop_append, List.drop_eq_nil_of_le (by omega)]
        simp

end Fimex.Aggregation
