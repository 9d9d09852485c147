import Verif.Netcdf.Writer
import Mathlib.Tactic.Common

/-!
# Chunk sizes of the netCDF writer (C90)
-/

namespace Fimex.Netcdf

open Fimex.Cdm
open Fimex.Tables (DataType)

variable {A F U : Type}

/-! ## Specification -/

/-- The cells along a dimension that exist when the file is defined: an unlimited dimension counts as
one, a dimension of length 0 is given one. -/
def cellsAlong (d : Dim) : Nat := if d.unlimited then 1 else max 1 d.length

/-- All dimensions of the shape exist, in this order. -/
inductive DimsOf (c : Ds A) : List String → List Dim → Prop
  | nil : DimsOf c [] []
  | cons {n l d ds} : getDimension c n = .ok d → DimsOf c l ds → DimsOf c (n :: l) (d :: ds)

/-- A chunk has at least one cell and not more than the dimension. -/
def ChunkFits (d : Dim) (k : Nat) : Prop := 1 ≤ k ∧ k ≤ cellsAlong d

/-! ## Lemmas -/

theorem clamp_le {v h : Nat} : clamp 1 v h ≤ max 1 v := by
  unfold clamp
  split
  · omega
  · split <;> omega

theorem chunkStep_ok {w : Writer A} {n : String} {d : Dim} {acc total k : Nat}
    (hd : getDimension w.cdm n = .ok d) (h : chunkStep w n acc = .ok (total, k)) (ht : 0 < total) :
    0 < acc ∧ ChunkFits d k := by
  have hsize : (if d.unlimited then 1 else d.length % 2 ^ 32) ≤ cellsAlong d := by
    unfold cellsAlong
    split
    · exact Nat.le_refl _
    · have := Nat.mod_le d.length (2 ^ 32)
      omega
  have hone : 1 ≤ cellsAlong d := by unfold cellsAlong; split <;> omega
  unfold chunkStep at h
  rw [hd] at h
  simp only [Res.ok_bind] at h
  generalize (if d.unlimited = true then 1 else d.length % 2 ^ 32) = size at h hsize
  have hacc : ∀ x, 0 < acc * x % two64 → 0 < acc ∧ 0 < x := by
    intro x hx
    constructor
    · rcases Nat.eq_zero_or_pos acc with h0 | h0
      · subst h0; simp at hx
      · exact h0
    · rcases Nat.eq_zero_or_pos x with h0 | h0
      · subst h0; simp at hx
      · exact h0
  split at h
  · rename_i c _
    injection h with h
    injection h with h1 h2
    subst h1; subst h2
    obtain ⟨ha, hk⟩ := hacc _ ht
    have := @clamp_le size c
    exact ⟨ha, hk, by omega⟩
  · split at h
    · injection h with h
      injection h with h1 h2
      subst h1; subst h2
      obtain ⟨ha, hk⟩ := hacc _ ht
      exact ⟨ha, hk, hsize⟩
    · injection h with h
      injection h with h1 h2
      subst h1; subst h2
      obtain ⟨ha, hk⟩ := hacc _ ht
      refine ⟨ha, ?_⟩
      split
      · rename_i hc
        unfold ChunkFits clamp
        split
        · omega
        · split <;> omega
      · exact ⟨Nat.le_refl _, hone⟩

theorem chunkLoop_ok {w : Writer A} {l : List String} {ds : List Dim} (hd : DimsOf w.cdm l ds) :
    ∀ {acc total : Nat} {ks : List Nat}, chunkLoop w l acc = .ok (total, ks) → 0 < total →
      0 < acc ∧ List.Forall₂ ChunkFits ds ks := by
  induction hd with
  | nil =>
    intro acc total ks h ht
    simp only [chunkLoop] at h
    injection h with h
    injection h with h1 h2
    subst h1; subst h2
    exact ⟨ht, .nil⟩
  | @cons n l d ds hn _ ih =>
    intro acc total ks h ht
    simp only [chunkLoop] at h
    obtain ⟨⟨acc', k⟩, h1, h⟩ := Res.bind_eq_ok.1 h
    obtain ⟨⟨tot', ks'⟩, h2, h⟩ := Res.bind_eq_ok.1 h
    simp only at h h2
    injection h with h
    injection h with h3 h4
    subst h3; subst h4
    obtain ⟨ha, hrest⟩ := ih h2 ht
    obtain ⟨hacc, hk⟩ := chunkStep_ok hn h1 ha
    exact ⟨hacc, .cons hk hrest⟩

theorem chunkLoop_exists {w : Writer A} {l : List String} {ds : List Dim} (hd : DimsOf w.cdm l ds) :
    ∀ acc : Nat, ∃ total ks, chunkLoop w l acc = .ok (total, ks) := by
  induction hd with
  | nil => intro acc; exact ⟨_, _, rfl⟩
  | @cons n l d ds hn _ ih =>
    intro acc
    have : ∃ t k, chunkStep w n acc = .ok (t, k) := by
      unfold chunkStep
      rw [hn]
      simp only [Res.ok_bind]
      generalize (if d.unlimited = true then 1 else d.length % 2 ^ 32) = size
      cases w.chunkSizes n with
      | some k => exact ⟨_, _, rfl⟩
      | none =>
        simp only
        split
        · exact ⟨_, _, rfl⟩
        · exact ⟨_, _, rfl⟩
    obtain ⟨t, k, h1⟩ := this
    obtain ⟨t', ks, h2⟩ := ih t
    refine ⟨t', k :: ks, ?_⟩
    simp only [chunkLoop, h1, Res.ok_bind, h2]

theorem prod_pos : ∀ {l : List Nat}, (∀ x ∈ l, 0 < x) → 0 < l.prod
  | [], _ => by simp
  | a :: l, h => by
    rw [List.prod_cons]
    exact Nat.mul_pos (h a (by simp)) (prod_pos fun x hx => h x (by simp [hx]))

/-- The sizes the code uses for dimensions without a configured chunk size. -/
theorem chunkLoop_whole {w : Writer A} (hn : ∀ n, w.chunkSizes n = none) {l : List String} {ds : List Dim}
    (hd : DimsOf w.cdm l ds) (hlen : ∀ d ∈ ds, d.length < 2 ^ 32) (hpos : ∀ d ∈ ds, 0 < d.length) :
    ∀ {acc : Nat}, 0 < acc → acc * (ds.map cellsAlong).prod < 2 ^ 21 →
      chunkLoop w l acc = .ok (acc * (ds.map cellsAlong).prod, ds.map cellsAlong) := by
  induction hd with
  | nil => intro acc _ _; simp [chunkLoop]
  | @cons n l d ds hget _ ih =>
    intro acc hacc hlt
    have hd32 := hlen d (by simp)
    have hdpos := hpos d (by simp)
    have hsize : (if d.unlimited = true then 1 else d.length % 2 ^ 32) = cellsAlong d := by
      unfold cellsAlong
      split
      · rfl
      · rw [Nat.mod_eq_of_lt hd32]; omega
    have hc1 : 0 < cellsAlong d := by unfold cellsAlong; split <;> omega
    have hprod : 0 < (ds.map cellsAlong).prod := by
      apply prod_pos
      intro x hx
      obtain ⟨e, _, rfl⟩ := List.mem_map.1 hx
      unfold cellsAlong; split <;> omega
    simp only [List.map_cons, List.prod_cons] at hlt ⊢
    have hle : acc * cellsAlong d ≤ acc * cellsAlong d * (ds.map cellsAlong).prod := Nat.le_mul_of_pos_right _ hprod
    rw [← Nat.mul_assoc] at hlt
    have hmod : acc * cellsAlong d % two64 = acc * cellsAlong d := Nat.mod_eq_of_lt (by unfold two64; omega)
    have hstep : chunkStep w n acc = .ok (acc * cellsAlong d, cellsAlong d) := by
      unfold chunkStep
      rw [hget]
      simp only [Res.ok_bind, hn, hsize, hmod]
      rw [if_pos (by omega)]
    have := ih (fun e he => hlen e (by simp [he])) (fun e he => hpos e (by simp [he]))
      (Nat.mul_pos hacc hc1) hlt
    simp only [chunkLoop, hstep, Res.ok_bind, this]
    rw [← Nat.mul_assoc]

/-! ## Properties -/

/-- C90: whenever chunk sizes are handed to the library there is one for every dimension, and each is
at least one and not more than the cells along the dimension; in particular it is one for the
unlimited dimension. -/
theorem C90_chunks_fit (w : Writer A) (shape : List String) (ds : List Dim) (hd : DimsOf w.cdm shape ds)
    (total : Nat) (ks : List Nat) (h : chunkLoop w shape 1 = .ok (total, ks)) (ht : 0 < total) :
    List.Forall₂ ChunkFits ds ks :=
  (chunkLoop_ok hd h ht).2

/-- C90: a variable with less than 2^21 values and without configured chunk sizes is one chunk along
all fixed dimensions. -/
theorem C90_small_variable (w : Writer A) (hn : ∀ n, w.chunkSizes n = none) (shape : List String) (ds : List Dim)
    (hd : DimsOf w.cdm shape ds) (hlen : ∀ d ∈ ds, 0 < d.length ∧ d.length < 2 ^ 32)
    (hsmall : (ds.map cellsAlong).prod < 2 ^ 21) :
    chunkLoop w shape 1 = .ok ((ds.map cellsAlong).prod, ds.map cellsAlong) := by
  have := chunkLoop_whole hn hd (fun d h => (hlen d h).2) (fun d h => (hlen d h).1) (acc := 1) (by omega)
    (by omega)
  simpa using this

/-- C90: a configured chunk size is used as far as the dimension has cells. -/
theorem C90_configured_size (w : Writer A) (n : String) (d : Dim) (k acc : Nat) (hd : getDimension w.cdm n = .ok d)
    (hlen : 0 < d.length ∧ d.length < 2 ^ 32) (hk : w.chunkSizes n = some k) :
    ∃ total, chunkStep w n acc = .ok (total, min k (cellsAlong d)) := by
  refine ⟨acc * min k (cellsAlong d) % two64, ?_⟩
  have hsize : (if d.unlimited = true then 1 else d.length % 2 ^ 32) = cellsAlong d := by
    unfold cellsAlong
    split
    · rfl
    · rw [Nat.mod_eq_of_lt hlen.2]; omega
  have hone : 1 ≤ cellsAlong d := by unfold cellsAlong; split <;> omega
  have hc : clamp 1 (cellsAlong d) k = min k (cellsAlong d) := by
    unfold clamp
    split
    · omega
    · split <;> omega
  unfold chunkStep
  rw [hd]
  simp only [Res.ok_bind, hk, hsize, hc]

/-- The dataset of the examples: `x` and `y` of the given lengths and an unlimited `t`. -/
def chunkExample (x y : Nat) : Writer Nat :=
  ⟨⟨fun _ => none, [], [⟨"x", x, false⟩, ⟨"y", y, false⟩, ⟨"t", 3, true⟩], false, ()⟩, fun _ => none, fun _ => none,
    fun _ => none, fun _ => none, fun _ => none⟩

/-- C90 is about something: 100 times 200 values in one chunk, larger fields in smaller ones. -/
example : chunkLoop (chunkExample 100 200) ["x", "y", "t"] 1 = .ok (20000, [100, 200, 1]) ∧
    chunkLoop (chunkExample 2000 3000) ["x", "y", "t"] 1 = .ok (6000000, [2000, 45, 1]) := by decide +kernel

/-- C90, what is violated: the number the code computes is the quotient of the whole field and the
minimum, not what is left of the minimum; so chunks can be far below the minimum of 2^17 values of
line 425 (here 16 values in a field of 2^21) … -/
theorem C90_small_chunks :
    chunkLoop (chunkExample 1 (2 ^ 21)) ["x", "y", "t"] 1 = .ok (2 ^ 21, [1, 16, 1]) := by decide +kernel

/-- … and far above the 2^21 values of line 424 (here more than 76 million values of 100 million). -/
theorem C90_large_chunks :
    chunkLoop (chunkExample 100000 1000) ["x", "y", "t"] 1 = .ok (100000000, [100000, 762, 1]) := by decide +kernel

/-- C90: level and shuffle; up to 10 there is no shuffling. -/
theorem C90_level (w : Writer A) (n : String) (k : Nat) (hk : w.compression n = some k) (hlt : k < 2 ^ 31) :
    compressionOf w n = (if k ≤ 10 then k else k - 10, decide (10 < k)) := by
  unfold compressionOf
  rw [hk]
  simp only
  rw [Nat.mod_eq_of_lt (by omega), if_neg (by omega)]
  split
  · rename_i h
    rw [if_neg (by omega)]
    simp [h]
  · rename_i h
    rw [if_pos (by omega)]
    simp [h]

end Fimex.Netcdf
