import Verif.Felt.File
import Verif.Time.Calendar
import Mathlib.Tactic.Ring
import Mathlib.Tactic.Linarith

/-!
# Fields of Felt files (C113)
-/

namespace Fimex.Felt
open Fimex.Time

/-! ## Specification -/

/-- A field as it is to be stored: block and word where it begins, from 0; header of the grid, values, further words. -/
structure Item where
  block : ℕ
  off : ℕ
  head : List ℤ
  data : List ℤ
  extra : List ℤ

/-- All words of a field. -/
def Item.all (it : Item) : List ℤ := it.head ++ it.data ++ it.extra

/-- An entry of the index stands for a field: block number and length are numbers to the base 32767, with the higher digits in word 15. -/
structure Encodes (h : Header) (it : Item) : Prop where
  head : it.head.length = 20
  block : it.block < 32767 * 100
  len : it.all.length < 32767 * 327
  w5 : word h 5 = (it.block % 32767 : ℕ) + 1
  w6 : word h 6 = it.off + 1
  w7 : word h 7 = (it.all.length % 32767 : ℕ)
  w15 : word h 15 = 100 * (it.all.length / 32767 : ℕ) + (it.block / 32767 : ℕ)
  w14 : (it.extra = [] ∧ word h 14 ≤ 1000) ∨ (it.extra.length < 1000 ∧ 1000 < word h 14 ∧ word h 14 % 1000 = it.extra.length)
  off : it.off < 32767

/-- The words of the field are in the file, at their place. -/
def Placed (d : Disk) (it : Item) : Prop := ((words d.swapped d.bytes).drop (it.block * 1024 + it.off)).take it.all.length = it.all

/-- An entry of the index: 16 words, the first ones at word 2048. -/
def entryAt (d : Disk) (i : ℕ) : Header := ((words d.swapped d.bytes).drop (2048 + 16 * i)).take 16

/-- The block of an entry is in the file as a whole. -/
def Whole (d : Disk) (i : ℕ) : Prop := 2048 * (i / 64 + 3) ≤ d.bytes.length

/-- The same file with bytes exchanged. -/
def swapPairs : List Byte → List Byte
  | a :: b :: r => b :: a :: swapPairs r
  | l => l

/-! ## Words -/

theorem words_length (sw : Bool) : ∀ l : List Byte, (words sw l).length = l.length / 2
  | [] => rfl
  | [_] => by simp [words]
  | a :: b :: r => by
    rw [words, List.length_cons, words_length sw r]
    simp only [List.length_cons]
    omega

theorem words_drop (sw : Bool) : ∀ (k : ℕ) (l : List Byte), words sw (l.drop (2 * k)) = (words sw l).drop k
  | 0, l => by simp
  | k + 1, [] => by simp [words]
  | k + 1, [a] => by
    rw [List.drop_eq_nil_of_le (by simp only [List.length_singleton]; omega)]
    simp [words]
  | k + 1, a :: b :: r => by
    rw [show 2 * (k + 1) = 2 * k + 1 + 1 by ring, List.drop_succ_cons, List.drop_succ_cons, words_drop sw k r, words, List.drop_succ_cons]

theorem words_take (sw : Bool) : ∀ (k : ℕ) (l : List Byte), words sw (l.take (2 * k)) = (words sw l).take k
  | 0, l => by simp [words]
  | k + 1, [] => by simp [words]
  | k + 1, [a] => by
    rw [List.take_of_length_le (by simp only [List.length_singleton]; omega)]
    simp [words]
  | k + 1, a :: b :: r => by
    rw [show 2 * (k + 1) = 2 * k + 1 + 1 by ring, List.take_succ_cons, List.take_succ_cons, words, words_take sw k r, words, List.take_succ_cons]

theorem optWords_some (sw : Bool) : ∀ l : List Byte, optWords sw (l.map some) = (words sw l).map some
  | [] => rfl
  | [_] => rfl
  | a :: b :: r => by simp [optWords, words, optWords_some sw r]

theorem allRead_some (l : List ℤ) : allRead (l.map some) = .ok l := by
  induction l with
  | nil => rfl
  | cons a l ih => simp [allRead, ih, Res.bind]

theorem getWords_in (d : Disk) (hd : d.failed = false) (k n : ℕ) (hk : k < 2 ^ 62) (h : 2 * (k + n) ≤ d.bytes.length) (hn : n < 2 ^ 62) :
    getWords d k n = (d, .ok (((words d.swapped d.bytes).drop k).take n)) := by
  have hp : 2 * k % two64 = 2 * k := Nat.mod_eq_of_lt (by unfold two64; omega)
  have ha : avail d (2 * k) (2 * n) = (d.bytes.drop (2 * k)).take (2 * n) := by simp [avail, hd]
  have hl : ((d.bytes.drop (2 * k)).take (2 * n)).length = 2 * n := by
    rw [List.length_take, List.length_drop]
    omega
  have haf : after d (2 * k) (2 * n) = d := by
    obtain ⟨b, s, f⟩ := d
    simp only [after] at hd h ⊢
    subst hd
    have : ¬ b.length < 2 * k + 2 * n := by omega
    simp [this]
  unfold getWords
  rw [if_neg (by omega)]
  simp only [hp, ha, hl, haf, Nat.sub_self, List.replicate_zero, List.append_nil, words_take, words_drop]

theorem getBlock_in (d : Disk) (hd : d.failed = false) (no : ℕ) (h : 2048 * (no + 1) ≤ d.bytes.length) :
    getBlock d no = (d, (((words d.swapped d.bytes).drop (no * 1024)).take 1024).map some) := by
  have ha : avail d (no * 2048) 2048 = (d.bytes.drop (2 * (no * 1024))).take (2 * 1024) := by
    simp only [avail, hd, Bool.false_eq_true, if_false]
    rw [show 2 * (no * 1024) = no * 2048 by ring]
  have hl : ((d.bytes.drop (2 * (no * 1024))).take (2 * 1024)).length = 2048 := by
    rw [List.length_take, List.length_drop]
    omega
  have haf : after d (no * 2048) 2048 = d := by
    obtain ⟨b, s, f⟩ := d
    simp only [after] at hd h ⊢
    subst hd
    have : ¬ b.length < no * 2048 + 2048 := by omega
    simp [this]
  unfold getBlock
  simp only [ha, hl, haf, Nat.sub_self, List.replicate_zero, List.append_nil]
  rw [optWords_some, words_take, words_drop]

/-! ## Index -/

/-- **C113.** Each entry of the index is read from its place: 64 entries in each block, from block 2 on. -/
theorem C113_entry (d : Disk) (hd : d.failed = false) (i : ℕ) (h : Whole d i) : entry d i = (d, .ok (entryAt d i)) := by
  unfold Whole at h
  unfold entry
  rw [getBlock_in d hd (i / 64 + 2) (by omega)]
  simp only [List.map_take, List.map_drop]
  rw [← List.map_drop, ← List.map_take, ← List.map_drop, ← List.map_take, allRead_some]
  refine Prod.ext rfl (congrArg Res.ok ?_)
  unfold entryAt
  rw [List.drop_take, List.drop_drop, List.take_take]
  congr 1
  · have := Nat.mod_lt i (show 0 < 64 by omega)
    omega
  · congr 1
    have := Nat.div_add_mod i 64
    omega

theorem scan_whole : ∀ (fuel : ℕ) (d : Disk) (n i m : ℕ), d.failed = false → m ≤ fuel → (∀ j < i + m, Whole d j) →
    n ≤ (((List.range' i m).map (entryAt d)).filter fun h => valid h).length →
    scan fuel d n i = (d, .ok ((((List.range' i m).map (entryAt d)).filter fun h => valid h).take n)) := by
  intro fuel
  induction fuel with
  | zero =>
    intro d n i m _ hm _ hn
    obtain rfl : m = 0 := by omega
    obtain rfl : n = 0 := by simpa using hn
    simp [scan]
  | succ fuel ih =>
    intro d n i m hd hm hw hn
    cases n with
    | zero => simp [scan]
    | succ n =>
      cases m with
      | zero => simp at hn
      | succ m =>
        rw [scan, C113_entry d hd i (hw i (by omega))]
        simp only
        rw [List.range'_succ, List.map_cons, List.filter_cons] at hn ⊢
        have hw' : ∀ j < i + 1 + m, Whole d j := fun j hj => hw j (by omega)
        by_cases hv : valid (entryAt d i) = true
        · rw [if_pos hv] at hn ⊢
          rw [if_pos hv, ih d n (i + 1) m hd (by omega) hw' (by simpa using hn)]
          simp
        · rw [if_neg hv] at hn ⊢
          rw [if_neg hv, ih d (n + 1) (i + 1) m hd (by omega) hw' hn]

/-- The stream for a file, with the order of bytes by its first word. -/
def diskOf (bytes : List Byte) : Disk :=
  ⟨bytes, decide (native (bytes.getD 0 0) (bytes.getD 1 0) < 997 ∨ 999 < native (bytes.getD 0 0) (bytes.getD 1 0)), false⟩

theorem openFile_eq (bytes : List Byte) (h : 2048 ≤ bytes.length) :
    openFile bytes =
      if (words (diskOf bytes).swapped bytes).getD 14 0 ≠ 0 then .throws
      else if (words (diskOf bytes).swapped bytes).getD 9 0 < 0 then .throws
      else match scan (bytes.length + 1) (diskOf bytes) ((words (diskOf bytes).swapped bytes).getD 9 0).toNat 0 with
        | (d, .ok l) => .ok ⟨d, l⟩
        | (_, .throws) => .throws
        | (_, .ub) => .ub := by
  match bytes, h with
  | [], h => simp at h
  | [_], h => simp at h
  | b0 :: b1 :: r, h =>
    have hb := getBlock_in (diskOf (b0 :: b1 :: r)) rfl 0 (by simpa [diskOf] using h)
    have key : ∀ k < 1024, (((((words (diskOf (b0 :: b1 :: r)).swapped (b0 :: b1 :: r)).drop (0 * 1024)).take 1024).map some).getD k none : Option ℤ) =
        some ((words (diskOf (b0 :: b1 :: r)).swapped (b0 :: b1 :: r)).getD k 0) := by
      intro k hk
      have hl : k < (words (diskOf (b0 :: b1 :: r)).swapped (b0 :: b1 :: r)).length := by
        rw [words_length]
        omega
      rw [List.getD_eq_getElem?_getD, List.getElem?_map, Nat.zero_mul, List.drop_zero, List.getElem?_take_of_lt hk, List.getElem?_eq_getElem hl]
      simp [List.getD_eq_getElem?_getD, List.getElem?_eq_getElem hl]
    have k14 := key 14 (by omega)
    have k9 := key 9 (by omega)
    unfold openFile
    have hd : (⟨b0 :: b1 :: r, decide (native b0 b1 < 997 ∨ 999 < native b0 b1), false⟩ : Disk) = diskOf (b0 :: b1 :: r) := rfl
    simp only
    rw [hd, hb]
    have hbytes : (diskOf (b0 :: b1 :: r)).bytes = b0 :: b1 :: r := rfl
    rw [hbytes, k14, k9]
    rfl

/-- **C113.** Opening a file whose update is complete gives the fields of the index in order: the first ones with data, as many as block 0
says, if the blocks of the index are in the file. -/
theorem C113_open (bytes : List Byte) (m : ℕ) (hw : ∀ j < m, Whole (diskOf bytes) j) (h : 2048 ≤ bytes.length)
    (h14 : (words (diskOf bytes).swapped bytes).getD 14 0 = 0) (n : ℕ) (h9 : (words (diskOf bytes).swapped bytes).getD 9 0 = n)
    (hn : n ≤ (((List.range m).map (entryAt (diskOf bytes))).filter fun h => valid h).length) :
    openFile bytes = .ok ⟨diskOf bytes, (((List.range m).map (entryAt (diskOf bytes))).filter fun h => valid h).take n⟩ := by
  have hm : m ≤ bytes.length + 1 := by
    by_contra hcon
    have := hw bytes.length (by omega)
    unfold Whole diskOf at this
    simp only at this
    omega
  have := scan_whole (bytes.length + 1) (diskOf bytes) n 0 m rfl hm (by simpa using hw) (by rwa [← List.range_eq_range'])
  rw [openFile_eq bytes h, h14, h9, Int.toNat_natCast, this, ← List.range_eq_range']
  simp

/-- **C113.** A file under update and one with a negative number of fields raise an error. -/
theorem C113_refused (bytes : List Byte) (h : 2048 ≤ bytes.length)
    (hr : (words (diskOf bytes).swapped bytes).getD 14 0 ≠ 0 ∨ (words (diskOf bytes).swapped bytes).getD 9 0 < 0) : openFile bytes = .throws := by
  rw [openFile_eq bytes h]
  by_cases h1 : (words (diskOf bytes).swapped bytes).getD 14 0 ≠ 0
  · rw [if_pos h1]
  · rw [if_neg h1, if_pos (hr.resolve_left h1)]

theorem avail_none (d : Disk) (p n : ℕ) (h : d.failed = true ∨ d.bytes.length ≤ p) : avail d p n = [] := by
  unfold avail
  rcases h with h | h
  · rw [if_pos h]
  · by_cases hf : d.failed = true
    · rw [if_pos hf]
    · rw [if_neg hf, List.drop_eq_nil_of_le h, List.take_nil]

theorem optWords_none (sw : Bool) : ∀ k, optWords sw (List.replicate (2 * k) none) = List.replicate k none
  | 0 => rfl
  | k + 1 => by
    rw [show 2 * (k + 1) = 2 * k + 1 + 1 by ring, List.replicate_succ, List.replicate_succ, List.replicate_succ, ← optWords_none sw k]
    rfl

theorem entry_past (d : Disk) (i : ℕ) (h : d.failed = true ∨ d.bytes.length ≤ 2048 * (i / 64 + 2)) : (entry d i).2 = .ub := by
  unfold entry getBlock
  rw [avail_none d _ _ (by rcases h with h | h; exact .inl h; exact .inr (by omega))]
  simp only [List.map_nil, List.length_nil, Nat.sub_zero, List.nil_append]
  rw [show (2048 : ℕ) = 2 * 1024 by rfl, optWords_none, List.drop_replicate, List.take_replicate]
  have := Nat.mod_lt i (show 0 < 64 by omega)
  obtain ⟨k, hk⟩ : ∃ k, min 16 (1024 - i % 64 * 16) = k + 1 := ⟨min 16 (1024 - i % 64 * 16) - 1, by omega⟩
  rw [hk, List.replicate_succ]
  rfl

theorem after_bytes (d : Disk) (p n : ℕ) : (after d p n).bytes = d.bytes := rfl

/-- The bound on the loop is no bound: it ends before, past the end of the file. -/
theorem scan_fuel : ∀ (f1 f2 : ℕ) (d : Disk) (n i : ℕ), d.bytes.length < f1 + i → d.bytes.length < f2 + i → scan f1 d n i = scan f2 d n i ∨
    (scan f1 d n i).2 = .ub ∧ (scan f2 d n i).2 = .ub := by
  intro f1
  induction f1 with
  | zero =>
    intro f2 d n i h1 h2
    cases n with
    | zero => left; cases f2 <;> simp [scan]
    | succ n =>
      right
      refine ⟨rfl, ?_⟩
      cases f2 with
      | zero => rfl
      | succ f2 =>
        have := entry_past d i (.inr (by omega))
        rw [scan]
        rcases he : entry d i with ⟨d1, r⟩
        rw [he] at this
        simp only at this
        subst this
        rfl
  | succ f1 ih =>
    intro f2 d n i h1 h2
    cases n with
    | zero => left; cases f2 <;> simp [scan]
    | succ n =>
      cases f2 with
      | zero =>
        right
        refine ⟨?_, rfl⟩
        have := entry_past d i (.inr (by omega))
        rw [scan]
        rcases he : entry d i with ⟨d1, r⟩
        rw [he] at this
        simp only at this
        subst this
        rfl
      | succ f2 =>
        rw [scan, scan]
        have hb : (entry d i).1.bytes = d.bytes := rfl
        rcases he : entry d i with ⟨d1, r⟩
        rw [he] at hb
        simp only at hb
        cases r with
        | throws => exact .inl rfl
        | ub => exact .inl rfl
        | ok h =>
          simp only
          by_cases hv : valid h = true
          · rw [if_pos hv, if_pos hv]
            rcases ih f2 d1 n (i + 1) (by rw [hb]; omega) (by rw [hb]; omega) with e | ⟨e1, e2⟩
            · rw [e]; exact .inl rfl
            · right
              rcases hs1 : scan f1 d1 n (i + 1) with ⟨x, y⟩
              rcases hs2 : scan f2 d1 n (i + 1) with ⟨x', y'⟩
              rw [hs1] at e1
              rw [hs2] at e2
              simp only at e1 e2
              subst e1 e2
              exact ⟨rfl, rfl⟩
          · rw [if_neg hv, if_neg hv]
            exact ih f2 d1 (n + 1) (i + 1) (by rw [hb]; omega) (by rw [hb]; omega)

theorem scan_few : ∀ (fuel : ℕ) (d : Disk) (n i : ℕ) (b : ℕ), d.failed = false → d.bytes.length = 2048 * (b + 2) → i ≤ 64 * b →
    (((List.range' i (64 * b - i)).map (entryAt d)).filter fun h => valid h).length < n → (scan fuel d n i).2 = .ub := by
  intro fuel
  induction fuel with
  | zero =>
    intro d n i b _ _ _ hn
    cases n with
    | zero => omega
    | succ n => rfl
  | succ fuel ih =>
    intro d n i b hd hb hi hn
    cases n with
    | zero => omega
    | succ n =>
      rw [scan]
      by_cases hlast : i = 64 * b
      · have := entry_past d i (.inr (by rw [hb, hlast]; omega))
        rcases he : entry d i with ⟨d1, r⟩
        rw [he] at this
        simp only at this
        subst this
        rfl
      · rw [C113_entry d hd i (by unfold Whole; rw [hb]; omega)]
        simp only
        have e : 64 * b - i = (64 * b - (i + 1)) + 1 := by omega
        rw [e, List.range'_succ, List.map_cons, List.filter_cons] at hn
        by_cases hv : valid (entryAt d i) = true
        · rw [if_pos hv] at hn ⊢
          have := ih d n (i + 1) b hd hb (by omega) (by simpa using hn)
          rcases hs : scan fuel d n (i + 1) with ⟨x, y⟩
          rw [hs] at this
          simp only at this
          subst this
          rfl
        · rw [if_neg hv] at hn ⊢
          exact ih d (n + 1) (i + 1) b hd hb (by omega) hn

/-- **C113, fails.** A file of whole blocks with fewer fields than block 0 says is not refused: blocks of data are taken as index, and
then words past the end of the file, which are not initialised. -/
theorem C113_too_few (bytes : List Byte) (b : ℕ) (hb : bytes.length = 2048 * (b + 2))
    (h14 : (words (diskOf bytes).swapped bytes).getD 14 0 = 0) (n : ℕ) (h9 : (words (diskOf bytes).swapped bytes).getD 9 0 = n)
    (hn : (((List.range (64 * b)).map (entryAt (diskOf bytes))).filter fun h => valid h).length < n) : openFile bytes = .ub := by
  have := scan_few (bytes.length + 1) (diskOf bytes) n 0 b rfl hb (by omega) (by rwa [Nat.sub_zero, ← List.range_eq_range'])
  rw [openFile_eq bytes (by omega), h14, h9, Int.toNat_natCast]
  rcases hs : scan (bytes.length + 1) (diskOf bytes) n 0 with ⟨x, y⟩
  rw [hs] at this
  simp only at this
  subst this
  simp

/-! ## Fields -/

theorem size_nat (n : ℕ) (h : n < two64) : size (n : ℤ) = n := by
  unfold size
  rw [Int.emod_eq_of_lt (by omega) (by exact_mod_cast h)]
  exact Int.toNat_natCast n

section
variable (h : Header) (it : Item) (he : Encodes h it)
include he

theorem digits : (word h 15).tmod 100 = (it.block / 32767 : ℕ) ∧ (word h 15).tdiv 100 = (it.all.length / 32767 : ℕ) := by
  have h1 := he.block
  rw [Int.tmod_eq_emod_of_nonneg (by rw [he.w15]; omega), Int.tdiv_eq_ediv_of_nonneg (by rw [he.w15]; omega), he.w15]
  omega

theorem startBlock_eq : startBlock h = it.block := by
  have h1 := he.block
  unfold startBlock
  rw [he.w5, (digits h it he).1, if_neg (by omega)]
  have : ((it.block % 32767 : ℕ) : ℤ) + 1 - 1 + ((it.block / 32767 : ℕ) : ℤ) * 32767 = (it.block : ℕ) := by omega
  rw [this, size_nat _ (by unfold two64; omega)]

theorem start_eq : start h = it.block * 1024 + it.off := by
  have h1 := he.block
  have h2 := he.off
  unfold start
  rw [startBlock_eq h it he, he.w6]
  have : ((it.block : ℕ) : ℤ) * 1024 + (if 1 < (it.off : ℤ) + 1 then (it.off : ℤ) + 1 - 1 else 0) = ((it.block * 1024 + it.off : ℕ) : ℤ) := by
    split_ifs <;> omega
  rw [this, size_nat _ (by unfold two64; omega)]

theorem extraSize_eq : extraSize h = it.extra.length := by
  unfold extraSize
  rcases he.w14 with ⟨h1, h2⟩ | ⟨h1, h2, h3⟩
  · rw [if_neg (by omega), h1]; rfl
  · rw [if_pos h2, Int.tmod_eq_emod_of_nonneg (by omega), h3]

theorem gridSize_eq : gridSize h = it.data.length := by
  have h1 := he.len
  have hh := he.head
  have hl : it.all.length = 20 + it.data.length + it.extra.length := by simp [Item.all, hh, add_assoc]
  unfold gridSize
  rw [he.w7, (digits h it he).2, extraSize_eq h it he, if_neg (by omega)]
  have : ((it.all.length % 32767 : ℕ) : ℤ) + ((it.all.length / 32767 : ℕ) : ℤ) * 32767 - (20 + (it.extra.length : ℤ)) = (it.data.length : ℕ) := by omega
  rw [this, size_nat _ (by unfold two64; omega)]

end

theorem part (l a b c : List ℤ) (k n : ℕ) (h : (l.drop k).take n = a ++ b ++ c) (_ : n = (a ++ b ++ c).length) :
    (l.drop k).take a.length = a ∧ (l.drop (k + a.length)).take b.length = b ∧ (l.drop (k + a.length + b.length)).take c.length = c := by
  have e : l.drop k = (a ++ b ++ c) ++ (l.drop k).drop n := by rw [← h, List.take_append_drop]
  refine ⟨?_, ?_, ?_⟩
  · rw [e]; simp
  · rw [← List.drop_drop, e]; simp
  · rw [add_assoc, ← List.drop_drop, e]
    simp [← List.drop_drop]

/-- **C113.** A field that is in the file where its entry says is read as it is: values, header of the grid and further words, for
all blocks up to 3276699, all lengths below 10714809 words and all positions in a block, and in both orders of bytes. The stream stays
usable, so this holds for any number of fields in any order. -/
theorem C113_field (d : Disk) (hd : d.failed = false) (h : Header) (it : Item) (he : Encodes h it) (hp : Placed d it) :
    gridHeader d h = (d, .ok it.head) ∧ grid d h = (d, .ok it.data) ∧ extraWords d h = (d, .ok it.extra) ∧ gridSize h = it.data.length := by
  have h1 := he.block
  have h2 := he.len
  have h3 := he.off
  have hh := he.head
  have hl : it.all.length = 20 + it.data.length + it.extra.length := by simp [Item.all, hh, add_assoc]
  have hin : it.block * 1024 + it.off + it.all.length ≤ (words d.swapped d.bytes).length := by
    have := congrArg List.length hp
    rw [List.length_take, List.length_drop] at this
    omega
  rw [words_length] at hin
  obtain ⟨p1, p2, p3⟩ := part _ _ _ _ _ _ hp rfl
  rw [hh] at p1 p2 p3
  have a1 : gridHeader d h = (d, .ok it.head) := by
    unfold gridHeader
    rw [start_eq h it he, getWords_in d hd _ _ (by omega) (by omega) (by omega), p1]
  have a2 : getWords d (size (start h + 20)) (gridSize h) = (d, .ok it.data) := by
    rw [start_eq h it he, gridSize_eq h it he]
    have : (((it.block * 1024 + it.off : ℕ) : ℤ) + 20) = ((it.block * 1024 + it.off + 20 : ℕ) : ℤ) := by omega
    rw [this, size_nat _ (by unfold two64; omega), getWords_in d hd _ _ (by omega) (by omega) (by omega), p2]
  have a3 : extraWords d h = (d, .ok it.extra) := by
    unfold extraWords
    by_cases hg : 1000 < word h 14
    · rw [if_pos hg, start_eq h it he, gridSize_eq h it he, extraSize_eq h it he, Int.toNat_natCast]
      have : (((it.block * 1024 + it.off : ℕ) : ℤ) + (it.data.length : ℤ) + 20) = ((it.block * 1024 + it.off + 20 + it.data.length : ℕ) : ℤ) := by omega
      rw [this, size_nat _ (by unfold two64; omega), getWords_in d hd _ _ (by omega) (by omega) (by omega), p3]
    · rw [if_neg hg]
      rcases he.w14 with ⟨e, -⟩ | ⟨-, e, -⟩
      · rw [e]
      · exact absurd e hg
  refine ⟨a1, ?_, a3, gridSize_eq h it he⟩
  unfold grid
  rw [a1]
  simp only [a2, a3]

/-- **C113, fails.** A field whose length in the index is less than that of its header and further words counts as a field with data, and
reading it raises an error. -/
theorem C113_short_field (d : Disk) (h : Header) (len : ℕ) (hw : word h 7 = (len % 32767 : ℕ))
    (hw' : (word h 15).tdiv 100 = (len / 32767 : ℕ)) (hs : (len : ℤ) < 20 + extraSize h) (hx : extraSize h < 1000) :
    valid h = true ∧ (grid d h).2 = .throws := by
  have hg : gridSize h = two64 - (20 + extraSize h - len).toNat := by
    unfold gridSize size
    rw [hw, hw', if_neg (by omega)]
    have : ((len % 32767 : ℕ) : ℤ) + ((len / 32767 : ℕ) : ℤ) * 32767 - (20 + extraSize h) = (two64 : ℤ) - (20 + extraSize h - len) + (two64 : ℤ) * (-1) := by
      omega
    rw [this, Int.add_mul_emod_self_left, Int.emod_eq_of_lt (by unfold two64; omega) (by omega)]
    unfold two64
    omega
  constructor
  · simp only [valid, hg, two64, decide_eq_true_eq]
    omega
  · have : ∀ d' k, getWords d' k (gridSize h) = (d', .throws) := by
      intro d' k
      unfold getWords
      rw [hg, if_pos (by unfold two64; omega)]
    unfold grid
    simp only [this]

/-- **C113.** A field with nothing but its header and further words is left out. -/
theorem C113_no_data (h : Header) (it : Item) (he : Encodes h it) : valid h = true ↔ it.data ≠ [] := by
  simp only [valid, decide_eq_true_eq, gridSize_eq h it he]
  cases it.data <;> simp

theorem words_zero (sw : Bool) : ∀ n, words sw (List.replicate (2 * n) 0) = List.replicate n 0
  | 0 => rfl
  | n + 1 => by
    rw [show 2 * (n + 1) = 2 * n + 1 + 1 by ring, List.replicate_succ, List.replicate_succ, words, words_zero sw n, List.replicate_succ]
    congr 1
    cases sw <;> decide

theorem getWords_failed (d : Disk) (hd : d.failed = true) (k n : ℕ) (hn : n < 2 ^ 62) : getWords d k n = (d, .ok (List.replicate n 0)) := by
  unfold getWords
  rw [if_neg (by omega)]
  have haf : ∀ p n, after d p n = d := by
    intro p n
    obtain ⟨b, s, f⟩ := d
    simp only [after] at hd ⊢
    subst hd
    rfl
  simp only [avail_none d _ _ (.inl hd), List.length_nil, Nat.sub_zero, List.nil_append, words_zero, haf]

/-- **C113, fails.** A field that is not in the file as a whole raises no error: after it all fields of the file, also those that are
in the file, are read as zeros. -/
theorem C113_truncated (d : Disk) (h : Header) (it : Item) (he : Encodes h it)
    (ht : d.bytes.length < 2 * (it.block * 1024 + it.off + 20 + it.data.length)) :
    ∃ data, data.length = it.data.length ∧ (grid d h).2 = .ok data ∧
      ∀ h' it', Encodes h' it' → (grid (grid d h).1 h').2 = .ok (List.replicate it'.data.length 0) := by
  have h1 := he.block
  have h2 := he.len
  have h3 := he.off
  have hh := he.head
  have hl : it.all.length = 20 + it.data.length + it.extra.length := by simp [Item.all, hh, add_assoc]
  obtain ⟨d1, hd1⟩ : ∃ d1, d1 = (gridHeader d h).1 := ⟨_, rfl⟩
  have hb1 : d1.bytes = d.bytes := by
    rw [hd1]
    unfold gridHeader getWords
    rw [if_neg (by norm_num)]
    rfl
  have hsz : size (start h + 20) = it.block * 1024 + it.off + 20 := by
    rw [start_eq h it he]
    have : (((it.block * 1024 + it.off : ℕ) : ℤ) + 20) = ((it.block * 1024 + it.off + 20 : ℕ) : ℤ) := by omega
    rw [this, size_nat _ (by unfold two64; omega)]
  obtain ⟨data, d2, hg, hlen, hf⟩ : ∃ data d2, getWords d1 (size (start h + 20)) (gridSize h) = (d2, .ok data) ∧ data.length = it.data.length ∧
      d2.failed = true := by
    rw [hsz, gridSize_eq h it he]
    unfold getWords
    rw [if_neg (by omega)]
    have hpos : 2 * (it.block * 1024 + it.off + 20) % two64 = 2 * (it.block * 1024 + it.off + 20) := Nat.mod_eq_of_lt (by unfold two64; omega)
    refine ⟨_, _, rfl, ?_, ?_⟩
    · rw [words_length, List.length_append, List.length_replicate, hpos]
      have : (avail d1 (2 * (it.block * 1024 + it.off + 20)) (2 * it.data.length)).length ≤ 2 * it.data.length := by
        unfold avail
        split_ifs
        · simp
        · exact List.length_take_le _ _
      omega
    · simp only [after, hpos, hb1]
      rw [Bool.or_eq_true, decide_eq_true_eq]
      right
      omega
  have hg' : grid d h = ((extraWords d2 h).1, .ok data) := by
    unfold grid
    rw [← hd1]
    simp only [hg]
  have hf3 : (extraWords d2 h).1.failed = true := by
    unfold extraWords
    split_ifs with hx
    · rw [extraSize_eq h it he, Int.toNat_natCast, getWords_failed d2 hf _ _ (by omega)]
      exact hf
    · exact hf
  refine ⟨data, hlen, by rw [hg'], ?_⟩
  intro h' it' he'
  rw [hg']
  simp only
  have e2 := he'.len
  have ehl : it'.all.length = 20 + it'.data.length + it'.extra.length := by simp [Item.all, he'.head, add_assoc]
  unfold grid gridHeader
  rw [getWords_failed _ hf3 _ _ (by norm_num)]
  simp only
  rw [gridSize_eq h' it' he', getWords_failed _ hf3 _ _ (by omega)]

/-! ## Byte order -/

theorem swapPairs_length : ∀ l, (swapPairs l).length = l.length
  | [] => rfl
  | [_] => rfl
  | a :: b :: r => by simp [swapPairs, swapPairs_length r]

theorem words_swap (sw : Bool) : ∀ l, words (!sw) (swapPairs l) = words sw l
  | [] => rfl
  | [_] => rfl
  | a :: b :: r => by
    rw [swapPairs, words, words, words_swap sw r]
    congr 1
    cases sw <;> simp [toWord]

/-- The same file on a machine or in a file of the other order. -/
def Disk.flip (d : Disk) : Disk := ⟨swapPairs d.bytes, !d.swapped, d.failed⟩

theorem words_flip (d : Disk) : words d.flip.swapped d.flip.bytes = words d.swapped d.bytes := words_swap _ _

theorem heads : ∀ b0 b1 : Byte, 997 ≤ native b0 b1 → native b0 b1 ≤ 999 → native b1 b0 < 997 ∨ 999 < native b1 b0 := by
  intro b0 b1 h1 h2
  have := b0.isLt
  have := b1.isLt
  unfold native short at *
  have hb : (b1 : ℕ) = 3 ∧ 229 ≤ (b0 : ℕ) := by omega
  omega

theorem diskOf_flip (b0 b1 : Byte) (r : List Byte) (h1 : 997 ≤ native b0 b1) (h2 : native b0 b1 ≤ 999) :
    diskOf (swapPairs (b0 :: b1 :: r)) = (diskOf (b0 :: b1 :: r)).flip ∧ (diskOf (b0 :: b1 :: r)).swapped = false := by
  have := heads b0 b1 h1 h2
  have h3 : ¬ (native b0 b1 < 997 ∨ 999 < native b0 b1) := by omega
  constructor
  · simp [diskOf, Disk.flip, swapPairs, this, h3]
  · simp [diskOf, h3]

/-- **C113.** The order of bytes makes no difference: a file that begins with 997, 998 or 999 and the same file with the bytes of each word
exchanged have the same words, so the same entries (`C113_open`) and fields (`C113_field`). -/
theorem C113_byte_order (b0 b1 : Byte) (r : List Byte) (h1 : 997 ≤ native b0 b1) (h2 : native b0 b1 ≤ 999) :
    let d := diskOf (b0 :: b1 :: r)
    let d' := diskOf (swapPairs (b0 :: b1 :: r))
    d'.bytes = swapPairs d.bytes ∧ words d'.swapped d'.bytes = words d.swapped d.bytes ∧ (∀ i, entryAt d' i = entryAt d i) ∧
      (∀ i, Whole d' i ↔ Whole d i) ∧ ∀ it, Placed d' it ↔ Placed d it := by
  obtain ⟨e, es⟩ := diskOf_flip b0 b1 r h1 h2
  have hw : words (diskOf (swapPairs (b0 :: b1 :: r))).swapped (diskOf (swapPairs (b0 :: b1 :: r))).bytes =
      words (diskOf (b0 :: b1 :: r)).swapped (diskOf (b0 :: b1 :: r)).bytes := by
    rw [e, words_flip]
  generalize hd : diskOf (b0 :: b1 :: r) = d at *
  rw [e] at hw ⊢
  intro d d'
  refine ⟨rfl, hw, fun i => ?_, fun i => ?_, fun it => ?_⟩
  · unfold entryAt; rw [hw]
  · simp only [d', Whole, Disk.flip, swapPairs_length]
    exact Iff.rfl
  · unfold Placed; rw [hw]

/-! ## Times -/

/-- Seconds since 1970. -/
def seconds (t : FTime) : ℤ := sysDays t.year t.month.toNat t.day.toNat * 86400 + t.hour * 3600 + t.minute * 60 + t.second

/-- A time of the calendar. -/
def Real (t : FTime) : Prop :=
  0 ≤ t.month ∧ 0 ≤ t.day ∧ RealDate t.year t.month.toNat t.day.toNat ∧ 0 ≤ t.hour ∧ t.hour < 24 ∧ 0 ≤ t.minute ∧ t.minute < 60 ∧
  0 ≤ t.second ∧ t.second < 60

theorem seconds_inj (t t' : FTime) (h : Real t) (h' : Real t') (e : seconds t = seconds t') : t = t' := by
  obtain ⟨y, m, d, hh, mi, s⟩ := t
  obtain ⟨y', m', d', hh', mi', s'⟩ := t'
  obtain ⟨a1, a2, a3, a4, a5, a6, a7, a8, a9⟩ := h
  obtain ⟨b1, b2, b3, b4, b5, b6, b7, b8, b9⟩ := h'
  simp only [seconds] at *
  have hd : sysDays y m.toNat d.toNat = sysDays y' m'.toNat d'.toNat := by omega
  have e1 := civil_sysDays a3
  have e2 := civil_sysDays b3
  rw [hd, e2] at e1
  simp only [Prod.mk.injEq] at e1
  obtain ⟨c1, c2, c3⟩ := e1
  have : m = m' := by omega
  have : d = d' := by omega
  subst c1
  subst m' d'
  have : hh = hh' := by omega
  have : mi = mi' := by omega
  have : s = s' := by omega
  subst hh' mi' s'
  rfl

/-- **C113.** The reference time is that of the words, year, month and day, hour and minute; the valid time is the one time of the calendar that
is the given number of hours later, also over ends of months and years and for negative numbers. -/
theorem C113_times (h : Header) (y : ℤ) (m d : ℕ) (hd : RealDate y m d) (hh mi : ℕ) (hh24 : hh < 24) (hmi : mi < 60)
    (w2 : word h 2 = y) (w3 : word h 3 = 100 * m + d) (w4 : word h 4 = 100 * hh + mi) :
    referenceTime h = ⟨y, m, d, hh, mi, 0⟩ ∧ Real (validTime h) ∧ seconds (validTime h) = seconds (referenceTime h) + 3600 * word h 9 ∧
      ∀ t, Real t → seconds t = seconds (referenceTime h) + 3600 * word h 9 → t = validTime h := by
  have hd31 : d < 100 := by
    obtain ⟨-, -, -, h4⟩ := hd
    unfold monthLength at h4
    split_ifs at h4 <;> omega
  have e : referenceTime h = ⟨y, m, d, hh, mi, 0⟩ := by
    unfold referenceTime parseTime
    rw [w2, w3, w4, Int.tdiv_eq_ediv_of_nonneg (by omega), Int.tmod_eq_emod_of_nonneg (by omega), Int.tdiv_eq_ediv_of_nonneg (by omega),
      Int.tmod_eq_emod_of_nonneg (by omega)]
    congr 1 <;> omega
  have hs : seconds (validTime h) = seconds (referenceTime h) + 3600 * word h 9 ∧ Real (validTime h) := by
    unfold validTime addHours
    generalize hsum : sysDays (referenceTime h).year (referenceTime h).month.toNat (referenceTime h).day.toNat * 86400 + (referenceTime h).hour * 3600 +
      (referenceTime h).minute * 60 + (referenceTime h).second + word h 9 * 3600 = s
    have hc := civil_real (s / 86400)
    constructor
    · simp only [seconds, Int.toNat_natCast, hc.2] at *
      omega
    · refine ⟨by simp only; omega, by simp only; omega, by simpa using hc.1, ?_, ?_, ?_, ?_, ?_, ?_⟩ <;> simp only <;> omega
  exact ⟨e, hs.2, hs.1, fun t ht htt => seconds_inj t _ ht hs.2 (by rw [htt, hs.1])⟩

/-! ## Cases -/

/-- Word as two bytes. -/
def bytesOf (w : ℤ) : List Byte := [Fin.ofNat 256 (w % 256).toNat, Fin.ofNat 256 (w / 256 % 256).toNat]

/-- Field of three values with one further word at word 5 of block 3: a field of two blocks more would be at block 5. -/
def toyItem : Item := ⟨3, 5, List.replicate 20 7, [10, -20, 30], [42]⟩
/-- Its entry. -/
def toyHeader : Header := [88, 1841, 2011, 228, 1800, 4, 6, 24, 3, 9, 2, 17, 500, 0, 1001, 0]

/-- The hypotheses of `C113_field` can be met. -/
theorem toy_encodes : Encodes toyHeader toyItem := by
  constructor <;> simp [toyHeader, toyItem, Item.all, word]

/-- A file of four blocks with this field. -/
def toyFile : List Byte :=
  ((((List.replicate 1024 0).set 0 998).set 9 1 ++ List.replicate 1024 0 ++ toyHeader ++ List.replicate 1008 0 ++ List.replicate 5 0 ++ toyItem.all ++
    List.replicate 995 0).flatMap bytesOf)

/-- Fields and values of a file. -/
def contents (bytes : List Byte) : Res (List (Header × Res (List ℤ))) := (openFile bytes).bind fun o => .ok (o.fields.map fun h => (h, (grid o.disk h).2))

/-- The file can be read, with both orders of bytes. -/
theorem C113_toy_file : contents toyFile = .ok [(toyHeader, .ok [10, -20, 30])] ∧ contents (swapPairs toyFile) = contents toyFile := by
  decide +kernel

/-- A field far away and long: block 40000, length 40021. -/
theorem toy_far : Encodes [88, 1841, 2011, 228, 1800, 7234, 1, 7254, 3, 9, 2, 17, 500, 0, 1, 101]
    ⟨40000, 0, List.replicate 20 7, List.replicate 40001 1, []⟩ := by
  have hl : (Item.all ⟨40000, 0, List.replicate 20 7, List.replicate 40001 1, []⟩).length = 40021 := by
    simp only [Item.all, List.length_append, List.length_replicate, List.length_nil]
  constructor
  · exact List.length_replicate
  · norm_num
  · rw [hl]; norm_num
  · decide
  · decide
  · rw [hl]; decide
  · rw [hl]; decide
  · exact .inl ⟨rfl, by decide⟩
  · norm_num

/-- Valid time of the entry: 28 February 2011 18:00 and 9 hours; of a leap year. -/
theorem C113_toy_times : validTime toyHeader = ⟨2011, 3, 1, 3, 0, 0⟩ ∧ validTime (toyHeader.set 2 2012) = ⟨2012, 2, 29, 3, 0, 0⟩ := by decide +kernel

end Fimex.Felt
