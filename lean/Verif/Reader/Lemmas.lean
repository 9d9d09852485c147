import Verif.Reader.Model
import Verif.Slice.Props
import Verif.DataCopy.Join

/-! # Lemmas for reading slice by slice -/

namespace Fimex.Reader

open Slice DataCopy

variable {α : Type}

theorem splitDims_other (ud : String) : ∀ (ns : List String) (st sz mx : List Nat) (st' sz' mx' : List Nat)
    (acc : Split) (tail : List String), ud ∉ ns → st.length = ns.length → sz.length = ns.length →
    mx.length = ns.length →
    splitDims ud (ns ++ tail) (st ++ st') (sz ++ sz') (mx ++ mx') acc =
      splitDims ud tail st' sz' mx'
        { acc with dimStart := acc.dimStart ++ st, dimSize := acc.dimSize ++ sz,
                   maxDimSize := acc.maxDimSize ++ mx, sliceSize := acc.sliceSize * sz.prod }
  | [], [], [], [], _, _, _, acc, _, _, _, _, _ => by simp
  | n :: ns, a :: st, b :: sz, c :: mx, st', sz', mx', acc, tail, hn, h1, h2, h3 => by
    simp only [List.mem_cons, not_or] at hn
    simp only [List.length_cons, Nat.succ.injEq] at h1 h2 h3
    simp only [List.cons_append, splitDims, if_neg (Ne.symm hn.1)]
    rw [splitDims_other ud ns st sz mx st' sz' mx' _ tail hn.2 h1 h2 h3]
    simp [Nat.mul_assoc]

theorem splitDims_last (ud : String) (ns : List String) (st sz mx : List Nat) (us uz um : Nat)
    (hn : ud ∉ ns) (h1 : st.length = ns.length) (h2 : sz.length = ns.length) (h3 : mx.length = ns.length) :
    splitDims ud (ns ++ [ud]) (st ++ [us]) (sz ++ [uz]) (mx ++ [um]) ⟨0, 0, [], [], [], 1⟩ =
      .ok ⟨us, uz, st, sz, mx, sz.prod⟩ := by
  rw [splitDims_other ud ns st sz mx _ _ _ _ _ hn h1 h2 h3]
  simp [splitDims]

theorem joinLoop_spec (readSlice : Nat → Res (List α)) (s : Split) (fill : α) (part : Nat → List α)
    (hlen : ∀ i, (part i).length = s.sliceSize) (total : Nat) (hbig : total * s.sliceSize < two64)
    (hread : ∀ i, i < total → ∃ d, readSlice (i + s.unLimStart) = .ok d ∧
      (d.length ≠ 0 → slice d s.maxDimSize s.dimStart s.dimSize = .ok (part i)) ∧
      (d.length = 0 → part i = List.replicate s.sliceSize fill)) :
    ∀ n i, i + n = total →
      joinLoop readSlice s i n
        ((List.range i).flatMap part ++ List.replicate (n * s.sliceSize) fill) =
        .ok ((List.range total).flatMap part)
  | 0, i, h => by simp [joinLoop, ← h]
  | n + 1, i, h => by
    obtain ⟨d, hd, h1, h2⟩ := hread i (by omega)
    have hpl : ((List.range i).flatMap part).length = i * s.sliceSize := by
      rw [length_flatMap_const _ _ s.sliceSize (fun a _ => hlen a)]; simp
    have hnext : (List.range (i + 1)).flatMap part = (List.range i).flatMap part ++ part i := by
      simp [List.range_succ]
    have ih := joinLoop_spec readSlice s fill part hlen total hbig hread n (i + 1) (by omega)
    rw [joinLoop, hd, Res.ok_bind]
    split
    · rename_i hne
      rw [h1 hne, Res.ok_bind]
      rw [if_neg (by simpa using hlen i)]
      have htot : i * s.sliceSize + (n + 1) * s.sliceSize = total * s.sliceSize := by
        rw [← Nat.add_mul, h]
      have hc := copyData_append ((List.range i).flatMap part)
        (List.replicate ((n + 1) * s.sliceSize) fill) (part i) (two64 - 1)
        (by rw [hlen]
            have : s.sliceSize ≤ (n + 1) * s.sliceSize := Nat.le_mul_of_pos_left _ (by omega)
            omega)
        (by rw [hlen, List.length_replicate]; exact Nat.le_mul_of_pos_left _ (by omega))
        (by rw [List.length_append, hpl, List.length_replicate, htot]; exact hbig)
      rw [hpl] at hc
      rw [hc, Res.ok_bind, ← ih, hnext]
      congr 2
      rw [hlen, List.drop_replicate]
      congr 1
      rw [Nat.succ_mul]; omega
    · rename_i he
      rw [← ih, hnext, h2 (by simpa using he)]
      congr 1
      rw [List.append_assoc, List.replicate_append_replicate]
      congr 2
      rw [Nat.succ_mul]; omega

theorem flatMap_congr' {β γ : Type} {l : List β} {f g : β → List γ} (h : ∀ a ∈ l, f a = g a) :
    l.flatMap f = l.flatMap g := by
  induction l with
  | nil => rfl
  | cons a l ih => simp [h a (by simp), ih fun b hb => h b (by simp [hb])]

/-- The slice of an array made of equal blocks is made of the slices of the blocks. -/
theorem slice_blocks (block : Nat → List α) (dims start size : List Nat) (un us uz : Nat)
    (hb : ∀ a, a < un → (block a).length = dims.prod) (hr : RegionIn dims start size)
    (hu : us + uz ≤ un) (hd : ∀ n ∈ dims, n < two64) (hun : un < two64)
    (part : Nat → List α) (hpart : ∀ a, a < uz → slice (block (us + a)) dims start size = .ok (part a)) :
    slice ((List.range un).flatMap block) (dims ++ [un]) (start ++ [us]) (size ++ [uz]) =
      .ok ((List.range uz).flatMap part) := by
  obtain ⟨hls, hlz⟩ := hr.lengths
  have hr' : RegionIn (dims ++ [un]) (start ++ [us]) (size ++ [uz]) := by
    clear hb hd hpart hls hlz
    induction dims generalizing start size with
    | nil => cases start <;> cases size <;> simp_all [RegionIn]
    | cons a ds ih =>
      cases start <;> cases size <;> try exact absurd hr id
      exact ⟨hr.1, ih _ _ hr.2⟩
  have hfull : ((List.range un).flatMap block).length = un * dims.prod := by
    rw [length_flatMap_const _ _ dims.prod (fun a ha => hb a (by simpa using ha))]; simp
  obtain ⟨out, e, g⟩ := slice_ok ((List.range un).flatMap block) (dims ++ [un]) (start ++ [us]) (size ++ [uz])
    (by simp) hr' (by intro n hn; rcases List.mem_append.1 hn with h | h
                      · exact hd n h
                      · simp only [List.mem_singleton] at h; omega)
    (by rw [hfull]; simp [List.prod_append, Nat.mul_comm])
  rw [e]
  congr 1
  have : out.map some = ((List.range uz).flatMap part).map some := by
    rw [g, cells_snoc, List.map_flatMap, List.map_flatMap]
    apply flatMap_congr'
    intro a ha
    have ha : a < uz := by simpa using ha
    rw [List.map_map]
    have hbl := hb (us + a) (by omega)
    have hp := hpart a ha
    by_cases hz : dims = []
    · subst hz
      have hs0 : start = [] := List.length_eq_zero_iff.1 hls
      have hz0 : size = [] := List.length_eq_zero_iff.1 hlz
      subst hs0; subst hz0
      simp only [slice, List.length_nil, if_true, Res.ok.injEq] at hp
      rw [← hp]
      simp only [cells, List.map_cons, List.map_nil, Function.comp, List.nil_append, addIdx, List.zipWith_cons_cons,
        List.zipWith_nil_left, pos, Nat.mul_zero, Nat.add_zero]
      have hg := getElem?_flatMap_const (List.range un) block 1 (fun a ha => hb a (by simpa using ha)) (us + a) 0 (by omega)
      rw [Nat.one_mul, Nat.add_zero] at hg
      rw [hg, List.getElem?_range (by omega)]
      simp only [Option.bind_some]
      obtain ⟨x, hx⟩ := List.length_eq_one_iff.1 hbl
      rw [hx]; rfl
    · obtain ⟨o2, e2, g2⟩ := slice_ok (block (us + a)) dims start size hz hr hd hbl.symm
      rw [hp] at e2
      cases e2
      rw [g2]
      apply List.map_congr_left
      intro j hj
      have hj := mem_cells.1 hj
      have hjl := hj.length_eq
      have hin := hr.shift hj
      simp only [Function.comp]
      rw [addIdx_snoc _ _ _ _ (by omega), pos_snoc _ _ _ _ hin.length_eq, Nat.add_comm,
        getElem?_flatMap_const (List.range un) block dims.prod (fun a ha => hb a (by simpa using ha)) (us + a) _ (pos_lt hin),
        List.getElem?_range (by omega)]
      rfl
  exact (List.map_inj_right (fun _ _ h => Option.some.inj h)).1 this

/-- Slicing a constant array. -/
theorem slice_replicate (v : α) (dims start size : List Nat) (hr : RegionIn dims start size)
    (hd : ∀ n ∈ dims, n < two64) :
    slice (List.replicate dims.prod v) dims start size = .ok (List.replicate size.prod v) := by
  by_cases hz : dims = []
  · subst hz
    have hz0 : size = [] := List.length_eq_zero_iff.1 hr.lengths.2
    subst hz0; simp [slice]
  · obtain ⟨out, e, g⟩ := slice_ok (List.replicate dims.prod v) dims start size hz hr hd (by simp)
    rw [e]; congr 1
    have : out.map some = (List.replicate size.prod v).map some := by
      rw [g]
      have : (cells size).map (fun j => (List.replicate dims.prod v)[pos dims (addIdx start j)]?) =
          (cells size).map fun _ => some v := by
        apply List.map_congr_left
        intro j hj
        rw [List.getElem?_replicate, if_pos (pos_lt (hr.shift (mem_cells.1 hj)))]
      rw [this]
      rw [List.map_const', cells_length]; simp
    exact (List.map_inj_right (fun _ _ h => Option.some.inj h)).1 this

end Fimex.Reader
