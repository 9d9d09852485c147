import Verif.Extractor.Spec
import Verif.Slice.Lemmas
import Verif.DataCopy.Join

/-! # Lemmas about the extractor -/

namespace Fimex.Extractor

open Slice DataCopy

variable {α : Type}

/-- Cartesian product, first factor fastest. -/
def prodIdx : List (List Nat) → List (List Nat)
  | [] => [[]]
  | s :: ss => (prodIdx ss).flatMap fun is => s.map fun i => i :: is

theorem prodIdx_snoc : ∀ (ss : List (List Nat)) (s : List Nat),
    prodIdx (ss ++ [s]) = s.flatMap fun a => (prodIdx ss).map fun i => i ++ [a]
  | [], s => by
    simp only [List.nil_append, prodIdx, List.flatMap_cons, List.flatMap_nil, List.append_nil,
      List.map_cons, List.map_nil]
    induction s with
    | nil => rfl
    | cons a s ih => simp [ih]
  | t :: ss, s => by
    simp only [List.cons_append, prodIdx, prodIdx_snoc ss s, List.flatMap_assoc, List.map_flatMap,
      List.flatMap_map, List.map_map]
    rfl

theorem prodIdx_length : ∀ ss : List (List Nat), (prodIdx ss).length = (ss.map List.length).prod
  | [] => rfl
  | s :: ss => by
    rw [prodIdx, length_flatMap_const _ _ s.length (by simp), prodIdx_length ss, List.map_cons,
      List.prod_cons, Nat.mul_comm]

theorem prodIdx_getElem? : ∀ {ss : List (List Nat)} {j : List Nat}, InShape (ss.map List.length) j →
    (prodIdx ss)[pos (ss.map List.length) j]? = some (pick ss j)
  | [], [], _ => rfl
  | s :: ss, i :: is, h => by
    have h1 : i < s.length := h.1
    rw [prodIdx, List.map_cons, pos, Nat.add_comm,
      getElem?_flatMap_const _ _ s.length (by simp) _ _ h1, prodIdx_getElem? h.2]
    simp [h1, pick, List.getD]

/-- The indices of a box. -/
def boxIdx (b : Box) : List (List Nat) := prodIdx (b.map fun c => List.range' c.1 c.2)

theorem boxIdx_snoc (b : Box) (c : Nat × Nat) :
    boxIdx (b ++ [c]) = (List.range' c.1 c.2).flatMap fun a => (boxIdx b).map fun i => i ++ [a] := by
  simp only [boxIdx, List.map_append, List.map_cons, List.map_nil, prodIdx_snoc]

theorem boxIdx_eq : ∀ b : Box, boxIdx b = (cells (b.map (·.2))).map (addIdx (b.map (·.1)))
  | [] => rfl
  | c :: b => by
    have ih := boxIdx_eq b
    simp only [boxIdx] at ih
    simp only [boxIdx, List.map_cons, prodIdx, cells, ih, List.flatMap_map, List.map_flatMap, List.map_map]
    congr 1
    funext is
    apply List.ext_getElem
    · simp
    · intro k h1 h2
      simp [addIdx]

theorem boxIdx_length (b : Box) : (boxIdx b).length = (b.map (·.2)).prod := by
  rw [boxIdx_eq, List.length_map, cells_length]

theorem setAllBoxes_ok (mx start size : Nat) (h : start + size ≤ mx) (hm : mx < two64) :
    ∀ boxes : List Box, setAllBoxes mx start size boxes = .ok (boxes.map fun b => b ++ [(start, size)])
  | [] => rfl
  | b :: bs => by
    rw [setAllBoxes, if_neg (by rw [wadd_eq (by omega)]; omega), setAllBoxes_ok mx start size h hm bs]
    rfl

theorem expand_ok (mx : Nat) (hm : mx < two64) (boxes : List Box) : ∀ cs : List (Nat × Nat),
    (∀ c ∈ cs, c.1 + c.2 ≤ mx) →
    expand mx boxes cs = .ok (cs.flatMap fun c => boxes.map fun b => b ++ [c])
  | [], _ => rfl
  | c :: cs, h => by
    rw [expand, setAllBoxes_ok mx c.1 c.2 (h c (by simp)) hm boxes,
      expand_ok mx hm boxes cs fun d hd => h d (by simp [hd])]
    simp

theorem atT_ok {β : Type} {l : List β} {i : Nat} (h : i < l.length) : atT l i = .ok l[i] := by
  simp [atT, h]

theorem drop_take_succ {β : Type} (l : List β) (i n : Nat) (h : i < l.length) :
    (l.drop i).take (n + 1) = l[i] :: (l.drop (i + 1)).take n := by
  rw [List.drop_eq_getElem_cons h, List.take_succ_cons]

theorem chunkLoop_ok (ps : List Nat) : ∀ (n i start last : Nat) (acc : List (Nat × Nat)),
    i + n ≤ ps.length → start ≤ last →
    ∃ cs, chunkLoop ps i n start last acc = .ok (acc ++ cs) ∧
      cs.flatMap (fun c => List.range' c.1 c.2) =
        List.range' start (last - start + 1) ++ (ps.drop i).take n ∧
      ∀ c ∈ cs, 1 ≤ c.2 := by
  intro n
  induction n with
  | zero =>
    intro i start last acc _ _
    exact ⟨[(start, last - start + 1)], rfl, by simp, by simp⟩
  | succ n ih =>
    intro i start last acc h hsl
    have hi : i < ps.length := by omega
    rw [chunkLoop, atT_ok hi, Res.ok_bind, drop_take_succ ps i n hi]
    by_cases hp : ps[i] = last + 1
    · rw [if_pos hp]
      obtain ⟨cs, h1, h2, h3⟩ := ih (i + 1) start ps[i] acc (by omega) (by omega)
      refine ⟨cs, h1, ?_, h3⟩
      rw [h2, hp, show last + 1 - start + 1 = (last - start + 1) + 1 by omega, List.range'_concat]
      simp
      omega
    · rw [if_neg hp]
      obtain ⟨cs, h1, h2, h3⟩ := ih (i + 1) ps[i] ps[i] (acc ++ [(start, last - start + 1)])
        (by omega) (Nat.le_refl _)
      refine ⟨(start, last - start + 1) :: cs, by rw [h1]; simp, ?_, ?_⟩
      · rw [List.flatMap_cons, h2]
        simp
      · intro c hc
        rcases List.mem_cons.1 hc with rfl | hc
        · simp
        · exact h3 c hc

theorem chunks_ok (ps : List Nat) (st sz : Nat) (hz : 1 ≤ sz) (h : st + sz ≤ ps.length) :
    ∃ cs, chunks ps st sz = .ok cs ∧
      cs.flatMap (fun c => List.range' c.1 c.2) = (ps.drop st).take sz ∧ ∀ c ∈ cs, 1 ≤ c.2 := by
  have hi : st < ps.length := by omega
  obtain ⟨cs, h1, h2, h3⟩ := chunkLoop_ok ps (sz - 1) (st + 1) ps[st] ps[st] [] (by omega) (Nat.le_refl _)
  refine ⟨cs, by rw [chunks, atT_ok hi, Res.ok_bind, h1]; rfl, ?_, h3⟩
  rw [h2]
  obtain ⟨m, rfl⟩ : ∃ m, sz = m + 1 := ⟨sz - 1, by omega⟩
  rw [drop_take_succ ps st m hi]
  simp

/-- A contiguous selection gives one chunk. -/
theorem chunkLoop_contig (ps : List Nat) : ∀ (n i start last : Nat) (acc : List (Nat × Nat)),
    i + n ≤ ps.length → start ≤ last → (ps.drop i).take n = List.range' (last + 1) n →
    chunkLoop ps i n start last acc = .ok (acc ++ [(start, last + n - start + 1)]) := by
  intro n
  induction n with
  | zero => intros; rfl
  | succ n ih =>
    intro i start last acc h hsl hc
    have hi : i < ps.length := by omega
    rw [drop_take_succ ps i n hi, List.range'_succ] at hc
    injection hc with hc1 hc2
    rw [chunkLoop, atT_ok hi, Res.ok_bind, if_pos hc1, ih (i + 1) start ps[i] acc (by omega) (by omega)
      (by rw [hc2, hc1]), hc1]
    congr 4
    omega

theorem chunks_contig (ps : List Nat) (st sz : Nat) (hz : 1 ≤ sz) (h : st + sz ≤ ps.length)
    (hc : Contig ((ps.drop st).take sz)) : ∃ c, chunks ps st sz = .ok [c] := by
  have hi : st < ps.length := by omega
  obtain ⟨m, rfl⟩ : ∃ m, sz = m + 1 := ⟨sz - 1, by omega⟩
  rw [Contig, drop_take_succ ps st m hi, List.headD_cons, List.length_cons, List.range'_succ] at hc
  injection hc with _ hc
  have hl : ((ps.drop (st + 1)).take m).length = m := by simp; omega
  rw [hl] at hc
  refine ⟨_, by
    rw [chunks, atT_ok hi, Res.ok_bind, Nat.add_sub_cancel,
      chunkLoop_contig ps m (st + 1) ps[st] ps[st] [] (by omega) (Nat.le_refl _) hc]; rfl⟩

theorem singles_ok (ps : List Nat) : ∀ (n i : Nat), i + n ≤ ps.length →
    singles ps i n = .ok (((ps.drop i).take n).map fun p => (p, 1)) := by
  intro n
  induction n with
  | zero => intro i _; simp [singles]
  | succ n ih =>
    intro i h
    have hi : i < ps.length := by omega
    rw [singles, atT_ok hi, Res.ok_bind, ih (i + 1) (by omega), Res.ok_bind, drop_take_succ ps i n hi]
    rfl

/-- A chunk of a selection below `mx` ends below `mx`. -/
theorem chunk_le {cs : List (Nat × Nat)} {sel : List Nat} {mx : Nat}
    (h : cs.flatMap (fun c => List.range' c.1 c.2) = sel) (h1 : ∀ c ∈ cs, 1 ≤ c.2)
    (hs : ∀ p ∈ sel, p < mx) : ∀ c ∈ cs, c.1 + c.2 ≤ mx := by
  intro c hc
  have hz := h1 c hc
  have : c.1 + c.2 - 1 ∈ sel := by
    rw [← h, List.mem_flatMap]
    exact ⟨c, hc, by rw [List.mem_range']; exact ⟨c.2 - 1, by omega, by omega⟩⟩
  have := hs _ this
  omega

/-- What is known about the boxes after some dimensions. -/
structure BInv (done : List DimReq) (boxes : List Box) : Prop where
  idx : boxes.flatMap boxIdx = prodIdx (done.map (·.wanted))
  one : (∀ d ∈ done, Contig d.wanted) → boxes.length = 1
  ne : boxes ≠ []
  region : ∀ b ∈ boxes, RegionIn (done.map (·.length)) (b.map (·.1)) (b.map (·.2))

theorem RegionIn_snoc : ∀ {d s z : List Nat} {n a m : Nat}, RegionIn d s z → a + m ≤ n →
    RegionIn (d ++ [n]) (s ++ [a]) (z ++ [m])
  | [], [], [], _, _, _, _, h => ⟨h, trivial⟩
  | _ :: _, _ :: _, _ :: _, _, _, _, h, h' => ⟨h.1, RegionIn_snoc h.2 h'⟩

theorem flatMap_congr2 {β γ : Type} {l : List β} {f g : β → List γ} (h : ∀ a ∈ l, f a = g a) :
    l.flatMap f = l.flatMap g := by
  induction l with
  | nil => rfl
  | cons a l ih =>
    rw [List.flatMap_cons, List.flatMap_cons, h a (by simp), ih fun b hb => h b (by simp [hb])]

theorem contig_range' (s n : Nat) : Contig (List.range' s n) := by
  cases n <;> simp [Contig, List.range'_succ]

theorem stepDim_ok (done : List DimReq) (boxes : List Box) (d : DimReq) (hi : BInv done boxes)
    (hv : d.Valid) (ho : d.sel = none → 1 < d.size → ∀ a ∈ done, Contig a.wanted) :
    ∃ boxes', stepDim boxes d = .ok boxes' ∧ BInv (done ++ [d]) boxes' := by
  obtain ⟨hl, hv⟩ := hv
  cases hsel : d.sel with
  | none =>
    rw [hsel] at hv
    simp only at hv
    refine ⟨_, by simp only [stepDim, hsel]; exact setAllBoxes_ok _ _ _ hv hl boxes, ?_⟩
    have hw : d.wanted = List.range' d.start d.size := by simp [DimReq.wanted, hsel]
    refine ⟨?_, ?_, by simpa using hi.ne, ?_⟩
    · rw [List.map_append, List.map_cons, List.map_nil, prodIdx_snoc, hw, List.flatMap_map]
      simp only [boxIdx_snoc]
      by_cases hs : 1 < d.size
      · obtain ⟨b, rfl⟩ := List.length_eq_one_iff.1 (hi.one (ho hsel hs))
        have := hi.idx
        simp only [List.flatMap_cons, List.flatMap_nil, List.append_nil] at this
        rw [← this]
        simp
      · rcases (by omega : d.size = 0 ∨ d.size = 1) with h | h
        · simp [h]
        · rw [h, ← hi.idx]
          simp [List.map_flatMap]
    · intro hc
      rw [List.length_map]
      exact hi.one fun a ha => hc a (by simp [ha])
    · intro b hb
      obtain ⟨b', hb', rfl⟩ := List.mem_map.1 hb
      simp only [List.map_append, List.map_cons, List.map_nil]
      exact RegionIn_snoc (hi.region b' hb') hv
  | some ps =>
    cases ps with
    | nil =>
      rw [hsel] at hv
      simp only at hv
      have h0 : d.start + 0 ≤ d.length := by omega
      refine ⟨_, by simp only [stepDim, hsel]; exact setAllBoxes_ok _ _ _ h0 hl boxes, ?_⟩
      have hw : d.wanted = [] := by simp [DimReq.wanted, hsel]
      refine ⟨?_, ?_, by simpa using hi.ne, ?_⟩
      · rw [List.map_append, List.map_cons, List.map_nil, prodIdx_snoc, hw, List.flatMap_map]
        simp only [boxIdx_snoc]
        simp
      · intro hc
        rw [List.length_map]
        exact hi.one fun a ha => hc a (by simp [ha])
      · intro b hb
        obtain ⟨b', hb', rfl⟩ := List.mem_map.1 hb
        simp only [List.map_append, List.map_cons, List.map_nil]
        exact RegionIn_snoc (hi.region b' hb') h0
    | cons p0 ps0 =>
      rw [hsel] at hv
      simp only at hv
      obtain ⟨hz, hlen, hlt⟩ := hv
      have hw : d.wanted = (((p0 :: ps0).drop d.start).take d.size) := by simp [DimReq.wanted, hsel]
      have hwlt : ∀ p ∈ d.wanted, p < d.length := by
        intro p hp
        rw [hw] at hp
        exact hlt p (List.mem_of_mem_drop (List.mem_of_mem_take hp))
      by_cases hone : boxes.length ≤ 1
      · obtain ⟨cs, h1, h2, h3⟩ := chunks_ok (p0 :: ps0) d.start d.size hz hlen
        have hle := chunk_le (h2.trans hw.symm) h3 hwlt
        have hb1 : boxes.length = 1 := by
          have := List.length_pos_iff.2 hi.ne
          omega
        obtain ⟨b, rfl⟩ := List.length_eq_one_iff.1 hb1
        refine ⟨cs.map fun c => b ++ [c], ?_, ?_, ?_, ?_, ?_⟩
        · simp only [stepDim, hsel, if_pos hone, h1, Res.ok_bind, expand_ok _ hl _ cs hle]
          congr 1
          simp [List.map_eq_flatMap]
        · rw [List.map_append, List.map_cons, List.map_nil, prodIdx_snoc, hw, ← h2, ← hi.idx,
            List.flatMap_map, List.flatMap_assoc]
          simp [boxIdx_snoc]
        · intro hc
          have hcd : Contig d.wanted := hc d (by simp)
          rw [hw] at hcd
          obtain ⟨c, h⟩ := chunks_contig (p0 :: ps0) d.start d.size hz hlen hcd
          rw [h1] at h
          rw [Res.ok.inj h]
          rfl
        · intro h
          have h := List.map_eq_nil_iff.1 h
          subst h
          have := congrArg List.length h2
          simp at this
          simp at hlen
          omega
        · intro b' hb'
          obtain ⟨c, hc, rfl⟩ := List.mem_map.1 hb'
          simp only [List.map_append, List.map_cons, List.map_nil]
          exact RegionIn_snoc (hi.region b (by simp)) (hle c hc)
      · refine ⟨d.wanted.flatMap fun p => boxes.map fun b => b ++ [(p, 1)], ?_, ?_, ?_, ?_, ?_⟩
        · simp only [stepDim, hsel, if_neg hone, singles_ok _ _ _ hlen, Res.ok_bind]
          rw [expand_ok _ hl _ _ (by
            intro c hc
            obtain ⟨p, hp, rfl⟩ := List.mem_map.1 hc
            exact hwlt p (by rw [hw]; exact hp)), List.flatMap_map, hw]
        · rw [List.map_append, List.map_cons, List.map_nil, prodIdx_snoc, ← hi.idx, List.flatMap_assoc]
          apply flatMap_congr2
          intro p _
          simp only [List.flatMap_map, boxIdx_snoc, List.map_flatMap]
          simp
        · intro hc
          exact absurd (hi.one fun a ha => hc a (by simp [ha])) (by omega)
        · intro h
          rw [List.flatMap_eq_nil_iff] at h
          have hne : d.wanted ≠ [] := by
            rw [hw]
            intro h'
            have := congrArg List.length h'
            simp at this
            simp at hlen
            omega
          obtain ⟨p, hp⟩ := List.exists_mem_of_ne_nil _ hne
          exact hi.ne (List.map_eq_nil_iff.1 (h p hp))
        · intro b' hb'
          obtain ⟨p, hp, hb'⟩ := List.mem_flatMap.1 hb'
          obtain ⟨b, hb, rfl⟩ := List.mem_map.1 hb'
          simp only [List.map_append, List.map_cons, List.map_nil]
          exact RegionIn_snoc (hi.region b hb) (hwlt p hp)

theorem buildBoxes_ok : ∀ (ds done : List DimReq) (boxes : List Box), BInv done boxes →
    (∀ d ∈ ds, d.Valid) →
    ((done ++ ds).Pairwise fun a b => b.sel = none → 1 < b.size → Contig a.wanted) →
    ∃ boxes', buildBoxes boxes ds = .ok boxes' ∧ BInv (done ++ ds) boxes'
  | [], done, boxes, hi, _, _ => ⟨boxes, rfl, by simpa using hi⟩
  | d :: ds, done, boxes, hi, hv, ho => by
    obtain ⟨b', h1, h2⟩ := stepDim_ok done boxes d hi (hv d (by simp)) (by
      intro hn hs a ha
      exact (List.pairwise_append.1 ho).2.2 a ha d (by simp) hn hs)
    obtain ⟨b'', h3, h4⟩ := buildBoxes_ok ds (done ++ [d]) b' h2 (fun x hx => hv x (by simp [hx]))
      (by simpa using ho)
    exact ⟨b'', by rw [buildBoxes, h1, Res.ok_bind, h3], by simpa using h4⟩

theorem binv_nil : BInv [] [[]] :=
  ⟨rfl, fun _ => rfl, by simp, by simp [RegionIn]⟩

theorem joinLoop_ok (read : Box → Res (List α)) : ∀ (bs : List Box) (vals : Box → List α)
    (pre rest : List α), (∀ b ∈ bs, read b = .ok (vals b) ∧ (vals b).length = (b.map (·.2)).prod) →
    rest.length = (bs.map fun b => (b.map (·.2)).prod).sum → (pre ++ rest).length < two64 →
    joinLoop read bs pre.length (pre ++ rest) = .ok (pre ++ bs.flatMap vals)
  | [], vals, pre, rest, _, hr, _ => by
    have : rest = [] := List.length_eq_zero_iff.1 (by simpa using hr)
    simp [joinLoop, this]
  | b :: bs, vals, pre, rest, h, hr, hs => by
    obtain ⟨h1, h2⟩ := h b (by simp)
    simp only [List.map_cons, List.sum_cons] at hr
    rw [joinLoop, h1, Res.ok_bind, if_neg (by simp [h2]), ← h2]
    have hrest : (vals b).length ≤ rest.length := by omega
    have hlen : (pre ++ rest).length = pre.length + rest.length := by simp
    have key : joinLoop read bs (pre.length + (vals b).length)
        (pre ++ vals b ++ rest.drop (vals b).length) = .ok (pre ++ (b :: bs).flatMap vals) := by
      have := joinLoop_ok read bs vals (pre ++ vals b) (rest.drop (vals b).length)
        (fun x hx => h x (by simp [hx])) (by rw [List.length_drop]; omega)
        (by simp only [List.length_append, List.length_drop]; omega)
      rw [List.length_append] at this
      rw [this]
      simp
    by_cases hpos : (vals b).length > 0
    · rw [if_pos hpos, copyData_append pre rest (vals b) (two64 - 1) (by omega) hrest hs, Res.ok_bind, key]
    · rw [if_neg hpos]
      have h0 : vals b = [] := List.length_eq_zero_iff.1 (by omega)
      rw [h0] at key ⊢
      simpa using key

end Fimex.Extractor
