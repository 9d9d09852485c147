import Verif.Slice.Model
import Verif.Slice.Spec

/-! # Helper lemmas: multi-indices and the recursive copy -/

namespace Fimex

theorem InShape.length_eq : ∀ {s i : List Nat}, InShape s i → i.length = s.length
  | [], [], _ => rfl
  | _ :: _, _ :: _, h => by simp [InShape.length_eq h.2]

theorem pos_lt : ∀ {s i : List Nat}, InShape s i → pos s i < s.prod
  | [], [], _ => by simp [pos]
  | n :: ns, i :: is, h => by
    have ih := pos_lt h.2
    have h1 : i < n := h.1
    simp only [pos, List.prod_cons]
    calc i + n * pos ns is < n + n * pos ns is := by omega
      _ = n * (pos ns is + 1) := by rw [Nat.mul_add, Nat.mul_one, Nat.add_comm]
      _ ≤ n * ns.prod := Nat.mul_le_mul_left _ ih

theorem pos_inj : ∀ {s i j : List Nat}, InShape s i → InShape s j → pos s i = pos s j → i = j
  | [], [], [], _, _, _ => rfl
  | n :: ns, i :: is, j :: js, hi, hj, h => by
    have h1 : i < n := hi.1
    have h2 : j < n := hj.1
    simp only [pos] at h
    have hd : pos ns is = pos ns js := by
      have a : (i + n * pos ns is) / n = pos ns is := by
        rw [Nat.add_mul_div_left _ _ (by omega), Nat.div_eq_of_lt h1, Nat.zero_add]
      have b : (j + n * pos ns js) / n = pos ns js := by
        rw [Nat.add_mul_div_left _ _ (by omega), Nat.div_eq_of_lt h2, Nat.zero_add]
      rw [← a, ← b, h]
    have hij : i = j := by rw [hd] at h; omega
    rw [hij, pos_inj hi.2 hj.2 hd]

theorem length_flatMap_const {α β : Type} (l : List α) (f : α → List β) (n : Nat)
    (h : ∀ a ∈ l, (f a).length = n) : (l.flatMap f).length = l.length * n := by
  induction l with
  | nil => simp
  | cons a l ih =>
    simp only [List.flatMap_cons, List.length_append, List.length_cons]
    rw [h a (by simp), ih fun b hb => h b (by simp [hb]), Nat.succ_mul, Nat.add_comm]

theorem getElem?_flatMap_const {α β : Type} (l : List α) (f : α → List β) (n : Nat)
    (h : ∀ a ∈ l, (f a).length = n) (q r : Nat) (hr : r < n) :
    (l.flatMap f)[n * q + r]? = (l[q]?).bind fun a => (f a)[r]? := by
  induction l generalizing q with
  | nil => simp
  | cons a l ih =>
    have hn := h a (by simp)
    simp only [List.flatMap_cons]
    cases q with
    | zero =>
      rw [List.getElem?_append_left (by omega)]
      simp
    | succ q =>
      rw [List.getElem?_append_right (by rw [hn, Nat.mul_succ]; omega), hn]
      have : n * (q + 1) + r - n = n * q + r := by rw [Nat.mul_succ]; omega
      rw [this, ih (fun b hb => h b (by simp [hb]))]
      simp

theorem cells_length : ∀ s : List Nat, (cells s).length = s.prod
  | [] => rfl
  | n :: ns => by
    rw [cells, length_flatMap_const _ _ n (by simp), cells_length ns, List.prod_cons, Nat.mul_comm]

theorem cells_getElem? : ∀ {s i : List Nat}, InShape s i → (cells s)[pos s i]? = some i
  | [], [], _ => rfl
  | n :: ns, i :: is, h => by
    have h1 : i < n := h.1
    rw [cells, pos, Nat.add_comm, getElem?_flatMap_const _ _ n (by simp) _ _ h1, cells_getElem? h.2]
    simp [h1]

theorem mem_cells : ∀ {s i : List Nat}, i ∈ cells s ↔ InShape s i
  | [], i => by cases i <;> simp [cells, InShape]
  | n :: ns, i => by
    cases i with
    | nil => simp [cells, InShape]
    | cons a is =>
      simp only [cells, List.mem_flatMap, List.mem_map, List.mem_range, List.cons.injEq, InShape]
      constructor
      · rintro ⟨js, hjs, b, hb, rfl, rfl⟩
        exact ⟨hb, mem_cells.1 hjs⟩
      · rintro ⟨ha, his⟩
        exact ⟨is, mem_cells.2 his, a, ha, rfl, rfl⟩

/-- Every flat position below the number of cells belongs to exactly one multi-index. -/
theorem exists_pos {s : List Nat} {k : Nat} (hk : k < s.prod) : ∃ i, InShape s i ∧ pos s i = k := by
  have hk' : k < (cells s).length := by rw [cells_length]; exact hk
  have hm : (cells s)[k] ∈ cells s := List.getElem_mem hk'
  refine ⟨(cells s)[k], mem_cells.1 hm, ?_⟩
  generalize hi : (cells s)[k] = i at hm
  have hin := mem_cells.1 hm
  have h1 := cells_getElem? hin
  -- positions of equal entries coincide because `pos` is determined by the entry
  have key : ∀ (s : List Nat) (k : Nat) (i : List Nat), (cells s)[k]? = some i → pos s i = k := by
    intro s
    induction s with
    | nil =>
      intro k i h
      have hk : k = 0 := by
        cases k with
        | zero => rfl
        | succ k => simp [cells] at h
      subst hk; simp [cells] at h; subst h; simp [pos]
    | cons n ns ih =>
      intro k i h
      by_cases hn : n = 0
      · subst hn
        have : (cells (0 :: ns)).length = 0 := by rw [cells_length]; simp
        rw [List.length_eq_zero_iff.1 this] at h
        simp at h
      · have hkd : k = n * (k / n) + k % n := (Nat.div_add_mod k n).symm
        have hr : k % n < n := Nat.mod_lt _ (by omega)
        rw [cells, hkd, getElem?_flatMap_const _ _ n (by simp) _ _ hr] at h
        cases hq : (cells ns)[k / n]? with
        | none => simp [hq] at h
        | some is =>
          simp [hq, hr] at h
          obtain ⟨_, rfl⟩ := h
          rw [pos, ih _ _ hq]
          omega
  exact key s k i (by rw [List.getElem?_eq_getElem hk', hi])

theorem pos_snoc : ∀ (s i : List Nat) (n a : Nat), i.length = s.length →
    pos (s ++ [n]) (i ++ [a]) = pos s i + s.prod * a
  | [], [], n, a, _ => by simp [pos]
  | m :: s, b :: i, n, a, h => by
    simp only [List.length_cons, Nat.succ.injEq] at h
    simp only [List.cons_append, pos, pos_snoc s i n a h, List.prod_cons, Nat.mul_add, Nat.mul_assoc,
      Nat.add_assoc]
  | [], _ :: _, _, _, h => by simp at h
  | _ :: _, [], _, _, h => by simp at h

theorem cells_snoc : ∀ (s : List Nat) (n : Nat),
    cells (s ++ [n]) = (List.range n).flatMap fun a => (cells s).map fun i => i ++ [a]
  | [], n => by
    simp only [List.nil_append, cells, List.flatMap_cons, List.flatMap_nil, List.append_nil,
      List.map_cons, List.map_nil]
    induction List.range n with
    | nil => rfl
    | cons a l ih => simp [ih]
  | m :: s, n => by
    simp only [List.cons_append, cells, cells_snoc s n, List.flatMap_assoc, List.flatMap_map,
      List.map_flatMap, List.map_map, Function.comp_def]

theorem RegionIn.lengths : ∀ {d s z : List Nat}, RegionIn d s z → s.length = d.length ∧ z.length = d.length
  | [], [], [], _ => ⟨rfl, rfl⟩
  | _ :: _, _ :: _, _ :: _, h => by
    have := RegionIn.lengths h.2
    simp [this.1, this.2]

theorem RegionIn.get : ∀ {d s z : List Nat}, RegionIn d s z → ∀ k, s.getD k 0 + z.getD k 0 ≤ d.getD k 0
  | [], [], [], _, k => by simp
  | _ :: _, _ :: _, _ :: _, h, 0 => by simpa using h.1
  | _ :: _, _ :: _, _ :: _, h, k + 1 => by simpa using RegionIn.get h.2 k

theorem RegionIn.shift : ∀ {d s z i : List Nat}, RegionIn d s z → InShape z i → InShape d (addIdx s i)
  | [], [], [], [], _, _ => trivial
  | _ :: _, _ :: _, _ :: _, _ :: _, h, hi => by
    refine ⟨?_, RegionIn.shift h.2 hi.2⟩
    have h1 := h.1
    have h2 := hi.1
    show _ + _ < _
    omega

theorem addIdx_snoc (a b : List Nat) (x y : Nat) (h : a.length = b.length) :
    addIdx (a ++ [x]) (b ++ [y]) = addIdx a b ++ [x + y] := by
  simp [addIdx, List.zipWith_append h]

theorem take_succ_getD (l : List Nat) (d : Nat) (h : d < l.length) :
    l.take (d + 1) = l.take d ++ [l.getD d 0] := by
  rw [List.take_add_one, List.getElem?_eq_getElem h]
  simp [h]

namespace Slice

theorem sliceSizes_getD : ∀ (dims : List Nat) (acc k : Nat), k < dims.length →
    (sliceSizes acc dims).getD k 0 = acc * (dims.take k).prod
  | [], _, _, h => by simp at h
  | d :: ds, acc, 0, _ => by simp [sliceSizes]
  | d :: ds, acc, k + 1, h => by
    simp only [List.length_cons, Nat.add_lt_add_iff_right] at h
    have := sliceSizes_getD ds (acc * d) k h
    rw [sliceSizes, List.getD_cons_succ, this, List.take_succ_cons, List.prod_cons, Nat.mul_assoc]

/-- A loop whose body moves the source by `w` and appends the values described by `f`. -/
theorem loopN_spec {α : Type} (src : List α) (w bound : Nat) (m lim : Nat)
    (body : CopyState α → Res (CopyState α)) (f : Nat → List (Option α))
    (hf : ∀ p, (f p).length = m)
    (hb : ∀ p out, p + w ≤ bound → out.length + m ≤ lim →
      ∃ vals, body ⟨p, out⟩ = .ok ⟨p + w, out ++ vals⟩ ∧ vals.map some = f p) :
    ∀ n p out, p + n * w ≤ bound → out.length + n * m ≤ lim →
      ∃ vals, loopN n body ⟨p, out⟩ = .ok ⟨p + n * w, out ++ vals⟩ ∧
        vals.map some = (List.range n).flatMap fun i => f (p + i * w)
  | 0, p, out, _, _ => ⟨[], by simp [loopN], by simp⟩
  | n + 1, p, out, h1, h2 => by
    rw [Nat.succ_mul] at h1 h2
    obtain ⟨v1, e1, g1⟩ := hb p out (by omega) (by omega)
    have hl : v1.length = m := by rw [← hf p, ← g1, List.length_map]
    obtain ⟨v2, e2, g2⟩ := loopN_spec src w bound m lim body f hf hb n (p + w) (out ++ v1)
      (by omega) (by rw [List.length_append, hl]; omega)
    refine ⟨v1 ++ v2, ?_, ?_⟩
    · simp only [loopN, e1, Res.ok_bind, e2, Nat.succ_mul, List.append_assoc]
      congr 2; omega
    · rw [List.map_append, g1, g2, List.range_succ_eq_map, List.flatMap_cons, List.flatMap_map]
      simp [Nat.succ_mul, Nat.add_assoc, Nat.add_comm w]

theorem readRange_map {α : Type} (src : List α) (p n : Nat) (h : p + n ≤ src.length) :
    ∃ vals, readRange src p n = .ok vals ∧ vals.length = n ∧
      vals.map some = (List.range n).map fun i => src[p + i]? := by
  refine ⟨(src.drop p).take n, by simp [readRange, h], by simp; omega, ?_⟩
  apply List.ext_getElem
  · simp; omega
  · intro i h1 h2
    simp at h1 h2
    have : p + i < src.length := by omega
    simp [this]

/-- The recursive copy of dimensions `0..d` reads exactly the addressed cells in order, moves the
source pointer over the whole sub-array, and stays inside both arrays. -/
theorem copyRec_spec {α : Type} (src : List α) (outSize : Nat) (dims start size : List Nat)
    (hr : RegionIn dims start size) :
    ∀ d, d < dims.length → ∀ p out, p + (dims.take (d + 1)).prod ≤ src.length →
      out.length + (size.take (d + 1)).prod ≤ outSize →
      ∃ vals, copyRec src outSize dims (sliceSizes 1 dims) start size d ⟨p, out⟩ =
          .ok ⟨p + (dims.take (d + 1)).prod, out ++ vals⟩ ∧
        vals.map some = (cells (size.take (d + 1))).map fun j =>
          src[p + pos (dims.take (d + 1)) (addIdx (start.take (d + 1)) j)]? := by
  obtain ⟨hls, hlz⟩ := hr.lengths
  intro d
  induction d with
  | zero =>
    intro hd p out hp ho
    have hin := hr.get 0
    have ed := take_succ_getD dims 0 hd
    have es := take_succ_getD start 0 (by omega)
    have ez := take_succ_getD size 0 (by omega)
    simp only [List.take_zero, List.nil_append, Nat.zero_add] at ed es ez hp ho ⊢
    have hsl : (sliceSizes 1 dims).getD 0 0 = 1 := by rw [sliceSizes_getD dims 1 0 hd]; simp
    simp only [ed, es, ez, List.prod_cons, List.prod_nil, Nat.mul_one] at hp ho ⊢
    generalize hD : dims.getD 0 0 = D at *
    generalize hS : start.getD 0 0 = S at *
    generalize hZ : size.getD 0 0 = Z at *
    obtain ⟨vals, e, hl, g⟩ := readRange_map src (p + S) Z (by omega)
    refine ⟨vals, ?_, ?_⟩
    · have a1 : advance src p (S * 1) = .ok (p + S) := by simp [advance]; omega
      have a2 : advance src (p + S) Z = .ok (p + S + Z) := by simp [advance]; omega
      have a3 : advance src (p + S + Z) ((D - (S + Z)) * 1) = .ok (p + D) := by
        simp only [advance, Nat.mul_one]
        rw [if_pos (by omega)]; congr 1; omega
      have hno : ¬ outSize < out.length + vals.length := by omega
      rw [copyRec]
      simp only [hsl, hD, hS, hZ, a1, e, Res.ok_bind, if_neg hno, a2, a3]
    · rw [g]
      simp [cells, addIdx, pos, Nat.add_assoc, Function.comp_def]
  | succ d ih =>
    intro hd p out hp ho
    have hin := hr.get (d + 1)
    have ed := take_succ_getD dims (d + 1) hd
    have es := take_succ_getD start (d + 1) (by omega)
    have ez := take_succ_getD size (d + 1) (by omega)
    have hsl : (sliceSizes 1 dims).getD (d + 1) 0 = (dims.take (d + 1)).prod := by
      rw [sliceSizes_getD dims 1 (d + 1) hd, Nat.one_mul]
    rw [ed] at hp
    rw [ez] at ho
    rw [ed, es, ez]
    simp only [List.prod_append, List.prod_cons, List.prod_nil, Nat.mul_one] at hp ho ⊢
    generalize hD : dims.getD (d + 1) 0 = D at *
    generalize hS : start.getD (d + 1) 0 = S at *
    generalize hZ : size.getD (d + 1) 0 = Z at *
    generalize hW : (dims.take (d + 1)).prod = W at *
    generalize hM : (size.take (d + 1)).prod = M at *
    have hsum : S * W + Z * W + (D - (S + Z)) * W = W * D := by
      rw [← Nat.add_mul, ← Nat.add_mul, Nat.mul_comm W]; congr 1; omega
    obtain ⟨vals, e, g⟩ := loopN_spec src W src.length M outSize
      (copyRec src outSize dims (sliceSizes 1 dims) start size d)
      (fun p => (cells (size.take (d + 1))).map fun j =>
          src[p + pos (dims.take (d + 1)) (addIdx (start.take (d + 1)) j)]?)
      (fun p => by rw [List.length_map, cells_length, hM])
      (fun p out h1 h2 => by simpa using ih (by omega) p out h1 h2)
      Z (p + S * W) out (by omega) (by rw [Nat.mul_comm Z]; exact ho)
    refine ⟨vals, ?_, ?_⟩
    · have a1 : advance src p (S * W) = .ok (p + S * W) := by simp [advance]; omega
      have a3 : advance src (p + S * W + Z * W) ((D - (S + Z)) * W) = .ok (p + W * D) := by
        simp only [advance]
        rw [if_pos (by omega)]; congr 1; omega
      rw [copyRec]
      simp only [hS, hZ, hD, hsl, a1, Res.ok_bind, e, a3]
    · rw [g, cells_snoc, List.map_flatMap]
      congr 1
      funext a
      rw [List.map_map]
      apply List.map_congr_left
      intro j hj
      have hlj := (mem_cells.1 hj).length_eq
      simp only [Function.comp]
      rw [addIdx_snoc _ _ _ _ (by simp [hlj]; omega), pos_snoc _ _ _ _ (by
        simp [addIdx, hlj]; omega), hW]
      congr 1
      rw [Nat.mul_add, Nat.mul_comm S, Nat.mul_comm a]
      omega

/-- Each requested upper end is representable as `size_t`. -/
def NoWrap (start size : List Nat) : Prop := ∀ p ∈ start.zip size, p.1 + p.2 < two64

instance (start size : List Nat) : Decidable (NoWrap start size) := by unfold NoWrap; infer_instance

theorem RegionIn.noWrap : ∀ {d s z : List Nat}, RegionIn d s z → (∀ n ∈ d, n < two64) → NoWrap s z
  | [], [], [], _, _ => by simp [NoWrap]
  | n :: ns, s :: ss, z :: zs, h, hd => by
    have ih := RegionIn.noWrap h.2 fun m hm => hd m (by simp [hm])
    have h1 := h.1
    have h2 := hd n (by simp)
    intro p hp
    simp only [List.zip_cons_cons, List.mem_cons] at hp
    rcases hp with rfl | hp
    · show s + z < two64; omega
    · exact ih p hp

theorem checkDims_eq : ∀ {d s z : List Nat}, s.length = d.length → z.length = d.length → NoWrap s z →
    checkDims d s z = if RegionIn d s z then .ok () else .throws
  | [], [], [], _, _, _ => by simp [checkDims, RegionIn]
  | n :: ns, s :: ss, z :: zs, h1, h2, hw => by
    simp only [List.length_cons, Nat.succ.injEq] at h1 h2
    have hsz : s + z < two64 := hw (s, z) (by simp)
    have ih := checkDims_eq h1 h2 fun p hp => hw p (by simp [hp])
    rw [checkDims, wadd_eq hsz, ih]
    by_cases hn : n < s + z
    · have : ¬ RegionIn (n :: ns) (s :: ss) (z :: zs) := fun h => by have := h.1; omega
      simp [hn, this]
    · have : RegionIn (n :: ns) (s :: ss) (z :: zs) ↔ RegionIn ns ss zs :=
        ⟨fun h => h.2, fun h => ⟨by omega, h⟩⟩
      simp [hn, this]
  | [], _ :: _, _, h, _, _ => by simp at h
  | [], [], _ :: _, _, h, _ => by simp at h
  | _ :: _, [], _, h, _, _ => by simp at h
  | _ :: _, _ :: _, [], _, h, _ => by simp at h

/-- The successful case, as a list equation. -/
theorem slice_ok {α : Type} (src : List α) (dims start size : List Nat) (hrank : dims ≠ [])
    (hr : RegionIn dims start size) (hd : ∀ n ∈ dims, n < two64) (hp : dims.prod = src.length) :
    ∃ out, slice src dims start size = .ok out ∧
      out.map some = (cells size).map fun j => src[pos dims (addIdx start j)]? := by
  obtain ⟨hls, hlz⟩ := hr.lengths
  have hlen : dims.length ≠ 0 := fun h => hrank (List.length_eq_zero_iff.1 h)
  have hcheck := checkDims_eq hls hlz (RegionIn.noWrap hr hd)
  rw [if_pos hr] at hcheck
  have hk : dims.length - 1 + 1 = dims.length := by omega
  have td : dims.take (dims.length - 1 + 1) = dims := by rw [hk, List.take_length]
  have ts : start.take (dims.length - 1 + 1) = start := by rw [hk, ← hls, List.take_length]
  have tz : size.take (dims.length - 1 + 1) = size := by rw [hk, ← hlz, List.take_length]
  have tz' : size.take dims.length = size := by rw [← hlz, List.take_length]
  obtain ⟨vals, e, g⟩ := copyRec_spec src size.prod dims start size hr (dims.length - 1) (by omega)
    0 [] (by rw [td]; omega) (by rw [tz]; simp)
  rw [td, ts, tz] at g
  refine ⟨vals, ?_, by simpa using g⟩
  simp only [slice, if_neg hlen, hcheck, Res.ok_bind, hp, ne_eq, not_true_eq_false, if_false, tz']
  rw [e]
  simp

end Slice
end Fimex
