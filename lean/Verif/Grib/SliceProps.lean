import Verif.Grib.Slice
import Verif.Grib.IndexProps
import Verif.Slice.Lemmas
import Verif.Scale.Lemmas
import Mathlib.Tactic.Ring
import Mathlib.Tactic.Linarith

/-! # C75: a slice of a GRIB variable has each value of each message at its place -/

namespace Fimex.Grib

open Fimex.Pb Fimex.Fill

variable {V : Type}

/-! ## Specification -/

/-- A dimension of the slice is a part of the whole dimension. -/
def Ext.In (d : Ext) : Prop := d.start + d.size ≤ d.len

instance (d : Ext) : Decidable d.In := by unfold Ext.In; infer_instance

/-- The slice is inside the variable. -/
structure Req.In (r : Req) : Prop where
  x : r.x.In
  y : r.y.In
  e : r.e.In
  l : r.l.In
  t : r.t.In

/-- The number of a message in the table of C74. -/
def slot (r : Req) (t l e : Nat) : Nat := (t * r.l.len + l) * r.e.len + e

/-- The value of the field at a place of the whole variable: that of its message, or missing. -/
def fieldAt (decode : Chunk → Res (List V)) (miss : V) (messages : List Chunk) (r : Req) (x y e l t : Nat) : V :=
  match messages[slot r t l e]? with
  | none => miss
  | some m =>
    if m.file = 0 then miss
    else match decode m with
      | .ok v => if v.length = r.x.len * r.y.len then v.getD (x + r.x.len * y) miss else miss
      | _ => miss

/-- A message can be read: the library accepts it and it has no more values than the grid. -/
def Readable (decode : Chunk → Res (List V)) (r : Req) (m : Chunk) : Prop :=
  m.file = 0 ∨ ∃ v, decode m = .ok v ∧ v.length ≤ r.x.len * r.y.len

/-- The selected messages. -/
def Selected (messages : List Chunk) (r : Req) (m : Chunk) : Prop :=
  ∃ t l e, t < r.t.size ∧ l < r.l.size ∧ e < r.e.size ∧
    messages[slot r (r.t.start + t) (r.l.start + l) (r.e.start + e)]? = some m

/-- The slices for which the code computes the places of the values correctly: all members, unless there is one
level only, and all levels and members, unless there is one time only. -/
def Gapless (r : Req) : Prop :=
  (r.l.size ≤ 1 ∨ r.e.size = r.e.len) ∧ (r.t.size ≤ 1 ∨ r.l.size * r.e.size = r.l.len * r.e.len)

instance (r : Req) : Decidable (Gapless r) := by unfold Gapless; infer_instance

/-! ## Lemmas -/

/-- A loop appending blocks of equal size in front of a rest of missing values. -/
theorem forN_blocks (miss : V) (body : Nat → List V → Res (List V)) (blk : Nat → List V) (w base lo : Nat) : ∀ (n : Nat),
    (∀ i < n, ∀ (A : List V) m, A.length = base + i * w → w ≤ m →
      body (lo + i) (A ++ List.replicate m miss) = .ok (A ++ blk i ++ List.replicate (m - w) miss)) →
    (∀ i < n, (blk i).length = w) →
    ∀ (A : List V) m, A.length = base → n * w ≤ m →
      forN body lo n (A ++ List.replicate m miss) = .ok (A ++ (List.range n).flatMap blk ++ List.replicate (m - n * w) miss) := by
  intro n
  induction n generalizing base lo blk with
  | zero => intro _ _ A m _ _; simp [forN]
  | succ n ih =>
    intro hb hw A m hA hm
    have hm' : w + n * w ≤ m := by rw [Nat.add_mul, Nat.one_mul] at hm; omega
    rw [forN]
    have h0 := hb 0 (by omega) A m (by simpa using hA) (by omega)
    rw [Nat.add_zero] at h0
    rw [h0, Res.ok_bind]
    have := ih (fun i => blk (i + 1)) (base + w) (lo + 1) (fun i hi A m hA hm => by
      have := hb (i + 1) (by omega) A m (by rw [hA]; ring) hm
      rw [← this]; congr 1; omega) (fun i hi => hw (i + 1) (by omega)) (A ++ blk 0) (m - w)
      (by rw [List.length_append, hA, hw 0 (by omega)]) (by omega)
    rw [this, List.range_succ_eq_map, List.flatMap_cons, List.flatMap_map]
    congr 2
    · simp [List.append_assoc]
    · congr 1; rw [Nat.add_mul, Nat.one_mul]; omega

theorem forN_throws {S : Type} {body : Nat → S → Res S} (P : S → Prop) (bad : Nat → Prop) : ∀ (n lo : Nat) (s : S), P s →
    (∀ i s, lo ≤ i → i < lo + n → P s → (bad i → body i s = .throws) ∧
      (body i s = .throws ∨ ∃ s', body i s = .ok s' ∧ P s')) →
    (∃ i, lo ≤ i ∧ i < lo + n ∧ bad i) → forN body lo n s = .throws
  | 0, lo, s, _, _, ⟨i, h1, h2, _⟩ => by omega
  | n + 1, lo, s, hP, hb, ⟨i, h1, h2, hi⟩ => by
    rw [forN]
    obtain ⟨a, b⟩ := hb lo s le_rfl (by omega) hP
    rcases b with b | ⟨s', b, hs'⟩
    · rw [b, Res.throws_bind]
    · rw [b, Res.ok_bind]
      have hne : i ≠ lo := fun e => by subst e; rw [a hi] at b; cases b
      exact forN_throws P bad n (lo + 1) s' hs' (fun j s h1 h2 h3 => hb j s (by omega) (by omega) h3) ⟨i, by omega, by omega, hi⟩

theorem forN_settled {S : Type} {body : Nat → S → Res S} (P : S → Prop) : ∀ (n lo : Nat) (s : S), P s →
    (∀ i s, lo ≤ i → i < lo + n → P s → (body i s = .throws ∨ ∃ s', body i s = .ok s' ∧ P s')) →
    forN body lo n s = .throws ∨ ∃ s', forN body lo n s = .ok s' ∧ P s'
  | 0, lo, s, hP, _ => .inr ⟨s, rfl, hP⟩
  | n + 1, lo, s, hP, hb => by
    rw [forN]
    rcases hb lo s le_rfl (by omega) hP with b | ⟨s', b, hs'⟩
    · left; rw [b, Res.throws_bind]
    · rw [b, Res.ok_bind]
      exact forN_settled P n (lo + 1) s' hs' (fun j s h1 h2 h3 => hb j s (by omega) (by omega) h3)

/-- A loop whose last step is undefined, and whose steps do not throw. -/
theorem forN_ub {S : Type} {body : Nat → S → Res S} (P : S → Prop) : ∀ (n lo : Nat) (s : S), P s →
    (∀ i s, lo ≤ i → i < lo + (n + 1) → P s → (body i s = .ub ∨ ∃ s', body i s = .ok s' ∧ P s')) →
    (∀ s, P s → body (lo + n) s = .ub) → forN body lo (n + 1) s = .ub
  | 0, lo, s, hP, _, hl => by
    rw [forN, show lo = lo + 0 from rfl, hl s hP, Res.ub_bind]
  | n + 1, lo, s, hP, hb, hl => by
    rw [forN]
    rcases hb lo s le_rfl (by omega) hP with b | ⟨s', b, hs'⟩
    · rw [b, Res.ub_bind]
    · rw [b, Res.ok_bind]
      exact forN_ub P n (lo + 1) s' hs' (fun j s h1 h2 h3 => hb j s (by omega) (by omega) h3)
        (fun s hs => by rw [show lo + 1 + n = lo + (n + 1) by omega]; exact hl s hs)

theorem forN_nothrow {S : Type} {body : Nat → S → Res S} (P : S → Prop) : ∀ (n lo : Nat) (s : S), P s →
    (∀ i s, lo ≤ i → i < lo + n → P s → (body i s = .ub ∨ ∃ s', body i s = .ok s' ∧ P s')) →
    forN body lo n s = .ub ∨ ∃ s', forN body lo n s = .ok s' ∧ P s'
  | 0, lo, s, hP, _ => .inr ⟨s, rfl, hP⟩
  | n + 1, lo, s, hP, hb => by
    rw [forN]
    rcases hb lo s le_rfl (by omega) hP with b | ⟨s', b, hs'⟩
    · left; rw [b, Res.ub_bind]
    · rw [b, Res.ok_bind]
      exact forN_nothrow P n (lo + 1) s' hs' (fun j s h1 h2 h3 => hb j s (by omega) (by omega) h3)

theorem writeBlock_append (A B : List V) (C : List V) (i : Nat) (hi : A.length = i) (hB : B.length ≤ C.length) :
    writeBlock (A ++ C) i B = .ok (A ++ B ++ C.drop B.length) := by
  unfold writeBlock
  by_cases h : B.length = 0
  · rw [if_pos h]
    have : B = [] := List.length_eq_zero_iff.1 h
    subst this; simp
  · rw [if_neg h, if_pos (by rw [List.length_append]; omega)]
    subst hi
    simp [List.drop_append]

theorem writeBlock_length {a b : List V} {i : Nat} {r : List V} (h : writeBlock a i b = .ok r) : r.length = a.length := by
  unfold writeBlock at h
  split_ifs at h with h1 h2
  · cases h; rfl
  · cases h
    simp only [List.length_append, List.length_take, List.length_drop]
    omega

theorem writeBlock_cases (a b : List V) (i : Nat) : writeBlock a i b = .ub ∨ ∃ r, writeBlock a i b = .ok r := by
  unfold writeBlock
  split_ifs
  · exact .inr ⟨_, rfl⟩
  · exact .inr ⟨_, rfl⟩
  · exact .inl rfl

theorem writeBlock_ub {a b : List V} {i : Nat} (h : a.length < i + b.length) (hb : 0 < b.length) : writeBlock a i b = .ub := by
  unfold writeBlock
  rw [if_neg (by omega), if_neg (by omega)]

/-- The selected part of one field. -/
theorem copy_field (r : Req) (hr : r.In) (v : List V) (hv : v.length = r.x.len * r.y.len) (miss : V) :
    ∃ p, Slice.copyRec v (r.x.size * r.y.size) [r.x.len, r.y.len] [1, r.x.len] [r.x.start, r.y.start]
        [r.x.size, r.y.size] 1 ⟨0, []⟩ = .ok ⟨p, (List.range r.y.size).flatMap fun y => (List.range r.x.size).map fun x =>
          v.getD (r.x.start + x + r.x.len * (r.y.start + y)) miss⟩ := by
  have hreg : RegionIn [r.x.len, r.y.len] [r.x.start, r.y.start] [r.x.size, r.y.size] := ⟨hr.x, hr.y, trivial⟩
  obtain ⟨vals, e, g⟩ := Slice.copyRec_spec v (r.x.size * r.y.size) _ _ _ hreg 1 (by simp) 0 [] (by simp [hv]) (by simp)
  refine ⟨0 + (List.take (1 + 1) [r.x.len, r.y.len]).prod, ?_⟩
  have hs : Slice.sliceSizes 1 [r.x.len, r.y.len] = [1, r.x.len] := by simp [Slice.sliceSizes]
  rw [hs] at e
  rw [e]
  congr 2
  rw [List.nil_append]
  have hsome : Function.Injective (some : V → Option V) := Option.some_injective V
  apply List.map_injective_iff.2 hsome
  rw [g]
  simp only [cells, List.take_succ_cons, List.take_zero, List.flatMap_cons, List.flatMap_nil, List.append_nil, List.map_flatMap,
    List.map_map, List.flatMap_map]
  refine List.flatMap_congr fun y hy => List.map_congr_left fun x hx => ?_
  rw [List.mem_range] at hy hx
  simp only [Function.comp, addIdx, List.zipWith_cons_cons, List.zipWith_nil_left, pos, Nat.mul_zero, Nat.add_zero, Nat.zero_add]
  have hlt : r.x.start + x + r.x.len * (r.y.start + y) < v.length := by
    rw [hv]
    have h1 : r.x.start + r.x.size ≤ r.x.len := hr.x
    have h2 : r.y.start + r.y.size ≤ r.y.len := hr.y
    have : r.x.len * (r.y.start + y + 1) ≤ r.x.len * r.y.len := Nat.mul_le_mul_left _ (by omega)
    rw [Nat.mul_add, Nat.mul_one] at this
    omega
  rw [List.getElem?_eq_getElem hlt, List.getD_eq_getElem?_getD, List.getElem?_eq_getElem hlt, Option.getD_some]

/-- The block of one message. -/
def block (decode : Chunk → Res (List V)) (miss : V) (messages : List Chunk) (r : Req) (t l e : Nat) : List V :=
  (List.range r.y.size).flatMap fun y => (List.range r.x.size).map fun x =>
    fieldAt decode miss messages r (r.x.start + x) (r.y.start + y) e l t

theorem block_const {n m : Nat} (c : V) : ((List.range m).flatMap fun _ => (List.range n).map fun _ => c) = List.replicate (n * m) c := by
  induction m with
  | zero => simp
  | succ m ih =>
    rw [List.range_succ, List.flatMap_append, ih]
    simp [List.map_const', Nat.mul_add, List.replicate_append_replicate]

theorem grid_length {n m : Nat} (f : Nat → Nat → V) : ((List.range m).flatMap fun y => (List.range n).map fun x => f y x).length = n * m := by
  rw [List.length_flatMap]
  simp [Nat.mul_comm]

theorem slot_eq (r : Req) (t l e : Nat) : t * r.l.len * r.e.len + l * r.e.len + e = slot r t l e := by
  unfold slot; rw [Nat.add_mul]

/-- One message writes its block, if the place in the array is the next one. -/
theorem message_spec (decode : Chunk → Res (List V)) (miss : V) (messages : List Chunk) (r : Req) (hr : r.In) (t l e : Nat) (m : Chunk)
    (hm : messages[slot r t l e]? = some m) (hread : Readable decode r m) (A : List V) (k : Nat)
    (hA : A.length = ((t - r.t.start) * r.l.len * r.e.len + (l - r.l.start) * r.e.len + (e - r.e.start)) * (r.x.size * r.y.size))
    (hk : r.x.size * r.y.size ≤ k) :
    sliceMessage decode miss messages r t l e (A ++ List.replicate k miss) =
      .ok (A ++ block decode miss messages r t l e ++ List.replicate (k - r.x.size * r.y.size) miss) := by
  have hmiss : ∀ n, n ≤ k → A ++ List.replicate k miss = A ++ List.replicate n miss ++ List.replicate (k - n) miss := by
    intro n hn
    rw [List.append_assoc, List.replicate_append_replicate]; congr 2; omega
  unfold sliceMessage
  rw [slot_eq, hm]
  dsimp only
  by_cases hf : m.file = 0
  · rw [if_pos hf]
    have : block decode miss messages r t l e = List.replicate (r.x.size * r.y.size) miss := by
      unfold block fieldAt
      rw [hm]
      simp only [if_pos hf]
      exact block_const miss
    rw [this, ← hmiss _ hk]
  · rw [if_neg hf]
    obtain ⟨v, hv, hlen⟩ := hread.resolve_left hf
    rw [hv, Res.ok_bind, if_neg (by omega)]
    by_cases hfull : v.length = r.x.len * r.y.len
    · have hb : block decode miss messages r t l e = (List.range r.y.size).flatMap fun y => (List.range r.x.size).map fun x =>
          v.getD (r.x.start + x + r.x.len * (r.y.start + y)) miss := by
        unfold block fieldAt
        rw [hm]
        simp only [if_neg hf, hv, if_pos hfull]
      have hbl : (block decode miss messages r t l e).length = r.x.size * r.y.size := grid_length _
      obtain ⟨p, hp⟩ := copy_field r hr v hfull miss
      by_cases hs : r.x.len * r.y.len ≠ r.x.size * r.y.size
      · rw [if_pos hs, if_neg (by simpa using hfull), hp, Res.ok_bind]
        dsimp only
        rw [← hb, writeBlock_append A _ _ _ hA (by rw [hbl, List.length_replicate]; exact hk), hbl, List.drop_replicate]
      · rw [if_neg hs]
        push Not at hs
        have hvb : v = block decode miss messages r t l e := by
          rw [hb]
          apply List.ext_getElem?
          intro i
          by_cases h0 : r.x.len * r.y.len = 0
          · have e1 : v = [] := List.length_eq_zero_iff.1 (hfull.trans h0)
            have e2 : ((List.range r.y.size).flatMap fun y => (List.range r.x.size).map fun x =>
                v.getD (r.x.start + x + r.x.len * (r.y.start + y)) miss) = [] :=
              List.length_eq_zero_iff.1 ((grid_length _).trans (hs.symm.trans h0))
            rw [e2, e1]
          · have h1 : r.x.start + r.x.size ≤ r.x.len := hr.x
            have h2 : r.y.start + r.y.size ≤ r.y.len := hr.y
            have p1 : 0 < r.x.len := Nat.pos_of_ne_zero fun h => h0 (by rw [h, Nat.zero_mul])
            have p2 : 0 < r.y.len := Nat.pos_of_ne_zero fun h => h0 (by rw [h, Nat.mul_zero])
            have q1 : r.x.size = r.x.len := by
              by_contra hne
              have : r.x.size * r.y.size ≤ (r.x.len - 1) * r.y.len := Nat.mul_le_mul (by omega) (by omega)
              rw [Nat.sub_mul, Nat.one_mul] at this
              have := Nat.le_mul_of_pos_left r.y.len p1
              omega
            have q2 : r.y.size = r.y.len := by
              rw [q1] at hs
              exact (Nat.eq_of_mul_eq_mul_left p1 hs).symm
            rw [q1, q2, show r.x.start = 0 by omega, show r.y.start = 0 by omega]
            simp only [Nat.zero_add]
            by_cases hi : i < r.x.len * r.y.len
            · have hpl := p
              have hget : ((List.range r.y.len).flatMap fun y => (List.range r.x.len).map fun x => v.getD (x + r.x.len * y) miss)[i]? =
                  some (v.getD i miss) := by
                have : ((List.range r.y.len).flatMap fun y => (List.range r.x.len).map fun x => v.getD (x + r.x.len * y) miss) =
                    (List.range (r.x.len * r.y.len)).map fun j => v.getD j miss := by
                  generalize r.y.len = Y
                  induction Y with
                  | zero => simp
                  | succ Y ih =>
                    rw [List.range_succ, List.flatMap_append, ih, Nat.mul_add, Nat.mul_one, List.range_add, List.map_append]
                    simp [Function.comp_def, Nat.add_comm]
                rw [this, List.getElem?_map, List.getElem?_range hi]; rfl
              rw [hget, List.getD_eq_getElem?_getD, List.getElem?_eq_getElem (by omega), Option.getD_some]
            · rw [List.getElem?_eq_none (by omega), List.getElem?_eq_none (by rw [grid_length]; omega)]
        rw [writeBlock_append A _ _ _ hA (by rw [hfull, List.length_replicate]; omega), Res.ok_bind, if_neg (by simpa using hfull),
          List.drop_replicate, hfull, ← hvb, hs]
    · have hb : block decode miss messages r t l e = List.replicate (r.x.size * r.y.size) miss := by
        unfold block fieldAt
        rw [hm]
        simp only [if_neg hf, hv, if_neg hfull]
        exact block_const miss
      rw [hb]
      by_cases hs : r.x.len * r.y.len ≠ r.x.size * r.y.size
      · rw [if_pos hs, if_pos hfull, writeBlock_append A _ _ _ hA (by simpa using hk), List.length_replicate, List.drop_replicate]
      · rw [if_neg hs]
        push Not at hs
        rw [writeBlock_append A v _ _ hA (by rw [List.length_replicate]; omega), Res.ok_bind, if_pos hfull, List.append_assoc,
          writeBlock_append A _ _ _ hA (by rw [List.length_append, List.length_drop, List.length_replicate, List.length_replicate]; omega),
          List.length_replicate, List.drop_append, List.drop_eq_nil_of_le (by omega), List.nil_append, List.drop_drop,
          List.drop_replicate]
        congr 3; omega

theorem gapless_idx {r : Req} (hg : Gapless r) {t l : Nat} (e : Nat) (ht : t < r.t.size) (hl : l < r.l.size) :
    t * r.l.len * r.e.len + l * r.e.len + e = (t * r.l.size + l) * r.e.size + e := by
  have h1 : l * r.e.len = l * r.e.size := by
    rcases hg.1 with h | h
    · have : l = 0 := by omega
      rw [this, Nat.zero_mul, Nat.zero_mul]
    · rw [h]
  have h2 : t * r.l.len * r.e.len = t * (r.l.size * r.e.size) := by
    rcases hg.2 with h | h
    · have : t = 0 := by omega
      rw [this]; simp
    · rw [h, Nat.mul_assoc]
  rw [h1, h2]; ring

theorem selected_at {messages : List Chunk} {r : Req} (hr : r.In) (hlen : messages.length = r.t.len * r.l.len * r.e.len)
    {t l e : Nat} (ht : t < r.t.size) (hl : l < r.l.size) (he : e < r.e.size) :
    ∃ m, messages[slot r (r.t.start + t) (r.l.start + l) (r.e.start + e)]? = some m ∧ Selected messages r m := by
  have h1 : r.t.start + r.t.size ≤ r.t.len := hr.t
  have h2 : r.l.start + r.l.size ≤ r.l.len := hr.l
  have h3 : r.e.start + r.e.size ≤ r.e.len := hr.e
  have : slot r (r.t.start + t) (r.l.start + l) (r.e.start + e) < messages.length := by
    rw [hlen]
    have := idx_lt (T := r.t.len) (L := r.l.len) (E := r.e.len) (it := r.t.start + t) (il := r.l.start + l) (e := r.e.start + e)
      (by omega) (by omega) (by omega)
    unfold slot
    calc _ < _ := this
      _ = _ := by ring
  exact ⟨_, List.getElem?_eq_getElem this, t, l, e, ht, hl, he, List.getElem?_eq_getElem this⟩

theorem block_length (decode : Chunk → Res (List V)) (miss : V) (messages : List Chunk) (r : Req) (t l e : Nat) :
    (block decode miss messages r t l e).length = r.x.size * r.y.size := grid_length _

theorem flat_length {α : Type} {n w : Nat} (f : Nat → List α) (h : ∀ i, (f i).length = w) : ((List.range n).flatMap f).length = n * w := by
  rw [List.length_flatMap]
  simp [h]

/-! ## C75 -/

/-- C75: a slice has at each place the value of the message for this place, or missing. This needs the slice to
be one of those for which the places are computed correctly, see `C75_gap_is_undefined`. -/
theorem C75_slice_values_partial (decode : Chunk → Res (List V)) (miss : V) (messages : List Chunk) (r : Req) (hr : r.In)
    (hg : Gapless r) (hlen : messages.length = r.t.len * r.l.len * r.e.len)
    (hread : ∀ m, Selected messages r m → Readable decode r m) :
    ∃ out, sliceValues decode miss messages r = .ok out ∧
      out.length = r.x.size * r.y.size * r.e.size * r.l.size * r.t.size ∧
      ∀ x y e l t, x < r.x.size → y < r.y.size → e < r.e.size → l < r.l.size → t < r.t.size →
        out[pos [r.x.size, r.y.size, r.e.size, r.l.size, r.t.size] [x, y, e, l, t]]? =
          some (fieldAt decode miss messages r (r.x.start + x) (r.y.start + y) (r.e.start + e) (r.l.start + l) (r.t.start + t)) := by
  have main : sliceValues decode miss messages r = .ok ((List.range r.t.size).flatMap fun t => (List.range r.l.size).flatMap fun l =>
      (List.range r.e.size).flatMap fun e =>
        block decode miss messages r (r.t.start + t) (r.l.start + l) (r.e.start + e)) := by
    unfold sliceValues
    dsimp only
    have hE : ∀ t l, (((List.range r.e.size).flatMap fun e =>
        block decode miss messages r (r.t.start + t) (r.l.start + l) (r.e.start + e))).length = r.e.size * (r.x.size * r.y.size) :=
      fun t l => flat_length _ fun i => block_length ..
    have hL : ∀ t, ((List.range r.l.size).flatMap fun l => (List.range r.e.size).flatMap fun e =>
        block decode miss messages r (r.t.start + t) (r.l.start + l) (r.e.start + e)).length =
          r.l.size * (r.e.size * (r.x.size * r.y.size)) := fun t => flat_length _ fun i => hE t i
    have := forN_blocks miss (fun t a => forN (fun l a => forN (fun e a => sliceMessage decode miss messages r t l e a)
        r.e.start r.e.size a) r.l.start r.l.size a)
      (fun t => (List.range r.l.size).flatMap fun l => (List.range r.e.size).flatMap fun e =>
        block decode miss messages r (r.t.start + t) (r.l.start + l) (r.e.start + e))
      (r.l.size * (r.e.size * (r.x.size * r.y.size))) 0 r.t.start r.t.size
      (fun t ht A m hA hm => ?_) (fun t _ => hL t) [] (r.x.size * r.y.size * r.t.size * r.l.size * r.e.size) rfl
      (le_of_eq (by ring))
    · simp only [List.nil_append] at this
      rw [this]
      rw [show r.x.size * r.y.size * r.t.size * r.l.size * r.e.size - r.t.size * (r.l.size * (r.e.size * (r.x.size * r.y.size))) = 0 by
        apply Nat.sub_eq_zero_of_le; apply le_of_eq; ring]
      rw [List.replicate_zero, List.append_nil]
    · refine forN_blocks miss (fun l a => forN (fun e a => sliceMessage decode miss messages r (r.t.start + t) l e a)
          r.e.start r.e.size a)
        (fun l => (List.range r.e.size).flatMap fun e =>
          block decode miss messages r (r.t.start + t) (r.l.start + l) (r.e.start + e))
        (r.e.size * (r.x.size * r.y.size)) A.length r.l.start r.l.size (fun l hl B k hB hk => ?_) (fun l _ => hE t l) A m rfl hm
      refine forN_blocks miss (fun e a => sliceMessage decode miss messages r (r.t.start + t) (r.l.start + l) e a)
        (fun e => block decode miss messages r (r.t.start + t) (r.l.start + l) (r.e.start + e))
        (r.x.size * r.y.size) B.length r.e.start r.e.size (fun e he C n hC hn => ?_) (fun e _ => block_length ..) B k rfl hk
      obtain ⟨msg, hmsg, hsel⟩ := selected_at hr hlen ht hl he
      refine message_spec decode miss messages r hr _ _ _ msg hmsg (hread msg hsel) C n ?_ hn
      rw [Nat.add_sub_cancel_left, Nat.add_sub_cancel_left, Nat.add_sub_cancel_left, gapless_idx hg e ht hl, hC, hB, hA]
      ring
  have hmap : ((List.range r.t.size).flatMap fun t => (List.range r.l.size).flatMap fun l =>
      (List.range r.e.size).flatMap fun e =>
        block decode miss messages r (r.t.start + t) (r.l.start + l) (r.e.start + e)) =
      (cells [r.x.size, r.y.size, r.e.size, r.l.size, r.t.size]).map fun j =>
        fieldAt decode miss messages r (r.x.start + j.getD 0 0) (r.y.start + j.getD 1 0) (r.e.start + j.getD 2 0)
          (r.l.start + j.getD 3 0) (r.t.start + j.getD 4 0) := by
    simp only [cells, block, List.flatMap_cons, List.flatMap_nil, List.append_nil, List.map_flatMap, List.map_map,
      List.flatMap_map, List.flatMap_assoc]
    rfl
  rw [main, hmap]
  refine ⟨_, rfl, ?_, ?_⟩
  · rw [List.length_map, cells_length]
    simp only [List.prod_cons, List.prod_nil]; ring
  · intro x y e l t hx hy he hl ht
    have hin : InShape [r.x.size, r.y.size, r.e.size, r.l.size, r.t.size] [x, y, e, l, t] := ⟨hx, hy, he, hl, ht, trivial⟩
    rw [List.getElem?_map, cells_getElem? hin]
    rfl

theorem size_eq (r : Req) : r.x.size * r.y.size * r.t.size * r.l.size * r.e.size =
    r.t.size * r.l.size * r.e.size * (r.x.size * r.y.size) := by ring

/-- One step, on any array of the size of the slice. -/
theorem message_settled (decode : Chunk → Res (List V)) (miss : V) (messages : List Chunk) (r : Req) (hr : r.In) (hg : Gapless r)
    (hdec : ∀ m, decode m ≠ .ub) {t l e : Nat} (ht : t < r.t.size) (hl : l < r.l.size) (he : e < r.e.size) (a : List V)
    (ha : a.length = r.t.size * r.l.size * r.e.size * (r.x.size * r.y.size)) (m : Chunk)
    (hm : messages[slot r (r.t.start + t) (r.l.start + l) (r.e.start + e)]? = some m) :
    (¬ Readable decode r m → sliceMessage decode miss messages r (r.t.start + t) (r.l.start + l) (r.e.start + e) a = .throws) ∧
    (Readable decode r m → ∃ a', sliceMessage decode miss messages r (r.t.start + t) (r.l.start + l) (r.e.start + e) a = .ok a' ∧
      a'.length = r.t.size * r.l.size * r.e.size * (r.x.size * r.y.size)) := by
  have hidx : ((t * r.l.size + l) * r.e.size + e) * (r.x.size * r.y.size) + r.x.size * r.y.size ≤
      r.t.size * r.l.size * r.e.size * (r.x.size * r.y.size) := by
    have := idx_lt ht hl he
    calc _ = ((t * r.l.size + l) * r.e.size + e + 1) * (r.x.size * r.y.size) := by ring
      _ ≤ r.e.size * r.l.size * r.t.size * (r.x.size * r.y.size) := Nat.mul_le_mul_right _ this
      _ = _ := by ring
  have hwrite : ∀ (a : List V), a.length = r.t.size * r.l.size * r.e.size * (r.x.size * r.y.size) → ∀ b : List V,
      b.length ≤ r.x.size * r.y.size → ∃ a', writeBlock a (((t * r.l.size + l) * r.e.size + e) * (r.x.size * r.y.size)) b = .ok a' ∧
        a'.length = r.t.size * r.l.size * r.e.size * (r.x.size * r.y.size) := by
    intro a ha b hb
    rcases writeBlock_cases a b (((t * r.l.size + l) * r.e.size + e) * (r.x.size * r.y.size)) with h | ⟨a', h⟩
    · unfold writeBlock at h
      split_ifs at h with h1 h2
      omega
    · exact ⟨a', h, (writeBlock_length h).trans ha⟩
  unfold sliceMessage
  rw [slot_eq, hm]
  dsimp only
  rw [Nat.add_sub_cancel_left, Nat.add_sub_cancel_left, Nat.add_sub_cancel_left, gapless_idx hg e ht hl]
  constructor
  · intro hn
    unfold Readable at hn
    push Not at hn
    rw [if_neg hn.1]
    cases hd : decode m with
    | ub => exact absurd hd (hdec m)
    | throws => rw [Res.throws_bind]
    | ok v => rw [Res.ok_bind, if_pos (hn.2 v hd)]
  · intro hread
    by_cases hf : m.file = 0
    · rw [if_pos hf]; exact ⟨a, rfl, ha⟩
    · rw [if_neg hf]
      obtain ⟨v, hv, hlen⟩ := hread.resolve_left hf
      rw [hv, Res.ok_bind, if_neg (by omega)]
      by_cases hs : r.x.len * r.y.len ≠ r.x.size * r.y.size
      · rw [if_pos hs]
        by_cases hfull : v.length = r.x.len * r.y.len
        · obtain ⟨p, hp⟩ := copy_field r hr v hfull miss
          rw [if_neg (by simpa using hfull), hp, Res.ok_bind]
          exact hwrite a ha _ (le_of_eq (grid_length _))
        · rw [if_pos hfull]
          exact hwrite a ha _ (by simp)
      · rw [if_neg hs]
        push Not at hs
        obtain ⟨a1, h1, h2⟩ := hwrite a ha v (by omega)
        rw [h1, Res.ok_bind]
        split_ifs
        · exact hwrite a1 h2 _ (by simp)
        · exact ⟨a1, rfl, h2⟩

/-- C75: if a selected message cannot be read, or has more values than the grid, reading throws. -/
theorem C75_unreadable_message (decode : Chunk → Res (List V)) (miss : V) (messages : List Chunk) (r : Req) (hr : r.In)
    (hg : Gapless r) (hlen : messages.length = r.t.len * r.l.len * r.e.len) (hdec : ∀ m, decode m ≠ .ub)
    (hbad : ∃ m, Selected messages r m ∧ ¬ Readable decode r m) : sliceValues decode miss messages r = .throws := by
  obtain ⟨m0, ⟨t0, l0, e0, ht0, hl0, he0, hm0⟩, hn0⟩ := hbad
  have step : ∀ {t l e : Nat} (_ : t < r.t.size) (_ : l < r.l.size) (_ : e < r.e.size) (a : List V)
      (_ : a.length = r.t.size * r.l.size * r.e.size * (r.x.size * r.y.size)),
      (sliceMessage decode miss messages r (r.t.start + t) (r.l.start + l) (r.e.start + e) a = .throws ∨
        ∃ a', sliceMessage decode miss messages r (r.t.start + t) (r.l.start + l) (r.e.start + e) a = .ok a' ∧
          a'.length = r.t.size * r.l.size * r.e.size * (r.x.size * r.y.size)) := by
    intro t l e ht hl he a ha
    obtain ⟨m, hm, _⟩ := selected_at hr hlen ht hl he
    obtain ⟨h1, h2⟩ := message_settled decode miss messages r hr hg hdec ht hl he a ha m hm
    by_cases hR : Readable decode r m
    · exact .inr (h2 hR)
    · exact .inl (h1 hR)
  have sub : ∀ {i lo n : Nat}, lo ≤ i → i < lo + n → ∃ k, i = lo + k ∧ k < n := fun {i lo n} h1 h2 => ⟨i - lo, by omega, by omega⟩
  unfold sliceValues
  dsimp only
  refine forN_throws (fun a : List V => a.length = r.t.size * r.l.size * r.e.size * (r.x.size * r.y.size)) (fun t => t = r.t.start + t0) _ _ _
    (by rw [List.length_replicate, size_eq]) (fun t a h1 h2 ha => ?_) ⟨r.t.start + t0, by omega, by omega, rfl⟩
  obtain ⟨t, rfl, ht⟩ := sub h1 h2
  constructor
  · intro et
    have : t = t0 := by omega
    subst this
    refine forN_throws (fun a : List V => a.length = r.t.size * r.l.size * r.e.size * (r.x.size * r.y.size)) (fun l => l = r.l.start + l0) _ _ _
      ha (fun l a h1 h2 ha => ?_) ⟨r.l.start + l0, by omega, by omega, rfl⟩
    obtain ⟨l, rfl, hl⟩ := sub h1 h2
    constructor
    · intro el
      have : l = l0 := by omega
      subst this
      refine forN_throws (fun a : List V => a.length = r.t.size * r.l.size * r.e.size * (r.x.size * r.y.size)) (fun e => e = r.e.start + e0) _ _ _
        ha (fun e a h1 h2 ha => ?_) ⟨r.e.start + e0, by omega, by omega, rfl⟩
      obtain ⟨e, rfl, he⟩ := sub h1 h2
      refine ⟨fun ee => ?_, step ht hl he a ha⟩
      have : e = e0 := by omega
      subst this
      exact (message_settled decode miss messages r hr hg hdec ht hl he a ha m0 hm0).1 hn0
    · refine forN_settled (fun a : List V => a.length = r.t.size * r.l.size * r.e.size * (r.x.size * r.y.size)) _ _ _ ha fun e a h1 h2 ha => ?_
      obtain ⟨e, rfl, he⟩ := sub h1 h2
      exact step ht hl he a ha
  · refine forN_settled (fun a : List V => a.length = r.t.size * r.l.size * r.e.size * (r.x.size * r.y.size)) _ _ _ ha fun l a h1 h2 ha => ?_
    obtain ⟨l, rfl, hl⟩ := sub h1 h2
    refine forN_settled (fun a : List V => a.length = r.t.size * r.l.size * r.e.size * (r.x.size * r.y.size)) _ _ _ ha fun e a h1 h2 ha => ?_
    obtain ⟨e, rfl, he⟩ := sub h1 h2
    exact step ht hl he a ha

theorem message_full (decode : Chunk → Res (List V)) (miss : V) (messages : List Chunk) (r : Req) (hr : r.In) (t l e : Nat) (a : List V)
    (m : Chunk) (hm : messages[slot r t l e]? = some m) (hf : m.file ≠ 0) (v : List V) (hv : decode m = .ok v)
    (hfull : v.length = r.x.len * r.y.len) :
    ∃ b : List V, b.length = r.x.size * r.y.size ∧ sliceMessage decode miss messages r t l e a =
      writeBlock a (((t - r.t.start) * r.l.len * r.e.len + (l - r.l.start) * r.e.len + (e - r.e.start)) * (r.x.size * r.y.size)) b := by
  unfold sliceMessage
  rw [slot_eq, hm]
  dsimp only
  rw [if_neg hf, hv, Res.ok_bind, if_neg (by omega)]
  by_cases hs : r.x.len * r.y.len ≠ r.x.size * r.y.size
  · obtain ⟨p, hp⟩ := copy_field r hr v hfull miss
    rw [if_pos hs, if_neg (by simpa using hfull), hp, Res.ok_bind]
    exact ⟨_, grid_length _, rfl⟩
  · rw [if_neg hs]
    push Not at hs
    refine ⟨v, by omega, ?_⟩
    rcases writeBlock_cases a v (((t - r.t.start) * r.l.len * r.e.len + (l - r.l.start) * r.e.len + (e - r.e.start)) * (r.x.size * r.y.size))
      with h | ⟨c, h⟩
    · rw [h, Res.ub_bind]
    · rw [h, Res.ok_bind, if_neg (by simpa using hfull)]

theorem gap_idx {L E zl ze zt : Nat} (hl : zl ≤ L) (he : ze ≤ E) (p1 : 0 < zl) (p2 : 0 < ze) (p3 : 0 < zt)
    (h : ¬ ((zl ≤ 1 ∨ ze = E) ∧ (zt ≤ 1 ∨ zl * ze = L * E))) : zt * zl * ze ≤ (zt - 1) * L * E + (zl - 1) * E + (ze - 1) := by
  obtain ⟨a, rfl⟩ : ∃ a, zl = a + 1 := ⟨zl - 1, by omega⟩
  obtain ⟨b, rfl⟩ : ∃ b, ze = b + 1 := ⟨ze - 1, by omega⟩
  obtain ⟨c, rfl⟩ : ∃ c, zt = c + 1 := ⟨zt - 1, by omega⟩
  simp only [Nat.add_sub_cancel]
  have hLE : (a + 1) * (b + 1) ≤ L * E := Nat.mul_le_mul hl he
  have h1 : a * (b + 1) ≤ a * E := Nat.mul_le_mul_left a he
  have h2 : c * ((a + 1) * (b + 1)) ≤ c * (L * E) := Nat.mul_le_mul_left c hLE
  have e1 : (c + 1) * (a + 1) * (b + 1) = c * ((a + 1) * (b + 1)) + a * (b + 1) + (b + 1) := by ring
  rw [e1, Nat.mul_assoc c L E]
  rcases not_and_or.1 h with h | h
  · push Not at h
    have h3 : a * (b + 2) ≤ a * E := Nat.mul_le_mul_left a (by omega)
    have e2 : a * (b + 2) = a * (b + 1) + a := by ring
    omega
  · push Not at h
    have h3 : c * ((a + 1) * (b + 1) + 1) ≤ c * (L * E) := Nat.mul_le_mul_left c (by omega)
    have e2 : c * ((a + 1) * (b + 1) + 1) = c * ((a + 1) * (b + 1)) + c := by ring
    omega

/-- C75, against the code: for every other slice of an existing field, the values are written beyond the end of
the array. -/
theorem C75_gap_is_undefined (decode : Chunk → Res (List V)) (miss : V) (messages : List Chunk) (r : Req) (hr : r.In)
    (hg : ¬ Gapless r) (hlen : messages.length = r.t.len * r.l.len * r.e.len)
    (hsome : 0 < r.x.size ∧ 0 < r.y.size ∧ 0 < r.e.size ∧ 0 < r.l.size ∧ 0 < r.t.size)
    (hfull : ∀ m, Selected messages r m → m.file ≠ 0 ∧ ∃ v, decode m = .ok v ∧ v.length = r.x.len * r.y.len) :
    sliceValues decode miss messages r = .ub := by
  obtain ⟨px, py, pe, pl, pt⟩ := hsome
  have hl' : r.l.start + r.l.size ≤ r.l.len := hr.l
  have he' : r.e.start + r.e.size ≤ r.e.len := hr.e
  have pxy : 0 < r.x.size * r.y.size := Nat.mul_pos px py
  have step : ∀ {t l e : Nat} (_ : t < r.t.size) (_ : l < r.l.size) (_ : e < r.e.size) (a : List V)
      (_ : a.length = r.t.size * r.l.size * r.e.size * (r.x.size * r.y.size)),
      (sliceMessage decode miss messages r (r.t.start + t) (r.l.start + l) (r.e.start + e) a = .ub ∨
        ∃ a', sliceMessage decode miss messages r (r.t.start + t) (r.l.start + l) (r.e.start + e) a = .ok a' ∧
          a'.length = r.t.size * r.l.size * r.e.size * (r.x.size * r.y.size)) := by
    intro t l e ht hl he a ha
    obtain ⟨m, hm, hsel⟩ := selected_at hr hlen ht hl he
    obtain ⟨hf, v, hv, hvl⟩ := hfull m hsel
    obtain ⟨b, hb, h⟩ := message_full decode miss messages r hr _ _ _ a m hm hf v hv hvl
    rw [h]
    rcases writeBlock_cases a b _ with h | ⟨c, h⟩
    · exact .inl h
    · exact .inr ⟨c, h, (writeBlock_length h).trans ha⟩
  have last : ∀ (a : List V) (_ : a.length = r.t.size * r.l.size * r.e.size * (r.x.size * r.y.size)),
      sliceMessage decode miss messages r (r.t.start + (r.t.size - 1)) (r.l.start + (r.l.size - 1)) (r.e.start + (r.e.size - 1)) a = .ub := by
    intro a ha
    obtain ⟨m, hm, hsel⟩ := selected_at hr hlen (t := r.t.size - 1) (l := r.l.size - 1) (e := r.e.size - 1) (by omega) (by omega) (by omega)
    obtain ⟨hf, v, hv, hvl⟩ := hfull m hsel
    obtain ⟨b, hb, h⟩ := message_full decode miss messages r hr _ _ _ a m hm hf v hv hvl
    rw [h]
    refine writeBlock_ub ?_ (by omega)
    rw [Nat.add_sub_cancel_left, Nat.add_sub_cancel_left, Nat.add_sub_cancel_left, ha, hb]
    have := gap_idx (by omega : r.l.size ≤ r.l.len) (by omega : r.e.size ≤ r.e.len) pl pe pt hg
    have := Nat.mul_le_mul_right (r.x.size * r.y.size) this
    omega
  have sub : ∀ {i lo n : Nat}, lo ≤ i → i < lo + n → ∃ k, i = lo + k ∧ k < n := fun {i lo n} h1 h2 => ⟨i - lo, by omega, by omega⟩
  obtain ⟨zt, hzt⟩ : ∃ n, r.t.size = n + 1 := ⟨r.t.size - 1, by omega⟩
  obtain ⟨zl, hzl⟩ : ∃ n, r.l.size = n + 1 := ⟨r.l.size - 1, by omega⟩
  obtain ⟨ze, hze⟩ : ∃ n, r.e.size = n + 1 := ⟨r.e.size - 1, by omega⟩
  let P := fun a : List V => a.length = r.t.size * r.l.size * r.e.size * (r.x.size * r.y.size)
  have hE : ∀ {t l : Nat} (_ : t < r.t.size) (_ : l < r.l.size) (a : List V) (_ : P a), ∀ i s, r.e.start ≤ i → i < r.e.start + r.e.size → P s →
      sliceMessage decode miss messages r (r.t.start + t) (r.l.start + l) i s = .ub ∨
      ∃ s', sliceMessage decode miss messages r (r.t.start + t) (r.l.start + l) i s = .ok s' ∧ P s' := by
    intro t l ht hl a _ i s h1 h2 hs
    obtain ⟨e, rfl, he⟩ := sub h1 h2
    exact step ht hl he s hs
  have hL : ∀ {t : Nat} (_ : t < r.t.size) (a : List V) (_ : P a), ∀ i s, r.l.start ≤ i → i < r.l.start + r.l.size → P s →
      forN (fun e a => sliceMessage decode miss messages r (r.t.start + t) i e a) r.e.start r.e.size s = .ub ∨
      ∃ s', forN (fun e a => sliceMessage decode miss messages r (r.t.start + t) i e a) r.e.start r.e.size s = .ok s' ∧ P s' := by
    intro t ht a _ i s h1 h2 hs
    obtain ⟨l, rfl, hl⟩ := sub h1 h2
    exact forN_nothrow P _ _ _ hs (hE ht hl s hs)
  unfold sliceValues
  dsimp only
  have hP0 : P (List.replicate (r.x.size * r.y.size * r.t.size * r.l.size * r.e.size) miss) := by
    show _ = _
    rw [List.length_replicate, size_eq]
  generalize List.replicate (r.x.size * r.y.size * r.t.size * r.l.size * r.e.size) miss = a0 at hP0
  have et : forN (fun t a => forN (fun l a => forN (fun e a => sliceMessage decode miss messages r t l e a) r.e.start r.e.size a)
      r.l.start r.l.size a) r.t.start (zt + 1) a0 = .ub := by
    refine forN_ub P zt _ _ hP0 (fun i s h1 h2 hs => ?_) (fun s hs => ?_)
    · rw [← hzt] at h2
      obtain ⟨t, rfl, ht⟩ := sub h1 h2
      exact forN_nothrow P _ _ _ hs (hL ht s hs)
    · have ht : zt < r.t.size := by omega
      show forN (fun l a => forN (fun e a => sliceMessage decode miss messages r (r.t.start + zt) l e a) r.e.start r.e.size a)
        r.l.start r.l.size s = .ub
      have el : forN (fun l a => forN (fun e a => sliceMessage decode miss messages r (r.t.start + zt) l e a) r.e.start r.e.size a)
          r.l.start (zl + 1) s = .ub := by
        refine forN_ub P zl _ _ hs (fun i s' h1 h2 hs' => hL ht s hs i s' h1 (by omega) hs') (fun s' hs' => ?_)
        have hl : zl < r.l.size := by omega
        show forN (fun e a => sliceMessage decode miss messages r (r.t.start + zt) (r.l.start + zl) e a) r.e.start r.e.size s' = .ub
        have ee : forN (fun e a => sliceMessage decode miss messages r (r.t.start + zt) (r.l.start + zl) e a) r.e.start (ze + 1) s' = .ub := by
          refine forN_ub P ze _ _ hs' (fun i s'' h1 h2 h3 => hE ht hl s' hs' i s'' h1 (by omega) h3) (fun s'' hs'' => ?_)
          have := last s'' hs''
          rw [hzt, hzl, hze] at this
          exact this
        rw [← hze] at ee
        exact ee
      rw [← hzl] at el
      exact el
  rw [← hzt] at et
  exact et

/-- C75: the roles of the dimensions, for every number of dimensions: x, y, members, levels and times, where
members and times may be absent; too many are refused, too few are read outside the vectors. -/
theorem C75_dimension_roles (dims : List Ext) :
    (∀ x y e l t, dims = [x, y, e, l, t] → splitDims true dims = .ok ⟨x, y, e, l, t⟩) ∧
    (∀ x y l t, dims = [x, y, l, t] → splitDims true dims = .ok ⟨x, y, ⟨0, 1, 1⟩, l, t⟩) ∧
    (∀ x y e l, dims = [x, y, e, l] → splitDims false dims = .ok ⟨x, y, e, l, ⟨0, 1, 1⟩⟩) ∧
    (∀ x y l, dims = [x, y, l] → splitDims false dims = .ok ⟨x, y, ⟨0, 1, 1⟩, l, ⟨0, 1, 1⟩⟩) ∧
    (5 < dims.length → splitDims true dims = .throws) ∧ (4 < dims.length → splitDims false dims = .throws) ∧
    (dims.length < 4 → splitDims true dims = .ub) ∧ (dims.length < 3 → splitDims false dims = .ub) := by
  refine ⟨?_, ?_, ?_, ?_, ?_, ?_, ?_, ?_⟩
  · rintro x y e l t rfl; rfl
  · rintro x y l t rfl; rfl
  · rintro x y e l rfl; rfl
  · rintro x y l rfl; rfl
  · match dims with
    | [] => intro h; simp at h
    | [_] => intro h; simp at h
    | [_, _] => intro h; simp at h
    | [_, _, _] => intro h; simp at h
    | [_, _, _, _] => intro h; simp at h
    | [_, _, _, _, _] => intro h; simp at h
    | _ :: _ :: _ :: _ :: _ :: _ :: _ => intro _; simp [splitDims, readAt]
  · match dims with
    | [] => intro h; simp at h
    | [_] => intro h; simp at h
    | [_, _] => intro h; simp at h
    | [_, _, _] => intro h; simp at h
    | [_, _, _, _] => intro h; simp at h
    | _ :: _ :: _ :: _ :: _ :: _ => intro _; simp [splitDims, readAt]
  · match dims with
    | [] => intro _; rfl
    | [_] => intro _; rfl
    | [_, _] => intro _; rfl
    | [_, _, _] => intro _; rfl
    | _ :: _ :: _ :: _ :: _ => intro h; simp only [List.length_cons] at h; omega
  · match dims with
    | [] => intro _; rfl
    | [_] => intro _; rfl
    | [_, _] => intro _; rfl
    | _ :: _ :: _ :: _ => intro h; simp only [List.length_cons] at h; omega

/-- C75: the slice at one time is always correct; a time outside is refused. -/
theorem C75_time_slice (decode : Chunk → Res (List V)) (miss : V) (messages : List Chunk) (X Y E L T p : Nat)
    (hlen : messages.length = T * L * E) :
    (T ≤ p → getTimeSlice decode miss messages true [X, Y, E, L, T] p = .throws) ∧
    (p < T → (∀ l e m, l < L → e < E → messages[(p * L + l) * E + e]? = some m →
        m.file = 0 ∨ ∃ v, decode m = .ok v ∧ v.length ≤ X * Y) →
      ∃ out, getTimeSlice decode miss messages true [X, Y, E, L, T] p = .ok out ∧ out.length = X * Y * E * L ∧
        ∀ x y e l, x < X → y < Y → e < E → l < L → out[pos [X, Y, E, L] [x, y, e, l]]? =
          some (fieldAt decode miss messages ⟨⟨0, X, X⟩, ⟨0, Y, Y⟩, ⟨0, E, E⟩, ⟨0, L, L⟩, ⟨p, 1, T⟩⟩ x y e l p)) := by
  constructor
  · intro h
    simp only [getTimeSlice, if_true, List.getLast?_cons_cons, List.getLast?_singleton, if_pos h]
  · intro h hread
    have hnot : ¬ T ≤ p := by omega
    simp only [getTimeSlice, if_true, List.getLast?_cons_cons, List.getLast?_singleton, if_neg hnot]
    have hs : getDataSlice decode miss messages true
        (([X, Y, E, L, T].map fun n => (⟨0, n, n⟩ : Ext)).dropLast ++ [⟨p, 1, T⟩]) =
        sliceValues decode miss messages ⟨⟨0, X, X⟩, ⟨0, Y, Y⟩, ⟨0, E, E⟩, ⟨0, L, L⟩, ⟨p, 1, T⟩⟩ := rfl
    rw [hs]
    obtain ⟨out, h1, h2, h3⟩ := C75_slice_values_partial decode miss messages
      ⟨⟨0, X, X⟩, ⟨0, Y, Y⟩, ⟨0, E, E⟩, ⟨0, L, L⟩, ⟨p, 1, T⟩⟩
      ⟨by simp [Ext.In], by simp [Ext.In], by simp [Ext.In], by simp [Ext.In], h⟩ ⟨.inr rfl, .inl le_rfl⟩ hlen
      (by
        rintro m ⟨t, l, e, ht, hl, he, hm⟩
        have ht0 : t = 0 := by simpa using ht
        subst ht0
        simp only [slot, Nat.zero_add, Nat.add_zero] at hm
        exact hread l e m hl he hm)
    refine ⟨out, h1, by simpa using h2, fun x y e l hx hy he hl => ?_⟩
    have := h3 x y e l 0 hx hy he hl Nat.one_pos
    simp only [Nat.zero_add, Nat.add_zero, pos, Nat.mul_zero] at this ⊢
    exact this

section
variable {K : Type} [Field K] [LinearOrder K] [IsStrictOrderedRing K] [FloorRing K]

/-- C75: rounding to a precision gives the nearest multiple, as long as the multiple is an `int`; missing values
are replaced. -/
theorem C75_precision_partial (scale i f v : K) (hs : scale ≠ 0) :
    (v = i → roundValue scale i f v = .ok f) ∧
    (v ≠ i → |v| < |scale| * (2 ^ 31 - 1) → ∃ n : Int, roundValue scale i f v = .ok (scale * n) ∧ |scale * n - v| ≤ |scale| / 2) := by
  constructor
  · intro h; unfold roundValue; rw [if_pos h]
  · intro hne hv
    unfold roundValue
    rw [if_neg hne]
    dsimp only
    have habs := Scale.abs_sub_lround (1 / scale * v)
    have hpos : 0 < |scale| := abs_pos.2 hs
    have hq : |1 / scale * v| < 2 ^ 31 - 1 := by
      rw [abs_mul, abs_div, abs_one, one_div, inv_mul_lt_iff₀ hpos]; exact hv
    generalize Scale.lround (1 / scale * v) = n at habs
    have hb : |(n : K)| < 2 ^ 31 := by
      have := abs_sub_abs_le_abs_sub (n : K) (1 / scale * v)
      rw [abs_sub_comm] at this
      linarith
    have hn : |n| < 2 ^ 31 := by
      have h1 : ((|n| : Int) : K) < ((2 ^ 31 : Int) : K) := by rw [Int.cast_abs]; exact lt_of_lt_of_eq hb (by norm_num)
      exact_mod_cast h1
    rw [abs_lt] at hn
    have hw : Scale.wrap 32 true n = n := Scale.wrap_eq (by omega) (by simp only [Scale.lo, if_true]; norm_num; omega)
      (by simp only [Scale.hi, if_true]; norm_num; omega)
    rw [if_pos (by simp only [Scale.lo, Scale.hi, if_true]; norm_num; constructor <;> omega), hw]
    refine ⟨n, rfl, ?_⟩
    have e : scale * n - v = scale * (n - 1 / scale * v) := by field_simp
    rw [e, abs_mul, abs_sub_comm]
    calc |scale| * |1 / scale * v - n| ≤ |scale| * (1 / 2) := mul_le_mul_of_nonneg_left habs hpos.le
      _ = |scale| / 2 := by ring

end

/-- C75, against the code: with a precision of 1/1000, three million become a negative number. -/
theorem C75_precision_overflow : roundValue (1 / 1000 : ℚ) 9 9 3000000 = .ok (-1294967296 / 1000) := by
  decide +kernel

/-! ## Concrete cases -/

/-- Two times, two levels, two members of a field of three by two; one message is missing, one is too short. -/
def exTable : List Chunk := [⟨1, 0, 1⟩, ⟨1, 1, 1⟩, ⟨0, 0, 0⟩, ⟨1, 3, 1⟩, ⟨1, 4, 1⟩, ⟨1, 5, 1⟩, ⟨1, 6, 1⟩, ⟨1, 7, 1⟩]

def exDecode (m : Chunk) : Res (List Nat) :=
  .ok (if m.start = 6 then [5] else (List.range 6).map (· + 10 * m.start))

/-- One member at both levels of one time would be misplaced; both members at one level of one time are right. -/
example : ¬ Gapless ⟨⟨0, 3, 3⟩, ⟨0, 2, 2⟩, ⟨1, 1, 2⟩, ⟨0, 2, 2⟩, ⟨0, 1, 2⟩⟩ ∧
    Gapless ⟨⟨1, 2, 3⟩, ⟨1, 1, 2⟩, ⟨0, 2, 2⟩, ⟨1, 1, 2⟩, ⟨1, 1, 2⟩⟩ := by decide

example : getDataSlice exDecode 99 exTable true [⟨1, 2, 3⟩, ⟨1, 1, 2⟩, ⟨0, 2, 2⟩, ⟨1, 1, 2⟩, ⟨1, 1, 2⟩] = .ok [99, 99, 74, 75] := by
  decide +kernel

example : getDataSlice exDecode 99 exTable true [⟨1, 2, 3⟩, ⟨1, 1, 2⟩, ⟨1, 1, 2⟩, ⟨0, 2, 2⟩, ⟨0, 1, 2⟩] = .ub := by
  decide +kernel

example : getTimeSlice exDecode 99 exTable true [3, 2, 2, 2, 2] 0 =
    .ok [0, 1, 2, 3, 4, 5, 10, 11, 12, 13, 14, 15, 99, 99, 99, 99, 99, 99, 30, 31, 32, 33, 34, 35] := by decide +kernel

end Fimex.Grib
