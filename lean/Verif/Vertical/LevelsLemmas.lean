import Verif.Vertical.Levels
import Mathlib.Logic.Function.Basic

/-!
# Helper lemmas for vertical interpolation: arrays, groups and loops
-/

namespace Fimex.Levels

open Fimex.ArrayLoop Fimex.Neighbours Fimex.Interp

/-! ## Places -/

/-- Place of an index assignment in an array with the given dimensions (first dimension fastest). -/
def place (len : String → ℕ) (names : List String) (σ : String → ℕ) : ℕ := pos (names.map len) (names.map σ)

theorem place_congr {len : String → ℕ} {names : List String} {σ τ : String → ℕ} (h : ∀ d ∈ names, σ d = τ d) :
    place len names σ = place len names τ := by
  unfold place
  rw [List.map_congr_left h]

theorem place_lt {len : String → ℕ} {names : List String} {σ : String → ℕ} (h : ∀ d ∈ names, σ d < len d) :
    place len names σ < (names.map len).prod := pos_lt (inShape_map h)

theorem place_inj {len : String → ℕ} {names : List String} {σ τ : String → ℕ} (h1 : ∀ d ∈ names, σ d < len d)
    (h2 : ∀ d ∈ names, τ d < len d) (h : place len names σ = place len names τ) : ∀ d ∈ names, σ d = τ d := by
  have := pos_inj (inShape_map h1) (inShape_map h2) h
  intro d hd
  exact List.map_inj_left.1 this d hd

/-- The length of the last dimension does not matter for places. -/
theorem place_last {f g : String → ℕ} : ∀ {names : List String} (_ : ∀ d ∈ names.dropLast, f d = g d)
    (σ : String → ℕ), place f names σ = place g names σ
  | [], _, _ => rfl
  | [n], _, σ => by simp [place, pos]
  | n :: m :: ns, h, σ => by
    have ih := place_last (names := m :: ns) (f := f) (g := g) (fun d hd => h d (by
      rw [List.dropLast_cons_of_ne_nil (by simp)]; exact List.mem_cons_of_mem _ hd)) σ
    have hn : f n = g n := h n (by rw [List.dropLast_cons_of_ne_nil (by simp)]; simp)
    have e : ∀ f : String → ℕ, place f (n :: m :: ns) σ = σ n + f n * place f (m :: ns) σ := fun f => rfl
    rw [e, e, ih, hn]

/-- Distance between neighbours along the dimension `z`, 0 if the array does not have it. -/
def stride (len : String → ℕ) (z : String) : List String → ℕ
  | [] => 0
  | n :: ns => if n = z then 1 else len n * stride len z ns

theorem place_update (len : String → ℕ) (z : String) (k : ℕ) (σ : String → ℕ) : ∀ {names : List String}, names.Nodup →
    place len names (Function.update σ z k) = place len names (Function.update σ z 0) + k * stride len z names
  | [], _ => by simp [place, pos, stride]
  | n :: ns, h => by
    have hn := List.nodup_cons.1 h
    have e : ∀ τ : String → ℕ, place len (n :: ns) τ = τ n + len n * place len ns τ := fun τ => rfl
    rw [e, e, stride]
    by_cases hz : n = z
    · subst hz
      have hc : place len ns (Function.update σ n k) = place len ns (Function.update σ n 0) :=
        place_congr fun d hd => by
          have hd' : d ≠ n := fun h => hn.1 (h ▸ hd)
          rw [Function.update_of_ne hd', Function.update_of_ne hd']
      rw [hc]
      simp
      omega
    · rw [if_neg hz, place_update len z k σ hn.2, Function.update_of_ne hz, Function.update_of_ne hz]
      ring

/-! ## Arrays -/

/-- The array with the given dimensions that keeps the dimension `z` for itself. -/
def arr (len : String → ℕ) (z : String) (names : List String) : Dims :=
  ⟨names, names.map len, (List.range names.length).map fun i => ((names.map len).take i).prod,
    names.map fun n => decide (n ≠ z)⟩

theorem arr_rank (len : String → ℕ) (z : String) (names : List String) : (arr len z names).rank = names.length := by
  simp [arr, Dims.rank]

theorem arr_wf (len : String → ℕ) (z : String) {names : List String} (h : names.Nodup) : WF (arr len z names) :=
  ⟨by simp [arr, Dims.rank], by simp [arr, Dims.rank], by simp [arr, Dims.rank], h⟩

theorem arr_contiguous (len : String → ℕ) (z : String) (names : List String) : Contiguous (arr len z names) := by
  intro i hi
  rw [arr_rank] at hi
  simp [arr, hi]

theorem arr_named (len : String → ℕ) (z : String) (names : List String) (σ : String → ℕ) :
    named (arr len z names) σ = names.map (Function.update σ z 0) := by
  unfold named arr
  dsimp only
  rw [List.zipWith_map_right, List.zipWith_self]
  refine List.map_congr_left fun n _ => ?_
  by_cases h : n = z
  · subst h; simp
  · rw [Function.update_of_ne h]; simp [h]

theorem arr_pos (len : String → ℕ) (z : String) (names : List String) (σ : String → ℕ) :
    pos (arr len z names).length (named (arr len z names) σ) = place len names (Function.update σ z 0) := by
  rw [arr_named]; rfl

theorem arr_shared {len : String → ℕ} {z : String} {names : List String} {i : ℕ} {n : String}
    (h : names[i]? = some n) : (arr len z names).shared.getD i false = decide (n ≠ z) := by
  simp [arr, List.getD_eq_getElem?_getD, h]

theorem findIdx_stride (len : String → ℕ) (z : String) : ∀ names : List String,
    (match names.findIdx? (· == z) with
      | some i => ((names.map len).take i).prod
      | none => 0) = stride len z names
  | [] => rfl
  | n :: ns => by
    rw [List.findIdx?_cons, stride]
    by_cases h : n = z
    · subst h; simp
    · have ih := findIdx_stride len z ns
      rw [if_neg h, ← ih]
      have hb : (n == z) = false := by simpa using h
      rw [hb]
      cases ns.findIdx? (· == z) with
      | none => simp
      | some i => simp

theorem arr_stepOf (len : String → ℕ) (z : String) (names : List String) (n : String) :
    stepOf (arr len z names) n = stride len n names := by
  rw [← findIdx_stride]
  unfold stepOf Dims.dimIndex Dims.deltaAt
  have : (arr len z names).name = names := rfl
  rw [this]
  cases h : names.findIdx? (· == n) with
  | none => rfl
  | some i =>
    have hi := (List.getElem?_eq_some_iff.1 (findIdx?_get h)).1
    dsimp only
    rw [arr_rank, if_pos hi]
    simp [arr, List.getD_eq_getElem?_getD, hi]

theorem arr_lengthOf (len : String → ℕ) (z : String) {names : List String} {n : String} (h : n ∈ names) :
    lengthOf (arr len z names) n = len n := by
  unfold lengthOf Dims.dimIndex
  have : (arr len z names).name = names := rfl
  rw [this]
  cases hf : names.findIdx? (· == n) with
  | none => exact absurd h (findIdx?_none hf)
  | some i =>
    have hg := findIdx?_get hf
    have hi := (List.getElem?_eq_some_iff.1 hg).1
    dsimp only
    rw [arr_rank, if_pos hi]
    simp [arr, List.getD_eq_getElem?_getD, hg]

theorem arr_lengthOf_not (len : String → ℕ) (z : String) {names : List String} {n : String} (h : n ∉ names) :
    lengthOf (arr len z names) n = 1 := by
  unfold lengthOf Dims.dimIndex
  have : (arr len z names).name = names := rfl
  rw [this]
  cases hf : names.findIdx? (· == n) with
  | none => rfl
  | some i => exact absurd (List.mem_of_getElem? (findIdx?_get hf)) h

theorem stride_ne_zero {len : String → ℕ} {z : String} : ∀ {names : List String}, (∀ d ∈ names, 0 < len d) → z ∈ names →
    stride len z names ≠ 0
  | n :: ns, h, hz => by
    rw [stride]
    by_cases hn : n = z
    · rw [if_pos hn]; simp
    · rw [if_neg hn]
      have hz' : z ∈ ns := by
        rcases List.mem_cons.1 hz with h' | h'
        · exact absurd h'.symm hn
        · exact h'
      exact Nat.mul_ne_zero (by have := h n (by simp); omega) (stride_ne_zero (fun d hd => h d (by simp [hd])) hz')

theorem stride_not_mem {len : String → ℕ} {z : String} : ∀ {names : List String}, z ∉ names → stride len z names = 0
  | [], _ => rfl
  | n :: ns, h => by
    rw [List.mem_cons, not_or] at h
    rw [stride, if_neg (fun e => h.1 e.symm), stride_not_mem h.2, Nat.mul_zero]

/-- Lengths with the unlimited dimension counted as 1. -/
def lenOf (u : Option String) (size : String → ℕ) (d : String) : ℕ := if u = some d then 1 else size d

theorem makeDims_ok {size : String → ℕ} {names : List String} (h : ∀ d ∈ names, 0 < size d) :
    makeDims size names = .ok ⟨names, names.map size,
      (List.range names.length).map fun i => ((names.map size).take i).prod, names.map fun _ => true⟩ := by
  have hz : 0 ∉ names.map size := by
    intro h0
    obtain ⟨d, hd, e⟩ := List.mem_map.1 h0
    have := h d hd; omega
  have := (C10_constructed_dims names (names.map size)).1 ⟨by simp, ?_, fun h0 => hz (List.dropLast_subset _ h0)⟩
  · obtain ⟨a, e, h1, h2, h3, h4, -, -⟩ := this
    rw [makeDims, e]
    rcases a with ⟨an, al, ad, as⟩
    dsimp only at h1 h2 h3 h4
    subst h1 h2 h3 h4
    simp
  · intro h0
    exact hz (List.mem_of_head? h0)

theorem setNotShared_ok (size : String → ℕ) {names : List String} (hn : names.Nodup) (z : String) (ds : List ℕ) :
    (⟨names, names.map size, ds, names.map fun _ => true⟩ : Dims).setNotShared
      ((⟨names, names.map size, ds, names.map fun _ => true⟩ : Dims).dimIndex z) =
    ⟨names, names.map size, ds, names.map fun n => decide (n ≠ z)⟩ := by
  unfold Dims.setNotShared Dims.dimIndex
  dsimp only
  cases hf : names.findIdx? (· == z) with
  | none =>
    have hz := findIdx?_none hf
    dsimp only
    congr 1
    refine List.map_congr_left fun n hn => ?_
    have : n ≠ z := fun e => hz (e ▸ hn)
    simp [this]
  | some i =>
    have hg := findIdx?_get hf
    have hi := (List.getElem?_eq_some_iff.1 hg).1
    dsimp only
    rw [if_pos (by simpa [Dims.rank] using hi)]
    congr 1
    apply List.ext_getElem
    · simp
    · intro j h1 h2
      simp only [List.length_set, List.length_map] at h1
      rw [List.getElem_set, List.getElem_map]
      by_cases hij : i = j
      · subst hij
        rw [if_pos rfl]
        have : names[i] = z := by
          rw [List.getElem?_eq_getElem h1] at hg; exact Option.some.inj hg
        simp [this]
      · rw [if_neg hij, List.getElem_map]
        have : names[j] ≠ z := by
          intro e
          exact hij (nodup_get_inj hn hg (by rw [List.getElem?_eq_getElem h1, e]))
        simp [this]

theorem forceLength1_ok (u : Option String) (size : String → ℕ) {names : List String} (hn : names.Nodup) (z : String)
    (hlast : ∀ d ∈ names.dropLast, u ≠ some d) :
    forceLength1 u ⟨names, names.map size, (List.range names.length).map fun i => ((names.map size).take i).prod,
      names.map fun n => decide (n ≠ z)⟩ = .ok (arr (lenOf u size) z names) := by
  have hdelta : ((List.range names.length).map fun i => ((names.map size).take i).prod) =
      (List.range names.length).map fun i => ((names.map (lenOf u size)).take i).prod := by
    refine List.map_congr_left fun i hi => ?_
    rw [List.mem_range] at hi
    rw [← List.map_take, ← List.map_take]
    congr 1
    refine List.map_congr_left fun d hd => ?_
    unfold lenOf
    rw [if_neg]
    refine hlast d ?_
    rw [List.dropLast_eq_take]
    exact List.take_subset_take_left names (by omega) hd
  rw [hdelta]
  unfold forceLength1 arr
  cases u with
  | none => simp [lenOf]
  | some u =>
    dsimp only
    unfold Dims.setLength Dims.dimIndex
    dsimp only
    cases hf : names.findIdx? (· == u) with
    | none =>
      have hz := findIdx?_none hf
      dsimp only
      congr 2
      refine List.map_congr_left fun n hn => ?_
      have : u ≠ n := fun e => hz (e ▸ hn)
      simp [lenOf, this]
    | some i =>
      have hg := findIdx?_get hf
      have hi := (List.getElem?_eq_some_iff.1 hg).1
      dsimp only
      rw [if_pos (by simpa [Dims.rank] using hi), if_neg (by simp)]
      congr 2
      apply List.ext_getElem
      · simp
      · intro j h1 h2
        simp only [List.length_set, List.length_map] at h1
        rw [List.getElem_set, List.getElem_map]
        by_cases hij : i = j
        · subst hij
          rw [if_pos rfl]
          have : names[i] = u := by
            rw [List.getElem?_eq_getElem h1] at hg; exact Option.some.inj hg
          simp [lenOf, this]
        · rw [if_neg hij, List.getElem_map]
          have : u ≠ names[j] := by
            intro e
            exact hij (nodup_get_inj hn hg (by rw [List.getElem?_eq_getElem h1, ← e]))
          simp [lenOf, this]

theorem arr_volume (len : String → ℕ) (z : String) (names : List String) :
    (arr len z names).volume = (names.map len).prod := by
  unfold Dims.volume
  cases hn : names with
  | nil => rfl
  | cons n ns =>
    rw [if_neg (by simp [arr])]
    have h1 : (arr len z (n :: ns)).length.length = ns.length + 1 := by simp [arr]
    simp only [List.getLastD_eq_getLast?, List.getLast?_eq_getElem?]
    rw [h1]
    have h2 : (arr len z (n :: ns)).delta.length = ns.length + 1 := by simp [arr]
    rw [h2]
    have : ((n :: ns).map len).prod = (((n :: ns).map len).take ns.length).prod * ((n :: ns).map len)[ns.length]'(by simp) := by
      conv_lhs => rw [← List.take_append_drop ns.length ((n :: ns).map len)]
      rw [List.prod_append, List.drop_eq_getElem_cons (by simp), List.prod_cons, List.drop_eq_nil_of_le (by simp)]
      simp
    rw [this]
    simp only [arr, Nat.add_sub_cancel]
    rw [List.getElem?_map, List.getElem?_range (by simp), List.getElem?_eq_getElem (by simp)]
    rfl

theorem arr_lenOK {glen len : String → ℕ} {z : String} {names : List String}
    (h : ∀ d ∈ names, d ≠ z → len d = glen d) : LenOK glen (arr len z names) := by
  intro i n hi hs
  have hi : names[i]? = some n := hi
  rw [arr_shared hi] at hs
  have hz : n ≠ z := by simpa using hs
  simp only [arr, List.getElem?_map, hi, Option.map_some]
  rw [h n (List.mem_of_getElem? hi) hz]

/-! ## Loops -/

theorem doLoop_inv {S : Type} {g : Group} {N : ℕ} (hN : 0 < N)
    (hlast : ∀ n, n < N → ((next g (after g n)).2 = true ↔ n + 1 < N)) (body : List ℤ → S → Res S)
    (Inv : ℕ → S → Prop) (x : S) (h0 : Inv 0 x)
    (hstep : ∀ n, n < N → ∀ x, Inv n x → ∃ x', body (after g n).idx x = .ok x' ∧ Inv (n + 1) x') :
    ∃ x', doLoop g body N (start g) x = .ok x' ∧ Inv N x' := by
  have key : ∀ m n, n + m = N → 0 < m → ∀ x, Inv n x → ∃ x', doLoop g body m (after g n) x = .ok x' ∧ Inv N x' := by
    intro m
    induction m with
    | zero => intro n _ h; omega
    | succ m ih =>
      intro n hnm _ x hx
      obtain ⟨x', e, hx'⟩ := hstep n (by omega) x hx
      rw [doLoop, e, Res.ok_bind]
      dsimp only
      by_cases hm : n + 1 < N
      · rw [if_pos ((hlast n (by omega)).2 hm)]
        exact ih (n + 1) (by omega) (by omega) x' hx'
      · rw [if_neg (fun h => hm ((hlast n (by omega)).1 h))]
        have : n + 1 = N := by omega
        exact ⟨x', rfl, this ▸ hx'⟩
  exact key N 0 (by omega) hN x h0

end Fimex.Levels
