import Verif.Vertical.Hypsometric
import Verif.Vertical.ConvertersProps

/-!
# Helper lemmas for altitudes by integration
-/

namespace Fimex.Hypsometric

open Fimex.SB Fimex.ArrayLoop Fimex.Shapes Fimex.Levels Fimex.Vertical Fimex.Converters

/-! ## One column -/

/-- The altitude after `n` layers, from below: `P i` and `T i` are pressure and temperature of the layer `i`. -/
noncomputable def climbed (a0 p0 : Option ℝ) (P T : ℕ → Option ℝ) : ℕ → Option ℝ
  | 0 => a0
  | n + 1 => plus (climbed a0 p0 P T n) (thickness (if n = 0 then p0 else P (n - 1)) (P n) (T n))

theorem climbed_congr {a0 p0 : Option ℝ} {P T P' T' : ℕ → Option ℝ} : ∀ {n : ℕ}, (∀ i, i < n → P i = P' i ∧ T i = T' i) →
    climbed a0 p0 P T n = climbed a0 p0 P' T' n
  | 0, _ => rfl
  | n + 1, h => by
    rw [climbed, climbed, climbed_congr fun i hi => h i (by omega), (h n (by omega)).1, (h n (by omega)).2]
    by_cases h0 : n = 0
    · rw [if_pos h0, if_pos h0]
    · rw [if_neg h0, if_neg h0, (h (n - 1) (by omega)).1]

theorem readInt_some {α : Type} {l : List α} {i : ℤ} {n : ℕ} {v : α} (hi : i = n) (h : l[n]? = some v) :
    readInt l i = .ok v := by
  subst hi
  unfold readInt
  rw [if_pos (by omega), Int.toNat_natCast]
  unfold readAt
  rw [h]

/-- All layers: every layer that is asked for is stored at its place `W`, nothing else is changed. -/
theorem climb_ok {pv tv : List (Option ℝ)} {qv : Option (List (Option ℝ))} {col : Column} {step : ℤ} {outSize : ℕ}
    {izP izIn izOut : ℤ} {a0 p0 : Option ℝ} {P T : ℕ → Option ℝ} {W : ℕ → ℕ} {N : ℕ} {len : ℕ}
    (hp : ∀ i, i < N → readInt pv (col.pAt + (izP + i * step) * col.dP) = .ok (P i))
    (ht : ∀ i, i < N → layerTemperature tv (col.tAt + (izIn + i * step) * col.dT)
      (qv.map fun l => (l, col.qAt + (izIn + i * step) * col.dQ)) = .ok (T i))
    (hw : ∀ i, i < N → 0 ≤ izOut + i * step → izOut + i * step < outSize →
      col.oAt + (izOut + i * step) * col.dO = (W i : ℤ) ∧ W i < len)
    (hinj : ∀ i j, i < N → j < N → 0 ≤ izOut + i * step → izOut + i * step < outSize → 0 ≤ izOut + j * step →
      izOut + j * step < outSize → W i = W j → i = j) :
    ∀ (m n : ℕ), n + m = N → ∀ out : List (Option ℝ), out.length = len →
      ∃ out', climbLoop pv tv qv col step outSize m (izP + n * step) (izIn + n * step) (izOut + n * step)
          (climbed a0 p0 P T n) (if n = 0 then p0 else P (n - 1)) out = .ok out' ∧ out'.length = len ∧
        (∀ i, n ≤ i → i < N → 0 ≤ izOut + i * step → izOut + i * step < outSize →
          out'[W i]? = some (climbed a0 p0 P T (i + 1))) ∧
        ∀ w, (∀ i, n ≤ i → i < N → 0 ≤ izOut + i * step → izOut + i * step < outSize → W i ≠ w) → out'[w]? = out[w]?
  | 0, n, hn, out, hl => ⟨out, rfl, hl, fun i h1 h2 => by omega, fun w _ => rfl⟩
  | m + 1, n, hn, out, hl => by
    have hnN : n < N := by omega
    have e : ∀ x : ℤ, x + n * step + step = x + ((n + 1 : ℕ) : ℤ) * step := fun x => by push_cast; ring
    have hc : plus (climbed a0 p0 P T n) (thickness (if n = 0 then p0 else P (n - 1)) (P n) (T n)) =
        climbed a0 p0 P T (n + 1) := rfl
    have hb : P n = if n + 1 = 0 then p0 else P (n + 1 - 1) := by simp
    rw [climbLoop, hp n hnN, Res.ok_bind, ht n hnN, Res.ok_bind]
    dsimp only
    rw [hc, e, e, e]
    by_cases hr : 0 ≤ izOut + n * step ∧ izOut + n * step < outSize
    · obtain ⟨hw1, hw2⟩ := hw n hnN hr.1 hr.2
      have hs : store outSize col.oAt col.dO (izOut + n * step) (climbed a0 p0 P T (n + 1)) out =
          .ok (out.set (W n) (climbed a0 p0 P T (n + 1))) := by
        unfold store writeInt
        rw [if_pos hr, hw1, if_pos ⟨by omega, by rw [Int.toNat_natCast, hl]; exact hw2⟩, Int.toNat_natCast]
      rw [hs, Res.ok_bind, hb]
      obtain ⟨out', e', h1, h2, h3⟩ := climb_ok hp ht hw hinj m (n + 1) (by omega)
        (out.set (W n) (climbed a0 p0 P T (n + 1))) (by simpa using hl)
      refine ⟨out', e', h1, fun i hi hiN hi0 hi1 => ?_, fun w hw' => ?_⟩
      · by_cases hin : i = n
        · subst hin
          rw [h3 (W i) fun j hj hjN hj0 hj1 hjw => ?_, List.getElem?_set_self (by rw [hl]; exact hw2)]
          have := hinj j i hjN hiN hj0 hj1 hi0 hi1 hjw
          omega
        · exact h2 i (by omega) hiN hi0 hi1
      · rw [h3 w fun i hi hiN hi0 hi1 => hw' i (by omega) hiN hi0 hi1,
          List.getElem?_set_ne (hw' n le_rfl hnN hr.1 hr.2)]
    · have hs : store outSize col.oAt col.dO (izOut + n * step) (climbed a0 p0 P T (n + 1)) out = .ok out := by
        unfold store
        rw [if_neg hr]
      rw [hs, Res.ok_bind, hb]
      obtain ⟨out', e', h1, h2, h3⟩ := climb_ok hp ht hw hinj m (n + 1) (by omega) out hl
      refine ⟨out', e', h1, fun i hi hiN hi0 hi1 => ?_, fun w hw' => ?_⟩
      · by_cases hin : i = n
        · subst hin; exact absurd ⟨hi0, hi1⟩ hr
        · exact h2 i (by omega) hiN hi0 hi1
      · exact h3 w fun i hi hiN hi0 hi1 => hw' i (by omega) hiN hi0 hi1

/-! ## The direction -/

/-- Looking for a pair of positive pressures at a fixed distance, from the place `i` on. -/
noncomputable def scan (l : List (Option ℝ)) (last : ℕ) : ℕ → ℕ → Res (Option Bool)
  | 0, _ => .ok none
  | m + 1, i => do
    let a ← readAt l i
    let b ← readAt l (i + last)
    match highStart a b with
    | some d => .ok (some d)
    | none => scan l last m (i + 1)

theorem readInt_nat' {α : Type} (l : List α) (n : ℕ) : readInt l (n : ℤ) = readAt l n := by
  unfold readInt
  rw [if_pos (by omega), Int.toNat_natCast]

theorem dirLoop_ok {g : Group} {N : ℕ} (hlast : ∀ n, n < N → ((next g (after g n)).2 = true ↔ n + 1 < N))
    (hidx : ∀ n, n < N → (after g n).idx = [(n : ℤ)]) (l : List (Option ℝ)) (last : ℕ) :
    ∀ m n, n + m = N → 0 < m → dirLoop g l last m (after g n) = scan l last m n
  | 0, n, _, h => by omega
  | m + 1, n, hn, _ => by
    have h0 : (after g n).idx.getD 0 0 = (n : ℤ) := by rw [hidx n (by omega)]; rfl
    have h1 : readInt l ((n : ℤ) + (last : ℤ)) = readAt l (n + last) := by
      rw [← readInt_nat']; push_cast; rfl
    rw [dirLoop, scan, h0, h1, readInt_nat']
    cases readAt l n with
    | throws => rfl
    | ub => rfl
    | ok a =>
      rw [Res.ok_bind, Res.ok_bind]
      cases readAt l (n + last) with
      | throws => rfl
      | ub => rfl
      | ok b =>
        rw [Res.ok_bind, Res.ok_bind]
        cases highStart a b with
        | some d => rfl
        | none =>
          dsimp only
          cases m with
          | zero =>
            rw [if_neg (fun h => by have := (hlast n (by omega)).1 h; omega)]
            rfl
          | succ m =>
            rw [if_pos ((hlast n (by omega)).2 (by omega))]
            exact dirLoop_ok hlast hidx l last (m + 1) (n + 1) (by omega) (by omega)

theorem direction_ok {len : String → ℕ} {names : List String} (hn : names.Nodup) (hpos : ∀ d ∈ names, 0 < len d)
    (l : List (Option ℝ)) (last : ℕ) :
    direction (full len names) l last = scan l last (names.map len).prod 0 := by
  obtain ⟨g, k, e, hg, hz, hm, hk, hb⟩ := group_ok (len := len) (shapes := [names]) (by simp) (by simpa using hn)
  obtain ⟨g', k', e', hg', d1, d2, d3, hk', k1, -⟩ := eachAlone_ok hg hk true
  have hz' : Sized len g' := ⟨by rw [d1, d2]; exact hz.lengths, by rw [d1, d3]; exact hz.dims⟩
  have hk0 : g'.sharedDims = some 0 := by rw [hk', k1 rfl]
  have hm' : g'.arrays.map Prod.fst = [full len names] := by rw [d3]; exact hm
  have hdims : g'.dims = names := by
    have hpre := hb.begins names (by simp)
    have hlen := hb.longest names (by simp)
    have htk : g.dims.take k = names := hpre.eq_of_length_le hlen
    rw [d1]
    have hsub : g.dims.drop k = [] := by
      rw [List.eq_nil_iff_forall_not_mem]
      intro d hd
      obtain ⟨am, ham, i, hi, -⟩ := hz.dims d (List.mem_of_mem_drop hd)
      have : am.1 = full len names := by
        have := List.mem_map_of_mem (f := Prod.fst) ham
        rw [hm] at this
        simpa using this
      rw [this] at hi
      have hdn : d ∈ names := List.mem_of_getElem? hi
      rw [← htk] at hdn
      have hnd := hg.nodup
      rw [← List.take_append_drop k g.dims] at hnd
      exact (List.disjoint_of_nodup_append hnd) hdn hd
    rw [← List.take_append_drop k g.dims, htk, hsub, List.append_nil]
  have hv := visited hg' hz' hk0 hm' (by
    intro a ha
    rw [List.mem_singleton] at ha
    subst ha
    exact full_contiguous len names) (fun d hd => hpos d (by rw [← hdims]; exact hd))
  unfold direction
  have e1 : groupOf [full len names] = .ok g := e
  have e2 : g.minimizeShared 0 = .ok g' := e'
  rw [e1, Res.ok_bind, e2, Res.ok_bind]
  have hll : (loopLengths g').prod = (names.map len).prod := by
    unfold loopLengths
    rw [hk0, Option.getD_some, List.drop_zero, hz'.lengths, hdims]
  rw [hll]
  have hvp := hv.positive
  have hvl := hv.last
  have hvv := hv.visit
  rw [hdims] at hvp hvl hvv
  refine dirLoop_ok hvl (fun n hn' => ?_) l last _ 0 (by omega) hvp
  obtain ⟨σ, hσ, hp, hi⟩ := hvv n hn'
  rw [hi, List.map_singleton, full_pos]
  unfold place
  rw [hp]

/-! ## The group -/

theorem keepZ_full (len : String → ℕ) {names : List String} (hn : names.Nodup) (z : String) :
    keepZ z (full len names) = arr len z names := setNotShared_ok len hn z _

theorem full_stepOf (len : String → ℕ) (names : List String) (z : String) : stepOf (full len names) z = stride len z names := by
  rw [← findIdx_stride]
  unfold stepOf Dims.dimIndex Dims.deltaAt
  have : (full len names).name = names := rfl
  rw [this]
  cases h : names.findIdx? (· == z) with
  | none => rfl
  | some i =>
    have hi := (List.getElem?_eq_some_iff.1 (findIdx?_get h)).1
    dsimp only
    rw [full_rank, if_pos hi]
    simp [full, List.getD_eq_getElem?_getD, hi]

/-- An array with lengths of its own along `z`. -/
structure Shape where
  len : String → ℕ
  names : List String

theorem group_arr {glen : String → ℕ} {z : String} (hpos : ∀ d, 0 < glen d) (first later : List Shape)
    (h : ∀ a ∈ first ++ later, a.names.Nodup ∧ ∀ d ∈ a.names, d ≠ z → a.len d = glen d) :
    ∃ g0 g1 g, groupOf (first.map fun a => arr a.len z a.names) = .ok g0 ∧
      (later.map fun a => arr a.len z a.names).foldlM Group.add g0 = .ok g1 ∧ g1.minimizeShared 0 = .ok g ∧
      g.dims.Nodup ∧ loopLengths g = g.dims.map glen ∧
      (∀ d, d ∈ g.dims ↔ ∃ a ∈ first ++ later, d ∈ a.names ∧ d ≠ z) ∧
      Visited glen g ((first ++ later).map fun a => arr a.len z a.names) := by
  have hall : ∀ a ∈ first ++ later, WF (arr a.len z a.names) ∧ LenOK glen (arr a.len z a.names) := fun a ha =>
    ⟨arr_wf _ _ (h a ha).1, arr_lenOK (h a ha).2⟩
  obtain ⟨g0, e0, ok0, sz0, m0, z0, n0, -⟩ := foldlM_add_sized (len := glen) (first.map fun a => arr a.len z a.names)
    emptyGroup emptyGroup_ok (emptyGroup_sized _) (fun _ => rfl) (fun _ => rfl) (fun a ha => by
      obtain ⟨b, hb, rfl⟩ := List.mem_map.1 ha
      exact hall b (List.mem_append_left _ hb))
  obtain ⟨g1, e1, ok1, sz1, m1, z1, n1, -⟩ := foldlM_add_sized (len := glen) (later.map fun a => arr a.len z a.names)
    g0 ok0 sz0 z0 n0 (fun a ha => by
      obtain ⟨b, hb, rfl⟩ := List.mem_map.1 ha
      exact hall b (List.mem_append_right _ hb))
  obtain ⟨g, e, d2, l2, a2, ⟨k, hk, hk0, hk1⟩, v2⟩ := minimize_ok ok1 (n := 0) (fun _ => by omega)
  have ok2 : GroupOK g := ok1.minimized d2 l2 a2 ⟨k, hk, hk0, hk1⟩ v2
  have hk00 : g.sharedDims = some 0 := by rw [hk]; congr 1; omega
  have sz2 : Sized glen g := ⟨by rw [l2, d2]; exact sz1.lengths, by rw [d2, a2]; exact sz1.dims⟩
  have hm : g.arrays.map Prod.fst = (first ++ later).map fun a => arr a.len z a.names := by
    rw [a2, m1, m0]; simp [emptyGroup]
  have hdims : ∀ d, d ∈ g.dims ↔ ∃ a ∈ first ++ later, d ∈ a.names ∧ d ≠ z := by
    intro d
    constructor
    · intro hd
      obtain ⟨am, ham, i, hi, hs⟩ := sz2.dims d hd
      have h1 : am.1 ∈ (first ++ later).map fun a => arr a.len z a.names := by rw [← hm]; exact List.mem_map_of_mem ham
      obtain ⟨a, ha, e1⟩ := List.mem_map.1 h1
      rw [← e1] at hi hs
      have hi : a.names[i]? = some d := hi
      rw [arr_shared hi] at hs
      exact ⟨a, ha, List.mem_of_getElem? hi, by simpa using hs⟩
    · rintro ⟨a, ha, h1, h2⟩
      have hin : arr a.len z a.names ∈ g.arrays.map Prod.fst := by
        rw [hm]; exact List.mem_map_of_mem (f := fun a : Shape => arr a.len z a.names) ha
      obtain ⟨am, ham, he⟩ := List.mem_map.1 hin
      obtain ⟨i, hi⟩ := List.mem_iff_getElem?.1 h1
      refine shared_in_dims ok2 ham (i := i) (by rw [he]; exact hi) ?_
      rw [he, arr_shared hi]
      simpa using h2
  refine ⟨g0, g1, g, e0, e1, e, ok2.nodup, by simp [loopLengths, hk00, sz2.lengths], hdims, visited ok2 sz2 hk00 hm ?_
    fun d _ => hpos d⟩
  intro a ha
  obtain ⟨a, -, rfl⟩ := List.mem_map.1 ha
  exact arr_contiguous _ _ _

/-! ## The levels -/

/-- The level `i` from the ground. -/
def level (high : Bool) (nz i : ℕ) : ℕ := if high then i else nz - 1 - i

/-- The number of layers up to the level `k`. -/
def layers (high : Bool) (nz k : ℕ) : ℕ := if high then k + 1 else nz - k

/-- The levels of a plan. -/
structure PlanOK (high : Bool) (nz st sz : ℕ) (pl : Plan) : Prop where
  fits : pl.start + pl.size ≤ nz ∧ 0 < pl.size
  low : ∀ i, i < pl.size → pl.start ≤ level high nz i ∧ level high nz i < pl.start + pl.size
  p : ∀ i, i < pl.size → pl.izP + i * pl.step = (level high nz i : ℤ)
  input : ∀ i, i < pl.size → pl.izIn + i * pl.step = ((level high nz i - pl.start : ℕ) : ℤ)
  out : ∀ i, i < pl.size → pl.izOut + i * pl.step = (level high nz i : ℤ) - st
  inj : ∀ i j, i < pl.size → j < pl.size → level high nz i = level high nz j → i = j
  covers : ∀ k, st ≤ k → k < st + sz → ∃ i, i < pl.size ∧ level high nz i = k ∧ i + 1 = layers high nz k

theorem planOf_ok (high : Bool) {nz st sz : ℕ} (h : st + sz ≤ nz) (hs : 0 < sz) (hz : nz < two64) :
    PlanOK high nz st sz (planOf high nz st sz) := by
  have h1 : wadd st sz = st + sz := wadd_eq (by omega)
  have h2 : wsub nz st = nz - st := wsub_eq (by omega) hz
  cases high with
  | true =>
    have e : planOf true nz st sz = ⟨0, st + sz, 1, 0, 0, -(st : ℤ)⟩ := by simp [planOf, h1]
    rw [e]
    refine ⟨⟨by simpa using h, by simp; omega⟩, fun i hi => ?_, fun i hi => ?_, fun i hi => ?_, fun i hi => ?_,
      fun i j hi hj he => by simpa [level] using he, fun k hk hk' => ⟨k, by simpa using hk', by simp [level], by simp [layers]⟩⟩
    · simp only [level, if_true] at hi ⊢; omega
    · simp [level]
    · simp [level]
    · simp only [level, if_true]; omega
  | false =>
    have e : planOf false nz st sz = ⟨st, nz - st, -1, (nz : ℤ) - 1, ((nz - st : ℕ) : ℤ) - 1, ((nz - st : ℕ) : ℤ) - 1⟩ := by
      simp [planOf, h2]
    rw [e]
    refine ⟨⟨by dsimp only; omega, by dsimp only; omega⟩, fun i hi => ?_, fun i hi => ?_, fun i hi => ?_, fun i hi => ?_,
      fun i j hi hj he => ?_, fun k hk hk' => ⟨nz - 1 - k, ?_, ?_, ?_⟩⟩ <;>
      simp only [level, layers, Bool.false_eq_true, if_false] at * <;> omega

/-! ## All columns -/

/-- An array that was read: its values by the names of the indices. -/
structure Arr where
  shape : Shape
  data : List (Option ℝ)
  val : (String → ℕ) → Option ℝ

/-- An array for the loop: along other dimensions than `z` it has the lengths `glen`. -/
structure ArrOK (glen : String → ℕ) (z : String) (org : List String) (a : Arr) : Prop where
  nodup : a.shape.names.Nodup
  lens : ∀ d ∈ a.shape.names, d ≠ z → a.shape.len d = glen d
  one : ∀ d ∈ a.shape.names, d ∉ org → glen d = 1
  values : Values a.shape.len a.shape.names a.val a.data

/-- The temperature used for a layer. -/
noncomputable def tempAt (t : Arr) (q : Option Arr) (σ : String → ℕ) : Option ℝ :=
  match q with
  | none => t.val σ
  | some q => virtual (q.val σ) (t.val σ)

theorem Arr.read {glen : String → ℕ} {z : String} {org : List String} {a : Arr} (h : ArrOK glen z org a) {σ : String → ℕ}
    (hσ : ∀ d ∈ a.shape.names, d ≠ z → σ d < glen d) {k : ℕ} (hk : z ∈ a.shape.names → k < a.shape.len z) :
    a.data[place a.shape.len a.shape.names (Function.update σ z 0) + k * stride a.shape.len z a.shape.names]? =
      some (a.val (Function.update σ z k)) := by
  rw [← place_update _ _ _ _ h.nodup]
  refine h.values.get _ fun d hd => ?_
  by_cases hz : d = z
  · subst hz; rw [Function.update_self]; exact hk hd
  · rw [Function.update_of_ne hz, h.lens d hd hz]; exact hσ d hd hz

theorem columns_ok {glen : String → ℕ} (hpos : ∀ d, 0 < glen d) {z : String} {org : List String} (ho : org.Nodup)
    (hzo : z ∈ org) {olen : String → ℕ} (holen : ∀ d ∈ org, d ≠ z → olen d = glen d) {high : Bool} {nz st : ℕ} {pl : Plan}
    (hpl : PlanOK high nz st (olen z) pl) {sap sgp t p : Arr} {q : Option Arr}
    (hok : ∀ a ∈ [sap, sgp, t, p] ++ q.toList, ArrOK glen z org a) (hsap : z ∉ sap.shape.names)
    (hsgp : z ∉ sgp.shape.names) (hp : p.shape.len z = nz) (ht : t.shape.len z = pl.size)
    (hq : ∀ a ∈ q, a.shape.len z = pl.size) (junk : ℕ → Option ℝ) :
    ∃ g0 g1 g L, groupOf [arr sap.shape.len z sap.shape.names, arr sgp.shape.len z sgp.shape.names,
        arr t.shape.len z t.shape.names, arr p.shape.len z p.shape.names, arr olen z org] = .ok g0 ∧
      (q.toList.map fun a => arr a.shape.len z a.shape.names).foldlM Group.add g0 = .ok g1 ∧ g1.minimizeShared 0 = .ok g ∧
      doLoop g (columnStep pl (olen z) sap.data sgp.data t.data p.data (q.map Arr.data) (stride p.shape.len z p.shape.names)
        (stride t.shape.len z t.shape.names) (q.elim 0 fun a => stride a.shape.len z a.shape.names) (stride olen z org))
        (loopLengths g).prod (start g) ((List.range (org.map olen).prod).map junk) = .ok L ∧
      Values olen org (fun τ => climbed ((sgp.val (within org τ)).map fun x => x / 9.80665) (sap.val (within org τ))
        (fun i => p.val (Function.update (within org τ) z (level high nz i)))
        (fun i => tempAt t q (Function.update (within org τ) z (level high nz i - pl.start)))
        (layers high nz (st + τ z))) L := by
  have osap := hok sap (by simp)
  have osgp := hok sgp (by simp)
  have ot := hok t (by simp)
  have op := hok p (by simp)
  have oq : ∀ a ∈ q, ArrOK glen z org a := fun a ha => hok a (by simp at ha ⊢; simp [ha])
  obtain ⟨g0, g1, g, e0, e1, e2, hn, hll, hd, hv⟩ := group_arr hpos (z := z)
    [sap.shape, sgp.shape, t.shape, p.shape, ⟨olen, org⟩] (q.toList.map Arr.shape) (by
      intro a ha
      simp only [List.cons_append, List.nil_append, List.mem_cons, List.mem_map, Option.mem_toList] at ha
      rcases ha with rfl | rfl | rfl | rfl | rfl | ⟨a, ha, rfl⟩
      · exact ⟨osap.nodup, osap.lens⟩
      · exact ⟨osgp.nodup, osgp.lens⟩
      · exact ⟨ot.nodup, ot.lens⟩
      · exact ⟨op.nodup, op.lens⟩
      · exact ⟨ho, holen⟩
      · exact ⟨(oq a ha).nodup, (oq a ha).lens⟩)
  have hdo : ∀ d ∈ org, d ≠ z → d ∈ g.dims := fun d h1 h2 => (hd d).2 ⟨⟨olen, org⟩, by simp, h1, h2⟩
  have hda : ∀ a ∈ [sap, sgp, t, p] ++ q.toList, ∀ d ∈ a.shape.names, d ≠ z → d ∈ g.dims := by
    intro a ha d h1 h2
    refine (hd d).2 ⟨a.shape, ?_, h1, h2⟩
    simp only [List.cons_append, List.nil_append, List.mem_cons, List.mem_map,
      Option.mem_toList] at ha ⊢
    rcases ha with rfl | rfl | rfl | rfl | ha
    · simp
    · simp
    · simp
    · simp
    · right; right; right; right; right; exact ⟨a, ha, rfl⟩
  have hone : ∀ d ∈ g.dims, d ∉ org → glen d = 1 := by
    intro d h1 h2
    obtain ⟨a, ha, h3, h4⟩ := (hd d).1 h1
    simp only [List.cons_append, List.nil_append, List.mem_cons, List.mem_map, Option.mem_toList] at ha
    rcases ha with rfl | rfl | rfl | rfl | rfl | ⟨a, ha, rfl⟩
    · exact osap.one d h3 h2
    · exact osgp.one d h3 h2
    · exact ot.one d h3 h2
    · exact op.one d h3 h2
    · exact absurd h3 h2
    · exact (oq a ha).one d h3 h2
  set F : (String → ℕ) → Option ℝ := fun τ => climbed ((sgp.val (within org τ)).map fun x => x / 9.80665)
    (sap.val (within org τ)) (fun i => p.val (Function.update (within org τ) z (level high nz i)))
    (fun i => tempAt t q (Function.update (within org τ) z (level high nz i - pl.start))) (layers high nz (st + τ z)) with hF
  set Inv : ℕ → List (Option ℝ) → Prop := fun n L => L.length = (org.map olen).prod ∧ ∀ τ : String → ℕ,
    (∀ d ∈ org, τ d < olen d) → pos (g.dims.map glen) (g.dims.map (within org τ)) < n → L[place olen org τ]? = some (F τ)
    with hInv
  have hwz : ∀ d ∈ g.dims, d ≠ z := fun d h => ((hd d).1 h).choose_spec.2.2
  have hw : ∀ τ : String → ℕ, (∀ d ∈ org, τ d < olen d) → ∀ d ∈ g.dims, within org τ d < glen d := by
    intro τ hτ d h
    unfold within
    split_ifs with h'
    · rw [← holen d h' (hwz d h)]; exact hτ d h'
    · exact hpos d
  have hstep : ∀ n, n < (g.dims.map glen).prod → ∀ L, Inv n L →
      ∃ L', columnStep pl (olen z) sap.data sgp.data t.data p.data (q.map Arr.data) (stride p.shape.len z p.shape.names)
        (stride t.shape.len z t.shape.names) (q.elim 0 fun a => stride a.shape.len z a.shape.names) (stride olen z org)
        (after g n).idx L = .ok L' ∧ Inv (n + 1) L' := by
    intro n hn' L hL
    obtain ⟨σ, hσ, hσn, hidx⟩ := hv.visit n hn'
    have hi0 : (after g n).idx.getD 0 0 = (place sap.shape.len sap.shape.names (Function.update σ z 0) : ℤ) := by
      rw [hidx]; simp [arr_pos]
    have hi1 : (after g n).idx.getD 1 0 = (place sgp.shape.len sgp.shape.names (Function.update σ z 0) : ℤ) := by
      rw [hidx]; simp [arr_pos]
    have hi2 : (after g n).idx.getD 2 0 = (place t.shape.len t.shape.names (Function.update σ z 0) : ℤ) := by
      rw [hidx]; simp [arr_pos]
    have hi3 : (after g n).idx.getD 3 0 = (place p.shape.len p.shape.names (Function.update σ z 0) : ℤ) := by
      rw [hidx]; simp [arr_pos]
    have hi4 : (after g n).idx.getD 4 0 = (place olen org (Function.update σ z 0) : ℤ) := by
      rw [hidx]; simp [arr_pos]
    have hi5 : ∀ a ∈ q, (after g n).idx.getD 5 0 = (place a.shape.len a.shape.names (Function.update σ z 0) : ℤ) := by
      intro a ha
      rw [Option.mem_def] at ha
      rw [hidx, ha]; simp [arr_pos]
    have hσa : ∀ a ∈ [sap, sgp, t, p] ++ q.toList, ∀ d ∈ a.shape.names, d ≠ z → σ d < glen d := fun a ha d h1 h2 =>
      hσ d (hda a ha d h1 h2)
    have rsap := Arr.read osap (hσa sap (by simp)) (k := 0) (fun h => absurd h hsap)
    have rsgp := Arr.read osgp (hσa sgp (by simp)) (k := 0) (fun h => absurd h hsgp)
    rw [Nat.zero_mul, Nat.add_zero] at rsap rsgp
    have hW : ∀ k, k < olen z → place olen org (Function.update σ z k) < (org.map olen).prod := fun k hk =>
      place_lt fun d hd' => by
        by_cases hz : d = z
        · subst hz; rw [Function.update_self]; exact hk
        · rw [Function.update_of_ne hz, holen d hd' hz]; exact hσ d (hdo d hd' hz)
    have hWl : ∀ k, k < olen z → ∀ d ∈ org, Function.update σ z k d < olen d := fun k hk d hd' => by
        by_cases hz : d = z
        · subst hz; rw [Function.update_self]; exact hk
        · rw [Function.update_of_ne hz, holen d hd' hz]; exact hσ d (hdo d hd' hz)
    have hc := climb_ok (pv := p.data) (tv := t.data) (qv := q.map Arr.data)
      (col := ⟨(after g n).idx.getD 3 0, (after g n).idx.getD 2 0, (after g n).idx.getD 5 0, (after g n).idx.getD 4 0,
        stride p.shape.len z p.shape.names, stride t.shape.len z t.shape.names,
        q.elim 0 fun a => stride a.shape.len z a.shape.names, stride olen z org⟩) (step := pl.step) (outSize := olen z)
      (izP := pl.izP) (izIn := pl.izIn) (izOut := pl.izOut) (a0 := (sgp.val (Function.update σ z 0)).map fun x => x / 9.80665)
      (p0 := sap.val (Function.update σ z 0)) (P := fun i => p.val (Function.update σ z (level high nz i)))
      (T := fun i => tempAt t q (Function.update σ z (level high nz i - pl.start)))
      (W := fun i => place olen org (Function.update σ z (level high nz i - st))) (N := pl.size)
      (len := (org.map olen).prod) (fun i hi => by
        dsimp only
        rw [hi3, hpl.p i hi]
        refine readInt_some (n := place p.shape.len p.shape.names (Function.update σ z 0) +
          level high nz i * stride p.shape.len z p.shape.names) (by push_cast; rfl) ?_
        refine Arr.read op (hσa p (by simp)) fun _ => ?_
        have := hpl.low i hi
        have := hpl.fits
        omega) (fun i hi => by
        dsimp only
        have hlt : level high nz i - pl.start < pl.size := by have := hpl.low i hi; omega
        have rt := Arr.read ot (hσa t (by simp)) (k := level high nz i - pl.start) (fun _ => by omega)
        rw [hi2, hpl.input i hi]
        unfold layerTemperature tempAt
        rw [readInt_some (by push_cast; rfl) rt, Res.ok_bind]
        cases hqe : q with
        | none => rfl
        | some a =>
          have rq := Arr.read (oq a hqe) (hσa a (by simp [hqe])) (k := level high nz i - pl.start)
            (fun _ => by rw [hq a hqe]; exact hlt)
          simp only [Option.map_some, Option.elim_some]
          rw [hi5 a hqe, readInt_some (by push_cast; rfl) rq, Res.ok_bind]) (fun i hi h0 h1 => by
        dsimp only
        rw [hpl.out i hi] at h0 h1 ⊢
        have hk : level high nz i - st < olen z := by omega
        refine ⟨?_, hW _ hk⟩
        rw [place_update _ _ _ _ ho, hi4]
        push_cast
        rw [Nat.cast_sub (by omega)]) (fun i j hi hj h0 h1 h2 h3 he => by
        rw [hpl.out i hi] at h0 h1
        rw [hpl.out j hj] at h2 h3
        have := place_inj (hWl _ (by omega)) (hWl _ (by omega)) he z hzo
        rw [Function.update_self, Function.update_self] at this
        exact hpl.inj i j hi hj (by omega)) pl.size 0 (by omega) L hL.1
    obtain ⟨L', eL, hl, hnew, hold⟩ := hc
    refine ⟨L', ?_, hl, fun τ hτ hlt => ?_⟩
    · unfold columnStep
      rw [readInt_some hi1 rsgp, Res.ok_bind, readInt_some hi0 rsap, Res.ok_bind]
      simpa [climbed] using eL
    by_cases hsame : pos (g.dims.map glen) (g.dims.map (within org τ)) = n
    · have heq : ∀ d ∈ g.dims, within org τ d = σ d := by
        have := pos_inj (inShape_map (hw τ hτ)) (inShape_map hσ) (hsame.trans hσn.symm)
        intro d hd'
        exact List.map_inj_left.1 this d hd'
      have hτz := hτ z hzo
      obtain ⟨i, hi, hlev, hlay⟩ := hpl.covers (st + τ z) (by omega) (by omega)
      have hn0 := hnew i (by omega) hi (by rw [hpl.out i hi]; omega) (by rw [hpl.out i hi]; omega)
      have hpl' : place olen org τ = place olen org (Function.update σ z (level high nz i - st)) := by
        refine place_congr fun d hd' => ?_
        by_cases hz : d = z
        · subst hz; rw [Function.update_self]; omega
        · rw [Function.update_of_ne hz, ← heq d (hdo d hd' hz)]; exact (if_pos hd').symm
      rw [hpl', hn0, hF, hlay]
      dsimp only
      have hval : ∀ a ∈ [sap, sgp, t, p] ++ q.toList, ∀ k, (z ∈ a.shape.names → k < a.shape.len z) →
          a.val (Function.update σ z k) = a.val (Function.update (within org τ) z k) := by
        intro a ha k hk
        have oa := hok a ha
        refine oa.values.congr (fun d hd' => ?_) fun d hd' => ?_
        · by_cases hz : d = z
          · subst hz; rw [Function.update_self]; exact hk hd'
          · rw [Function.update_of_ne hz, oa.lens d hd' hz]; exact hσa a ha d hd' hz
        · by_cases hz : d = z
          · subst hz; rw [Function.update_self, Function.update_self]
          · rw [Function.update_of_ne hz, Function.update_of_ne hz, heq d (hda a ha d hd' hz)]
      have hval0 : ∀ a ∈ [sap, sgp, t, p] ++ q.toList, z ∉ a.shape.names →
          a.val (Function.update σ z 0) = a.val (within org τ) := by
        intro a ha hz0
        have oa := hok a ha
        refine oa.values.congr (fun d hd' => ?_) fun d hd' => ?_
        · have hz : d ≠ z := fun h => hz0 (h ▸ hd')
          rw [Function.update_of_ne hz, oa.lens d hd' hz]; exact hσa a ha d hd' hz
        · have hz : d ≠ z := fun h => hz0 (h ▸ hd')
          rw [Function.update_of_ne hz, heq d (hda a ha d hd' hz)]
      rw [hval0 sgp (by simp) hsgp, hval0 sap (by simp) hsap]
      congr 1
      refine climbed_congr fun j hj => ?_
      have hj' : j < pl.size := by omega
      have hlow := hpl.low j hj'
      have hfit := hpl.fits
      refine ⟨hval p (by simp) _ fun _ => by omega, ?_⟩
      unfold tempAt
      cases hqe : q with
      | none => exact hval t (by simp) _ fun _ => by omega
      | some a =>
        dsimp only
        rw [hval t (by simp) _ fun _ => by omega, hval a (by simp [hqe]) _ fun _ => by rw [hq a hqe]; omega]
    · rw [hold _ fun i _ hi h0 h1 hW' => ?_]
      · exact hL.2 τ hτ (by omega)
      · rw [hpl.out i hi] at h0 h1
        have he := place_inj (hWl _ (by omega)) hτ hW'
        apply hsame
        rw [← hσn]
        congr 1
        refine List.map_congr_left fun d hd' => ?_
        unfold within
        split_ifs with h'
        · rw [← he d h', Function.update_of_ne (hwz d hd')]
        · have h1 := hσ d hd'
          rw [hone d hd' h'] at h1
          omega
  obtain ⟨L, eL, hL⟩ := doLoop_inv hv.positive hv.last _ Inv ((List.range (org.map olen).prod).map junk)
    ⟨by simp, fun τ _ h => absurd h (Nat.not_lt_zero _)⟩ hstep
  refine ⟨g0, g1, g, L, e0, ?_, e2, by rw [hll]; exact eL, hL.1, fun τ hτ => hL.2 τ hτ (pos_lt (inShape_map (hw τ hτ)))⟩
  rw [← e1, List.map_map]
  rfl

end Fimex.Hypsometric
