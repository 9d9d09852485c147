import Verif.Fill.Model
import Mathlib.Algebra.Field.Rat
import Mathlib.Data.Rat.Floor
import Mathlib.Tactic.Ring
import Mathlib.Tactic.Linarith

/-!
# Filling undefined values: properties (C35)
-/

namespace Fimex.Fill

open Fimex.Interp (oadd omul osub)

variable {K : Type} [Field K] [LinearOrder K]

/-! ## Generic lemmas -/

theorem forN_inv {S : Type} {body : ℕ → S → Res S} (Inv : ℕ → S → Prop) (n : ℕ) :
    ∀ (lo : ℕ) (s : S), (∀ i s, lo ≤ i → i < lo + n → Inv i s → ∃ s', body i s = .ok s' ∧ Inv (i + 1) s') →
      Inv lo s → ∃ s', forN body lo n s = .ok s' ∧ Inv (lo + n) s' := by
  induction n with
  | zero => intro lo s _ h; exact ⟨s, rfl, h⟩
  | succ n ih =>
    intro lo s hb h
    obtain ⟨s1, h1, i1⟩ := hb lo s le_rfl (by omega) h
    obtain ⟨s2, h2, i2⟩ := ih (lo + 1) s1 (fun i s a b c => hb i s (by omega) (by omega) c) i1
    refine ⟨s2, by simp only [forN, h1, Res.ok_bind, h2], ?_⟩
    rwa [show lo + (n + 1) = lo + 1 + n by omega]

theorem readAt_of {α : Type} {a : List α} {i : ℕ} {v : α} (h : a[i]? = some v) : readAt a i = .ok v := by
  simp [readAt, h]

theorem writeAt_of {α : Type} {a : List α} {i : ℕ} (v : α) (h : i < a.length) : writeAt a i v = .ok (a.set i v) :=
  if_pos h

theorem exists_get {α : Type} {a : List α} {i : ℕ} (h : i < a.length) : ∃ v, a[i]? = some v :=
  ⟨a[i], List.getElem?_eq_getElem h⟩

/-- A value of a field that is defined everywhere. -/
def Full (f : List (Option K)) : Prop := ∀ i, i < f.length → ∃ v, f[i]? = some (some v)

omit [Field K] [LinearOrder K] in
theorem Full.set {f : List (Option K)} (h : Full f) (i : ℕ) (v : K) : Full (f.set i (some v)) := by
  intro j hj
  rw [List.length_set] at hj
  by_cases hij : i = j
  · subst hij; exact ⟨v, by rw [List.getElem?_set_self hj]⟩
  · obtain ⟨u, hu⟩ := h j hj
    exact ⟨u, by rw [List.getElem?_set_ne hij, hu]⟩

/-! ## The extrapolating fill -/

/-- Invariant of the extrapolating fill of `o`: everything is defined, values defined on input are unchanged
and have no weight. -/
structure FI (o : List (Option K)) (s : Work K) : Prop where
  fl : s.f.length = o.length
  wl : s.w.length = o.length
  el : s.e.length = o.length
  full : Full s.f
  keep : ∀ (i : ℕ) (v : K), o[i]? = some (some v) → s.f[i]? = some (some v) ∧ s.w[i]? = some 0

omit [LinearOrder K] in
theorem FI.move {o : List (Option K)} {s : Work K} (h : FI o s) (p : ℕ) : FI o { s with p := p } :=
  ⟨h.fl, h.wl, h.el, h.full, h.keep⟩

/-- Index of an inner cell. -/
def Inner (nx ny k : ℕ) : Prop := ∃ y x, 1 ≤ y ∧ y < ny - 1 ∧ 1 ≤ x ∧ x < nx - 1 ∧ k = y * nx + x

/-- All inner cells up to `p` have an error value. -/
def InitTo {α : Type} (nx ny p : ℕ) (e : List (Option α)) : Prop :=
  ∀ k, Inner nx ny k → k ≤ p → ∃ v, e[k]? = some (some v)

theorem row_lt {nx ny y x : ℕ} (hy : y < ny) (hx : x < nx) : y * nx + x < nx * ny := by
  have : (y + 1) * nx ≤ ny * nx := Nat.mul_le_mul_right nx hy
  rw [Nat.add_mul, Nat.one_mul, Nat.mul_comm ny] at this
  omega

omit [LinearOrder K] in
/-- An update of one cell by `weight * something`. -/
theorem FI.update {o : List (Option K)} {s : Work K} (h : FI o s) {i : ℕ} {c w d : K}
    (hc : s.f[i]? = some (some c)) (hw : s.w[i]? = some w) :
    FI o { s with f := s.f.set i (some (c + w * d)) } where
  fl := by simp [h.fl]
  wl := h.wl
  el := h.el
  full := h.full.set i _
  keep := by
    intro j v hj
    obtain ⟨h1, h2⟩ := h.keep j v hj
    refine ⟨?_, h2⟩
    by_cases hij : i = j
    · subst hij
      have hlt : i < s.f.length := (List.getElem?_eq_some_iff.1 h1).1
      rw [List.getElem?_set_self hlt]
      rw [h1] at hc
      rw [h2] at hw
      simp only [Option.some.injEq] at hc hw
      rw [← hw, ← hc, zero_mul, add_zero]
    · rw [List.getElem?_set_ne hij, h1]

omit [LinearOrder K] in
theorem relax_ok {o : List (Option K)} {nx : ℕ} {s : Work K} (h : FI o s) (hnx : 1 ≤ nx)
    (h1 : nx ≤ s.p + 1) (h2 : s.p + 1 + nx < o.length) (h64 : o.length < two64) :
    ∃ s', relax nx s = .ok s' ∧ FI o s' ∧ s'.p = s.p + 1 ∧ ∃ ev, s'.e = s.e.set (s.p + 1) (some ev) := by
  have hfl := h.fl
  obtain ⟨a, ha⟩ := h.full (s.p + 1 + 1) (by omega)
  obtain ⟨b, hb⟩ := h.full (s.p + 1 - 1) (by omega)
  obtain ⟨c, hc⟩ := h.full (s.p + 1 + nx) (by omega)
  obtain ⟨d, hd⟩ := h.full (s.p + 1 - nx) (by omega)
  obtain ⟨m, hm⟩ := h.full (s.p + 1) (by omega)
  obtain ⟨w, hw⟩ := exists_get (a := s.w) (i := s.p + 1) (by rw [h.wl]; omega)
  refine ⟨
    { s with
      f := s.f.set (s.p + 1) (some (m + w * (1 / 4 * (a + b + c + d) - m)))
      e := s.e.set (s.p + 1) (some (some (1 / 4 * (a + b + c + d) - m)))
      p := s.p + 1 }, ?_, ?_, rfl, _, rfl⟩
  · unfold relax
    dsimp only
    rw [readAt_of ha, readAt_of hb, readAt_of hc, wsub_eq h1 (by omega), readAt_of hd, readAt_of hm, readAt_of hw]
    simp only [Res.ok_bind]
    rw [writeAt_of _ (by rw [h.el]; omega), writeAt_of _ (by omega)]
    rfl
  · have := h.update (d := 1 / 4 * (a + b + c + d) - m) hm hw
    exact ⟨this.fl, this.wl, by simp [h.el], this.full, this.keep⟩

omit [LinearOrder K] in
theorem relaxPass_ok {o : List (Option K)} {nx ny : ℕ} {s : Work K} (h : FI o s) (hnx : 1 ≤ nx)
    (hlen : o.length = nx * ny) (h64 : o.length < two64) :
    ∃ s', relaxPass nx ny s = .ok s' ∧ FI o s' ∧ InitTo nx ny (nx * ny) s'.e := by
  have key := forN_inv (body := fun _ s => do
      let s ← forN (fun _ s => relax nx s) 1 (nx - 1 - 1) s
      .ok { s with p := s.p + 2 })
    (fun y s => FI o s ∧ (2 ≤ nx → s.p = y * nx) ∧ InitTo nx ny (y * nx) s.e) (ny - 1 - 1) 1 { s with p := nx } ?_ ?_
  · obtain ⟨s', hs', hi, -, hin⟩ := key
    refine ⟨s', hs', hi, ?_⟩
    intro k hk _
    refine hin k hk ?_
    obtain ⟨y, x, h1, h2, h3, h4, rfl⟩ := hk
    have : (y + 1) * nx ≤ (1 + (ny - 1 - 1)) * nx := Nat.mul_le_mul_right nx (by omega)
    rw [Nat.add_mul y] at this
    omega
  · intro y s hy1 hy2 ⟨hi, hp, hin⟩
    by_cases hnx2 : 2 ≤ nx
    · have hp := hp hnx2
      have inner := forN_inv (body := fun _ s => relax (K := K) nx s)
        (fun x s => FI o s ∧ s.p = y * nx + (x - 1) ∧ InitTo nx ny (y * nx + (x - 1)) s.e) (nx - 1 - 1) 1 s ?_ ?_
      · obtain ⟨s1, hs1, i1, p1, e1⟩ := inner
        refine ⟨{ s1 with p := s1.p + 2 }, by rw [hs1]; rfl, i1.move _, ?_, ?_⟩
        · intro _
          show s1.p + 2 = _
          rw [p1, Nat.add_mul]
          omega
        · intro k hk hkle
          refine e1 k hk ?_
          obtain ⟨y', x', h1, h2, h3, h4, rfl⟩ := hk
          by_cases hyy : y' ≤ y
          · have := Nat.mul_le_mul_right nx hyy
            omega
          · have := Nat.mul_le_mul_right nx (show y + 1 ≤ y' by omega)
            omega
      · intro x s hx1 hx2 ⟨i0, p0, e0⟩
        have hrow : y * nx + x + nx < nx * ny := by
          have := row_lt (nx := nx) (ny := ny) (y := y + 1) (x := x) (by omega) (by omega)
          rw [Nat.add_mul] at this
          omega
        have hyn : 1 * nx ≤ y * nx := Nat.mul_le_mul_right nx hy1
        obtain ⟨s', hs', i', p', ev, he'⟩ := relax_ok i0 hnx (by omega) (by omega) h64
        refine ⟨s', hs', i', by omega, ?_⟩
        intro k hk hkle
        rw [he']
        by_cases hkp : s.p + 1 = k
        · subst hkp
          exact ⟨ev, by rw [List.getElem?_set_self (by rw [i0.el]; omega)]⟩
        · rw [List.getElem?_set_ne hkp]
          exact e0 k hk (by omega)
      · refine ⟨hi, by omega, ?_⟩
        simpa using hin
    · have hnx1 : nx = 1 := by omega
      subst hnx1
      refine ⟨{ s with p := s.p + 2 }, rfl, hi.move _, by intro h; omega, ?_⟩
      intro k hk
      obtain ⟨y', x', h1, h2, h3, h4, rfl⟩ := hk
      omega
  · refine ⟨h.move _, by intro _; simp, ?_⟩
    intro k hk hkle
    obtain ⟨y', x', h1, h2, h3, h4, rfl⟩ := hk
    have := Nat.mul_le_mul_right nx h1
    omega

omit [Field K] in
theorem converged_ok [Field K] {o : List (Option K)} {nx ny maxLoop n : ℕ} {crtest : K} {s : Work K} (h : FI o s)
    (hnx : 1 ≤ nx) (hlen : o.length = nx * ny) (hin : InitTo nx ny (nx * ny) s.e) :
    ∃ b, converged nx ny maxLoop n crtest s = .ok b := by
  unfold converged
  split
  · have key := forN_inv (body := testRow nx crtest s) (fun y t => 2 ≤ nx → t.2 = false → t.1 = y * nx)
      (ny - 1 - 1) 1 (nx, false) ?_ (by intro _ _; simp)
    · obtain ⟨t, ht, -⟩ := key
      exact ⟨_, by rw [ht]; rfl⟩
    · intro y t hy1 hy2 hp
      by_cases ht : t.2 = true
      · exact ⟨t, by simp [testRow, ht], by intro _ h; rw [ht] at h; cases h⟩
      have htf : t.2 = false := by simpa using ht
      by_cases hnx2 : 2 ≤ nx
      · have hp := hp hnx2 htf
        have inner := forN_inv (body := testCell crtest s) (fun x t => t.1 = y * nx + (x - 1)) (nx - 1 - 1) 1 t ?_
          (by omega)
        · obtain ⟨t1, ht1, p1⟩ := inner
          refine ⟨(t1.1 + 2, t1.2), by unfold testRow; rw [if_neg ht, ht1]; rfl, ?_⟩
          intro _ _
          show t1.1 + 2 = _
          rw [p1, Nat.add_mul]
          omega
        · intro x t hx1 hx2 hp
          have hlt := row_lt (nx := nx) (ny := ny) (y := y) (x := x) (by omega) (by omega)
          have hidx : t.1 + 1 = y * nx + x := by omega
          obtain ⟨ev, hev⟩ := hin (t.1 + 1) ⟨y, x, hy1, by omega, hx1, by omega, hidx⟩ (by omega)
          obtain ⟨w, hw⟩ := exists_get (a := s.w) (i := t.1 + 1) (by rw [h.wl]; omega)
          refine ⟨(t.1 + 1, t.2 || isBad crtest w ev), ?_, ?_⟩
          · unfold testCell readInit
            dsimp only
            rw [readAt_of hev, readAt_of hw]
            rfl
          · show t.1 + 1 = _
            omega
      · have hnx1 : nx = 1 := by omega
        subst hnx1
        exact ⟨(t.1 + 2, t.2), by unfold testRow; rw [if_neg ht]; rfl, by intro h; omega⟩
  · exact ⟨_, rfl⟩

omit [LinearOrder K] in
theorem borderCell_ok {o : List (Option K)} {s : Work K} (h : FI o s) {i j : ℕ} (hi : i < o.length)
    (hj : j < o.length) : ∃ s', borderCell i j s = .ok s' ∧ FI o s' := by
  obtain ⟨a, ha⟩ := h.full j (by rw [h.fl]; omega)
  obtain ⟨b, hb⟩ := h.full i (by rw [h.fl]; omega)
  obtain ⟨w, hw⟩ := exists_get (a := s.w) (i := i) (by rw [h.wl]; omega)
  refine ⟨_, ?_, h.update (d := a - b) hb hw⟩
  unfold borderCell
  rw [readAt_of ha, readAt_of hb, readAt_of hw]
  simp only [Res.ok_bind]
  rw [writeAt_of _ (by rw [h.fl]; omega)]
  rfl

/-- The neighbour index of the last column, as computed with `size_t`. -/
theorem lastColumn_lt {nx ny y : ℕ} (hnx : 1 ≤ nx) (hy1 : 1 ≤ y) (hy : y < ny) (h64 : nx * ny < two64) :
    wadd (y * nx) (wsub nx 2) < nx * ny := by
  have hlt := row_lt (nx := nx) (ny := ny) (y := y) (x := nx - 1) hy (by omega)
  by_cases h2 : 2 ≤ nx
  · rw [wsub_eq h2 (by omega), wadd_eq (by omega)]
    omega
  · have : nx = 1 := by omega
    subst this
    have e : wadd (y * 1) (wsub 1 2) = y - 1 := by
      have h2 : two64 = 18446744073709551616 := by norm_num [two64]
      rw [h2] at h64
      unfold wadd wsub
      rw [h2]
      omega
    rw [e]
    omega

/-- The neighbour index of the last row, as computed with `size_t`. -/
theorem lastRow_lt {nx ny x : ℕ} (hny : 2 ≤ ny) (hx : x < nx) (h64 : nx * ny < two64) :
    wadd (wsub (ny - 1) 1 * nx) x < nx * ny := by
  have hny64 : ny < two64 := lt_of_le_of_lt (Nat.le_mul_of_pos_left ny (by omega)) h64
  have hlt := row_lt (nx := nx) (ny := ny) (y := ny - 1 - 1) (x := x) (by omega) hx
  rw [wsub_eq (by omega) (by omega), wadd_eq (by omega)]
  exact hlt

omit [LinearOrder K] in
theorem borders_ok {o : List (Option K)} {nx ny : ℕ} {s : Work K} (h : FI o s) (hnx : 1 ≤ nx) (hny : 2 ≤ ny)
    (hlen : o.length = nx * ny) (h64 : o.length < two64) : ∃ s', borders nx ny s = .ok s' ∧ FI o s' := by
  rw [hlen] at h64
  have cols := forN_inv (body := fun y s => do
      let s ← borderCell (y * nx) (y * nx + 1) s
      borderCell (y * nx + (nx - 1)) (wadd (y * nx) (wsub nx 2)) s) (fun _ s => FI o s) (ny - 1 - 1) 1 s ?_ h
  · obtain ⟨s1, hs1, i1⟩ := cols
    have rows := forN_inv (body := fun x s => do
        let s ← borderCell x (nx + x) s
        borderCell ((ny - 1) * nx + x) (wadd (wsub (ny - 1) 1 * nx) x) s) (fun _ s => FI o s) nx 0 s1 ?_ i1
    · obtain ⟨s2, hs2, i2⟩ := rows
      exact ⟨s2, by unfold borders; rw [hs1]; exact hs2, i2⟩
    · intro x s _ hx hi
      have hr0 := row_lt (nx := nx) (ny := ny) (y := 1) (x := x) (by omega) (by omega)
      have hr1 := row_lt (nx := nx) (ny := ny) (y := ny - 1) (x := x) (by omega) (by omega)
      obtain ⟨t1, ht1, j1⟩ := borderCell_ok hi (i := x) (j := nx + x) (by omega) (by omega)
      obtain ⟨t2, ht2, j2⟩ := borderCell_ok j1 (i := (ny - 1) * nx + x) (j := wadd (wsub (ny - 1) 1 * nx) x)
        (by omega) (by rw [hlen]; exact lastRow_lt hny (by omega) h64)
      exact ⟨t2, by rw [ht1]; exact ht2, j2⟩
  · intro y s hy1 hy2 hi
    have hr1 := row_lt (nx := nx) (ny := ny) (y := y) (x := nx - 1) (by omega) (by omega)
    have hr2 := row_lt (nx := nx) (ny := ny) (y := y + 1) (x := 0) (by omega) (by omega)
    rw [Nat.add_mul] at hr2
    obtain ⟨t1, ht1, j1⟩ := borderCell_ok hi (i := y * nx) (j := y * nx + 1) (by omega) (by omega)
    obtain ⟨t2, ht2, j2⟩ := borderCell_ok j1 (i := y * nx + (nx - 1)) (j := wadd (y * nx) (wsub nx 2))
      (by omega) (by rw [hlen]; exact lastColumn_lt hnx hy1 (by omega) h64)
    exact ⟨t2, by rw [ht1]; exact ht2, j2⟩

theorem fillLoop_succ (nx ny maxLoop : ℕ) (crtest : K) (n k : ℕ) (s : Work K) :
    fillLoop nx ny maxLoop crtest n (k + 1) s = (relaxPass nx ny s >>= fun s =>
      converged nx ny maxLoop n crtest s >>= fun done =>
        if done then .ok s else borders nx ny s >>= fun s => fillLoop nx ny maxLoop crtest (n + 1) k s) := rfl

omit [Field K] in
theorem fillLoop_ok [Field K] {o : List (Option K)} {nx ny maxLoop : ℕ} {crtest : K} (hnx : 1 ≤ nx)
    (hlen : o.length = nx * ny) (h64 : o.length < two64) (k : ℕ) : ∀ (n : ℕ) (s : Work K), FI o s →
      (2 ≤ ny ∨ k = 0 ∨ (n = 0 ∧ 0 < wsub maxLoop 5)) → ∃ s', fillLoop nx ny maxLoop crtest n k s = .ok s' ∧ FI o s' := by
  induction k with
  | zero => intro n s h _; exact ⟨s, rfl, h⟩
  | succ k ih =>
    intro n s h hny
    obtain ⟨s1, hs1, i1, e1⟩ := relaxPass_ok h hnx hlen h64
    by_cases hny2 : ¬ 2 ≤ ny
    · have hn : n = 0 ∧ 0 < wsub maxLoop 5 := by
        rcases hny with h | h | h
        · exact absurd h hny2
        · omega
        · exact h
      refine ⟨s1, ?_, i1⟩
      rw [fillLoop_succ, hs1, Res.ok_bind]
      have hcv : converged nx ny maxLoop n crtest s1 = .ok true := by
        unfold converged
        rw [if_pos ⟨by omega, by rw [hn.1]⟩, show ny - 1 - 1 = 0 by omega]
        rfl
      rw [hcv, Res.ok_bind, if_pos rfl]
    have hny : 2 ≤ ny := not_not.1 hny2
    obtain ⟨b, hb⟩ := converged_ok (maxLoop := maxLoop) (n := n) (crtest := crtest) i1 hnx hlen e1
    obtain ⟨s2, hs2, i2⟩ := borders_ok i1 hnx hny hlen h64
    obtain ⟨s3, hs3, i3⟩ := ih (n + 1) s2 i2 (Or.inl hny)
    cases b with
    | false =>
      refine ⟨s3, ?_, i3⟩
      rw [fillLoop_succ, hs1, Res.ok_bind, hb, Res.ok_bind, if_neg Bool.false_ne_true, hs2, Res.ok_bind, hs3]
    | true =>
      refine ⟨s1, ?_, i1⟩
      rw [fillLoop_succ, hs1, Res.ok_bind, hb, Res.ok_bind, if_pos rfl]

omit [LinearOrder K] in
theorem innerWeights_ok {o : List (Option K)} {nx ny : ℕ} {corrEff : K} {w : List K}
    (hlen : o.length = nx * ny) (hw : w.length = o.length)
    (hk : ∀ (i : ℕ) (v : K), o[i]? = some (some v) → w[i]? = some 0) :
    ∃ w', innerWeights nx ny corrEff w = .ok w' ∧ w'.length = o.length ∧
      ∀ (i : ℕ) (v : K), o[i]? = some (some v) → w'[i]? = some 0 := by
  refine forN_inv (fun _ (w' : List K) => w'.length = o.length ∧ ∀ (i : ℕ) (v : K), o[i]? = some (some v) → w'[i]? = some 0)
    (ny - 1 - 1) 1 w ?_ ⟨hw, hk⟩
  intro y w hy1 hy2 hi
  refine forN_inv (fun _ (w' : List K) => w'.length = o.length ∧ ∀ (i : ℕ) (v : K), o[i]? = some (some v) → w'[i]? = some 0)
    (nx - 1 - 1) 1 w ?_ hi
  intro x w hx1 hx2 ⟨hl, hk⟩
  have hlt := row_lt (nx := nx) (ny := ny) (y := y) (x := x) (by omega) (by omega)
  obtain ⟨v, hv⟩ := exists_get (a := w) (i := y * nx + x) (by omega)
  refine ⟨w.set (y * nx + x) (v * corrEff), ?_, by simp [hl], ?_⟩
  · rw [readAt_of hv]
    exact writeAt_of _ (by omega)
  · intro i u hu
    have h0 := hk i u hu
    by_cases hi : y * nx + x = i
    · subst hi
      rw [List.getElem?_set_self (by omega)]
      rw [h0] at hv
      simp only [Option.some.injEq] at hv
      rw [← hv, zero_mul]
    · rw [List.getElem?_set_ne hi, h0]

omit [Field K] [LinearOrder K] in
theorem countUndefined_le (f : List (Option K)) : countUndefined f ≤ f.length := List.length_filter_le _ _

omit [Field K] [LinearOrder K] in
/-- Nothing undefined. -/
theorem countUndefined_zero {f : List (Option K)} : countUndefined f = 0 ↔ ∀ v ∈ f, v ≠ none := by
  unfold countUndefined
  rw [List.length_eq_zero_iff, List.filter_eq_nil_iff]
  constructor
  · intro h v hv hn; exact h v hv (by rw [hn]; rfl)
  · intro h v hv; have := h v hv; cases v <;> simp_all

omit [Field K] [LinearOrder K] in
/-- Everything undefined. -/
theorem countUndefined_all {f : List (Option K)} : countUndefined f = f.length ↔ ∀ v ∈ f, v = none := by
  unfold countUndefined
  rw [List.length_filter_eq_length_iff]
  simp

/-! ## What a fill may do -/

/-- Number of cells without a value: the specification. -/
def missing (f : List (Option K)) : ℕ := f.countP fun v => v.isNone

omit [Field K] [LinearOrder K] in
theorem countUndefined_eq (f : List (Option K)) : countUndefined f = missing f := by
  unfold countUndefined missing
  rw [List.countP_eq_length_filter]

/-- `g` is a filled version of `f`: same cells, every value of `f` kept, no cell undefined. -/
structure Filled (f g : List (Option K)) : Prop where
  length : g.length = f.length
  keeps : ∀ (i : ℕ) (v : K), f[i]? = some (some v) → g[i]? = some (some v)
  all : ∀ v ∈ g, v ≠ none

omit [Field K] [LinearOrder K] in
theorem Full.all {f : List (Option K)} (h : Full f) : ∀ v ∈ f, v ≠ none := by
  intro v hv hn
  obtain ⟨i, hi, rfl⟩ := List.getElem_of_mem hv
  obtain ⟨u, hu⟩ := h i hi
  rw [List.getElem?_eq_getElem hi, hn] at hu
  simp at hu

/-- **C35** (extrapolating fill).  Except for one row and five iterations the fill never leads outside its arrays.  When there are both defined and undefined cells, every defined value is kept and every other cell gets a
value; otherwise the field comes back as it was.  The number of undefined cells is reported. -/
theorem C35_fill2d (nx ny : ℕ) (field : List (Option K)) (relaxCrit corrEff : K) (maxLoop : ℕ)
    (hlen : field.length = nx * ny) (h64 : field.length < two64) (hn : field ≠ []) (hml : maxLoop < two64)
    (hny : 2 ≤ ny ∨ maxLoop ≠ 5) :
    ∃ g, fill2d nx ny field relaxCrit corrEff maxLoop = .ok (g, some (missing field)) ∧
      (((∃ v ∈ field, v = none) ∧ (∃ v ∈ field, v ≠ none)) → Filled field g) ∧
      (((∀ v ∈ field, v ≠ none) ∨ (∀ v ∈ field, v = none)) → g = field) := by
  have hT : nx * ny ≠ 0 := by rw [← hlen]; simpa using hn
  have hle := countUndefined_le field
  have hnx : 1 ≤ nx := by
    rcases Nat.eq_zero_or_pos nx with h | h
    · exact absurd (by rw [h, Nat.zero_mul]) hT
    · exact h
  rw [← countUndefined_eq]
  unfold fill2d
  dsimp only
  rw [if_neg hT]
  by_cases hc : nx * ny - countUndefined field = 0 ∨ countUndefined field = 0
  · rw [if_pos hc]
    refine ⟨field, rfl, ?_, fun _ => rfl⟩
    rintro ⟨⟨a, ha, han⟩, b, hb, hbn⟩
    rcases hc with hc | hc
    · exact absurd (countUndefined_all.1 (by omega) b hb) hbn
    · exact absurd han (countUndefined_zero.1 hc a ha)
  · rw [if_neg hc]
    push Not at hc
    have hget : ∀ (i : ℕ) (v : K), field[i]? = some (some v) →
        (field.map fun v => if v.isNone then (1 : K) else 0)[i]? = some 0 := by
      intro i v hv; simp [hv]
    obtain ⟨w, hw, hwl, hwk⟩ := innerWeights_ok (nx := nx) (ny := ny) (corrEff := corrEff) hlen
      (by simp : (field.map fun v => if v.isNone then (1 : K) else 0).length = field.length) hget
    rw [hw]
    simp only [Res.ok_bind]
    set avg := sumDefined field / ((nx * ny - countUndefined field : ℕ) : K) with havg
    have hFI : FI field
        { f := field.map (fun v => some (v.getD avg)), w := w,
          e := field.map (fun _ => (none : Option (Option K))), p := nx } := by
      refine ⟨by simp, hwl, by simp, ?_, ?_⟩
      · intro i hi
        rw [List.length_map] at hi
        exact ⟨(field[i]).getD avg, by rw [List.getElem?_map, List.getElem?_eq_getElem hi]; rfl⟩
      · intro i v hv
        exact ⟨by simp [hv], hwk i v hv⟩
    obtain ⟨s, hs, hi⟩ := fillLoop_ok (maxLoop := maxLoop)
      (crtest := relaxCrit * ((field.map (deviation avg)).sum / ((nx * ny - countUndefined field : ℕ) : K)) * corrEff)
      hnx hlen h64 maxLoop 0 _ hFI (by
        rcases hny with h | h
        · exact Or.inl h
        · right; right
          refine ⟨rfl, ?_⟩
          have h2 : two64 = 18446744073709551616 := by norm_num [two64]
          unfold wsub
          rw [h2] at hml ⊢
          omega)
    rw [hs]
    refine ⟨s.f, rfl, fun _ => ⟨hi.fl, fun i v hv => (hi.keep i v hv).1, hi.full.all⟩, ?_⟩
    rintro (h | h)
    · exact absurd (countUndefined_zero.2 h) hc.2
    · exact absurd (by rw [countUndefined_all.2 h]; omega) hc.1

/-- The extrapolating fill of one row with an undefined value reads the row after the last one when the number of
iterations is five. -/
theorem C35_fill2d_single_row_undefined :
    fill2d 3 1 [some (1 : ℚ), none, some 3] (1 / 10) 1 5 = .ub := by decide +kernel

/-! ## The creep fills -/

variable [IsStrictOrderedRing K]

/-- Invariant of the creep fill of `o`: everything is defined, weights are not negative, values defined on input
are unchanged and closed for further changes, nothing lies outside `lo ... hi`. -/
structure CI (o : List (Option K)) (rep : ℕ) (lo hi : K) (s : Creep K) : Prop where
  fl : s.f.length = o.length
  wl : s.w.length = o.length
  rl : s.r.length = o.length
  full : Full s.f
  wr : ∀ (i : ℕ) (v : ℤ), s.w[i]? = some v → 0 ≤ v ∧ v ≤ 127
  keep : ∀ (i : ℕ) (v : K), o[i]? = some (some v) → s.f[i]? = some (some v) ∧ s.r[i]? = some rep
  range : ∀ (i : ℕ) (v : K), s.f[i]? = some (some v) → lo ≤ v ∧ v ≤ hi

omit [Field K] [IsStrictOrderedRing K] in
/-- A change of a cell that is not closed. -/
theorem CI.update {o : List (Option K)} {rep : ℕ} {lo hi : K} {s : Creep K} (h : CI o rep lo hi s) {i r r' c p : ℕ} {v : K}
    (hr : s.r[i]? = some r) (hlt : r < rep) (hlo : lo ≤ v) (hhi : v ≤ hi) :
    CI o rep lo hi { f := s.f.set i (some v), w := s.w.set i 1, r := s.r.set i r', changed := c, p := p } where
  fl := by simp [h.fl]
  wl := by simp [h.wl]
  rl := by simp [h.rl]
  full := h.full.set i v
  wr := by
    intro j u hu
    by_cases hij : i = j
    · subst hij
      have hi : i < s.w.length := by
        have := (List.getElem?_eq_some_iff.1 hu).1
        simpa using this
      simp only [List.getElem?_set_self hi, Option.some.injEq] at hu
      omega
    · exact h.wr j u (by simpa [List.getElem?_set_ne hij] using hu)
  keep := by
    intro j u hu
    obtain ⟨h1, h2⟩ := h.keep j u hu
    have hij : i ≠ j := by
      rintro rfl
      rw [hr] at h2
      simp only [Option.some.injEq] at h2
      omega
    exact ⟨by simp [List.getElem?_set_ne hij, h1], by simp [List.getElem?_set_ne hij, h2]⟩
  range := by
    intro j u hu
    by_cases hij : i = j
    · subst hij
      have hi' : i < s.f.length := by
        have := (List.getElem?_eq_some_iff.1 hu).1
        simpa using this
      simp only [List.getElem?_set_self hi', Option.some.injEq] at hu
      rw [← hu]
      exact ⟨hlo, hhi⟩
    · exact h.range j u (by simpa [List.getElem?_set_ne hij] using hu)

omit [Field K] [IsStrictOrderedRing K] in
theorem CI.move {o : List (Option K)} {rep : ℕ} {lo hi : K} {s : Creep K} (h : CI o rep lo hi s) (c p : ℕ) :
    CI o rep lo hi { s with changed := c, p := p } :=
  ⟨h.fl, h.wl, h.rl, h.full, h.wr, h.keep, h.range⟩

omit [IsStrictOrderedRing K] in
theorem odiv_some {a b : K} (h : b ≠ 0) : odiv (some a) b = some (a / b) := if_neg h

/-- A weighted mean with weights that are not negative lies between the values. -/
theorem mean_range {lo hi m n d : K} (hm : lo ≤ m ∧ m ≤ hi) (hd : 0 ≤ d) (hn : d * lo ≤ n ∧ n ≤ d * hi) :
    lo ≤ (m + n) / (1 + d) ∧ (m + n) / (1 + d) ≤ hi := by
  have h0 : 0 < 1 + d := by linarith
  rw [le_div_iff₀ h0, div_le_iff₀ h0]
  constructor <;> nlinarith [hm.1, hm.2, hn.1, hn.2]

theorem term_range {lo hi a w : K} (hw : 0 ≤ w) (ha : lo ≤ a ∧ a ≤ hi) : w * lo ≤ w * a ∧ w * a ≤ w * hi :=
  ⟨mul_le_mul_of_nonneg_left ha.1 hw, mul_le_mul_of_nonneg_left ha.2 hw⟩

theorem asSizeT_eq {i : ℤ} (h0 : 0 ≤ i) (h1 : i ≤ 508) : asSizeT i = i.toNat := by
  unfold asSizeT
  congr 1
  omega

theorem creepCell_ok {o : List (Option K)} {nx rep : ℕ} {lo hi : K} {s : Creep K} (h : CI o rep lo hi s) (hnx : 1 ≤ nx)
    (h1 : nx ≤ s.p + 1) (h2 : s.p + 1 + nx < o.length) (h64 : o.length < two64) :
    ∃ s', creepCell nx rep s = .ok s' ∧ CI o rep lo hi s' ∧ s'.p = s.p + 1 := by
  have hfl := h.fl
  have hwl := h.wl
  obtain ⟨a, ha⟩ := h.full (s.p + 1 + 1) (by omega)
  obtain ⟨b, hb⟩ := h.full (s.p + 1 - 1) (by omega)
  obtain ⟨c, hc⟩ := h.full (s.p + 1 + nx) (by omega)
  obtain ⟨d, hd⟩ := h.full (s.p + 1 - nx) (by omega)
  obtain ⟨m, hm⟩ := h.full (s.p + 1) (by omega)
  obtain ⟨wa, hwa⟩ := exists_get (a := s.w) (i := s.p + 1 + 1) (by omega)
  obtain ⟨wb, hwb⟩ := exists_get (a := s.w) (i := s.p + 1 - 1) (by omega)
  obtain ⟨wc, hwc⟩ := exists_get (a := s.w) (i := s.p + 1 + nx) (by omega)
  obtain ⟨wd, hwd⟩ := exists_get (a := s.w) (i := s.p + 1 - nx) (by omega)
  obtain ⟨r, hr⟩ := exists_get (a := s.r) (i := s.p + 1) (by rw [h.rl]; omega)
  have qa := h.wr _ _ hwa
  have qb := h.wr _ _ hwb
  have qc := h.wr _ _ hwc
  have qd := h.wr _ _ hwd
  unfold creepCell
  dsimp only
  rw [readAt_of hr]
  simp only [Res.ok_bind]
  by_cases hlt : r < rep
  · rw [if_pos hlt, readAt_of hwa, readAt_of hwb, readAt_of hwc, wsub_eq h1 (by omega), readAt_of hwd]
    simp only [Res.ok_bind]
    rw [asSizeT_eq (by omega) (by omega)]
    by_cases hz : (wa + wb + wc + wd).toNat ≠ 0
    · rw [if_pos hz, readAt_of hm, readAt_of ha, readAt_of hb, readAt_of hc, readAt_of hd]
      simp only [Res.ok_bind]
      have hden : ((wadd 1 (wa + wb + wc + wd).toNat : ℕ) : K) ≠ 0 := by
        rw [wadd_eq (by
          have h2 : two64 = 18446744073709551616 := by norm_num [two64]
          rw [h2]; omega)]
        exact_mod_cast (by omega : 1 + (wa + wb + wc + wd).toNat ≠ 0)
      have hv : odiv (oadd (some m) (oadd (oadd (oadd (omul (wa : K) (some a)) (omul (wb : K) (some b)))
          (omul (wc : K) (some c))) (omul (wd : K) (some d)))) ((wadd 1 (wa + wb + wc + wd).toNat : ℕ) : K) =
          some ((m + (wa * a + wb * b + wc * c + wd * d)) / ((wadd 1 (wa + wb + wc + wd).toNat : ℕ) : K)) :=
        odiv_some hden
      rw [hv, writeAt_of _ (by omega), Res.ok_bind, writeAt_of _ (by omega), Res.ok_bind,
        writeAt_of _ (by rw [h.rl]; omega), Res.ok_bind]
      have hcast : ((wadd 1 (wa + wb + wc + wd).toNat : ℕ) : K) = 1 + ((wa : K) + wb + wc + wd) := by
        rw [wadd_eq (by
          have h2 : two64 = 18446744073709551616 := by norm_num [two64]
          rw [h2]; omega), Nat.cast_add, Nat.cast_one, ← Int.cast_natCast (R := K),
          Int.toNat_of_nonneg (by omega)]
        push_cast
        ring
      have ka : (0 : K) ≤ wa := by exact_mod_cast qa.1
      have kb : (0 : K) ≤ wb := by exact_mod_cast qb.1
      have kc : (0 : K) ≤ wc := by exact_mod_cast qc.1
      have kd : (0 : K) ≤ wd := by exact_mod_cast qd.1
      have ta := term_range ka (h.range _ _ ha)
      have tb := term_range kb (h.range _ _ hb)
      have tc := term_range kc (h.range _ _ hc)
      have td := term_range kd (h.range _ _ hd)
      have hrng := mean_range (h.range _ _ hm) (d := (wa : K) + wb + wc + wd)
        (n := wa * a + wb * b + wc * c + wd * d) (by linarith)
        ⟨by linarith [ta.1, tb.1, tc.1, td.1], by linarith [ta.2, tb.2, tc.2, td.2]⟩
      rw [← hcast] at hrng
      exact ⟨_, rfl, h.update hr hlt hrng.1 hrng.2, rfl⟩
    · rw [if_neg hz]
      exact ⟨_, rfl, h.move _ _, rfl⟩
  · rw [if_neg hlt]
    exact ⟨_, rfl, h.move _ _, rfl⟩

theorem creepPass_ok {o : List (Option K)} {nx ny rep : ℕ} {lo hi : K} {s : Creep K} (h : CI o rep lo hi s) (hnx : 1 ≤ nx)
    (hlen : o.length = nx * ny) (h64 : o.length < two64) :
    ∃ s', creepPass nx ny rep s = .ok s' ∧ CI o rep lo hi s' := by
  have key := forN_inv (body := fun _ s => do
      let s ← forN (fun _ s => creepCell nx rep s) 1 (nx - 1 - 1) s
      .ok { s with p := s.p + 2 })
    (fun y s => CI o rep lo hi s ∧ (2 ≤ nx → s.p = y * nx)) (ny - 1 - 1) 1 { s with changed := 0, p := nx } ?_ ?_
  · obtain ⟨s', hs', hi, -⟩ := key
    exact ⟨s', hs', hi⟩
  · intro y s hy1 hy2 ⟨hi', hp⟩
    by_cases hnx2 : 2 ≤ nx
    · have hp := hp hnx2
      have inner := forN_inv (body := fun _ s => creepCell (K := K) nx rep s)
        (fun x s => CI o rep lo hi s ∧ s.p = y * nx + (x - 1)) (nx - 1 - 1) 1 s ?_ ⟨hi', by omega⟩
      · obtain ⟨s1, hs1, i1, p1⟩ := inner
        refine ⟨{ s1 with p := s1.p + 2 }, by rw [hs1]; rfl, i1.move _ _, ?_⟩
        intro _
        show s1.p + 2 = _
        rw [p1, Nat.add_mul]
        omega
      · intro x s hx1 hx2 ⟨i0, p0⟩
        have hrow : y * nx + x + nx < nx * ny := by
          have := row_lt (nx := nx) (ny := ny) (y := y + 1) (x := x) (by omega) (by omega)
          rw [Nat.add_mul] at this
          omega
        have hyn : 1 * nx ≤ y * nx := Nat.mul_le_mul_right nx hy1
        obtain ⟨s', hs', i', p'⟩ := creepCell_ok i0 hnx (by omega) (by omega) h64
        exact ⟨s', hs', i', by omega⟩
    · have hnx1 : nx = 1 := by omega
      subst hnx1
      exact ⟨{ s with p := s.p + 2 }, rfl, hi'.move _ _, by intro h; omega⟩
  · exact ⟨h.move _ _, by intro _; simp⟩

theorem creepLoop_ok {o : List (Option K)} {nx ny rep : ℕ} {lo hi : K} (hnx : 1 ≤ nx)
    (hlen : o.length = nx * ny) (h64 : o.length < two64) (k : ℕ) : ∀ (s : Creep K), CI o rep lo hi s →
      ∃ s', creepLoop nx ny rep k s = .ok s' ∧ CI o rep lo hi s' := by
  induction k with
  | zero => intro s h; exact ⟨s, rfl, h⟩
  | succ k ih =>
    intro s h
    obtain ⟨s1, hs1, i1⟩ := creepPass_ok h hnx hlen h64
    obtain ⟨s2, hs2, i2⟩ := ih s1 i1
    unfold creepLoop
    by_cases hc : s.changed > 0
    · rw [if_pos hc, hs1, Res.ok_bind]
      exact ⟨s2, hs2, i2⟩
    · rw [if_neg hc]
      exact ⟨s, rfl, h⟩

theorem creepBorder_ok {o : List (Option K)} {rep : ℕ} {lo hi : K} {s : Creep K} (h : CI o rep lo hi s) {i j : ℕ}
    (hi' : i < o.length) (hj : j < o.length) : ∃ s', creepBorder rep i j s = .ok s' ∧ CI o rep lo hi s' := by
  obtain ⟨a, ha⟩ := h.full i (by rw [h.fl]; omega)
  obtain ⟨b, hb⟩ := h.full j (by rw [h.fl]; omega)
  obtain ⟨w, hw⟩ := exists_get (a := s.w) (i := j) (by rw [h.wl]; omega)
  obtain ⟨r, hr⟩ := exists_get (a := s.r) (i := i) (by rw [h.rl]; omega)
  have hw0 := h.wr _ _ hw
  unfold creepBorder
  rw [readAt_of hr, Res.ok_bind]
  by_cases hlt : r < rep
  · have hwK : (0 : K) ≤ (w : K) := by exact_mod_cast hw0.1
    have hden : (1 + (w : K)) ≠ 0 := by linarith
    have hrng := mean_range (h.range _ _ ha) hwK (term_range hwK (h.range _ _ hb))
    have hv : odiv (oadd (some a) (omul (w : K) (some b))) (1 + (w : K)) = some ((a + w * b) / (1 + (w : K))) :=
      odiv_some hden
    rw [if_pos hlt, readAt_of ha, Res.ok_bind, readAt_of hb, Res.ok_bind, readAt_of hw, Res.ok_bind, hv,
      writeAt_of _ (by rw [h.fl]; omega), Res.ok_bind, writeAt_of _ (by rw [h.wl]; omega), Res.ok_bind]
    refine ⟨_, rfl, ?_⟩
    have := h.update (i := i) (r' := r) (c := s.changed) (p := s.p) (v := (a + w * b) / (1 + (w : K))) hr hlt hrng.1 hrng.2
    rwa [show s.r.set i r = s.r from by
      apply List.ext_getElem?
      intro k
      by_cases hk : i = k
      · subst hk
        rw [List.getElem?_set_self (by rw [h.rl]; omega), hr]
      · rw [List.getElem?_set_ne hk]] at this
  · rw [if_neg hlt]
    exact ⟨s, rfl, h⟩

theorem creepBorders_ok {o : List (Option K)} {nx ny rep : ℕ} {lo hi : K} {s : Creep K} (h : CI o rep lo hi s) (hnx : 1 ≤ nx)
    (hny : 2 ≤ ny ∨ rep = 0) (hlen : o.length = nx * ny) (h64 : o.length < two64) :
    ∃ s', creepBorders nx ny rep s = .ok s' ∧ CI o rep lo hi s' := by
  rw [hlen] at h64
  refine forN_inv (fun _ s => CI o rep lo hi s) rep 0 s ?_ h
  intro l s _ hl h
  have hny : 2 ≤ ny := by omega
  have cols := forN_inv (body := fun y s => do
      let s ← creepBorder rep (y * nx) (y * nx + 1) s
      creepBorder rep (y * nx + (nx - 1)) (wadd (y * nx) (wsub nx 2)) s) (fun _ s => CI o rep lo hi s) (ny - 1 - 1) 1 s ?_ h
  · obtain ⟨s1, hs1, i1⟩ := cols
    have rows := forN_inv (body := fun x s => do
        let s ← creepBorder rep x (nx + x) s
        creepBorder rep ((ny - 1) * nx + x) (wadd (wsub (ny - 1) 1 * nx) x) s) (fun _ s => CI o rep lo hi s) nx 0 s1 ?_ i1
    · obtain ⟨s2, hs2, i2⟩ := rows
      exact ⟨s2, by rw [hs1]; exact hs2, i2⟩
    · intro x s _ hx hi
      have hr0 := row_lt (nx := nx) (ny := ny) (y := 1) (x := x) (by omega) (by omega)
      have hr1 := row_lt (nx := nx) (ny := ny) (y := ny - 1) (x := x) (by omega) (by omega)
      obtain ⟨t1, ht1, j1⟩ := creepBorder_ok hi (i := x) (j := nx + x) (by omega) (by omega)
      obtain ⟨t2, ht2, j2⟩ := creepBorder_ok j1 (i := (ny - 1) * nx + x) (j := wadd (wsub (ny - 1) 1 * nx) x)
        (by omega) (by rw [hlen]; exact lastRow_lt hny (by omega) h64)
      exact ⟨t2, by rw [ht1]; exact ht2, j2⟩
  · intro y s hy1 hy2 hi
    have hr1 := row_lt (nx := nx) (ny := ny) (y := y) (x := nx - 1) (by omega) (by omega)
    have hr2 := row_lt (nx := nx) (ny := ny) (y := y + 1) (x := 0) (by omega) (by omega)
    rw [Nat.add_mul] at hr2
    obtain ⟨t1, ht1, j1⟩ := creepBorder_ok hi (i := y * nx) (j := y * nx + 1) (by omega) (by omega)
    obtain ⟨t2, ht2, j2⟩ := creepBorder_ok j1 (i := y * nx + (nx - 1)) (j := wadd (y * nx) (wsub nx 2))
      (by omega) (by rw [hlen]; exact lastColumn_lt hnx hy1 (by omega) h64)
    exact ⟨t2, by rw [ht1]; exact ht2, j2⟩

/-- Number of defined values. -/
def countDefined (f : List (Option K)) : ℕ := (f.filter fun v => v.isSome).length

omit [Field K] [LinearOrder K] [IsStrictOrderedRing K] in
theorem countDefined_add (f : List (Option K)) : countDefined f + countUndefined f = f.length := by
  unfold countDefined countUndefined
  induction f with
  | nil => rfl
  | cons a f ih => cases a <;> simp <;> omega

theorem sum_range (f : List (Option K)) {lo hi : K} (hr : ∀ v, some v ∈ f → lo ≤ v ∧ v ≤ hi) :
    (countDefined f : K) * lo ≤ sumDefined f ∧ sumDefined f ≤ (countDefined f : K) * hi := by
  unfold countDefined sumDefined
  induction f with
  | nil => simp
  | cons a f ih =>
    have ih := ih fun v hv => hr v (List.mem_cons_of_mem _ hv)
    cases a with
    | none => simpa using ih
    | some a =>
      have ha := hr a (List.mem_cons_self ..)
      simp only [List.filter_cons, Option.isSome_some, if_true, List.length_cons, List.map_cons, Option.getD_some,
        List.sum_cons, Nat.cast_add, Nat.cast_one, add_mul, one_mul]
      constructor <;> linarith [ih.1, ih.2, ha.1, ha.2]

omit [Field K] [IsStrictOrderedRing K] in
theorem exists_range [Field K] (f : List (Option K)) : ∃ lo hi : K, ∀ v, some v ∈ f → lo ≤ v ∧ v ≤ hi := by
  induction f with
  | nil => exact ⟨0, 0, by intro v hv; cases hv⟩
  | cons a f ih =>
    obtain ⟨lo, hi, h⟩ := ih
    cases a with
    | none => exact ⟨lo, hi, by intro v hv; exact h v (by simpa using hv)⟩
    | some a =>
      refine ⟨min a lo, max a hi, ?_⟩
      intro v hv
      rcases List.mem_cons.1 hv with hv | hv
      · cases hv
        exact ⟨min_le_left _ _, le_max_left _ _⟩
      · exact ⟨le_trans (min_le_right _ _) (h v hv).1, le_trans (h v hv).2 (le_max_right _ _)⟩

theorem creepImpl_ok (nx ny : ℕ) (field : List (Option K)) (d : K) (rep : ℕ) (setWeight : ℤ)
    (hlen : field.length = nx * ny) (h64 : field.length < two64) (hn : field ≠ []) (hny : 2 ≤ ny ∨ rep = 0)
    (hw : 0 ≤ setWeight) (hw' : setWeight ≤ 127) (lo hi : K) (hd : lo ≤ d ∧ d ≤ hi)
    (hr : ∀ v, some v ∈ field → lo ≤ v ∧ v ≤ hi) :
    ∃ g, creepImpl nx ny field (some d) rep setWeight (countUndefined field) = .ok g ∧
      (((∃ v ∈ field, v = none) ∧ (∃ v ∈ field, v ≠ none)) → Filled field g) ∧
      (∀ v, some v ∈ g → lo ≤ v ∧ v ≤ hi) ∧
      (((∀ v ∈ field, v ≠ none) ∨ (∀ v ∈ field, v = none)) → g = field) := by
  have hT : nx * ny ≠ 0 := by rw [← hlen]; simpa using hn
  have hle := countUndefined_le field
  have hnx : 1 ≤ nx := by
    rcases Nat.eq_zero_or_pos nx with h | h
    · exact absurd (by rw [h, Nat.zero_mul]) hT
    · exact h
  unfold creepImpl
  dsimp only
  rw [if_neg hT]
  by_cases hc : nx * ny - countUndefined field = 0 ∨ countUndefined field = 0
  · rw [if_pos hc]
    refine ⟨field, rfl, ?_, hr, fun _ => rfl⟩
    rintro ⟨⟨a, ha, han⟩, b, hb, hbn⟩
    rcases hc with hc | hc
    · exact absurd (countUndefined_all.1 (by omega) b hb) hbn
    · exact absurd han (countUndefined_zero.1 hc a ha)
  · rw [if_neg hc]
    push Not at hc
    have hCI : CI field rep lo hi
        { f := field.map (fun v => if v.isNone then some d else v),
          w := field.map (fun v => if v.isNone then 0 else setWeight),
          r := field.map (fun v => if v.isNone then 0 else rep), changed := 1, p := nx } := by
      refine ⟨by simp, by simp, by simp, ?_, ?_, ?_, ?_⟩
      · intro i hi
        rw [List.length_map] at hi
        dsimp only
        rw [List.getElem?_map, List.getElem?_eq_getElem hi]
        cases field[i] with
        | none => exact ⟨d, rfl⟩
        | some v => exact ⟨v, rfl⟩
      · intro i v hv
        simp only [List.getElem?_map, Option.map_eq_some_iff] at hv
        obtain ⟨u, -, hu⟩ := hv
        split at hu <;> omega
      · intro i v hv
        exact ⟨by simp [hv], by simp [hv]⟩
      · intro i v hv
        simp only [List.getElem?_map, Option.map_eq_some_iff] at hv
        obtain ⟨u, hu, hv⟩ := hv
        cases u with
        | none =>
          simp only [Option.isNone_none, if_true, Option.some.injEq] at hv
          rwa [← hv]
        | some u =>
          simp only [Option.isNone_some, Bool.false_eq_true, if_false, Option.some.injEq] at hv
          rw [← hv]
          exact hr u (List.mem_of_getElem? hu)
    obtain ⟨s1, hs1, i1⟩ := creepLoop_ok hnx hlen h64 (nx * ny - countUndefined field) _ hCI
    obtain ⟨s2, hs2, i2⟩ := creepBorders_ok i1 hnx hny hlen h64
    rw [hs1, Res.ok_bind, hs2, Res.ok_bind]
    refine ⟨s2.f, rfl, fun _ => ⟨i2.fl, fun i v hv => (i2.keep i v hv).1, i2.full.all⟩, ?_, ?_⟩
    · intro v hv
      obtain ⟨i, hi, hiv⟩ := List.getElem_of_mem hv
      exact i2.range i v (by rw [List.getElem?_eq_getElem hi, hiv])
    rintro (h | h)
    · exact absurd (countUndefined_zero.2 h) hc.2
    · exact absurd (by rw [countUndefined_all.2 h]; omega) hc.1

/-- **C35** (creep fill with the average).  With a weight that is not negative and at least two rows (or no
repetition) the fill stays inside its arrays; with both defined and undefined cells every defined value is kept and
every cell gets a value that does not exceed the extremes of the given values; otherwise the field comes back as it
was. -/
theorem C35_creepfill2d (nx ny : ℕ) (field : List (Option K)) (rep : ℕ) (setWeight : ℤ)
    (hlen : field.length = nx * ny) (h64 : field.length < two64) (hn : field ≠ []) (hny : 2 ≤ ny ∨ rep = 0)
    (hw : 0 ≤ setWeight) (hw' : setWeight ≤ 127) :
    ∃ g, creepfill2d nx ny field rep setWeight = .ok (g, some (missing field)) ∧
      (((∃ v ∈ field, v = none) ∧ (∃ v ∈ field, v ≠ none)) → Filled field g) ∧
      (∀ lo hi, (∀ v, some v ∈ field → lo ≤ v ∧ v ≤ hi) → ∀ v, some v ∈ g → lo ≤ v ∧ v ≤ hi) ∧
      (((∀ v ∈ field, v ≠ none) ∨ (∀ v ∈ field, v = none)) → g = field) := by
  have hT : nx * ny ≠ 0 := by rw [← hlen]; simpa using hn
  have hle := countUndefined_le field
  rw [← countUndefined_eq]
  unfold creepfill2d
  dsimp only
  rw [if_neg hT]
  by_cases hc : nx * ny - countUndefined field = 0
  · rw [if_pos hc]
    refine ⟨field, rfl, ?_, fun _ _ h => h, fun _ => rfl⟩
    rintro ⟨-, b, hb, hbn⟩
    exact absurd (countUndefined_all.1 (by omega) b hb) hbn
  · rw [if_neg hc]
    have all := fun lo hi hd hr => creepImpl_ok nx ny field
      (sumDefined field / ((nx * ny - countUndefined field : ℕ) : K)) rep setWeight hlen h64 hn hny hw hw' lo hi hd hr
    have hnu : (nx * ny - countUndefined field : ℕ) = countDefined field := by
      rw [← hlen, ← countDefined_add field, Nat.add_sub_cancel]
    have hpos : 0 < ((nx * ny - countUndefined field : ℕ) : K) := by exact_mod_cast Nat.pos_of_ne_zero hc
    have havg : ∀ lo hi, (∀ v, some v ∈ field → lo ≤ v ∧ v ≤ hi) →
        lo ≤ sumDefined field / ((nx * ny - countUndefined field : ℕ) : K) ∧
          sumDefined field / ((nx * ny - countUndefined field : ℕ) : K) ≤ hi := by
      intro lo hi hr
      have := sum_range field hr
      rw [le_div_iff₀ hpos, div_le_iff₀ hpos, hnu]
      constructor <;> linarith [this.1, this.2]
    obtain ⟨lo, hi, hr⟩ := exists_range field
    obtain ⟨g, hg, h1, -, h2⟩ := all lo hi (havg lo hi hr) hr
    rw [hg]
    refine ⟨g, rfl, h1, ?_, h2⟩
    intro lo hi hr
    obtain ⟨g', hg', -, h3, -⟩ := all lo hi (havg lo hi hr) hr
    rw [hg] at hg'
    simp only [Res.ok.injEq] at hg'
    rwa [hg']

/-- **C35** (creep fill with a given default value). -/
theorem C35_creepfillval2d (nx ny : ℕ) (field : List (Option K)) (d : K) (rep : ℕ) (setWeight : ℤ)
    (hlen : field.length = nx * ny) (h64 : field.length < two64) (hn : field ≠ []) (hny : 2 ≤ ny ∨ rep = 0)
    (hw : 0 ≤ setWeight) (hw' : setWeight ≤ 127) :
    ∃ g, creepfillval2d nx ny field (some d) rep setWeight = .ok (g, some (missing field)) ∧
      (((∃ v ∈ field, v = none) ∧ (∃ v ∈ field, v ≠ none)) → Filled field g) ∧
      (∀ lo hi, (lo ≤ d ∧ d ≤ hi) → (∀ v, some v ∈ field → lo ≤ v ∧ v ≤ hi) → ∀ v, some v ∈ g → lo ≤ v ∧ v ≤ hi) ∧
      (((∀ v ∈ field, v ≠ none) ∨ (∀ v ∈ field, v = none)) → g = field) := by
  have hT : nx * ny ≠ 0 := by rw [← hlen]; simpa using hn
  rw [← countUndefined_eq]
  unfold creepfillval2d
  dsimp only
  rw [if_neg hT]
  have all := creepImpl_ok nx ny field d rep setWeight hlen h64 hn hny hw hw'
  obtain ⟨lo, hi, hr⟩ := exists_range (some d :: field)
  obtain ⟨g, hg, h1, -, h2⟩ := all lo hi (hr d (List.mem_cons_self ..)) fun v hv => hr v (List.mem_cons_of_mem _ hv)
  rw [hg]
  refine ⟨g, rfl, h1, ?_, h2⟩
  intro lo hi hd hr
  obtain ⟨g', hg', -, h3, -⟩ := all lo hi hd hr
  rw [hg] at hg'
  simp only [Res.ok.injEq] at hg'
  rwa [hg']

/-- A creep fill of one row with an undefined value reads the row after the last one. -/
theorem C35_creepfill2d_single_row_undefined :
    creepfill2d 3 1 [some (1 : ℚ), none, some 3] 1 5 = .ub := by decide +kernel

/-- A field without any defined value stays undefined even though a default value was given. -/
theorem C35_default_not_used_without_defined_value :
    creepfillval2d 2 2 [(none : Option ℚ), none, none, none] (some 7) 1 5 =
      .ok ([none, none, none, none], some 4) := by decide +kernel

/-- A negative weight can turn a cell into an undefined one. -/
theorem C35_negative_weight :
    creepfillval2d 1 2 [some (1 : ℚ), none] (some 7) 1 (-1) = .ok ([some 1, none], some 1) := by decide +kernel

/-- Concrete cases: a 3 by 3 field with an undefined middle and border cell. -/
example : fill2d 3 3 [some (1 : ℚ), none, some 3, some 4, none, some 6, some 7, some 8, some 9] (1 / 10) 1 2 =
    .ok ([some 1, some (167 / 28), some 3, some 4, some (167 / 28), some 6, some 7, some 8, some 9], some 2) := by
  decide +kernel

example : creepfillval2d 3 3 [some (1 : ℚ), none, some 3, some 4, none, some 6, some 7, some 8, none] (some 0) 2 5 =
    .ok ([some 1, some (2295 / 512), some 3, some 4, some (765 / 128), some 6, some 7, some 8, some (35 / 6)],
      some 3) := by
  decide +kernel

end Fimex.Fill
