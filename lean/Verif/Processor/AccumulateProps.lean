import Verif.Processor.Accumulate
import Mathlib.Tactic.Abel

/-!
# Accumulation and de-accumulation: C52, C53
-/

namespace Fimex.Processor

variable {K : Type} [AddCommGroup K] {σ : Type}

/-! ## Specification -/

/-- A reader that puts each slice in a new array, leaves all other arrays alone, and may raise. -/
def Fresh (rdr : Rdr K σ) (src : String → ℕ → Arr K) : Prop :=
  ∀ s v i, (∀ k, k < s.2.length → (rdr s v i).1.2[k]? = s.2[k]?) ∧ s.2.length ≤ (rdr s v i).1.2.length ∧
    (rdr s v i).2 ≠ .ub ∧
    ∀ d, (rdr s v i).2 = .ok d → s.2.length ≤ d.addr ∧ (rdr s v i).1.2[d.addr]? = some (src v i)

/-- Running sum in one cell; an undefined value in slice 0 counts as 0. -/
def total (x : ℕ → Option K) : ℕ → Option K
  | 0 => some ((x 0).getD 0)
  | p + 1 => add (total x p) (x (p + 1))

/-- What reading an accumulated variable has to return in one cell: slice 0 itself, then running sums. -/
def accumulated (x : ℕ → Option K) (p : ℕ) : Option K := if p = 0 then x 0 else total x p

/-- What reading a de-accumulated variable has to return in one cell. -/
def difference (x : ℕ → Option K) (p : ℕ) : Option K :=
  if p = 0 then x 0 else if p = 1 then sub (x 1) (some ((x 0).getD 0)) else sub (x p) (x (p - 1))

/-- Value of a cell. -/
def cell (a : Arr K) (j : ℕ) : Option K := (a[j]?).getD none

/-! ## Lemmas -/

theorem add_comm' (a b : Option K) : add a b = add b a := by
  cases a <;> cases b <;> simp [add, add_comm]

theorem add_assoc' (a b c : Option K) : add (add a b) c = add a (add b c) := by
  cases a <;> cases b <;> cases c <;> simp [add, add_assoc]

theorem asDouble_spec (h : Heap K) (d : Dat) (a : Arr K) (ha : h[d.addr]? = some a) :
    ∃ h' x, asDouble h d = .ok (h', x) ∧ h'[x]? = some a ∧ (∀ k, k < h.length → h'[k]? = h[k]?) ∧ h.length ≤ h'.length ∧
      (x = d.addr ∨ h.length ≤ x) ∧ x < h'.length := by
  have hlt : d.addr < h.length := by
    by_contra hc
    rw [List.getElem?_eq_none (Nat.le_of_not_lt hc)] at ha
    cases ha
  unfold asDouble
  by_cases hd : d.dbl = true
  · rw [if_pos hd]
    exact ⟨h, d.addr, rfl, ha, fun _ _ => rfl, Nat.le_refl _, Or.inl rfl, hlt⟩
  · rw [if_neg hd]
    have : readAt h d.addr = .ok a := by unfold readAt; rw [ha]
    rw [this]
    refine ⟨h ++ [a], h.length, rfl, by simp, ?_, by simp, Or.inr (Nat.le_refl _), by simp⟩
    intro k hk
    rw [List.getElem?_append_left hk]

theorem transformP_spec (op : Option K → Option K → Option K) (h : Heap K) (d dp : Dat) (first : Bool) (a b : Arr K) (L : ℕ)
    (ha : h[d.addr]? = some a) (hb : h[dp.addr]? = some b) (hne : d.addr ≠ dp.addr) (hL : L ≤ h.length)
    (hd : L ≤ d.addr) (hf : first = true → L ≤ dp.addr) :
    ∃ h' d', transformP op h d dp first = .ok (h', d') ∧ d'.dbl = true ∧ L ≤ d'.addr ∧ d'.addr < h'.length ∧
      h'[d'.addr]? = some (a.zipWith op (if first then b.map nan0 else b)) ∧ (∀ k, k < L → h'[k]? = h[k]?) ∧
      h.length ≤ h'.length := by
  obtain ⟨h1, x, e1, c1, p1, l1, x1, y1⟩ := asDouble_spec h d a ha
  have hlt : dp.addr < h.length := by
    by_contra hc
    rw [List.getElem?_eq_none (Nat.le_of_not_lt hc)] at hb
    cases hb
  have hb1 : h1[dp.addr]? = some b := by rw [p1 _ hlt]; exact hb
  obtain ⟨h2, y, e2, c2, p2, l2, x2, y2⟩ := asDouble_spec h1 dp b hb1
  have hxy : x ≠ y := by
    rcases x1 with x1 | x1 <;> rcases x2 with x2 | x2 <;> omega
  have hxL : L ≤ x := by rcases x1 with x1 | x1 <;> omega
  have c1' : h2[x]? = some a := by rw [p2 _ y1]; exact c1
  unfold transformP
  rw [e1, Res.ok_bind]
  dsimp only
  rw [e2, Res.ok_bind]
  dsimp only
  have hrep : ∃ h3, replaceNan first h2 y = .ok h3 ∧ h3[y]? = some (if first then b.map nan0 else b) ∧
      h3[x]? = some a ∧ (∀ k, k < L → h3[k]? = h2[k]?) ∧ h3.length = h2.length := by
    unfold replaceNan
    cases first with
    | false => exact ⟨h2, rfl, c2, c1', fun _ _ => rfl, rfl⟩
    | true =>
      have hr : readAt h2 y = .ok b := by unfold readAt; rw [c2]
      rw [if_pos rfl, hr, Res.ok_bind]
      have hyL : L ≤ y := by
        have := hf rfl
        rcases x2 with x2 | x2 <;> omega
      refine ⟨_, rfl, ?_, ?_, ?_, by simp⟩
      · rw [List.getElem?_set_self y2]; rfl
      · rw [List.getElem?_set_ne (fun e => hxy e.symm)]; exact c1'
      · intro k hk
        rw [List.getElem?_set_ne (by omega)]
  obtain ⟨h3, e3, cy, cx, p3, l3⟩ := hrep
  rw [e3, Res.ok_bind]
  have hrx : readAt h3 x = .ok a := by unfold readAt; rw [cx]
  have hry : readAt h3 y = .ok (if first then b.map nan0 else b) := by unfold readAt; rw [cy]
  rw [hrx, Res.ok_bind, hry, Res.ok_bind]
  have hx3 : x < h3.length := by omega
  refine ⟨_, _, rfl, rfl, hxL, by simpa using hx3, ?_, ?_, by simp; omega⟩
  · rw [List.getElem?_set_self hx3]
  · intro k hk
    rw [List.getElem?_set_ne (by omega), p3 k hk, p2 k (by omega), p1 k (by omega)]

theorem addP_spec (h : Heap K) (d dp : Dat) (first : Bool) (a b : Arr K) (L n : ℕ)
    (ha : h[d.addr]? = some a) (hb : h[dp.addr]? = some b) (hla : a.length = n) (hlb : b.length = n) (hn : 0 < n)
    (hne : d.addr ≠ dp.addr) (hL : L ≤ h.length) (hd : L ≤ d.addr) (hf : first = true → L ≤ dp.addr) :
    ∃ h' d', addP h d dp first = .ok (h', d') ∧ d'.dbl = true ∧ L ≤ d'.addr ∧ d'.addr < h'.length ∧
      h'[d'.addr]? = some (a.zipWith add (if first then b.map nan0 else b)) ∧ (∀ k, k < L → h'[k]? = h[k]?) ∧
      h.length ≤ h'.length := by
  have hra : readAt h d.addr = .ok a := by unfold readAt; rw [ha]
  have hrb : readAt h dp.addr = .ok b := by unfold readAt; rw [hb]
  unfold addP
  rw [hra, Res.ok_bind, hrb, Res.ok_bind, if_pos (by omega), if_neg (by omega)]
  exact transformP_spec add h d dp first a b L ha hb hne hL hd hf

theorem subP_spec (h : Heap K) (d dp : Dat) (first : Bool) (a b : Arr K) (L n : ℕ)
    (ha : h[d.addr]? = some a) (hb : h[dp.addr]? = some b) (hla : a.length = n) (hlb : b.length = n) (hn : 0 < n)
    (hne : d.addr ≠ dp.addr) (hL : L ≤ h.length) (hd : L ≤ d.addr) (hf : first = true → L ≤ dp.addr) :
    ∃ h' d', subP h d dp first = .ok (h', d') ∧ d'.dbl = true ∧ L ≤ d'.addr ∧ d'.addr < h'.length ∧
      h'[d'.addr]? = some (a.zipWith sub (if first then b.map nan0 else b)) ∧ (∀ k, k < L → h'[k]? = h[k]?) ∧
      h.length ≤ h'.length := by
  have hra : readAt h d.addr = .ok a := by unfold readAt; rw [ha]
  have hrb : readAt h dp.addr = .ok b := by unfold readAt; rw [hb]
  unfold subP
  rw [hra, Res.ok_bind, hrb, Res.ok_bind, if_pos (by omega), if_neg (by omega)]
  exact transformP_spec sub h d dp first a b L ha hb hne hL hd hf

/-- Running sum as an array. -/
def tot (x : ℕ → Arr K) : ℕ → Arr K
  | 0 => (x 0).map nan0
  | p + 1 => (tot x p).zipWith add (x (p + 1))

theorem tot_length (x : ℕ → Arr K) (n : ℕ) (hx : ∀ i, (x i).length = n) (p : ℕ) : (tot x p).length = n := by
  induction p with
  | zero => simp [tot, hx]
  | succ p ih => simp [tot, ih, hx]

theorem zipWith_add_comm (a b : Arr K) : a.zipWith add b = b.zipWith add a := by
  induction a generalizing b with
  | nil => cases b <;> rfl
  | cons x a ih =>
    cases b with
    | nil => rfl
    | cons y b => simp [ih b, add_comm' x y]

theorem zipWith_add_assoc (a b c : Arr K) : (a.zipWith add b).zipWith add c = a.zipWith add (b.zipWith add c) := by
  induction a generalizing b c with
  | nil => cases b <;> rfl
  | cons x a ih =>
    cases b with
    | nil => rfl
    | cons y b =>
      cases c with
      | nil => rfl
      | cons z c => simp [ih b c, add_assoc' x y z]

theorem getElem?_zipWith (op : Option K → Option K → Option K) (a b : Arr K) (n : ℕ) (ha : a.length = n) (hb : b.length = n)
    (j : ℕ) (hj : j < n) : cell (a.zipWith op b) j = op (cell a j) (cell b j) := by
  unfold cell
  have h1 : a[j]? = some a[j] := List.getElem?_eq_getElem (by omega)
  have h2 : b[j]? = some b[j] := List.getElem?_eq_getElem (by omega)
  rw [List.getElem?_zipWith, h1, h2]
  rfl

theorem cell_map_nan0 (a : Arr K) (j : ℕ) (hj : j < a.length) : cell (a.map nan0) j = some ((cell a j).getD 0) := by
  unfold cell
  have h1 : a[j]? = some a[j] := List.getElem?_eq_getElem hj
  rw [List.getElem?_map, h1]
  rfl

theorem cell_tot (x : ℕ → Arr K) (n : ℕ) (hx : ∀ i, (x i).length = n) (p j : ℕ) (hj : j < n) :
    cell (tot x p) j = total (fun i => cell (x i) j) p := by
  induction p with
  | zero =>
    simp only [tot, total]
    exact cell_map_nan0 _ j (by rw [hx]; exact hj)
  | succ p ih =>
    simp only [tot, total]
    rw [getElem?_zipWith add _ _ n (tot_length x n hx p) (hx _) j hj, ih]

/-! ## The loop -/

/-- Old arrays are kept. -/
structure Keeps (L : ℕ) (h h' : Heap K) : Prop where
  same : ∀ k, k < L → h'[k]? = h[k]?
  longer : h.length ≤ h'.length

theorem Keeps.trans {L : ℕ} {h h' h'' : Heap K} (a : Keeps L h h') (b : Keeps L h' h'') : Keeps L h h'' :=
  ⟨fun k hk => (b.same k hk).trans (a.same k hk), Nat.le_trans a.longer b.longer⟩

theorem loop_spec (rdr : Rdr K σ) (src : String → ℕ → Arr K) (hr : Fresh rdr src) (v : String) (n : ℕ) (hn : 0 < n)
    (hs : ∀ i, (src v i).length = n) (c : Arr K) (hc : c.length = n) (L : ℕ) (m : ℕ) : ∀ (i : ℕ) (s : σ × Heap K) (d : Dat),
    d.dbl = true → L ≤ s.2.length → L ≤ d.addr → s.2[d.addr]? = some (c.zipWith add (tot (src v) i)) →
    Keeps L s.2 (accLoop rdr v (List.range' (i + 1) m) s d).1.2 ∧
    (accLoop rdr v (List.range' (i + 1) m) s d).2 ≠ .ub ∧
    ∀ d', (accLoop rdr v (List.range' (i + 1) m) s d).2 = .ok d' → d'.dbl = true ∧ L ≤ d'.addr ∧
      (accLoop rdr v (List.range' (i + 1) m) s d).1.2[d'.addr]? = some (c.zipWith add (tot (src v) (i + m))) := by
  induction m with
  | zero =>
    intro i s d hd hL hdL hcont
    refine ⟨⟨fun _ _ => rfl, Nat.le_refl _⟩, by simp [accLoop], ?_⟩
    intro d' h
    simp only [List.range'_zero, accLoop, Res.ok.injEq] at h
    subst h
    exact ⟨hd, hdL, hcont⟩
  | succ m ih =>
    intro i s d hd hL hdL hcont
    rw [List.range'_succ]
    obtain ⟨r1, r2, r3, r4⟩ := hr s v (i + 1)
    have e : accLoop rdr v ((i + 1) :: List.range' (i + 1 + 1) m) s d =
      bindO (rdr s v (i + 1)) fun s dp => bindO (onHeap s (addP s.2 d dp ((i + 1) == 0))) fun s d =>
        accLoop rdr v (List.range' (i + 1 + 1) m) s d := rfl
    rw [e]
    generalize hq : rdr s v (i + 1) = q at r1 r2 r3 r4 ⊢
    obtain ⟨t, o⟩ := q
    have hlt : d.addr < s.2.length := by
      by_contra hcc
      rw [List.getElem?_eq_none (Nat.le_of_not_lt hcc)] at hcont
      cases hcont
    cases o with
    | ub => exact absurd rfl r3
    | throws => exact ⟨⟨fun k hk => r1 k (by omega), r2⟩, by simp [bindO], fun d' h => by cases h⟩
    | ok dp =>
      obtain ⟨r5, r6⟩ := r4 dp rfl
      have hcont' : t.2[d.addr]? = some (c.zipWith add (tot (src v) i)) := by rw [r1 _ hlt]; exact hcont
      have hlen : (c.zipWith add (tot (src v) i)).length = n := by simp [hc, tot_length _ n hs]
      obtain ⟨h', d', a1, a2, a3, a4, a5, a6, a7⟩ := addP_spec t.2 d dp false _ _ L n hcont' r6 hlen (hs _) hn (by omega)
        (by dsimp only at r2; omega) hdL (fun h => by cases h)
      have e2 : bindO (t, Res.ok dp) (fun s dp => bindO (onHeap s (addP s.2 d dp ((i + 1) == 0))) fun s d =>
          accLoop rdr v (List.range' (i + 1 + 1) m) s d) = accLoop rdr v (List.range' (i + 1 + 1) m) (t.1, h') d' := by
        show bindO (onHeap t (addP t.2 d dp false)) _ = _
        rw [a1]
        rfl
      rw [e2]
      have a5' : (t.1, h').2[d'.addr]? = some (c.zipWith add (tot (src v) (i + 1))) := by
        show h'[d'.addr]? = _
        rw [a5]
        simp only [tot, zipWith_add_assoc]
        rfl
      obtain ⟨i1, i2, i3⟩ := ih (i + 1) (t.1, h') d' a2 (by dsimp only at r2 ⊢; omega) a3 a5'
      have hk : Keeps L s.2 h' :=
        (⟨fun k hk => r1 k (by omega), r2⟩ : Keeps L s.2 t.2).trans ⟨a6, a7⟩
      refine ⟨hk.trans i1, i2, ?_⟩
      intro d'' h
      obtain ⟨j1, j2, j3⟩ := i3 d'' h
      refine ⟨j1, j2, ?_⟩
      rw [j3]
      congr 3
      omega

/-- The cache holds a running sum in an array of its own. -/
def CacheOK (src : String → ℕ → Arr K) (c : Option Cache) (h : Heap K) : Prop :=
  ∀ x, c = some x → 0 < x.pos ∧ h[x.data.addr]? = some (tot (src x.var) x.pos)

theorem lt_of_get {h : Heap K} {k : ℕ} {a : Arr K} (e : h[k]? = some a) : k < h.length := by
  by_contra hcc
  rw [List.getElem?_eq_none (Nat.le_of_not_lt hcc)] at e
  cases e

theorem Keeps.cache {src : String → ℕ → Arr K} {c : Option Cache} {h h' : Heap K} (hc : CacheOK src c h)
    (hk : Keeps h.length h h') : CacheOK src c h' := by
  intro x hx
  obtain ⟨a, b⟩ := hc x hx
  exact ⟨a, by rw [hk.same _ (lt_of_get b)]; exact b⟩

theorem comb_last (x : ℕ → Arr K) (p : ℕ) (hp : 0 < p) : (x p).zipWith add (tot x (p - 1)) = tot x p := by
  obtain ⟨q, rfl⟩ : ∃ q, p = q + 1 := ⟨p - 1, by omega⟩
  simp only [Nat.add_sub_cancel, tot]
  exact zipWith_add_comm _ _

/-- Adding to the newly read slice keeps all arrays older than it, and gives the running sum (possibly the cached array). -/
theorem accumulate_spec (rdr : Rdr K σ) (src : String → ℕ → Arr K) (hr : Fresh rdr src) (v : String) (n : ℕ) (hn : 0 < n)
    (hs : ∀ i, (src v i).length = n) (cache : Option Cache) (s : σ × Heap K) (L : ℕ) (hL : L ≤ s.2.length)
    (hcache : CacheOK src cache (s.2.take L)) (p : ℕ) (hp : 0 < p) (d : Dat) (hd : L ≤ d.addr)
    (hcont : s.2[d.addr]? = some (src v p)) :
    Keeps L s.2 (accumulate rdr cache v p s d).1.2 ∧ (accumulate rdr cache v p s d).2 ≠ .ub ∧
    ∀ d', (accumulate rdr cache v p s d).2 = .ok d' →
      (accumulate rdr cache v p s d).1.2[d'.addr]? = some (tot (src v) p) := by
  -- without usable cache
  have plain : ∀ (s0 : σ × Heap K) (d0 : Dat), s0 = s → d0 = d →
      Keeps L s.2 (accLoop rdr v (List.range' 0 (p - 0)) s0 d0).1.2 ∧ (accLoop rdr v (List.range' 0 (p - 0)) s0 d0).2 ≠ .ub ∧
      ∀ d', (accLoop rdr v (List.range' 0 (p - 0)) s0 d0).2 = .ok d' →
        (accLoop rdr v (List.range' 0 (p - 0)) s0 d0).1.2[d'.addr]? = some (tot (src v) p) := by
    rintro s0 d0 rfl rfl
    obtain ⟨q, rfl⟩ : ∃ q, p = q + 1 := ⟨p - 1, by omega⟩
    rw [Nat.sub_zero, List.range'_succ]
    obtain ⟨r1, r2, r3, r4⟩ := hr s0 v 0
    have e : accLoop rdr v (0 :: List.range' (0 + 1) q) s0 d0 =
      bindO (rdr s0 v 0) fun s dp => bindO (onHeap s (addP s.2 d0 dp true)) fun s d =>
        accLoop rdr v (List.range' (0 + 1) q) s d := rfl
    rw [e]
    generalize hq : rdr s0 v 0 = w at r1 r2 r3 r4 ⊢
    obtain ⟨t, o⟩ := w
    cases o with
    | ub => exact absurd rfl r3
    | throws => exact ⟨⟨fun k hk => r1 k (by omega), r2⟩, by simp [bindO], fun d' h => by cases h⟩
    | ok dp =>
      obtain ⟨r5, r6⟩ := r4 dp rfl
      have hlt := lt_of_get hcont
      have hcont' : t.2[d0.addr]? = some (src v (q + 1)) := by rw [r1 _ hlt]; exact hcont
      obtain ⟨h', d', a1, a2, a3, a4, a5, a6, a7⟩ := addP_spec t.2 d0 dp true _ _ L n hcont' r6 (hs _) (hs _) hn (by omega)
        (by dsimp only at r2; omega) hd (fun _ => by omega)
      have e2 : bindO (t, Res.ok dp) (fun s dp => bindO (onHeap s (addP s.2 d0 dp true)) fun s d =>
          accLoop rdr v (List.range' (0 + 1) q) s d) = accLoop rdr v (List.range' (0 + 1) q) (t.1, h') d' := by
        show bindO (onHeap t (addP t.2 d0 dp true)) _ = _
        rw [a1]
        rfl
      rw [e2]
      obtain ⟨i1, i2, i3⟩ := loop_spec rdr src hr v n hn hs (src v (q + 1)) (hs _) L q 0 (t.1, h') d' a2
        (by dsimp only at r2 ⊢; omega) a3 (by show h'[d'.addr]? = _; rw [a5]; rfl)
      have hk : Keeps L s0.2 h' := (⟨fun k hk => r1 k (by omega), r2⟩ : Keeps L s0.2 t.2).trans ⟨a6, a7⟩
      refine ⟨hk.trans i1, i2, ?_⟩
      intro d'' h
      rw [(i3 d'' h).2.2, Nat.zero_add]
      exact congrArg some (comb_last (src v) (q + 1) (by omega))
  unfold accumulate startOf
  cases cache with
  | none => exact plain s d rfl rfl
  | some c =>
    dsimp only
    by_cases hc : c.var = v ∧ c.pos ≤ p
    · simp only [if_pos hc]
      obtain ⟨k1, k2⟩ := hcache c rfl
      have k2L : c.data.addr < L := by
        have := lt_of_get k2
        simp at this
        omega
      have k3 : s.2[c.data.addr]? = some (tot (src v) c.pos) := by
        rw [List.getElem?_take, if_pos k2L, hc.1] at k2
        exact k2
      by_cases hcp : c.pos = p
      · rw [if_pos hcp, hcp]
        have : p - (p + 1) = 0 := by omega
        rw [this]
        refine ⟨⟨fun _ _ => rfl, Nat.le_refl _⟩, by simp [bindO, accLoop], ?_⟩
        intro d' h
        have : d' = c.data := by
          have : (Res.ok c.data : Res Dat) = Res.ok d' := h
          exact (Res.ok.inj this).symm
        subst this
        show s.2[c.data.addr]? = _
        rw [k3, hcp]
      · rw [if_neg hcp]
        obtain ⟨h', d', a1, a2, a3, a4, a5, a6, a7⟩ := addP_spec s.2 d c.data false _ _ L n hcont k3 (hs _)
          (tot_length _ n hs _) hn (by omega) hL hd (fun h => by cases h)
        rw [a1]
        show Keeps L s.2 (accLoop rdr v (List.range' (c.pos + 1) (p - (c.pos + 1))) (s.1, h') d').1.2 ∧ _
        obtain ⟨i1, i2, i3⟩ := loop_spec rdr src hr v n hn hs (src v p) (hs _) L (p - (c.pos + 1)) c.pos (s.1, h') d' a2
          (by dsimp only; omega) a3 (by show h'[d'.addr]? = _; rw [a5]; rfl)
        refine ⟨(⟨a6, a7⟩ : Keeps L s.2 h').trans i1, i2, ?_⟩
        intro d'' h
        show (accLoop rdr v (List.range' (c.pos + 1) (p - (c.pos + 1))) (s.1, h') d').1.2[d''.addr]? = _
        rw [(i3 d'' h).2.2]
        have : c.pos + (p - (c.pos + 1)) = p - 1 := by omega
        rw [this]
        exact congrArg some (comb_last (src v) p hp)
    · simp only [if_neg hc]
      exact plain s d rfl rfl

/-- All variables have slices of one size, not empty. -/
def Sized (src : String → ℕ → Arr K) : Prop := ∀ v, ∃ n, 0 < n ∧ ∀ i, (src v i).length = n

theorem process_spec (acc deacc : String → Bool) (hdis : ∀ v, ¬ (acc v = true ∧ deacc v = true)) (rdr : Rdr K σ)
    (src : String → ℕ → Arr K) (hr : Fresh rdr src) (hsz : Sized src) (s : (σ × Option Cache) × Heap K)
    (hc : CacheOK src s.1.2 s.2) (v : String) (p : ℕ) :
    Keeps s.2.length s.2 (process acc deacc rdr s v p).1.2 ∧ (process acc deacc rdr s v p).2 ≠ .ub ∧
    CacheOK src (process acc deacc rdr s v p).1.1.2 (process acc deacc rdr s v p).1.2 ∧
    ∀ d, (process acc deacc rdr s v p).2 = .ok d → ∃ a, (process acc deacc rdr s v p).1.2[d.addr]? = some a ∧
      (acc v = true → a = if p = 0 then src v 0 else tot (src v) p) ∧
      (deacc v = true → a = if p = 0 then src v 0 else
        (src v p).zipWith sub (if p = 1 then (src v 0).map nan0 else src v (p - 1))) ∧
      (acc v = false → deacc v = false → a = src v p) := by
  obtain ⟨n, hn, hs⟩ := hsz v
  unfold process accStage
  obtain ⟨r1, r2, r3, r4⟩ := hr (s.1.1, s.2) v p
  generalize hq : rdr (s.1.1, s.2) v p = w at r1 r2 r3 r4 ⊢
  obtain ⟨t, o⟩ := w
  have hk0 : Keeps s.2.length s.2 t.2 := ⟨r1, r2⟩
  cases o with
  | ub => exact absurd rfl r3
  | throws => exact ⟨hk0, by simp [bindO], hk0.cache hc, fun d h => by cases h⟩
  | ok d =>
    obtain ⟨r5, r6⟩ := r4 d rfl
    dsimp only at r1 r2 r5 r6 ⊢
    by_cases ha : acc v = true ∧ p > 0
    · rw [if_pos ha]
      have hdv : deacc v = false := by
        cases h : deacc v with
        | false => rfl
        | true => exact absurd ⟨ha.1, h⟩ (hdis v)
      have htake : CacheOK src s.1.2 (t.2.take s.2.length) := by
        intro x hx
        obtain ⟨g1, g2⟩ := hc x hx
        have hlt := lt_of_get g2
        refine ⟨g1, ?_⟩
        rw [List.getElem?_take, if_pos hlt, r1 _ hlt]
        exact g2
      obtain ⟨q1, q2, q3⟩ := accumulate_spec rdr src hr v n hn hs s.1.2 t s.2.length r2 htake p ha.2 d r5 r6
      generalize hqa : accumulate rdr s.1.2 v p t d = wa at q1 q2 q3 ⊢
      obtain ⟨ta, oa⟩ := wa
      have hk1 : Keeps s.2.length s.2 ta.2 := hk0.trans q1
      cases oa with
      | ub => exact absurd rfl q2
      | throws => exact ⟨hk1, by simp [bindO], hk1.cache hc, fun d h => by cases h⟩
      | ok d' =>
        have q4 := q3 d' rfl
        have e : bindO ((((ta.1, some ⟨v, p, d'⟩), ta.2) : (σ × Option Cache) × Heap K), Res.ok d')
            (fun s d => deaccStage deacc rdr s d v p) = ((((ta.1, some ⟨v, p, d'⟩), ta.2)), Res.ok d') := by
          show deaccStage deacc rdr _ _ v p = _
          unfold deaccStage
          rw [if_neg (by rw [hdv]; simp)]
        dsimp only
        rw [e]
        refine ⟨hk1, by simp, ?_, ?_⟩
        · intro x hx
          have : x = ⟨v, p, d'⟩ := (Option.some.inj hx).symm
          subst this
          exact ⟨ha.2, q4⟩
        · intro d'' h
          have : d'' = d' := (Res.ok.inj h).symm
          subst this
          refine ⟨_, q4, fun _ => by rw [if_neg (by omega)], fun h => ?_, fun h _ => ?_⟩
          · rw [hdv] at h; cases h
          · rw [ha.1] at h; cases h
    · rw [if_neg ha]
      have e : bindO ((((t.1, s.1.2), t.2) : (σ × Option Cache) × Heap K), Res.ok d)
          (fun s d => deaccStage deacc rdr s d v p) = deaccStage deacc rdr ((t.1, s.1.2), t.2) d v p := rfl
      rw [e]
      unfold deaccStage
      by_cases hd : deacc v = true ∧ p ≠ 0
      · rw [if_pos hd]
        have hav : acc v = false := by
          cases h : acc v with
          | false => rfl
          | true => exact absurd ⟨h, hd.1⟩ (hdis v)
        dsimp only
        obtain ⟨u1, u2, u3, u4⟩ := hr (t.1, t.2) v (p - 1)
        generalize hq2 : rdr (t.1, t.2) v (p - 1) = w2 at u1 u2 u3 u4 ⊢
        obtain ⟨t2, o2⟩ := w2
        have hk2 : Keeps s.2.length s.2 t2.2 := hk0.trans ⟨fun k hk => u1 k (by dsimp only; omega), u2⟩
        cases o2 with
        | ub => exact absurd rfl u3
        | throws => exact ⟨hk2, by simp, hk2.cache hc, fun d h => by cases h⟩
        | ok dp =>
          obtain ⟨u5, u6⟩ := u4 dp rfl
          dsimp only at u1 u2 u5 u6 ⊢
          have hlt := lt_of_get r6
          have hd6 : t2.2[d.addr]? = some (src v p) := by rw [u1 _ hlt]; exact r6
          obtain ⟨h', d', a1, a2, a3, a4, a5, a6, a7⟩ := subP_spec t2.2 d dp (p == 1) _ _ s.2.length n hd6 u6 (hs _) (hs _) hn
            (by omega) (by omega) r5 (fun _ => by omega)
          rw [a1]
          have hk3 : Keeps s.2.length s.2 h' := hk2.trans ⟨a6, a7⟩
          refine ⟨hk3, by simp [onHeap], hk3.cache hc, ?_⟩
          intro d'' h
          have : d'' = d' := (Res.ok.inj h).symm
          subst this
          refine ⟨_, a5, fun h => ?_, fun _ => ?_, fun _ h => ?_⟩
          · rw [hav] at h; cases h
          · rw [if_neg hd.2]
            by_cases hp1 : p = 1
            · subst hp1; rfl
            · rw [if_neg hp1, if_neg (by simpa using hp1)]
          · rw [hd.1] at h; cases h
      · rw [if_neg hd]
        refine ⟨hk0, by simp, hk0.cache hc, ?_⟩
        intro d'' h
        have : d'' = d := (Res.ok.inj h).symm
        subst this
        refine ⟨_, r6, fun h => ?_, fun h => ?_, fun _ _ => rfl⟩
        · have : p = 0 := by
            by_contra hp
            exact ha ⟨h, by omega⟩
          rw [if_pos this, this]
        · have : p = 0 := by
            by_contra hp
            exact hd ⟨h, hp⟩
          rw [if_pos this, this]

/-! ## Theorems -/

/-- Starting state: nothing cached. -/
def start (s : σ) : (σ × Option Cache) × Heap K := ((s, none), [])

theorem history_ok (acc deacc : String → Bool) (hdis : ∀ v, ¬ (acc v = true ∧ deacc v = true)) (rdr : Rdr K σ)
    (src : String → ℕ → Arr K) (hr : Fresh rdr src) (hsz : Sized src) (rs : List (String × ℕ)) :
    ∀ s : (σ × Option Cache) × Heap K, CacheOK src s.1.2 s.2 →
      CacheOK src (history (process acc deacc rdr) s rs).1.2 (history (process acc deacc rdr) s rs).2 := by
  induction rs with
  | nil => intro s h; exact h
  | cons r rs ih =>
    intro s h
    exact ih _ (process_spec acc deacc hdis rdr src hr hsz s h r.1 r.2).2.2.1

/-- **C52.** After every history of reads of any variables and slices, raising ones included: a read of slice `p` of an
accumulated variable has no undefined behaviour, and if it returns, each cell has the running sum of the source slices up to
`p` (undefined values of slice 0 counting as 0; slice 0 itself is returned as it is). -/
theorem C52_accumulated_slices (acc deacc : String → Bool) (hdis : ∀ v, ¬ (acc v = true ∧ deacc v = true)) (rdr : Rdr K σ)
    (src : String → ℕ → Arr K) (hr : Fresh rdr src) (hsz : Sized src) (s₀ : σ) (rs : List (String × ℕ)) (v : String) (p : ℕ)
    (hv : acc v = true) :
    let r := process acc deacc rdr (history (process acc deacc rdr) (start s₀) rs) v p
    r.2 ≠ .ub ∧ ∀ d, r.2 = .ok d → ∃ a, r.1.2[d.addr]? = some a ∧ a.length = (src v p).length ∧
      ∀ j, j < a.length → cell a j = accumulated (fun i => cell (src v i) j) p := by
  have hc := history_ok acc deacc hdis rdr src hr hsz rs (start s₀) (by intro x hx; cases hx)
  obtain ⟨_, h2, _, h4⟩ := process_spec acc deacc hdis rdr src hr hsz _ hc v p
  refine ⟨h2, fun d hd => ?_⟩
  obtain ⟨a, e, ha, _, _⟩ := h4 d hd
  obtain ⟨n, hn, hs⟩ := hsz v
  have ha := ha hv
  refine ⟨a, e, ?_, ?_⟩
  · rw [ha]
    by_cases hp : p = 0
    · rw [if_pos hp, hs, hs]
    · rw [if_neg hp, tot_length _ n hs, hs]
  · intro j hj
    unfold accumulated
    by_cases hp : p = 0
    · rw [if_pos hp] at ha ⊢
      rw [ha]
    · rw [if_neg hp] at ha ⊢
      have hl : a.length = n := by rw [ha]; exact tot_length _ n hs p
      rw [ha, cell_tot (src v) n hs p j (by omega)]

/-- **C52.** A read does not change any array that exists before it, in particular no data returned earlier. -/
theorem C52_reads_leave_data_alone (acc deacc : String → Bool) (hdis : ∀ v, ¬ (acc v = true ∧ deacc v = true))
    (rdr : Rdr K σ) (src : String → ℕ → Arr K) (hr : Fresh rdr src) (hsz : Sized src) (s₀ : σ) (rs : List (String × ℕ))
    (v : String) (p k : ℕ) (hk : k < (history (process acc deacc rdr) (start s₀) rs).2.length) :
    (process acc deacc rdr (history (process acc deacc rdr) (start s₀) rs) v p).1.2[k]? =
      (history (process acc deacc rdr) (start s₀) rs).2[k]? :=
  (process_spec acc deacc hdis rdr src hr hsz _
    (history_ok acc deacc hdis rdr src hr hsz rs (start s₀) (by intro x hx; cases hx)) v p).1.same k hk

omit [AddCommGroup K] in
theorem fileReader_fresh (src : String → ℕ → Arr K) (dbl : Bool) : Fresh (fileReader src dbl) src := by
  intro s v i
  refine ⟨?_, by simp [fileReader], by simp [fileReader], ?_⟩
  · intro k hk
    simp only [fileReader]
    rw [List.getElem?_append_left hk]
  · intro d hd
    simp only [fileReader, Res.ok.injEq] at hd
    subst hd
    simp [fileReader]

/-- Slices 10, 1, 2, 3, ... of two cells, the second cell undefined in slice 0. -/
def sampleSrc : String → ℕ → Arr ℤ := fun _ i => if i = 0 then [some 10, none] else [some i, some 1]

example : Fresh (fileReader sampleSrc true) sampleSrc ∧ Sized sampleSrc :=
  ⟨fileReader_fresh _ _, fun _ => ⟨2, by decide, fun i => by unfold sampleSrc; split <;> rfl⟩⟩

example :
    let P := process (fun _ => true) (fun _ => false) (fileReader sampleSrc true)
    let s := history P (start ()) [("a", 2), ("b", 1), ("a", 3), ("a", 1), ("a", 0)]
    (P s "a" 4).2.bind (fun d => readAt (P s "a" 4).1.2 d.addr) = .ok [some 20, some 4] := by decide

/-- **C53.** A read of a de-accumulated variable returns the differences of consecutive slices, after every history. -/
theorem C53_differences (acc deacc : String → Bool) (hdis : ∀ v, ¬ (acc v = true ∧ deacc v = true)) (rdr : Rdr K σ)
    (src : String → ℕ → Arr K) (hr : Fresh rdr src) (hsz : Sized src) (s₀ : σ) (rs : List (String × ℕ)) (v : String) (p : ℕ)
    (hv : deacc v = true) :
    let r := process acc deacc rdr (history (process acc deacc rdr) (start s₀) rs) v p
    r.2 ≠ .ub ∧ ∀ d, r.2 = .ok d → ∃ a, r.1.2[d.addr]? = some a ∧ a.length = (src v p).length ∧
      ∀ j, j < a.length → cell a j = difference (fun i => cell (src v i) j) p := by
  have hc := history_ok acc deacc hdis rdr src hr hsz rs (start s₀) (by intro x hx; cases hx)
  obtain ⟨_, h2, _, h4⟩ := process_spec acc deacc hdis rdr src hr hsz _ hc v p
  refine ⟨h2, fun d hd => ?_⟩
  obtain ⟨a, e, _, ha, _⟩ := h4 d hd
  obtain ⟨n, hn, hs⟩ := hsz v
  have ha := ha hv
  unfold difference
  by_cases hp : p = 0
  · rw [if_pos hp] at ha
    refine ⟨a, e, by rw [ha, hs, hs], ?_⟩
    intro j hj
    rw [if_pos hp, ha]
  · rw [if_neg hp] at ha
    by_cases hp1 : p = 1
    · rw [if_pos hp1] at ha
      have hl : a.length = n := by rw [ha]; simp [hs]
      refine ⟨a, e, by rw [hl, hs], ?_⟩
      intro j hj
      rw [if_neg hp, if_pos hp1, ha, getElem?_zipWith sub _ _ n (hs _) (by simp [hs]) j (by omega), hp1,
        cell_map_nan0 _ j (by rw [hs]; omega)]
    · rw [if_neg hp1] at ha
      have hl : a.length = n := by rw [ha]; simp [hs]
      refine ⟨a, e, by rw [hl, hs], ?_⟩
      intro j hj
      rw [if_neg hp, if_neg hp1, ha, getElem?_zipWith sub _ _ n (hs _) (hs _) j (by omega)]

omit [AddCommGroup K] in
theorem total_some [AddCommGroup K] (x : ℕ → Option K) (p : ℕ) (h : ∀ i, 0 < i → i ≤ p → x i ≠ none) : ∃ y, total x p = some y := by
  induction p with
  | zero => exact ⟨_, rfl⟩
  | succ p ih =>
    obtain ⟨y, hy⟩ := ih fun i h1 h2 => h i h1 (by omega)
    obtain ⟨z, hz⟩ := Option.ne_none_iff_exists'.1 (h (p + 1) (by omega) (Nat.le_refl _))
    exact ⟨y + z, by simp [total, hy, hz, add]⟩

/-- **C53.** Differences of running sums are the original slices: in each cell where the earlier slices (other than slice
0) are defined, for every slice, undefined ones included. -/
theorem C53_inverts_accumulation (x : ℕ → Option K) (p : ℕ) (h : ∀ i, 0 < i → i < p → x i ≠ none) :
    difference (accumulated x) p = x p := by
  unfold difference accumulated
  by_cases hp : p = 0
  · rw [if_pos hp, if_pos rfl, hp]
  · rw [if_neg hp]
    by_cases hp1 : p = 1
    · rw [if_pos hp1, if_neg (by omega), if_pos rfl, hp1]
      cases h1 : x 1 with
      | none => simp [total, add, sub, h1]
      | some y => simp [total, add, sub, h1]
    · rw [if_neg hp1, if_neg hp, if_neg (by omega)]
      obtain ⟨q, rfl⟩ : ∃ q, p = q + 1 := ⟨p - 1, by omega⟩
      obtain ⟨y, hy⟩ := total_some x q fun i h1 h2 => h i h1 (by omega)
      simp only [Nat.add_sub_cancel, total]
      rw [hy]
      cases h1 : x (q + 1) with
      | none => rfl
      | some z => simp [add, sub]

/-- **C53.** Running sums of differences are the original slices from slice 1 on, where all slices up to it are defined. -/
theorem C53_accumulation_inverts (x : ℕ → Option K) (p : ℕ) (hx : ∀ i, i ≤ p → x i ≠ none) :
    accumulated (difference x) p = x p := by
  have key : ∀ q, q ≤ p → total (difference x) q = x q := by
    intro q
    induction q with
    | zero =>
      intro _
      obtain ⟨y, hy⟩ := Option.ne_none_iff_exists'.1 (hx 0 (Nat.zero_le _))
      simp [total, difference, hy]
    | succ q ih =>
      intro hq
      have h1 := ih (by omega)
      obtain ⟨y, hy⟩ := Option.ne_none_iff_exists'.1 (hx q (by omega))
      obtain ⟨z, hz⟩ := Option.ne_none_iff_exists'.1 (hx (q + 1) hq)
      simp only [total]
      rw [h1]
      unfold difference
      rw [if_neg (by omega)]
      by_cases hq0 : q = 0
      · subst hq0
        rw [if_pos rfl, hy, hz]
        simp [add, sub]
      · rw [if_neg (by omega), Nat.add_sub_cancel, hy, hz]
        simp [add, sub]
  unfold accumulated
  by_cases hp : p = 0
  · rw [if_pos hp, hp]; rfl
  · rw [if_neg hp]; exact key p (Nat.le_refl _)

example : ∀ i, 0 < i → i < 3 → (fun i : ℕ => if i = 0 then none else some (i : ℤ)) i ≠ none := by
  intro i h _; simp; omega

/-- Undefined values in a slice after slice 0 make all later running sums undefined: the original is not restored. -/
theorem C53_undefined_values_spread :
    let x : ℕ → Option ℤ := fun i => if i = 1 then none else some i
    difference (accumulated x) 2 = none ∧ x 2 = some 2 := by decide

/-- A variable both accumulated and de-accumulated: the second step overwrites the cached sums, so a second read of the same
slice differs from the first (slices of type `double`, or any type as sums are `double`). -/
theorem C52_both_steps_corrupt_cache :
    let P := process (fun _ => true) (fun _ => true) (fileReader sampleSrc true)
    let r1 := P (start ()) "a" 2
    let r2 := P r1.1 "a" 2
    r1.2.bind (fun d => readAt r1.1.2 d.addr) = .ok [some 12, some 1] ∧
    r2.2.bind (fun d => readAt r2.1.2 d.addr) = .ok [some 11, some 0] := by decide

/-- A de-accumulating processor behind an accumulating one: reading slice 1 twice gives slice 1 only the first time, since the
array returned is the cached one and is overwritten. -/
theorem C53_chain_depends_on_history :
    let inner := process (fun _ => true) (fun _ => false) (fileReader sampleSrc true)
    let P := process (fun _ => false) (fun _ => true) inner
    let s₀ : ((Unit × Option Cache) × Option Cache) × Heap ℤ := start ((), none)
    let r1 := P s₀ "a" 1
    let r2 := P r1.1 "a" 1
    r1.2.bind (fun d => readAt r1.1.2 d.addr) = .ok [some 1, some 1] ∧
    r2.2.bind (fun d => readAt r2.1.2 d.addr) = .ok [some (-9), some 1] := by decide

/-- If some slices are empty, the result depends on what was read before. -/
theorem C52_empty_slices_depend_on_history :
    let src : String → ℕ → Arr ℤ := fun _ i => if i = 2 then [] else if i = 0 then [none] else [some 1]
    let P := process (fun _ => true) (fun _ => false) (fileReader src true)
    let r1 := P (start ()) "a" 2
    let r2 := P (P (start ()) "a" 1).1 "a" 2
    r1.2.bind (fun d => readAt r1.1.2 d.addr) = .ok [none] ∧
    r2.2.bind (fun d => readAt r2.1.2 d.addr) = .ok [some 1] := by decide

end Fimex.Processor
