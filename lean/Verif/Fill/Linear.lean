import Verif.Fill.Props

/-!
# Filling undefined values: range, constant fields and change of unit (C72)

About the model of `mifi_fill2d_f` and the creep fills (`src/interpolation.c:548-826`) in `Verif/Fill/Model.lean`.
-/

namespace Fimex.Fill

open Fimex.Interp (oadd omul osub)

variable {K : Type} [Field K] [LinearOrder K] [IsStrictOrderedRing K]

/-! ## Partial correctness of the loops -/

theorem forN_pres {S : Type} {body : ℕ → S → Res S} (P : S → Prop) (hb : ∀ i s s', P s → body i s = .ok s' → P s') (n : ℕ) :
    ∀ lo s s', P s → forN body lo n s = .ok s' → P s' := by
  induction n with
  | zero => intro lo s s' h e; cases e; exact h
  | succ n ih =>
    intro lo s s' h e
    obtain ⟨s1, e1, e2⟩ := Res.bind_eq_ok.1 e
    exact ih (lo + 1) s1 s' (hb lo s s1 h e1) e2

/-- All values lie in the range; the weights lie between 0 and 1, unless the range is a single value. -/
structure Range (lo hi : K) (s : Work K) : Prop where
  value : ∀ (i : ℕ) (v : K), s.f[i]? = some (some v) → lo ≤ v ∧ v ≤ hi
  weight : ∀ (i : ℕ) (w : K), s.w[i]? = some w → lo = hi ∨ (0 ≤ w ∧ w ≤ 1)

omit [Field K] [LinearOrder K] [IsStrictOrderedRing K] in
theorem readAt_ok {α : Type} {a : List α} {i : ℕ} {v : α} (h : readAt a i = .ok v) : a[i]? = some v := by
  unfold readAt at h
  cases e : a[i]? with
  | none => rw [e] at h; cases h
  | some u => rw [e] at h; cases h; rfl

omit [Field K] [LinearOrder K] [IsStrictOrderedRing K] in
theorem writeAt_ok {α : Type} {a b : List α} {i : ℕ} {v : α} (h : writeAt a i v = .ok b) : b = a.set i v ∧ i < a.length := by
  unfold writeAt at h
  by_cases hi : i < a.length
  · rw [if_pos hi] at h; cases h; exact ⟨rfl, hi⟩
  · rw [if_neg hi] at h; cases h

/-- The range is kept by a step towards a value in the range, of weight at most one; or of any weight when the range is a single value. -/
theorem toward {lo hi c w d : K} (hc : lo ≤ c ∧ c ≤ hi) (hd : lo ≤ d ∧ d ≤ hi) (hw : lo = hi ∨ (0 ≤ w ∧ w ≤ 1)) :
    lo ≤ c + w * (d - c) ∧ c + w * (d - c) ≤ hi := by
  rcases hw with ht | hw
  swap
  · have h1 : 0 ≤ 1 - w := by linarith [hw.2]
    have e : c + w * (d - c) = (1 - w) * c + w * d := by ring
    rw [e]
    have a1 := mul_le_mul_of_nonneg_left hc.1 h1
    have a2 := mul_le_mul_of_nonneg_left hc.2 h1
    have b1 := mul_le_mul_of_nonneg_left hd.1 hw.1
    have b2 := mul_le_mul_of_nonneg_left hd.2 hw.1
    constructor <;> linarith
  · subst ht
    have e1 : c = lo := le_antisymm hc.2 hc.1
    have e2 : d = lo := le_antisymm hd.2 hd.1
    rw [e1, e2, sub_self, mul_zero, add_zero]
    exact ⟨le_rfl, le_rfl⟩

omit [IsStrictOrderedRing K] in
theorem Range.set {lo hi : K} {s : Work K} (h : Range lo hi s) (i : ℕ) (v : Option K) (hv : ∀ u, v = some u → lo ≤ u ∧ u ≤ hi)
    (e : List (Option (Option K))) (p : ℕ) : Range lo hi { f := s.f.set i v, w := s.w, e := e, p := p } where
  value := by
    intro j u hu
    by_cases hij : i = j
    · subst hij
      have hi' : i < s.f.length := by simpa using (List.getElem?_eq_some_iff.1 hu).1
      simp only [List.getElem?_set_self hi', Option.some.injEq] at hu
      exact hv u hu
    · exact h.value j u (by simpa [List.getElem?_set_ne hij] using hu)
  weight := h.weight

theorem relax_range {lo hi : K} (nx : ℕ) (s s' : Work K) (h : Range lo hi s) (e : relax nx s = .ok s') :
    Range lo hi s' := by
  unfold relax at e
  dsimp only at e
  obtain ⟨a, ha, e⟩ := Res.bind_eq_ok.1 e
  obtain ⟨b, hb, e⟩ := Res.bind_eq_ok.1 e
  obtain ⟨c, hc, e⟩ := Res.bind_eq_ok.1 e
  obtain ⟨d, hd, e⟩ := Res.bind_eq_ok.1 e
  obtain ⟨m, hm, e⟩ := Res.bind_eq_ok.1 e
  obtain ⟨w, hw, e⟩ := Res.bind_eq_ok.1 e
  obtain ⟨e1, he1, e⟩ := Res.bind_eq_ok.1 e
  obtain ⟨f1, hf1, e⟩ := Res.bind_eq_ok.1 e
  cases e
  obtain ⟨rfl, -⟩ := writeAt_ok hf1
  refine h.set _ _ ?_ _ _
  intro u hu
  cases a with
  | none => cases m <;> cases hu
  | some a => cases b with
    | none => cases m <;> cases hu
    | some b => cases c with
      | none => cases m <;> cases hu
      | some c => cases d with
        | none => cases m <;> cases hu
        | some d => cases m with
          | none => cases hu
          | some m =>
            have ra := h.value _ _ (readAt_ok ha)
            have rb := h.value _ _ (readAt_ok hb)
            have rc := h.value _ _ (readAt_ok hc)
            have rd := h.value _ _ (readAt_ok hd)
            have rm := h.value _ _ (readAt_ok hm)
            have rw' := h.weight _ _ (readAt_ok hw)
            have hu : m + w * (1 / 4 * (a + b + c + d) - m) = u := Option.some.inj hu
            rw [← hu]
            refine toward rm ?_ rw'
            constructor <;> linarith [ra.1, ra.2, rb.1, rb.2, rc.1, rc.2, rd.1, rd.2]

omit [IsStrictOrderedRing K] in
theorem Range.move {lo hi : K} {s : Work K} (h : Range lo hi s) (p : ℕ) : Range lo hi { s with p := p } := ⟨h.value, h.weight⟩

theorem relaxPass_range {lo hi : K} (nx ny : ℕ) (s s' : Work K) (h : Range lo hi s)
    (e : relaxPass nx ny s = .ok s') : Range lo hi s' := by
  refine forN_pres (Range lo hi) ?_ _ _ _ _ (h.move nx) e
  intro _ s s' h e
  obtain ⟨s1, e1, e2⟩ := Res.bind_eq_ok.1 e
  cases e2
  exact (forN_pres (Range lo hi) (fun _ s s' h e => relax_range nx s s' h e) _ _ _ _ h e1).move _

theorem borderCell_range {lo hi : K} (i j : ℕ) (s s' : Work K) (h : Range lo hi s)
    (e : borderCell i j s = .ok s') : Range lo hi s' := by
  unfold borderCell at e
  obtain ⟨a, ha, e⟩ := Res.bind_eq_ok.1 e
  obtain ⟨b, hb, e⟩ := Res.bind_eq_ok.1 e
  obtain ⟨w, hw, e⟩ := Res.bind_eq_ok.1 e
  obtain ⟨f1, hf1, e⟩ := Res.bind_eq_ok.1 e
  cases e
  obtain ⟨rfl, -⟩ := writeAt_ok hf1
  refine h.set _ _ ?_ _ _
  intro u hu
  cases a with
  | none => cases b <;> cases hu
  | some a => cases b with
    | none => cases hu
    | some b =>
      have hu : b + w * (a - b) = u := Option.some.inj hu
      rw [← hu]
      exact toward (h.value _ _ (readAt_ok hb)) (h.value _ _ (readAt_ok ha)) (h.weight _ _ (readAt_ok hw))

theorem borders_range {lo hi : K} (nx ny : ℕ) (s s' : Work K) (h : Range lo hi s)
    (e : borders nx ny s = .ok s') : Range lo hi s' := by
  unfold borders at e
  obtain ⟨s1, e1, e2⟩ := Res.bind_eq_ok.1 e
  have h1 : Range lo hi s1 := by
    refine forN_pres (Range lo hi) ?_ _ _ _ _ h e1
    intro _ s s' h e
    obtain ⟨s1, e1, e2⟩ := Res.bind_eq_ok.1 e
    exact borderCell_range _ _ _ _ (borderCell_range _ _ _ _ h e1) e2
  refine forN_pres (Range lo hi) ?_ _ _ _ _ h1 e2
  intro _ s s' h e
  obtain ⟨s1, e1, e2⟩ := Res.bind_eq_ok.1 e
  exact borderCell_range _ _ _ _ (borderCell_range _ _ _ _ h e1) e2

theorem fillLoop_range {lo hi : K} (nx ny maxLoop : ℕ) (crtest : K) (k : ℕ) :
    ∀ n (s s' : Work K), Range lo hi s → fillLoop nx ny maxLoop crtest n k s = .ok s' → Range lo hi s' := by
  induction k with
  | zero => intro n s s' h e; cases e; exact h
  | succ k ih =>
    intro n s s' h e
    rw [fillLoop_succ] at e
    obtain ⟨s1, e1, e⟩ := Res.bind_eq_ok.1 e
    have h1 := relaxPass_range nx ny s s1 h e1
    obtain ⟨b, -, e⟩ := Res.bind_eq_ok.1 e
    cases b with
    | true => cases e; exact h1
    | false =>
      rw [if_neg Bool.false_ne_true] at e
      obtain ⟨s2, e2, e⟩ := Res.bind_eq_ok.1 e
      exact ih _ _ _ (borders_range nx ny s1 s2 h1 e2) e

omit [LinearOrder K] [IsStrictOrderedRing K] in
theorem innerWeights_pres (P : K → Prop) (corrEff : K) (hP : ∀ v, P v → P (v * corrEff)) (nx ny : ℕ) (w w' : List K)
    (h : ∀ (i : ℕ) (v : K), w[i]? = some v → P v) (e : innerWeights nx ny corrEff w = .ok w') : ∀ (i : ℕ) (v : K), w'[i]? = some v → P v := by
  refine forN_pres (fun w : List K => ∀ (i : ℕ) (v : K), w[i]? = some v → P v) ?_ _ _ _ _ h e
  intro y w w' h e
  refine forN_pres (fun w : List K => ∀ (i : ℕ) (v : K), w[i]? = some v → P v) ?_ _ _ _ _ h e
  intro x w w' h e
  obtain ⟨v, hv, e⟩ := Res.bind_eq_ok.1 e
  obtain ⟨rfl, hlt⟩ := writeAt_ok e
  intro i u hu
  by_cases hi : y * nx + x = i
  · subst hi
    rw [List.getElem?_set_self hlt] at hu
    cases hu
    exact hP v (h _ _ (readAt_ok hv))
  · rw [List.getElem?_set_ne hi] at hu
    exact h i u hu

/-- The mean of the defined values lies in their range. -/
theorem average_range (field : List (Option K)) (n : ℕ) (hn : n = countDefined field) (h0 : n ≠ 0) {lo hi : K}
    (hr : ∀ v, some v ∈ field → lo ≤ v ∧ v ≤ hi) : lo ≤ sumDefined field / (n : K) ∧ sumDefined field / (n : K) ≤ hi := by
  have hpos : 0 < (n : K) := by exact_mod_cast Nat.pos_of_ne_zero h0
  have := sum_range field hr
  rw [le_div_iff₀ hpos, div_le_iff₀ hpos, hn]
  constructor <;> linarith [this.1, this.2]

/-! ## Change of unit -/

/-- The values in another unit. -/
def unit (a b : K) (v : Option K) : Option K := v.map fun v => a * v + b

/-- The field in another unit. -/
def units (a b : K) (f : List (Option K)) : List (Option K) := f.map (unit a b)

/-- The working arrays in another unit: the error field has differences only. -/
def Work.units (a b : K) (s : Work K) : Work K :=
  { f := Fill.units a b s.f, w := s.w, e := s.e.map fun e => e.map (Fill.unit a 0), p := s.p }

omit [LinearOrder K] [IsStrictOrderedRing K] in
theorem readAt_map {α β : Type} (g : α → β) (l : List α) (i : ℕ) : readAt (l.map g) i = readAt l i >>= fun v => .ok (g v) := by
  unfold readAt
  rw [List.getElem?_map]
  cases l[i]? <;> rfl

omit [LinearOrder K] [IsStrictOrderedRing K] in
theorem writeAt_map {α β : Type} (g : α → β) (l : List α) (i : ℕ) (v : α) : writeAt (l.map g) i (g v) = writeAt l i v >>= fun l => .ok (l.map g) := by
  unfold writeAt
  rw [List.length_map]
  by_cases h : i < l.length
  · rw [if_pos h, if_pos h, Res.ok_bind, List.map_set]
  · rw [if_neg h, if_neg h]; rfl

theorem forN_map {S : Type} {body : ℕ → S → Res S} {body' : ℕ → S → Res S} (T : S → S) (P : S → Prop)
    (hP : ∀ i s s', P s → body i s = .ok s' → P s')
    (h : ∀ i s, P s → body' i (T s) = body i s >>= fun s => .ok (T s)) (n : ℕ) :
    ∀ lo s, P s → forN body' lo n (T s) = forN body lo n s >>= fun s => .ok (T s) := by
  induction n with
  | zero => intro lo s _; rfl
  | succ n ih =>
    intro lo s hs
    simp only [forN]
    rw [h lo s hs]
    cases e : body lo s with
    | throws => rfl
    | ub => rfl
    | ok s1 =>
      simp only [Res.ok_bind]
      exact ih (lo + 1) s1 (hP lo s s1 hs e)

theorem relax_units (a b : K) (nx : ℕ) (s : Work K) : relax nx (s.units a b) = relax nx s >>= fun s => .ok (s.units a b) := by
  unfold relax Work.units Fill.units
  dsimp only
  simp only [readAt_map]
  cases h1 : readAt s.f (s.p + 1 + 1) with
  | throws => rfl
  | ub => rfl
  | ok x1 =>
  cases h2 : readAt s.f (s.p + 1 - 1) with
  | throws => rfl
  | ub => rfl
  | ok x2 =>
  cases h3 : readAt s.f (s.p + 1 + nx) with
  | throws => rfl
  | ub => rfl
  | ok x3 =>
  cases h4 : readAt s.f (wsub (s.p + 1) nx) with
  | throws => rfl
  | ub => rfl
  | ok x4 =>
  cases h5 : readAt s.f (s.p + 1) with
  | throws => rfl
  | ub => rfl
  | ok x5 =>
  cases h6 : readAt s.w (s.p + 1) with
  | throws => rfl
  | ub => rfl
  | ok w =>
  simp only [Res.ok_bind]
  have hev : osub (omul (1 / 4) (oadd (oadd (oadd (unit a b x1) (unit a b x2)) (unit a b x3)) (unit a b x4))) (unit a b x5) =
      unit a 0 (osub (omul (1 / 4) (oadd (oadd (oadd x1 x2) x3) x4)) x5) := by
    cases x1 with
    | none => cases x5 <;> rfl
    | some x1 => cases x2 with
      | none => cases x5 <;> rfl
      | some x2 => cases x3 with
        | none => cases x5 <;> rfl
        | some x3 => cases x4 with
          | none => cases x5 <;> rfl
          | some x4 => cases x5 with
            | none => rfl
            | some x5 =>
              show some (1 / 4 * (a * x1 + b + (a * x2 + b) + (a * x3 + b) + (a * x4 + b)) - (a * x5 + b)) = some (a * (1 / 4 * (x1 + x2 + x3 + x4) - x5) + 0)
              congr 1
              ring
  have hnew : ∀ e : Option K, oadd (unit a b x5) (omul w (unit a 0 e)) = unit a b (oadd x5 (omul w e)) := by
    intro e
    cases e with
    | none => cases x5 <;> rfl
    | some e => cases x5 with
      | none => rfl
      | some x5 =>
        show some (a * x5 + b + w * (a * e + 0)) = some (a * (x5 + w * e) + b)
        congr 1
        ring
  rw [hev, hnew]
  have he := writeAt_map (fun e : Option (Option K) => e.map (unit a 0)) s.e (s.p + 1) (some (osub (omul (1 / 4) (oadd (oadd (oadd x1 x2) x3) x4)) x5))
  simp only [Option.map_some] at he
  rw [he, writeAt_map]
  cases writeAt s.e (s.p + 1) (some (osub (omul (1 / 4) (oadd (oadd (oadd x1 x2) x3) x4)) x5)) with
  | throws => rfl
  | ub => rfl
  | ok e' =>
    simp only [Res.ok_bind]
    cases writeAt s.f (s.p + 1) (oadd x5 (omul w (osub (omul (1 / 4) (oadd (oadd (oadd x1 x2) x3) x4)) x5))) <;> rfl

theorem forN_map' {S : Type} {body : ℕ → S → Res S} {body' : ℕ → S → Res S} (T : S → S)
    (h : ∀ i s, body' i (T s) = body i s >>= fun s => .ok (T s)) (n lo : ℕ) (s : S) :
    forN body' lo n (T s) = forN body lo n s >>= fun s => .ok (T s) :=
  forN_map T (fun _ => True) (fun _ _ _ _ _ => trivial) (fun i s _ => h i s) n lo s trivial

theorem relaxPass_units (a b : K) (nx ny : ℕ) (s : Work K) : relaxPass nx ny (s.units a b) = relaxPass nx ny s >>= fun s => .ok (s.units a b) := by
  unfold relaxPass
  refine forN_map' (fun s : Work K => s.units a b) (fun y s => ?_) _ _ { s with p := nx }
  rw [forN_map' (body := fun _ s => relax nx s) (fun s : Work K => s.units a b) (fun _ s => relax_units a b nx s)]
  cases forN (fun _ s => relax nx s) 1 (nx - 1 - 1) s <;> rfl

omit [LinearOrder K] [IsStrictOrderedRing K] in
theorem borderCell_units (a b : K) (i j : ℕ) (s : Work K) : borderCell i j (s.units a b) = borderCell i j s >>= fun s => .ok (s.units a b) := by
  unfold borderCell Work.units Fill.units
  dsimp only
  simp only [readAt_map]
  cases h1 : readAt s.f j with
  | throws => rfl
  | ub => rfl
  | ok x =>
  cases h2 : readAt s.f i with
  | throws => rfl
  | ub => rfl
  | ok y =>
  cases h3 : readAt s.w i with
  | throws => rfl
  | ub => rfl
  | ok w =>
  simp only [Res.ok_bind]
  have : oadd (unit a b y) (omul w (osub (unit a b x) (unit a b y))) = unit a b (oadd y (omul w (osub x y))) := by
    cases x with
    | none => cases y <;> rfl
    | some x => cases y with
      | none => rfl
      | some y =>
        show some (a * y + b + w * (a * x + b - (a * y + b))) = some (a * (y + w * (x - y)) + b)
        congr 1
        ring
  rw [this, writeAt_map]
  cases writeAt s.f i (oadd y (omul w (osub x y))) <;> rfl

omit [LinearOrder K] [IsStrictOrderedRing K] in
theorem borders_units (a b : K) (nx ny : ℕ) (s : Work K) : borders nx ny (s.units a b) = borders nx ny s >>= fun s => .ok (s.units a b) := by
  have two : ∀ i j i' j' (s : Work K), (borderCell i j (s.units a b) >>= fun s => borderCell i' j' s) =
      (borderCell i j s >>= fun s => borderCell i' j' s) >>= fun s => .ok (s.units a b) := by
    intro i j i' j' s
    rw [borderCell_units]
    cases borderCell i j s with
    | throws => rfl
    | ub => rfl
    | ok s => exact borderCell_units a b i' j' s
  unfold borders
  rw [forN_map' (fun s : Work K => s.units a b) (fun y s => two _ _ _ _ s)]
  cases forN (fun y s => borderCell (y * nx) (y * nx + 1) s >>= fun s => borderCell (y * nx + (nx - 1)) (wadd (y * nx) (wsub nx 2)) s) 1 (ny - 1 - 1) s with
  | throws => rfl
  | ub => rfl
  | ok s =>
    simp only [Res.ok_bind]
    exact forN_map' (fun s : Work K => s.units a b) (fun x s => two _ _ _ _ s) _ _ s

theorem isBad_units (a : K) (ha : a ≠ 0) (crtest w : K) (e : Option K) : isBad (|a| * crtest) w (unit a 0 e) = isBad crtest w e := by
  cases e with
  | none => rfl
  | some e =>
    show decide (|w * (a * e + 0)| > |a| * crtest) = decide (|w * e| > crtest)
    congr 1
    have : w * (a * e + 0) = a * (w * e) := by ring
    rw [this, abs_mul, gt_iff_lt, gt_iff_lt, mul_lt_mul_iff_right₀ (abs_pos.2 ha)]

theorem converged_units (a b : K) (ha : a ≠ 0) (nx ny maxLoop n : ℕ) (crtest : K) (s : Work K) :
    converged nx ny maxLoop n (|a| * crtest) (s.units a b) = converged nx ny maxLoop n crtest s := by
  have hcell : ∀ x t, testCell (|a| * crtest) (s.units a b) x t = testCell crtest s x t := by
    intro x t
    unfold testCell readInit Work.units
    dsimp only
    rw [readAt_map]
    cases readAt s.e (t.1 + 1) with
    | throws => rfl
    | ub => rfl
    | ok e =>
      cases e with
      | none => rfl
      | some e =>
        simp only [Res.ok_bind, Option.map_some]
        cases readAt s.w (t.1 + 1) with
        | throws => rfl
        | ub => rfl
        | ok w =>
          simp only [Res.ok_bind]
          rw [isBad_units a ha]
  have hrow : testRow nx (|a| * crtest) (s.units a b) = testRow nx crtest s := by
    funext y t
    unfold testRow
    rw [show testCell (|a| * crtest) (s.units a b) = testCell crtest s from funext fun x => funext fun t => hcell x t]
  unfold converged
  rw [hrow]

theorem step_units (a b : K) (ha : a ≠ 0) (nx ny maxLoop n : ℕ) (crtest : K) (next next' : Work K → Res (Work K))
    (hn : ∀ s, next' (s.units a b) = next s >>= fun s => .ok (s.units a b)) (s : Work K) :
    (relaxPass nx ny (s.units a b) >>= fun s => converged nx ny maxLoop n (|a| * crtest) s >>= fun done =>
        if done then .ok s else borders nx ny s >>= fun s => next' s) =
      (relaxPass nx ny s >>= fun s => converged nx ny maxLoop n crtest s >>= fun done =>
        if done then .ok s else borders nx ny s >>= fun s => next s) >>= fun s => .ok (s.units a b) := by
  rw [relaxPass_units]
  cases relaxPass nx ny s with
  | throws => rw [Res.throws_bind, Res.throws_bind, Res.throws_bind, Res.throws_bind]
  | ub => rw [Res.ub_bind, Res.ub_bind, Res.ub_bind, Res.ub_bind]
  | ok s =>
    rw [Res.ok_bind, Res.ok_bind, Res.ok_bind, converged_units a b ha]
    cases converged nx ny maxLoop n crtest s with
    | throws => rfl
    | ub => rfl
    | ok done =>
      cases done with
      | true => rfl
      | false =>
        rw [Res.ok_bind, Res.ok_bind, if_neg Bool.false_ne_true, if_neg Bool.false_ne_true, borders_units]
        cases borders nx ny s with
        | throws => rfl
        | ub => rfl
        | ok s => exact hn s

theorem fillLoop_units (a b : K) (ha : a ≠ 0) (nx ny maxLoop : ℕ) (crtest : K) (k : ℕ) : ∀ n (s : Work K),
    fillLoop nx ny maxLoop (|a| * crtest) n k (s.units a b) = fillLoop nx ny maxLoop crtest n k s >>= fun s => .ok (s.units a b) := by
  induction k with
  | zero => intro n s; rfl
  | succ k ih =>
    intro n s
    rw [fillLoop_succ, fillLoop_succ]
    exact step_units a b ha nx ny maxLoop n crtest _ _ (ih (n + 1)) s

omit [LinearOrder K] [IsStrictOrderedRing K] in
theorem countUndefined_units (a b : K) (f : List (Option K)) : countUndefined (units a b f) = countUndefined f := by
  unfold countUndefined units
  induction f with
  | nil => rfl
  | cons v f ih => cases v <;> simp [unit] at ih ⊢ <;> simpa using ih

omit [LinearOrder K] [IsStrictOrderedRing K] in
theorem sumDefined_units (a b : K) (f : List (Option K)) : sumDefined (units a b f) = a * sumDefined f + (countDefined f : K) * b := by
  unfold sumDefined countDefined units
  induction f with
  | nil => simp
  | cons v f ih =>
    cases v with
    | none => simpa [unit] using ih
    | some v =>
      simp only [List.map_cons, List.sum_cons, ih, unit, Option.map_some, Option.getD_some, List.filter_cons, Option.isSome_some, if_true, List.length_cons, Nat.cast_add, Nat.cast_one]
      ring

theorem deviations_units (a b avg : K) (f : List (Option K)) :
    ((units a b f).map (deviation (a * avg + b))).sum = |a| * (f.map (deviation avg)).sum := by
  unfold units
  induction f with
  | nil => simp
  | cons v f ih =>
    simp only [List.map_cons, List.sum_cons, ih]
    cases v with
    | none => simp [unit, deviation]
    | some v =>
      have : a * v + b - (a * avg + b) = a * (v - avg) := by ring
      simp only [unit, Option.map_some, deviation, this, abs_mul]
      ring

/-- The state of the creeping fill in another unit. -/
def Creep.units (a b : K) (s : Creep K) : Creep K := { s with f := Fill.units a b s.f }

/-- The weights of the creeping fill are 0..127. -/
def Weights (s : Creep K) : Prop := ∀ w ∈ s.w, 0 ≤ w ∧ w ≤ 127

omit [Field K] [LinearOrder K] [IsStrictOrderedRing K] in
theorem Weights.set {s : Creep K} (h : Weights s) (i : ℕ) : ∀ w ∈ s.w.set i 1, 0 ≤ w ∧ w ≤ 127 := by
  intro w hw
  rcases List.mem_or_eq_of_mem_set hw with hw | rfl
  · exact h w hw
  · decide

omit [Field K] [LinearOrder K] [IsStrictOrderedRing K] in
theorem Weights.read {s : Creep K} (h : Weights s) {i : ℕ} {w : ℤ} (e : readAt s.w i = .ok w) : 0 ≤ w ∧ w ≤ 127 :=
  h w (List.mem_of_getElem? (readAt_ok e))

omit [IsStrictOrderedRing K] in
theorem creepCell_weights (nx rep : ℕ) (s s' : Creep K) (h : Weights s) (e : creepCell nx rep s = .ok s') : Weights s' := by
  unfold creepCell at e
  dsimp only at e
  obtain ⟨r, _, e⟩ := Res.bind_eq_ok.1 e
  split at e
  · obtain ⟨w1, _, e⟩ := Res.bind_eq_ok.1 e
    obtain ⟨w2, _, e⟩ := Res.bind_eq_ok.1 e
    obtain ⟨w3, _, e⟩ := Res.bind_eq_ok.1 e
    obtain ⟨w4, _, e⟩ := Res.bind_eq_ok.1 e
    split at e
    · obtain ⟨c, _, e⟩ := Res.bind_eq_ok.1 e
      obtain ⟨f1, _, e⟩ := Res.bind_eq_ok.1 e
      obtain ⟨f2, _, e⟩ := Res.bind_eq_ok.1 e
      obtain ⟨f3, _, e⟩ := Res.bind_eq_ok.1 e
      obtain ⟨f4, _, e⟩ := Res.bind_eq_ok.1 e
      obtain ⟨f, _, e⟩ := Res.bind_eq_ok.1 e
      obtain ⟨w, hw, e⟩ := Res.bind_eq_ok.1 e
      obtain ⟨r, _, e⟩ := Res.bind_eq_ok.1 e
      cases e
      show ∀ v ∈ w, 0 ≤ v ∧ v ≤ 127
      rw [(writeAt_ok hw).1]
      exact h.set _
    · cases e
      exact h
  · cases e
    exact h

omit [IsStrictOrderedRing K] in
theorem creepBorder_weights (rep i j : ℕ) (s s' : Creep K) (h : Weights s) (e : creepBorder rep i j s = .ok s') : Weights s' := by
  unfold creepBorder at e
  obtain ⟨r, _, e⟩ := Res.bind_eq_ok.1 e
  split at e
  · obtain ⟨x, _, e⟩ := Res.bind_eq_ok.1 e
    obtain ⟨y, _, e⟩ := Res.bind_eq_ok.1 e
    obtain ⟨w, _, e⟩ := Res.bind_eq_ok.1 e
    obtain ⟨f, _, e⟩ := Res.bind_eq_ok.1 e
    obtain ⟨w', hw, e⟩ := Res.bind_eq_ok.1 e
    cases e
    show ∀ v ∈ w', 0 ≤ v ∧ v ≤ 127
    rw [(writeAt_ok hw).1]
    exact h.set _
  · cases e
    exact h

omit [IsStrictOrderedRing K] in
/-- A mean with weights of sum 1 follows the change of unit. -/
theorem mean_units (a b : K) (c f1 f2 f3 f4 : Option K) (w1 w2 w3 w4 : ℤ) (d : K) (hd : d = 1 + (w1 + w2 + w3 + w4)) (h0 : d ≠ 0) :
    odiv (oadd (unit a b c) (oadd (oadd (oadd (omul (w1 : K) (unit a b f1)) (omul (w2 : K) (unit a b f2))) (omul (w3 : K) (unit a b f3)))
      (omul (w4 : K) (unit a b f4)))) d =
      unit a b (odiv (oadd c (oadd (oadd (oadd (omul (w1 : K) f1) (omul (w2 : K) f2)) (omul (w3 : K) f3)) (omul (w4 : K) f4))) d) := by
  cases c with
  | none => unfold odiv; rw [if_neg h0, if_neg h0]; rfl
  | some c => cases f1 with
    | none => unfold odiv; rw [if_neg h0, if_neg h0]; rfl
    | some f1 => cases f2 with
      | none => unfold odiv; rw [if_neg h0, if_neg h0]; rfl
      | some f2 => cases f3 with
        | none => unfold odiv; rw [if_neg h0, if_neg h0]; rfl
        | some f3 => cases f4 with
          | none => unfold odiv; rw [if_neg h0, if_neg h0]; rfl
          | some f4 =>
            show odiv (some (a * c + b + (w1 * (a * f1 + b) + w2 * (a * f2 + b) + w3 * (a * f3 + b) + w4 * (a * f4 + b)))) d =
              unit a b (odiv (some (c + (w1 * f1 + w2 * f2 + w3 * f3 + w4 * f4))) d)
            rw [odiv_some h0, odiv_some h0]
            show some _ = some (a * ((c + (w1 * f1 + w2 * f2 + w3 * f3 + w4 * f4)) / d) + b)
            congr 1
            field_simp
            rw [hd]
            ring

theorem creepCell_units (a b : K) (nx rep : ℕ) (s : Creep K) (h : Weights s) :
    creepCell nx rep (s.units a b) = creepCell nx rep s >>= fun s => .ok (s.units a b) := by
  unfold creepCell Creep.units Fill.units
  dsimp only
  cases readAt s.r (s.p + 1) with
  | throws => rfl
  | ub => rfl
  | ok r =>
  rw [Res.ok_bind, Res.ok_bind]
  by_cases hr : r < rep
  swap
  · rw [if_neg hr, if_neg hr]; rfl
  rw [if_pos hr, if_pos hr]
  cases h1 : readAt s.w (s.p + 1 + 1) with
  | throws => rfl
  | ub => rfl
  | ok w1 =>
  cases h2 : readAt s.w (s.p + 1 - 1) with
  | throws => rfl
  | ub => rfl
  | ok w2 =>
  cases h3 : readAt s.w (s.p + 1 + nx) with
  | throws => rfl
  | ub => rfl
  | ok w3 =>
  cases h4 : readAt s.w (wsub (s.p + 1) nx) with
  | throws => rfl
  | ub => rfl
  | ok w4 =>
  simp only [Res.ok_bind]
  have b1 := h.read h1
  have b2 := h.read h2
  have b3 := h.read h3
  have b4 := h.read h4
  rw [asSizeT_eq (i := w1 + w2 + w3 + w4) (by omega) (by omega)]
  by_cases hs : (w1 + w2 + w3 + w4).toNat ≠ 0
  swap
  · rw [if_neg hs, if_neg hs]; rfl
  rw [if_pos hs, if_pos hs]
  simp only [readAt_map]
  cases readAt s.f (s.p + 1) with
  | throws => rfl
  | ub => rfl
  | ok c =>
  cases readAt s.f (s.p + 1 + 1) with
  | throws => rfl
  | ub => rfl
  | ok f1 =>
  cases readAt s.f (s.p + 1 - 1) with
  | throws => rfl
  | ub => rfl
  | ok f2 =>
  cases readAt s.f (s.p + 1 + nx) with
  | throws => rfl
  | ub => rfl
  | ok f3 =>
  cases readAt s.f (wsub (s.p + 1) nx) with
  | throws => rfl
  | ub => rfl
  | ok f4 =>
  simp only [Res.ok_bind]
  have hd : ((wadd 1 (w1 + w2 + w3 + w4).toNat : ℕ) : K) = 1 + (w1 + w2 + w3 + w4) := by
    rw [wadd_eq (by unfold two64; omega)]
    push_cast
    congr 1
    have : ((w1 + w2 + w3 + w4).toNat : ℤ) = w1 + w2 + w3 + w4 := Int.toNat_of_nonneg (by omega)
    exact_mod_cast this
  have h0 : ((wadd 1 (w1 + w2 + w3 + w4).toNat : ℕ) : K) ≠ 0 := by
    rw [wadd_eq (by unfold two64; omega)]
    exact_mod_cast (by omega : 1 + (w1 + w2 + w3 + w4).toNat ≠ 0)
  rw [mean_units a b c f1 f2 f3 f4 w1 w2 w3 w4 _ hd h0, writeAt_map]
  cases writeAt s.f (s.p + 1) (odiv (oadd c (oadd (oadd (oadd (omul (w1 : K) f1) (omul (w2 : K) f2)) (omul (w3 : K) f3)) (omul (w4 : K) f4)))
      ((wadd 1 (w1 + w2 + w3 + w4).toNat : ℕ) : K)) with
  | throws => rfl
  | ub => rfl
  | ok f =>
    simp only [Res.ok_bind]
    cases writeAt s.w (s.p + 1) 1 with
    | throws => rfl
    | ub => rfl
    | ok w =>
      simp only [Res.ok_bind]
      cases writeAt s.r (s.p + 1) (r + 1) <;> rfl

theorem creepBorder_units (a b : K) (rep i j : ℕ) (s : Creep K) (h : Weights s) :
    creepBorder rep i j (s.units a b) = creepBorder rep i j s >>= fun s => .ok (s.units a b) := by
  unfold creepBorder Creep.units Fill.units
  dsimp only
  cases readAt s.r i with
  | throws => rfl
  | ub => rfl
  | ok r =>
  rw [Res.ok_bind, Res.ok_bind]
  by_cases hr : r < rep
  swap
  · rw [if_neg hr, if_neg hr]; rfl
  rw [if_pos hr, if_pos hr]
  simp only [readAt_map]
  cases readAt s.f i with
  | throws => rfl
  | ub => rfl
  | ok x =>
  cases readAt s.f j with
  | throws => rfl
  | ub => rfl
  | ok y =>
  cases h1 : readAt s.w j with
  | throws => rfl
  | ub => rfl
  | ok w =>
  simp only [Res.ok_bind]
  have hw := h.read h1
  have hw' : (0 : K) ≤ (w : K) := by exact_mod_cast hw.1
  have h0 : (1 + (w : K)) ≠ 0 := by positivity
  have hm : odiv (oadd (unit a b x) (omul (w : K) (unit a b y))) (1 + (w : K)) = unit a b (odiv (oadd x (omul (w : K) y)) (1 + (w : K))) := by
    cases x with
    | none => unfold odiv; rw [if_neg h0, if_neg h0]; rfl
    | some x => cases y with
      | none => unfold odiv; rw [if_neg h0, if_neg h0]; rfl
      | some y =>
        show odiv (some (a * x + b + w * (a * y + b))) (1 + (w : K)) = unit a b (odiv (some (x + w * y)) (1 + (w : K)))
        rw [odiv_some h0, odiv_some h0]
        show some _ = some (a * ((x + w * y) / (1 + (w : K))) + b)
        congr 1
        field_simp
        ring
  rw [hm, writeAt_map]
  cases writeAt s.f i (odiv (oadd x (omul (w : K) y)) (1 + (w : K))) with
  | throws => rfl
  | ub => rfl
  | ok f =>
    simp only [Res.ok_bind]
    cases writeAt s.w i 1 <;> rfl

omit [IsStrictOrderedRing K] in
theorem creepRow_weights (nx rep n : ℕ) (s s' : Creep K) (h : Weights s)
    (e : (forN (fun _ s => creepCell nx rep s) 1 n s >>= fun s : Creep K => .ok { s with p := s.p + 2 }) = .ok s') : Weights s' := by
  obtain ⟨t, ht, e⟩ := Res.bind_eq_ok.1 e
  cases e
  exact forN_pres Weights (fun _ s s' hs e => creepCell_weights nx rep s s' hs e) n 1 s t h ht

omit [IsStrictOrderedRing K] in
theorem creepPass_weights (nx ny rep : ℕ) (s s' : Creep K) (h : Weights s) (e : creepPass nx ny rep s = .ok s') : Weights s' :=
  forN_pres Weights (fun _ s s' hs e => creepRow_weights nx rep _ s s' hs e) (ny - 1 - 1) 1 { s with changed := 0, p := nx } s' h e

theorem creepPass_units (a b : K) (nx ny rep : ℕ) (s : Creep K) (h : Weights s) :
    creepPass nx ny rep (s.units a b) = creepPass nx ny rep s >>= fun s => .ok (s.units a b) := by
  unfold creepPass
  refine forN_map (fun s : Creep K => s.units a b) Weights (fun _ s s' hs e => creepRow_weights nx rep _ s s' hs e) (fun y s hs => ?_) _ _
    { s with changed := 0, p := nx } h
  rw [forN_map (body := fun _ s => creepCell nx rep s) (fun s : Creep K => s.units a b) Weights (fun _ s s' hs e => creepCell_weights nx rep s s' hs e)
    (fun _ s hs => creepCell_units a b nx rep s hs) _ _ s hs]
  cases forN (fun _ s => creepCell nx rep s) 1 (nx - 1 - 1) s <;> rfl

theorem creepLoop_units (a b : K) (nx ny rep k : ℕ) : ∀ s : Creep K, Weights s →
    creepLoop nx ny rep k (s.units a b) = (creepLoop nx ny rep k s >>= fun s => .ok (s.units a b)) ∧
      ∀ s', creepLoop nx ny rep k s = .ok s' → Weights s' := by
  induction k with
  | zero => intro s h; exact ⟨rfl, fun s' e => by cases e; exact h⟩
  | succ k ih =>
    intro s h
    have hc : (s.units a b).changed = s.changed := rfl
    simp only [creepLoop, hc]
    by_cases hg : s.changed > 0
    swap
    · rw [if_neg hg, if_neg hg]
      exact ⟨rfl, fun s' e => by cases e; exact h⟩
    rw [if_pos hg, if_pos hg, creepPass_units a b nx ny rep s h]
    cases e : creepPass nx ny rep s with
    | throws => exact ⟨rfl, fun s' e => by cases e⟩
    | ub => exact ⟨rfl, fun s' e => by cases e⟩
    | ok s1 =>
      rw [Res.ok_bind, Res.ok_bind, Res.ok_bind]
      exact ih s1 (creepPass_weights nx ny rep s s1 h e)

theorem creepBorders_units (a b : K) (nx ny rep : ℕ) (s : Creep K) (h : Weights s) :
    creepBorders nx ny rep (s.units a b) = creepBorders nx ny rep s >>= fun s => .ok (s.units a b) := by
  have two : ∀ i j i' j' (s : Creep K), Weights s → (creepBorder rep i j (s.units a b) >>= fun s => creepBorder rep i' j' s) =
      (creepBorder rep i j s >>= fun s => creepBorder rep i' j' s) >>= fun s => .ok (s.units a b) := by
    intro i j i' j' s hs
    rw [creepBorder_units a b rep i j s hs]
    cases e : creepBorder rep i j s with
    | throws => rfl
    | ub => rfl
    | ok s1 => exact creepBorder_units a b rep i' j' s1 (creepBorder_weights rep i j s s1 hs e)
  have twow : ∀ i j i' j' (s s' : Creep K), Weights s → (creepBorder rep i j s >>= fun s => creepBorder rep i' j' s) = .ok s' → Weights s' := by
    intro i j i' j' s s' hs e
    obtain ⟨t, ht, e⟩ := Res.bind_eq_ok.1 e
    exact creepBorder_weights rep i' j' t s' (creepBorder_weights rep i j s t hs ht) e
  unfold creepBorders
  refine forN_map (fun s : Creep K => s.units a b) Weights (fun _ s s' hs e => ?_) (fun y s hs => ?_) _ _ s h
  · obtain ⟨t, ht, e⟩ := Res.bind_eq_ok.1 e
    refine forN_pres Weights (fun _ s s' hs e => twow _ _ _ _ s s' hs e) _ _ t s' ?_ e
    exact forN_pres Weights (fun _ s s' hs e => twow _ _ _ _ s s' hs e) _ _ s t hs ht
  · rw [forN_map (fun s : Creep K => s.units a b) Weights (fun _ s s' hs e => twow _ _ _ _ s s' hs e) (fun y s hs => two _ _ _ _ s hs) _ _ s hs]
    cases e : forN (fun y s => creepBorder rep (y * nx) (y * nx + 1) s >>= fun s => creepBorder rep (y * nx + (nx - 1)) (wadd (y * nx) (wsub nx 2)) s)
        1 (ny - 1 - 1) s with
    | throws => rfl
    | ub => rfl
    | ok t =>
      rw [Res.ok_bind, Res.ok_bind]
      exact forN_map (fun s : Creep K => s.units a b) Weights (fun _ s s' hs e => twow _ _ _ _ s s' hs e) (fun y s hs => two _ _ _ _ s hs) _ _ t
        (forN_pres Weights (fun _ s s' hs e => twow _ _ _ _ s s' hs e) _ _ s t hs e)

theorem creepImpl_units (a b : K) (nx ny : ℕ) (field : List (Option K)) (d : Option K) (rep : ℕ) (setWeight : ℤ) (nChanged : ℕ)
    (hw : 0 ≤ setWeight ∧ setWeight ≤ 127) :
    creepImpl nx ny (units a b field) (unit a b d) rep setWeight nChanged =
      creepImpl nx ny field d rep setWeight nChanged >>= fun f => .ok (units a b f) := by
  unfold creepImpl
  dsimp only
  by_cases hT : nx * ny = 0
  · rw [if_pos hT, if_pos hT]; rfl
  rw [if_neg hT, if_neg hT]
  by_cases hcn : nx * ny - nChanged = 0 ∨ nChanged = 0
  · rw [if_pos hcn, if_pos hcn]; rfl
  rw [if_neg hcn, if_neg hcn]
  have hstart : Creep.mk ((units a b field).map (fun v => if v.isNone then unit a b d else v)) ((units a b field).map (fun v => if v.isNone then 0 else setWeight))
        ((units a b field).map (fun v => if v.isNone then 0 else rep)) 1 nx =
      Creep.units a b (Creep.mk (field.map (fun v => if v.isNone then d else v)) (field.map (fun v => if v.isNone then 0 else setWeight))
        (field.map (fun v => if v.isNone then 0 else rep)) 1 nx) := by
    unfold Creep.units Fill.units
    dsimp only
    simp only [List.map_map]
    congr 1
    all_goals
      apply List.map_congr_left
      intro v _
      cases v <;> rfl
  rw [hstart]
  have hW : Weights (Creep.mk (field.map (fun v => if v.isNone then d else v)) (field.map (fun v => if v.isNone then 0 else setWeight))
        (field.map (fun v => if v.isNone then 0 else rep)) 1 nx) := by
    intro w hmem
    obtain ⟨v, _, rfl⟩ := List.mem_map.1 hmem
    cases v with
    | none => exact ⟨le_refl (0 : ℤ), by norm_num⟩
    | some v => exact hw
  obtain ⟨h1, h2⟩ := creepLoop_units a b nx ny rep (nx * ny - nChanged) _ hW
  rw [h1]
  cases e : creepLoop nx ny rep (nx * ny - nChanged) (Creep.mk (field.map (fun v => if v.isNone then d else v)) (field.map (fun v => if v.isNone then 0 else setWeight))
        (field.map (fun v => if v.isNone then 0 else rep)) 1 nx) with
  | throws => rfl
  | ub => rfl
  | ok s =>
    rw [Res.ok_bind, Res.ok_bind, Res.ok_bind, creepBorders_units a b nx ny rep s (h2 s e)]
    cases creepBorders nx ny rep s <;> rfl

/-! ## Properties -/

/-- **C72.** Without over-relaxation (`0 ≤ corrEff ≤ 1`) the extrapolating fill never leaves the range of the given values; a field whose given values are all
equal is filled with that value, whatever the parameters. -/
theorem C72_fill_stays_in_range (nx ny : ℕ) (field : List (Option K)) (relaxCrit corrEff : K) (maxLoop : ℕ) (hlen : field.length = nx * ny)
    (g : List (Option K)) (n : Option ℕ) (hg : fill2d nx ny field relaxCrit corrEff maxLoop = .ok (g, n)) (lo hi : K)
    (hr : ∀ v, some v ∈ field → lo ≤ v ∧ v ≤ hi) (hc : (0 ≤ corrEff ∧ corrEff ≤ 1) ∨ lo = hi) :
    ∀ v, some v ∈ g → lo ≤ v ∧ v ≤ hi := by
  unfold fill2d at hg
  dsimp only at hg
  by_cases hT : nx * ny = 0
  · rw [if_pos hT] at hg
    cases hg
    exact hr
  · rw [if_neg hT] at hg
    by_cases hcn : nx * ny - countUndefined field = 0 ∨ countUndefined field = 0
    · rw [if_pos hcn] at hg
      cases hg
      exact hr
    · rw [if_neg hcn] at hg
      push Not at hcn
      obtain ⟨w, hw, hg⟩ := Res.bind_eq_ok.1 hg
      obtain ⟨s, hs, hg⟩ := Res.bind_eq_ok.1 hg
      cases hg
      have hnu : (nx * ny - countUndefined field : ℕ) = countDefined field := by
        rw [← hlen, ← countDefined_add field, Nat.add_sub_cancel]
      have havg := average_range field _ hnu hcn.1 hr
      have hw' := innerWeights_pres (fun v => lo = hi ∨ (0 ≤ v ∧ v ≤ 1)) corrEff (by
        rintro v (h | h)
        · exact Or.inl h
        · rcases hc with hc | hc
          · exact Or.inr ⟨mul_nonneg h.1 hc.1, mul_le_one₀ h.2 hc.1 hc.2⟩
          · exact Or.inl hc) nx ny _ w (by
        intro i v hv
        simp only [List.getElem?_map, Option.map_eq_some_iff] at hv
        obtain ⟨u, -, rfl⟩ := hv
        right
        split
        · exact ⟨zero_le_one, le_rfl⟩
        · exact ⟨le_rfl, zero_le_one⟩) hw
      have hR := fillLoop_range nx ny maxLoop _ maxLoop 0 _ s ⟨?_, hw'⟩ hs
      · intro v hv
        obtain ⟨i, hi', hiv⟩ := List.getElem_of_mem hv
        exact hR.value i v (by rw [List.getElem?_eq_getElem hi', hiv])
      · intro i v hv
        simp only [List.getElem?_map, Option.map_eq_some_iff] at hv
        obtain ⟨u, hu, hv⟩ := hv
        cases u with
        | none => cases hv; exact havg
        | some u => cases hv; exact hr u (List.mem_of_getElem? hu)

/-- With over-relaxation the fill leaves the range: all given values lie between 0 and 8, one of the filled ones does not. -/
theorem C72_over_relaxation_leaves_range :
    ∃ (field : List (Option ℚ)) (g : List (Option ℚ)), field.length = 9 ∧ (∀ v, some v ∈ field → 0 ≤ v ∧ v ≤ 8) ∧
      fill2d 3 3 field (1 / 10) (8 / 5) 1 = .ok (g, some 1) ∧ ∃ v, some v ∈ g ∧ 8 < v := by
  refine ⟨[some 0, some 8, some 0, some 8, none, some 8, some 0, some 8, some 0],
    [some 0, some 8, some 0, some 8, some (52 / 5), some 8, some 0, some 8, some 0], rfl, ?_, by decide +kernel, 52 / 5, by decide +kernel, by norm_num⟩
  intro v hv
  simp only [List.mem_cons, Option.some.injEq, List.not_mem_nil, or_false] at hv
  rcases hv with rfl | rfl | rfl | rfl | h | rfl | rfl | rfl | rfl <;> first | cases h | (constructor <;> norm_num)

/-- **C72.** Filling commutes with a change of unit `v ↦ a v + b`: the extrapolating fill gives the same field in the other unit, after the same number of
passes, and fails in the same cases. -/
theorem C72_fill_commutes_with_units (a b : K) (ha : a ≠ 0) (nx ny : ℕ) (field : List (Option K)) (relaxCrit corrEff : K) (maxLoop : ℕ)
    (hlen : field.length = nx * ny) :
    fill2d nx ny (field.map fun v => v.map fun v => a * v + b) relaxCrit corrEff maxLoop =
      fill2d nx ny field relaxCrit corrEff maxLoop >>= fun r => .ok (r.1.map fun v => v.map fun v => a * v + b, r.2) := by
  show fill2d nx ny (units a b field) relaxCrit corrEff maxLoop = fill2d nx ny field relaxCrit corrEff maxLoop >>= fun r => .ok (units a b r.1, r.2)
  unfold fill2d
  dsimp only
  rw [countUndefined_units]
  by_cases hT : nx * ny = 0
  · rw [if_pos hT, if_pos hT]; rfl
  rw [if_neg hT, if_neg hT]
  by_cases hcn : nx * ny - countUndefined field = 0 ∨ countUndefined field = 0
  · rw [if_pos hcn, if_pos hcn]; rfl
  rw [if_neg hcn, if_neg hcn]
  push Not at hcn
  have hnu : (nx * ny - countUndefined field : ℕ) = countDefined field := by
    rw [← hlen, ← countDefined_add field, Nat.add_sub_cancel]
  have hn0 : ((nx * ny - countUndefined field : ℕ) : K) ≠ 0 := by exact_mod_cast hcn.1
  have havg : sumDefined (units a b field) / ((nx * ny - countUndefined field : ℕ) : K) = a * (sumDefined field / ((nx * ny - countUndefined field : ℕ) : K)) + b := by
    rw [sumDefined_units, ← hnu]
    field_simp
  rw [havg]
  generalize sumDefined field / ((nx * ny - countUndefined field : ℕ) : K) = avg
  rw [deviations_units]
  have hw : (units a b field).map (fun v => if v.isNone then (1 : K) else 0) = field.map fun v => if v.isNone then 1 else 0 := by
    unfold units
    rw [List.map_map]
    apply List.map_congr_left
    intro v _
    cases v <;> rfl
  rw [hw]
  cases innerWeights nx ny corrEff (field.map fun v => if v.isNone then (1 : K) else 0) with
  | throws => rfl
  | ub => rfl
  | ok w =>
    simp only [Res.ok_bind]
    have hstart : Work.mk ((units a b field).map (fun v => some (v.getD (a * avg + b)))) w
          ((units a b field).map (fun _ => (none : Option (Option K)))) nx =
        Work.units a b (Work.mk (field.map (fun v => some (v.getD avg))) w (field.map (fun _ => none)) nx) := by
      unfold Work.units Fill.units
      dsimp only
      simp only [List.map_map]
      congr 1
      apply List.map_congr_left
      intro v _
      cases v <;> rfl
    have hcr : relaxCrit * (|a| * (field.map (deviation avg)).sum / ((nx * ny - countUndefined field : ℕ) : K)) * corrEff =
        |a| * (relaxCrit * ((field.map (deviation avg)).sum / ((nx * ny - countUndefined field : ℕ) : K)) * corrEff) := by ring
    rw [hstart, hcr, fillLoop_units a b ha]
    cases fillLoop nx ny maxLoop (relaxCrit * ((field.map (deviation avg)).sum / ((nx * ny - countUndefined field : ℕ) : K)) * corrEff) 0 maxLoop
      (Work.mk (field.map (fun v => some (v.getD avg))) w (field.map (fun _ => none)) nx) <;> rfl

/-- **C72.** The same for the creeping fill. -/
theorem C72_creepfill_commutes_with_units (a b : K) (nx ny : ℕ) (field : List (Option K)) (rep : ℕ) (setWeight : ℤ)
    (hw : 0 ≤ setWeight ∧ setWeight ≤ 127) (hlen : field.length = nx * ny) :
    creepfill2d nx ny (field.map fun v => v.map fun v => a * v + b) rep setWeight =
      creepfill2d nx ny field rep setWeight >>= fun r => .ok (r.1.map fun v => v.map fun v => a * v + b, r.2) := by
  show creepfill2d nx ny (units a b field) rep setWeight = creepfill2d nx ny field rep setWeight >>= fun r => .ok (units a b r.1, r.2)
  unfold creepfill2d
  dsimp only
  rw [countUndefined_units]
  by_cases hT : nx * ny = 0
  · rw [if_pos hT, if_pos hT]; rfl
  rw [if_neg hT, if_neg hT]
  by_cases hn : nx * ny - countUndefined field = 0
  · rw [if_pos hn, if_pos hn]; rfl
  rw [if_neg hn, if_neg hn]
  have hnu : (nx * ny - countUndefined field : ℕ) = countDefined field := by
    rw [← hlen, ← countDefined_add field, Nat.add_sub_cancel]
  have hn0 : ((nx * ny - countUndefined field : ℕ) : K) ≠ 0 := by exact_mod_cast hn
  have havg : some (sumDefined (units a b field) / ((nx * ny - countUndefined field : ℕ) : K)) =
      unit a b (some (sumDefined field / ((nx * ny - countUndefined field : ℕ) : K))) := by
    rw [sumDefined_units, ← hnu]
    show some _ = some _
    congr 1
    field_simp
  rw [havg, creepImpl_units a b nx ny field _ rep setWeight _ hw]
  cases creepImpl nx ny field (some (sumDefined field / ((nx * ny - countUndefined field : ℕ) : K))) rep setWeight (countUndefined field) <;> rfl

/-- **C72.** The creeping fill with a default value: the default has to be given in the other unit, too. -/
theorem C72_creepfillval_commutes_with_units (a b : K) (nx ny : ℕ) (field : List (Option K)) (d : Option K) (rep : ℕ) (setWeight : ℤ)
    (hw : 0 ≤ setWeight ∧ setWeight ≤ 127) :
    creepfillval2d nx ny (field.map fun v => v.map fun v => a * v + b) (d.map fun d => a * d + b) rep setWeight =
      creepfillval2d nx ny field d rep setWeight >>= fun r => .ok (r.1.map fun v => v.map fun v => a * v + b, r.2) := by
  show creepfillval2d nx ny (units a b field) (unit a b d) rep setWeight =
    creepfillval2d nx ny field d rep setWeight >>= fun r => .ok (units a b r.1, r.2)
  unfold creepfillval2d
  dsimp only
  rw [countUndefined_units]
  by_cases hT : nx * ny = 0
  · rw [if_pos hT, if_pos hT]; rfl
  rw [if_neg hT, if_neg hT, creepImpl_units a b nx ny field _ rep setWeight _ hw]
  cases creepImpl nx ny field d rep setWeight (countUndefined field) <;> rfl

/-- A case: Celsius to Fahrenheit, one undefined value in the middle and one on the border. -/
def unitCase : List (Option ℚ) := [some 10, some 20, some 5, some 0, none, some 40, some 7, none, some 3]

example : fill2d 3 3 unitCase (1 / 10) (8 / 5) 3 ≠ fill2d 3 3 (unitCase.map fun _ => some 0) (1 / 10) (8 / 5) 3 ∧
    unitCase.length = 3 * 3 := by decide +kernel

/-- The case in Fahrenheit. -/
def unitCaseF : List (Option ℚ) := unitCase.map fun v => v.map fun v => 9 / 5 * v + 32

example : (match fill2d 3 3 unitCaseF (1 / 10) (8 / 5) 3 with
    | .ok r => decide (r.1[4]? ≠ some none ∧ r.1[0]? = some (some 50) ∧ r.2 = some 2)
    | _ => false) = true := by decide +kernel

example : (match creepfill2d 3 3 unitCaseF 2 3 with
    | .ok r => decide (r.1[4]? ≠ some none ∧ r.1[0]? = some (some 50) ∧ r.2 = some 2)
    | _ => false) = true := by decide +kernel

end Fimex.Fill
