import Verif.Writer.FillProps
import Verif.Slice.Lemmas

/-!
# Filling an existing file with translated dimensions: C58

The input and the output shape may differ in the dimensions named by the configuration, each of which is cut at one position.
-/

namespace Fimex.Writer

set_option linter.unusedSectionVars false

variable {K : Type} [DecidableEq K]

/-! ## Specification -/

/-- The cells copied by a list of slices: the values of the read slice are written in their order in memory, first dimension fastest. -/
def Moves (S : List (SB.Builder × SB.Builder)) (I O : List ℕ) : Prop :=
  ∃ p ∈ S, ∃ k k' : List ℕ, InShape p.1.size k ∧ InShape p.2.size k' ∧ p.1.size.prod = p.2.size.prod ∧
    pos p.1.size k = pos p.2.size k' ∧
    I = List.zipWith (· + ·) p.1.start k ∧ O = List.zipWith (· + ·) p.2.start k'

/-- A variable on both sides, equal shapes up to translated dimensions, which are cut at one existing position. -/
structure Translated (I O : Side K) (fwts : List Translation) (v : String) (iShape oShape common : List String) (iD oD : String → Dim) :
    Prop where
  outShape : O.shape v = some oShape
  iNodup : iShape.Nodup
  oNodup : oShape.Nodup
  names : (I.dims.map (·.name)).Nodup
  iDim : ∀ n ∈ iShape, dimOf I n = some (iD n)
  oDim : ∀ n ∈ oShape, dimOf O n = some (oD n)
  sized : ∀ i ∈ I.dims, ∀ o, dimOf O i.name = some o → Sized i (I.coord i.name) ∧ Sized o (O.coord o.name)
  left : iShape.filter (fun n => n ∉ fwts.map (·.inputDim)) = common
  right : oShape.filter (fun n => n ∉ fwts.map (·.outputDim)) = common
  ins : fwts.Pairwise fun s t => s.inputDim ∈ iShape → s.inputDim ≠ t.inputDim
  outs : fwts.Pairwise fun s t => s.outputDim ∈ oShape → s.outputDim ≠ t.outputDim
  inPos : ∀ t ∈ fwts, t.inputDim ∈ iShape → ∃ k < (iD t.inputDim).length, t.inSlices = [k]
  outPos : ∀ t ∈ fwts, t.outputDim ∈ oShape → ∃ k, t.outSlices = [k] ∧ ((oD t.outputDim).unlimited = true ∨ k < (oD t.outputDim).length)
  fits : ∀ n ∈ iShape, ∀ o, dimOf O n = some o → ¬ Misfit (iD n) o (I.coord n) (O.coord n)

/-! ## Builders as functions of the dimension -/

theorem map_set_update {β : Type} (shape : List String) (hn : shape.Nodup) (f : String → β) (d : String) (x : β) (j : ℕ) (hj : shape[j]? = some d) :
    (shape.map f).set j x = shape.map (Function.update f d x) := by
  induction shape generalizing j with
  | nil => simp at hj
  | cons n shape ih =>
    rw [List.nodup_cons] at hn
    cases j with
    | zero =>
      simp only [List.getElem?_cons_zero, Option.some.injEq] at hj
      subst hj
      simp only [List.map_cons, List.set_cons_zero, Function.update_self, List.cons.injEq, true_and]
      apply List.map_congr_left
      intro m hm
      rw [Function.update_of_ne (fun h : m = n => hn.1 (h ▸ hm))]
    | succ j =>
      simp only [List.getElem?_cons_succ] at hj
      have hne : n ≠ d := fun h => hn.1 (h ▸ List.mem_of_getElem? hj)
      simp only [List.map_cons, List.set_cons_succ, ih hn.2 j hj, Function.update_of_ne hne]

/-- Start and size of each dimension. -/
abbrev Cut := String → ℕ × ℕ

/-- A builder of a variable with a given cut. -/
def HasCut (shape : List String) (sizes : List ℕ) (unl : List Bool) (b : SB.Builder) (A : Cut) : Prop :=
  Has shape sizes unl b (shape.map fun n => (A n).1) (shape.map fun n => (A n).2)

theorem setB_cut {shape : List String} {sizes : List ℕ} {unl : List Bool} {b : SB.Builder} {A : Cut}
    (hn : shape.Nodup) (h : HasCut shape sizes unl b A) (d : String) (hd : d ∈ shape) (x y : ℕ)
    (hx : ∀ j, shape[j]? = some d → unl.getD j true = true ∨ wadd x y ≤ sizes.getD j 0) :
    ∃ b', setB b d x y = .ok b' ∧ HasCut shape sizes unl b' (Function.update A d (x, y)) := by
  obtain ⟨j, hj⟩ := List.mem_iff_getElem?.1 hd
  obtain ⟨b', h1, h2⟩ := setB_ok hn h j d hj x y (hx j hj)
  refine ⟨b', h1, ?_⟩
  unfold HasCut
  have e : ∀ (g : ℕ × ℕ → ℕ), (shape.map fun n => g (Function.update A d (x, y) n)) = (shape.map fun n => g (A n)).set j (g (x, y)) := by
    intro g
    rw [map_set_update shape hn (fun n => g (A n)) d (g (x, y)) j hj]
    apply List.map_congr_left
    intro n _
    by_cases hnd : n = d
    · subst hnd; simp
    · rw [Function.update_of_ne hnd, Function.update_of_ne hnd]
  rw [e (·.1), e (·.2)]
  exact h2

/-- What is fixed about a translated variable. -/
structure TCtx where
  iShape : List String
  oShape : List String
  iLen : String → ℕ
  oLen : String → ℕ
  oUnl : String → Bool

/-- The two builders have the given cuts. -/
def TCtx.Pair (c : TCtx) (p : SB.Builder × SB.Builder) (q : Cut × Cut) : Prop :=
  HasCut c.iShape (c.iShape.map c.iLen) (c.iShape.map fun _ => false) p.1 q.1 ∧
  HasCut c.oShape (c.oShape.map c.oLen) (c.oShape.map c.oUnl) p.2 q.2

theorem TCtx.Pair.setIn {c : TCtx} {p : SB.Builder × SB.Builder} {q : Cut × Cut} (h : c.Pair p q) (hn : c.iShape.Nodup) (d : String)
    (hd : d ∈ c.iShape) (k : ℕ) (hk : k < c.iLen d) :
    ∃ b, setB p.1 d k 1 = .ok b ∧ c.Pair (b, p.2) (Function.update q.1 d (k, 1), q.2) := by
  obtain ⟨b, h1, h2⟩ := setB_cut hn h.1 d hd k 1 (fun j hj => by
    right
    simp only [List.getD, List.getElem?_map, hj, Option.map_some, Option.getD_some]
    exact Nat.le_trans (Nat.mod_le _ _) hk)
  exact ⟨b, h1, h2, h.2⟩

theorem TCtx.Pair.setOut {c : TCtx} {p : SB.Builder × SB.Builder} {q : Cut × Cut} (h : c.Pair p q) (hn : c.oShape.Nodup) (d : String)
    (hd : d ∈ c.oShape) (k : ℕ) (hk : c.oUnl d = true ∨ k < c.oLen d) :
    ∃ b, setB p.2 d k 1 = .ok b ∧ c.Pair (p.1, b) (q.1, Function.update q.2 d (k, 1)) := by
  obtain ⟨b, h1, h2⟩ := setB_cut hn h.2 d hd k 1 (fun j hj => by
    simp only [List.getD, List.getElem?_map, hj, Option.map_some, Option.getD_some]
    rcases hk with hk | hk
    · exact Or.inl hk
    · exact Or.inr (Nat.le_trans (Nat.mod_le _ _) hk))
  exact ⟨b, h1, h.1, h2⟩

/-! ## Translation -/

theorem translate_ok (c : TCtx) (hi : c.iShape.Nodup) (ho : c.oShape.Nodup) (fwts : List Translation) : ∀ (p : SB.Builder × SB.Builder) (q : Cut × Cut),
    c.Pair p q →
    (fwts.Pairwise fun s t => s.inputDim ∈ c.iShape → s.inputDim ≠ t.inputDim) →
    (fwts.Pairwise fun s t => s.outputDim ∈ c.oShape → s.outputDim ≠ t.outputDim) →
    (∀ t ∈ fwts, t.inputDim ∈ c.iShape → ∃ k < c.iLen t.inputDim, t.inSlices = [k]) →
    (∀ t ∈ fwts, t.outputDim ∈ c.oShape → ∃ k, t.outSlices = [k] ∧ (c.oUnl t.outputDim = true ∨ k < c.oLen t.outputDim)) →
    ∃ p' q', translate c.iShape c.oShape fwts p = .ok p' ∧ c.Pair p' q' ∧
      (∀ n, n ∉ fwts.map (·.inputDim) → q'.1 n = q.1 n) ∧ (∀ n, n ∉ fwts.map (·.outputDim) → q'.2 n = q.2 n) ∧
      (∀ t ∈ fwts, t.inputDim ∈ c.iShape → ∃ k, t.inSlices = [k] ∧ q'.1 t.inputDim = (k, 1)) ∧
      (∀ t ∈ fwts, t.outputDim ∈ c.oShape → ∃ k, t.outSlices = [k] ∧ q'.2 t.outputDim = (k, 1)) := by
  induction fwts with
  | nil =>
    intro p q h _ _ _ _
    exact ⟨p, q, rfl, h, fun _ _ => rfl, fun _ _ => rfl, by simp, by simp⟩
  | cons t ts ih =>
    intro p q h h1 h2 h3 h4
    rw [List.pairwise_cons] at h1 h2
    obtain ⟨a, qa, ra, pa, ua, va⟩ : ∃ a qa, reduce p.1 c.iShape t.inputDim t.inSlices = .ok a ∧ c.Pair (a, p.2) (qa, q.2) ∧
        (∀ n, n ≠ t.inputDim → qa n = q.1 n) ∧ (t.inputDim ∈ c.iShape → ∃ k, t.inSlices = [k] ∧ qa t.inputDim = (k, 1)) := by
      unfold reduce
      by_cases hm : t.inputDim ∈ c.iShape
      · rw [if_pos hm]
        obtain ⟨k, hk, hs⟩ := h3 t (by simp) hm
        obtain ⟨b, e1, e2⟩ := h.setIn hi t.inputDim hm k hk
        rw [hs]
        exact ⟨b, _, e1, e2, fun n hn => Function.update_of_ne hn _ _, fun _ => ⟨k, rfl, Function.update_self _ _ _⟩⟩
      · rw [if_neg hm]
        exact ⟨p.1, q.1, rfl, h, fun _ _ => rfl, fun h => absurd h hm⟩
    obtain ⟨b, qb, rb, pb, ub, vb⟩ : ∃ b qb, reduce p.2 c.oShape t.outputDim t.outSlices = .ok b ∧ c.Pair (a, b) (qa, qb) ∧
        (∀ n, n ≠ t.outputDim → qb n = q.2 n) ∧ (t.outputDim ∈ c.oShape → ∃ k, t.outSlices = [k] ∧ qb t.outputDim = (k, 1)) := by
      unfold reduce
      by_cases hm : t.outputDim ∈ c.oShape
      · rw [if_pos hm]
        obtain ⟨k, hs, hk⟩ := h4 t (by simp) hm
        obtain ⟨b, e1, e2⟩ := pa.setOut ho t.outputDim hm k hk
        rw [hs]
        exact ⟨b, _, e1, e2, fun n hn => Function.update_of_ne hn _ _, fun _ => ⟨k, rfl, Function.update_self _ _ _⟩⟩
      · rw [if_neg hm]
        exact ⟨p.2, q.2, rfl, pa, fun _ _ => rfl, fun h => absurd h hm⟩
    obtain ⟨p', q', e1, e2, e3, e4, e5, e6⟩ := ih (a, b) (qa, qb) pb h1.2 h2.2 (fun s hs => h3 s (by simp [hs])) (fun s hs => h4 s (by simp [hs]))
    refine ⟨p', q', ?_, e2, ?_, ?_, ?_, ?_⟩
    · rw [translate, ra, Res.ok_bind, rb, Res.ok_bind]; exact e1
    · intro n hn
      simp only [List.map_cons, List.mem_cons, not_or] at hn
      rw [e3 n hn.2]; exact ua n hn.1
    · intro n hn
      simp only [List.map_cons, List.mem_cons, not_or] at hn
      rw [e4 n hn.2]; exact ub n hn.1
    · intro s hs hm
      rcases List.mem_cons.1 hs with rfl | hs
      · obtain ⟨k, k1, k2⟩ := va hm
        refine ⟨k, k1, ?_⟩
        rw [e3 _ (fun hc => by
          obtain ⟨u, hu, hu'⟩ := List.mem_map.1 hc
          exact h1.1 u hu hm hu'.symm)]
        exact k2
      · exact e5 s hs hm
    · intro s hs hm
      rcases List.mem_cons.1 hs with rfl | hs
      · obtain ⟨k, k1, k2⟩ := vb hm
        refine ⟨k, k1, ?_⟩
        rw [e4 _ (fun hc => by
          obtain ⟨u, hu, hu'⟩ := List.mem_map.1 hc
          exact h2.1 u hu hm hu'.symm)]
        exact k2
      · exact e6 s hs hm

/-! ## Expansion -/

/-- Cuts for all entries of a dimension. -/
def spread (d : String) (m : List (ℕ × ℕ)) (L : List (Cut × Cut)) : List (Cut × Cut) :=
  L.flatMap fun q => m.map fun e => (Function.update q.1 d (e.1, 1), Function.update q.2 d (e.2, 1))

/-- The entries of a dimension exist on both sides. -/
def TCtx.Fits (c : TCtx) (d : String) (m : List (ℕ × ℕ)) : Prop := ∀ e ∈ m, e.1 < c.iLen d ∧ (c.oUnl d = true ∨ e.2 < c.oLen d)

theorem expandOne_cut (c : TCtx) (hi : c.iShape.Nodup) (ho : c.oShape.Nodup) (d : String) (hd : d ∈ c.iShape) (hd' : d ∈ c.oShape)
    (p : SB.Builder × SB.Builder) (q : Cut × Cut) (h : c.Pair p q) (m : List (ℕ × ℕ)) (hm : c.Fits d m) :
    ∃ S, expandOne d p m = .ok S ∧
      List.Forall₂ c.Pair S (m.map fun e => (Function.update q.1 d (e.1, 1), Function.update q.2 d (e.2, 1))) := by
  induction m with
  | nil => exact ⟨[], rfl, .nil⟩
  | cons e m ih =>
    obtain ⟨S, h1, h2⟩ := ih fun e' he' => hm e' (by simp [he'])
    obtain ⟨f1, f2⟩ := hm e (by simp)
    obtain ⟨a, ha, pa⟩ := h.setIn hi d hd e.1 f1
    obtain ⟨b, hb, pb⟩ := h.setOut ho d hd' e.2 f2
    refine ⟨(a, b) :: S, ?_, .cons ⟨pa.1, pb.2⟩ h2⟩
    obtain ⟨e1, e2⟩ := e
    rw [expandOne, ha, Res.ok_bind, hb, Res.ok_bind, h1, Res.ok_bind]

theorem expandAll_cut (c : TCtx) (hi : c.iShape.Nodup) (ho : c.oShape.Nodup) (d : String) (hd : d ∈ c.iShape) (hd' : d ∈ c.oShape)
    (m : List (ℕ × ℕ)) (hm : c.Fits d m) (S : List (SB.Builder × SB.Builder)) (L : List (Cut × Cut)) (h : List.Forall₂ c.Pair S L) :
    ∃ S', expandAll d m S = .ok S' ∧ List.Forall₂ c.Pair S' (spread d m L) := by
  induction h with
  | nil => exact ⟨[], rfl, .nil⟩
  | @cons p q S L hp _ ih =>
    obtain ⟨S1, h1, h2⟩ := ih
    obtain ⟨S2, h3, h4⟩ := expandOne_cut c hi ho d hd hd' p q hp m hm
    refine ⟨S2 ++ S1, ?_, ?_⟩
    · rw [expandAll, h3, Res.ok_bind, h1, Res.ok_bind]
    · unfold spread
      rw [List.flatMap_cons]
      exact List.rel_append h4 h2

/-- Cuts for all dimensions. -/
def spreadAll (ps : List (String × Plan)) : List String → List (Cut × Cut) → List (Cut × Cut)
  | [], L => L
  | d :: ds, L =>
    match slicesOf ps d with
    | none => spreadAll ps ds L
    | some m => spreadAll ps ds (spread d m L)

theorem expand_cut (c : TCtx) (hi : c.iShape.Nodup) (ho : c.oShape.Nodup) (ps : List (String × Plan)) (ds : List String) :
    (∀ d ∈ ds, d ∈ c.iShape ∧ d ∈ c.oShape ∧ ∀ m, slicesOf ps d = some m → c.Fits d m) → ∀ S L, List.Forall₂ c.Pair S L →
    ∃ S', expand ps ds S = .ok S' ∧ List.Forall₂ c.Pair S' (spreadAll ps ds L) := by
  induction ds with
  | nil => intro _ S L h; exact ⟨S, rfl, h⟩
  | cons d ds ih =>
    intro hd S L h
    have ih := ih fun d' hd' => hd d' (by simp [hd'])
    obtain ⟨d1, d2, d3⟩ := hd d (by simp)
    unfold expand spreadAll
    cases hs : slicesOf ps d with
    | none => exact ih S L h
    | some m =>
      obtain ⟨S1, e1, e2⟩ := expandAll_cut c hi ho d d1 d2 m (d3 m hs) S L h
      dsimp only
      rw [e1, Res.ok_bind]
      exact ih S1 _ e2

/-! ## Cells of the cuts -/

/-- Each of the common dimensions copies position `X` to position `Y`. -/
def Dimwise (common : List String) (q : Cut × Cut) (X Y : String → ℕ) : Prop := ∀ n ∈ common, SlotCopies (q.1 n, q.2 n) (X n) (Y n)

theorem spreadAll_cells (ps : List (String × Plan)) (X Y : String → ℕ) (ds : List String) : ds.Nodup → ∀ (L : List (Cut × Cut)) (R : Cut × Cut → Prop)
    (_ : ∀ d ∈ ds, ∀ (q : Cut × Cut) x y, R (Function.update q.1 d x, Function.update q.2 d y) ↔ R q),
    ((∃ q ∈ spreadAll ps ds L, R q ∧ Dimwise ds q X Y) ↔
      ∃ q ∈ L, R q ∧ ∀ n ∈ ds, ∃ x ∈ options ps n (q.1 n, q.2 n), SlotCopies x (X n) (Y n)) := by
  induction ds with
  | nil => intro _ L R _; simp [spreadAll, Dimwise]
  | cons d ds ih =>
    intro hnd L R hR
    rw [List.nodup_cons] at hnd
    have step : ∀ L', (∃ q ∈ spreadAll ps ds L', R q ∧ Dimwise (d :: ds) q X Y) ↔
        ∃ q ∈ L', R q ∧ SlotCopies (q.1 d, q.2 d) (X d) (Y d) ∧ ∀ n ∈ ds, ∃ x ∈ options ps n (q.1 n, q.2 n), SlotCopies x (X n) (Y n) := by
      intro L'
      have := ih hnd.2 L' (fun q => R q ∧ SlotCopies (q.1 d, q.2 d) (X d) (Y d)) (by
        intro d' hd' q x y
        have hne : d ≠ d' := fun h => hnd.1 (h ▸ hd')
        dsimp only
        rw [hR d' (by simp [hd']) q x y, Function.update_of_ne hne, Function.update_of_ne hne])
      constructor
      · rintro ⟨q, h1, h2, h3⟩
        obtain ⟨q', g1, ⟨g2, g3⟩, g4⟩ := this.1 ⟨q, h1, ⟨h2, h3 d (by simp)⟩, fun n hn => h3 n (by simp [hn])⟩
        exact ⟨q', g1, g2, g3, g4⟩
      · rintro ⟨q, h1, h2, h3, h4⟩
        obtain ⟨q', g1, ⟨g2, g3⟩, g4⟩ := this.2 ⟨q, h1, ⟨h2, h3⟩, h4⟩
        refine ⟨q', g1, g2, fun n hn => ?_⟩
        rcases List.mem_cons.1 hn with rfl | hn
        · exact g3
        · exact g4 n hn
    unfold spreadAll
    cases hs : slicesOf ps d with
    | none =>
      dsimp only
      rw [step L]
      constructor
      · rintro ⟨q, h1, h2, h3, h4⟩
        refine ⟨q, h1, h2, fun n hn => ?_⟩
        rcases List.mem_cons.1 hn with rfl | hn
        · exact ⟨_, by simp [options, hs], h3⟩
        · exact h4 n hn
      · rintro ⟨q, h1, h2, h3⟩
        refine ⟨q, h1, h2, ?_, fun n hn => h3 n (by simp [hn])⟩
        obtain ⟨x, hx, hc⟩ := h3 d (by simp)
        simp only [options, hs, List.mem_singleton] at hx
        subst hx
        exact hc
    | some m =>
      dsimp only
      rw [step (spread d m L)]
      have hopt : ∀ (q : Cut × Cut) (e : ℕ × ℕ), ∀ n ∈ ds, options ps n (Function.update q.1 d (e.1, 1) n, Function.update q.2 d (e.2, 1) n) = options ps n (q.1 n, q.2 n) := by
        intro q e n hn
        have hne : n ≠ d := fun h => hnd.1 (h ▸ hn)
        rw [Function.update_of_ne hne, Function.update_of_ne hne]
      constructor
      · rintro ⟨q', h1, h2, h3, h4⟩
        simp only [spread, List.mem_flatMap, List.mem_map] at h1
        obtain ⟨q, hq, e, he, rfl⟩ := h1
        refine ⟨q, hq, (hR d (by simp) q _ _).1 h2, fun n hn => ?_⟩
        rcases List.mem_cons.1 hn with rfl | hn
        · simp only [Function.update_self] at h3
          exact ⟨_, by simp only [options, hs]; exact List.mem_map_of_mem he, h3⟩
        · have := h4 n hn
          dsimp only at this
          rw [hopt q e n hn] at this
          exact this
      · rintro ⟨q, h1, h2, h3⟩
        obtain ⟨x, hx, hc⟩ := h3 d (by simp)
        simp only [options, hs, List.mem_map] at hx
        obtain ⟨e, he, rfl⟩ := hx
        refine ⟨(Function.update q.1 d (e.1, 1), Function.update q.2 d (e.2, 1)), ?_, (hR d (by simp) q _ _).2 h2, ?_, fun n hn => ?_⟩
        · simp only [spread, List.mem_flatMap, List.mem_map]
          exact ⟨q, h1, e, he, rfl⟩
        · simp only [Function.update_self]; exact hc
        · dsimp only
          rw [hopt q e n hn]
          exact h3 n (by simp [hn])

/-- Cuts that share no input position in some dimension. -/
def Apart (ds : List String) (q r : Cut × Cut) : Prop := ∃ n ∈ ds, ∀ k l : ℕ, k < (q.1 n).2 → l < (r.1 n).2 → (q.1 n).1 + k ≠ (r.1 n).1 + l

theorem spreadAll_apart (ps : List (String × Plan)) (ds : List String) : ∀ (pre : List String), (pre ++ ds).Nodup →
    (∀ d ∈ ds, ∀ m, slicesOf ps d = some m → (m.map Prod.fst).Nodup) → ∀ L : List (Cut × Cut), L.Pairwise (Apart pre) →
    (spreadAll ps ds L).Pairwise (Apart (pre ++ ds)) := by
  induction ds with
  | nil => intro pre _ _ L h; simpa [spreadAll] using h
  | cons d ds ih =>
    intro pre hnd hm L h
    have hnd' : (pre ++ [d] ++ ds).Nodup := by simpa using hnd
    have hdpre : d ∉ pre := by
      intro hc
      rw [List.nodup_append] at hnd
      exact hnd.2.2 d hc d (by simp) rfl
    have ih := ih (pre ++ [d]) hnd' fun d' hd' => hm d' (by simp [hd'])
    have hgoal : pre ++ d :: ds = pre ++ [d] ++ ds := by simp
    rw [hgoal]
    unfold spreadAll
    cases hs : slicesOf ps d with
    | none =>
      exact ih L (h.imp fun ⟨n, hn, hk⟩ => ⟨n, by simp [hn], hk⟩)
    | some m =>
      apply ih
      unfold spread
      rw [List.pairwise_flatMap]
      constructor
      · intro q _
        rw [List.pairwise_map]
        have := hm d (by simp) m hs
        rw [List.Nodup, List.pairwise_map] at this
        refine this.imp fun {e e'} hne => ⟨d, by simp, ?_⟩
        simp only [Function.update_self]
        intro k l hk hl
        omega
      · refine h.imp fun {q r} ⟨n, hn, hk⟩ => ?_
        intro x hx y hy
        obtain ⟨e, _, rfl⟩ := List.mem_map.1 hx
        obtain ⟨e', _, rfl⟩ := List.mem_map.1 hy
        have hne : n ≠ d := fun h => hdpre (h ▸ hn)
        refine ⟨n, by simp [hn], ?_⟩
        simp only [Function.update_of_ne hne]
        exact hk

/-! ## Position in memory -/

theorem inShape_map (l : List String) (size k : String → ℕ) : InShape (l.map size) (l.map k) ↔ ∀ n ∈ l, k n < size n := by
  induction l with
  | nil => simp [InShape]
  | cons n l ih => simp [InShape, ih]

theorem inShape_length : ∀ (s k : List ℕ), InShape s k → k.length = s.length := by
  intro s
  induction s with
  | nil => intro k h; cases k with
    | nil => rfl
    | cons a k => cases h
  | cons n s ih => intro k h; cases k with
    | nil => cases h
    | cons a k => rw [List.length_cons, List.length_cons, ih k h.2]

/-- A list along distinct names is a function of the name. -/
theorem exists_fun (l : List String) (hn : l.Nodup) (k : List ℕ) (h : k.length = l.length) : ∃ f : String → ℕ, k = l.map f := by
  induction l generalizing k with
  | nil => exact ⟨fun _ => 0, by simpa using h⟩
  | cons n l ih =>
    rw [List.nodup_cons] at hn
    cases k with
    | nil => simp at h
    | cons a k =>
      obtain ⟨f, rfl⟩ := ih hn.2 k (by simpa using h)
      refine ⟨Function.update f n a, ?_⟩
      rw [List.map_cons, Function.update_self]
      congr 1
      apply List.map_congr_left
      intro m hm
      rw [Function.update_of_ne (fun h : m = n => hn.1 (h ▸ hm))]

/-- Dimensions of size one do not count. -/
theorem pos_filter (l : List String) (P : String → Bool) (size k : String → ℕ) (h1 : ∀ n ∈ l, P n = false → size n = 1)
    (hk : ∀ n ∈ l, k n < size n) :
    pos (l.map size) (l.map k) = pos ((l.filter P).map size) ((l.filter P).map k) ∧
      (l.map size).prod = ((l.filter P).map size).prod := by
  induction l with
  | nil => exact ⟨rfl, rfl⟩
  | cons n l ih =>
    obtain ⟨e1, e2⟩ := ih (fun m hm => h1 m (by simp [hm])) (fun m hm => hk m (by simp [hm]))
    cases hP : P n with
    | true =>
      rw [List.filter_cons_of_pos hP]
      simp only [List.map_cons, pos, List.prod_cons, e1, e2]
      exact ⟨trivial, trivial⟩
    | false =>
      rw [List.filter_cons_of_neg (by simp [hP])]
      have s1 := h1 n (by simp) hP
      have k0 : k n = 0 := by have := hk n (by simp); omega
      simp only [List.map_cons, pos, List.prod_cons, s1, k0, Nat.zero_add, Nat.one_mul]
      exact ⟨e1, e2⟩

theorem zipWith_map_map (l : List String) (f g : String → ℕ) : List.zipWith (· + ·) (l.map f) (l.map g) = l.map fun n => f n + g n := by
  induction l with
  | nil => rfl
  | cons n l ih => simp [ih]

theorem map_eq_map_iff (l : List String) (f g : String → ℕ) : l.map f = l.map g ↔ ∀ n ∈ l, f n = g n := by
  rw [List.map_inj_left]

/-- The cells moved by one pair of slices, dimension by dimension. -/
theorem moves_cut (c : TCtx) (hi : c.iShape.Nodup) (ho : c.oShape.Nodup) (common : List String) (P Q : String → Bool)
    (hP : c.iShape.filter P = common) (hQ : c.oShape.filter Q = common) (p : SB.Builder × SB.Builder) (q : Cut × Cut) (h : c.Pair p q)
    (h1 : ∀ n ∈ c.iShape, P n = false → (q.1 n).2 = 1) (h2 : ∀ n ∈ c.oShape, Q n = false → (q.2 n).2 = 1)
    (hs : ∀ n ∈ common, (q.1 n).2 = (q.2 n).2 ∨ (q.1 n).2 = 0) (X Y : String → ℕ) :
    Moves [p] (c.iShape.map X) (c.oShape.map Y) ↔
      (∀ n ∈ c.iShape, P n = false → X n = (q.1 n).1) ∧ (∀ n ∈ c.oShape, Q n = false → Y n = (q.2 n).1) ∧ Dimwise common q X Y := by
  obtain ⟨⟨_, a1, a2⟩, ⟨_, b1, b2⟩⟩ := h
  have memI : ∀ n ∈ common, n ∈ c.iShape := fun n hn => (List.mem_filter.1 (hP.symm ▸ hn)).1
  have memO : ∀ n ∈ common, n ∈ c.oShape := fun n hn => (List.mem_filter.1 (hQ.symm ▸ hn)).1
  constructor
  · rintro ⟨p', hp', k, k', g1, g2, -, g4, g5, g6⟩
    rw [List.mem_singleton] at hp'
    subst hp'
    rw [a2] at g1 g4
    rw [b2] at g2 g4
    rw [a1] at g5
    rw [b1] at g6
    obtain ⟨f, rfl⟩ := exists_fun c.iShape hi k (by rw [inShape_length _ _ g1, List.length_map])
    obtain ⟨f', rfl⟩ := exists_fun c.oShape ho k' (by rw [inShape_length _ _ g2, List.length_map])
    rw [zipWith_map_map, map_eq_map_iff] at g5 g6
    rw [inShape_map] at g1 g2
    have heq : ∀ n ∈ common, (q.1 n).2 = (q.2 n).2 := by
      intro n hn
      rcases hs n hn with e | e
      · exact e
      · have := g1 n (memI n hn); omega
    have hpos := g4
    rw [(pos_filter c.iShape P (fun n => (q.1 n).2) f h1 g1).1, (pos_filter c.oShape Q (fun n => (q.2 n).2) f' h2 g2).1, hP, hQ] at hpos
    have hsz : common.map (fun n => (q.2 n).2) = common.map fun n => (q.1 n).2 := List.map_congr_left fun n hn => (heq n hn).symm
    rw [hsz] at hpos
    have hff := pos_inj ((inShape_map common _ f).2 fun n hn => g1 n (memI n hn))
      ((inShape_map common _ f').2 fun n hn => by rw [heq n hn]; exact g2 n (memO n hn)) hpos
    rw [map_eq_map_iff] at hff
    refine ⟨fun n hn hPn => ?_, fun n hn hQn => ?_, fun n hn => ⟨f n, heq n hn, g1 n (memI n hn), g5 n (memI n hn), ?_⟩⟩
    · have := g1 n hn
      rw [h1 n hn hPn] at this
      rw [g5 n hn]; omega
    · have := g2 n hn
      rw [h2 n hn hQn] at this
      rw [g6 n hn]; omega
    · rw [hff n hn]; exact g6 n (memO n hn)
  · rintro ⟨d1, d2, d3⟩
    have heq : ∀ n ∈ common, (q.1 n).2 = (q.2 n).2 := by
      intro n hn
      obtain ⟨k, e, _⟩ := d3 n hn
      exact e
    have f1 : ∀ n ∈ c.iShape, X n = (q.1 n).1 + (X n - (q.1 n).1) ∧ X n - (q.1 n).1 < (q.1 n).2 := by
      intro n hn
      cases hPn : P n with
      | false => rw [d1 n hn hPn, h1 n hn hPn]; omega
      | true =>
        obtain ⟨k, _, e2, e3, _⟩ := d3 n (hP ▸ List.mem_filter.2 ⟨hn, hPn⟩)
        dsimp only at e2 e3
        omega
    have f2 : ∀ n ∈ c.oShape, Y n = (q.2 n).1 + (Y n - (q.2 n).1) ∧ Y n - (q.2 n).1 < (q.2 n).2 := by
      intro n hn
      cases hQn : Q n with
      | false => rw [d2 n hn hQn, h2 n hn hQn]; omega
      | true =>
        obtain ⟨k, e1, e2, _, e4⟩ := d3 n (hQ ▸ List.mem_filter.2 ⟨hn, hQn⟩)
        dsimp only at e1 e2 e4
        omega
    have hsz : common.map (fun n => (q.2 n).2) = common.map fun n => (q.1 n).2 := List.map_congr_left fun n hn => (heq n hn).symm
    have hoff : common.map (fun n => Y n - (q.2 n).1) = common.map fun n => X n - (q.1 n).1 := by
      apply List.map_congr_left
      intro n hn
      obtain ⟨k, _, _, e3, e4⟩ := d3 n hn
      dsimp only at e3 e4
      omega
    obtain ⟨p1, p2⟩ := pos_filter c.iShape P (fun n => (q.1 n).2) (fun n => X n - (q.1 n).1) h1 fun n hn => (f1 n hn).2
    obtain ⟨p3, p4⟩ := pos_filter c.oShape Q (fun n => (q.2 n).2) (fun n => Y n - (q.2 n).1) h2 fun n hn => (f2 n hn).2
    refine ⟨p, by simp, c.iShape.map fun n => X n - (q.1 n).1, c.oShape.map fun n => Y n - (q.2 n).1, ?_, ?_, ?_, ?_, ?_, ?_⟩
    · rw [a2, inShape_map]; exact fun n hn => (f1 n hn).2
    · rw [b2, inShape_map]; exact fun n hn => (f2 n hn).2
    · rw [a2, b2, p2, p4, hP, hQ, hsz]
    · rw [a2, b2, p1, p3, hP, hQ, hsz, hoff]
    · rw [a1, zipWith_map_map, map_eq_map_iff]; exact fun n hn => (f1 n hn).1
    · rw [b1, zipWith_map_map, map_eq_map_iff]; exact fun n hn => (f2 n hn).1

theorem spreadAll_mem (ps : List (String × Plan)) (ds : List String) : ds.Nodup → ∀ (L : List (Cut × Cut)), ∀ q ∈ spreadAll ps ds L, ∃ q0 ∈ L, ∀ n,
    ((n ∈ ds ∧ ∃ m, slicesOf ps n = some m ∧ ∃ e ∈ m, q.1 n = (e.1, 1) ∧ q.2 n = (e.2, 1)) ∨
      ((n ∉ ds ∨ slicesOf ps n = none) ∧ q.1 n = q0.1 n ∧ q.2 n = q0.2 n)) := by
  induction ds with
  | nil => intro _ L q hq; exact ⟨q, hq, fun n => Or.inr ⟨Or.inl (by simp), rfl, rfl⟩⟩
  | cons d ds ih =>
    intro hnd L q hq
    rw [List.nodup_cons] at hnd
    unfold spreadAll at hq
    cases hs : slicesOf ps d with
    | none =>
      rw [hs] at hq
      obtain ⟨q0, h0, h1⟩ := ih hnd.2 L q hq
      refine ⟨q0, h0, fun n => ?_⟩
      rcases h1 n with ⟨g1, g2⟩ | ⟨g1, g2⟩
      · exact Or.inl ⟨by simp [g1], g2⟩
      · refine Or.inr ⟨?_, g2⟩
        by_cases hn : n = d
        · exact Or.inr (hn ▸ hs)
        · rcases g1 with g1 | g1
          · exact Or.inl (by simp [hn, g1])
          · exact Or.inr g1
    | some m =>
      rw [hs] at hq
      obtain ⟨q1, h0, h1⟩ := ih hnd.2 (spread d m L) q hq
      simp only [spread, List.mem_flatMap, List.mem_map] at h0
      obtain ⟨q0, h0, e, he, rfl⟩ := h0
      refine ⟨q0, h0, fun n => ?_⟩
      rcases h1 n with ⟨g1, g2⟩ | ⟨g1, g2, g3⟩
      · exact Or.inl ⟨by simp [g1], g2⟩
      · by_cases hn : n = d
        · subst hn
          simp only [Function.update_self] at g2 g3
          exact Or.inl ⟨by simp, m, hs, e, he, g2, g3⟩
        · simp only [Function.update_of_ne hn] at g2 g3
          refine Or.inr ⟨?_, g2, g3⟩
          rcases g1 with g1 | g1
          · exact Or.inl (by simp [hn, g1])
          · exact Or.inr g1

theorem unusable_absent (I O : Side K) (n : String) (hn : dimOf O n = none) : ∀ (ds : List Dim) (ps : List (String × Plan)),
    planDims I O ds = .ok ps → unusable ps n = false := by
  intro ds
  induction ds with
  | nil => intro ps h; cases h; rfl
  | cons i ds ih =>
    intro ps h
    rw [planDims] at h
    cases ho : O.dims.find? (fun o => o.name = i.name) with
    | none => rw [ho] at h; exact ih ps h
    | some o =>
      rw [ho] at h
      dsimp only at h
      obtain ⟨p, _, h⟩ := Res.bind_eq_ok.1 h
      obtain ⟨ps', h', h⟩ := Res.bind_eq_ok.1 h
      cases h
      have hne : ¬ i.name = n := by
        intro e
        unfold dimOf at hn
        rw [e] at ho
        rw [ho] at hn
        cases hn
      have := ih ps' h'
      unfold unusable at this ⊢
      simp [hne, this]

theorem forall2_pairwise {α β : Type} {R : α → β → Prop} {P : β → β → Prop} {Q : α → α → Prop} {l : List α} {m : List β}
    (h : List.Forall₂ R l m) (hp : m.Pairwise P) (hq : ∀ a b a' b', R a b → R a' b' → P b b' → Q a a') : l.Pairwise Q := by
  induction h with
  | nil => exact .nil
  | @cons a b l m hab hlm ih =>
    rw [List.pairwise_cons] at hp ⊢
    refine ⟨fun a' ha' => ?_, ih hp.2⟩
    obtain ⟨b', hb', hr⟩ : ∃ b' ∈ m, R a' b' := by
      clear ih hp
      induction hlm with
      | nil => cases ha'
      | @cons u v l m huv _ ih' =>
        rcases List.mem_cons.1 ha' with rfl | ha'
        · exact ⟨v, by simp, huv⟩
        · obtain ⟨b', h1, h2⟩ := ih' ha'
          exact ⟨b', by simp [h1], h2⟩
    exact hq a b a' b' hab hr (hp.1 b' hb')

theorem forall2_exists {α β : Type} {R : α → β → Prop} {l : List α} {m : List β} (h : List.Forall₂ R l m) (P : α → Prop) (Q : β → Prop)
    (hpq : ∀ a b, b ∈ m → R a b → (P a ↔ Q b)) : (∃ a ∈ l, P a) ↔ ∃ b ∈ m, Q b := by
  induction h with
  | nil => simp
  | @cons a b l m hab _ ih =>
    have ih := ih fun a b hb => hpq a b (by simp [hb])
    simp only [List.mem_cons, exists_eq_or_imp, ih, hpq a b (by simp) hab]

theorem moves_mem (S : List (SB.Builder × SB.Builder)) (I O : List ℕ) : Moves S I O ↔ ∃ p ∈ S, Moves [p] I O := by
  simp [Moves]

/-! ## Theorem -/

/-- **C58**, translated dimensions. If the shapes are equal up to the dimensions named by the configuration, a cell of the input is moved
exactly when it lies at the configured position in the translated dimensions; it is moved to the configured position in the translated
dimensions of the output and to its target position in the common ones; and by one pair of slices only. -/
theorem C58_translated_dimensions (I O : Side K) (fwts : List Translation) (v : String) (iShape oShape common : List String) (iD oD : String → Dim)
    (h : Translated I O fwts v iShape oShape common iD oD) :
    ∃ ps S, planDims I O I.dims = .ok ps ∧ processVar I O fwts ps v iShape = .ok S ∧
      (∀ X Y : String → ℕ, Moves S (iShape.map X) (oShape.map Y) ↔
        (∀ t ∈ fwts, t.inputDim ∈ iShape → t.inSlices = [X t.inputDim]) ∧
        (∀ t ∈ fwts, t.outputDim ∈ oShape → t.outSlices = [Y t.outputDim]) ∧
        ∀ n ∈ common, X n < (iD n).length ∧ Y n = target (oD n) (I.coord n) (O.coord n) (X n)) ∧
      S.Pairwise fun p q => ∀ x y y', Moves [p] x y → ¬ Moves [q] x y' := by
  obtain ⟨ps, h1, _, h3⟩ := planDims_ok I O I.dims h.names h.sized
  have memI : ∀ n ∈ common, n ∈ iShape := fun n hn => (List.mem_filter.1 (h.left.symm ▸ hn)).1
  have memO : ∀ n ∈ common, n ∈ oShape := fun n hn => (List.mem_filter.1 (h.right.symm ▸ hn)).1
  have hcn : common.Nodup := h.left ▸ h.iNodup.filter _
  have hplan0 : ∀ n ∈ iShape, ∀ o, dimOf O n = some o → ∃ p : Plan, slicesOf ps n = p.slices ∧ unusable ps n = false ∧
      (p.slices = some ((List.range (iD n).length).map fun k => (k, target o (I.coord n) (O.coord n) k)) ∨
        (p.slices = none ∧ ((iD n).length = o.length ∨ (iD n).length = 0) ∧
          ∀ k < (iD n).length, target o (I.coord n) (O.coord n) k = k)) := by
    intro n hn o ho
    have hi := h.iDim n hn
    have ei := dimOf_name hi
    have eo := dimOf_name ho
    have ho' : dimOf O (iD n).name = some o := by rw [ei]; exact ho
    obtain ⟨p, q1, q2, q3⟩ := h3 (iD n) (mem_of_dimOf hi) o ho'
    obtain ⟨s1, s2⟩ := h.sized (iD n) (mem_of_dimOf hi) o ho'
    obtain ⟨p', r1, r2, r3⟩ := planDim_spec (iD n) o _ _ s1 s2
    have : p' = p := by rw [r1] at q1; exact Res.ok.inj q1
    subst this
    rw [ei, eo] at r2 r3
    have hb : p'.bad = false := by
      by_contra hb
      exact h.fits n hn o ho (r2.1 (by simpa using hb))
    exact ⟨p', by rw [← q2, ei], by rw [← hb, ← q3, ei], r3 hb⟩
  have hplan := fun n (hn : n ∈ common) => hplan0 n (memI n hn) (oD n) (h.oDim n (memO n hn))
  have husable : iShape.any (unusable ps) = false := by
    rw [List.any_eq_false]
    intro n hn
    cases ho : dimOf O n with
    | none => simp [unusable_absent I O n ho _ ps h1]
    | some o =>
      obtain ⟨_, _, p2, _⟩ := hplan0 n hn o ho
      simp [p2]
  obtain ⟨bi, hbi, hHi⟩ := builderFor_ok I iShape iD h.iDim false h.iNodup
  obtain ⟨bo, hbo, hHo⟩ := builderFor_ok O oShape oD h.oDim true h.oNodup
  let c : TCtx := ⟨iShape, oShape, fun n => (iD n).length, fun n => (oD n).length, fun n => (oD n).unlimited⟩
  have hpair : c.Pair (bi, bo) (fun n => (0, (iD n).length), fun n => (0, (oD n).length)) := by
    constructor
    · simpa [c, HasCut] using hHi
    · simpa [c, HasCut] using hHo
  obtain ⟨pt, qt, t1, t2, t3, t4, t5, t6⟩ := translate_ok c h.iNodup h.oNodup fwts (bi, bo) _ hpair h.ins h.outs h.inPos h.outPos
  have hbase : ∀ n ∈ common, qt.1 n = (0, (iD n).length) ∧ qt.2 n = (0, (oD n).length) := by
    intro n hn
    have a := (List.mem_filter.1 (h.left.symm ▸ hn : n ∈ iShape.filter _)).2
    have b := (List.mem_filter.1 (h.right.symm ▸ hn : n ∈ oShape.filter _)).2
    exact ⟨t3 n (by simpa using a), t4 n (by simpa using b)⟩
  have hFits : ∀ d ∈ common, d ∈ c.iShape ∧ d ∈ c.oShape ∧ ∀ m, slicesOf ps d = some m → c.Fits d m := by
    intro d hd
    refine ⟨memI d hd, memO d hd, fun m hm e he => ?_⟩
    obtain ⟨p, p1, _, p3⟩ := hplan d hd
    rw [p1] at hm
    rcases p3 with p3 | ⟨p3, _, _⟩
    · rw [p3] at hm
      cases hm
      simp only [List.mem_map, List.mem_range] at he
      obtain ⟨k, hk, rfl⟩ := he
      refine ⟨hk, ?_⟩
      cases hu : (oD d).unlimited with
      | true => exact Or.inl hu
      | false =>
        right
        have hi := h.iDim d (memI d hd)
        have ei := dimOf_name hi
        have hoD := h.oDim d (memO d hd)
        have ho' : dimOf O (iD d).name = some (oD d) := by rw [ei]; exact hoD
        obtain ⟨s1, s2⟩ := h.sized (iD d) (mem_of_dimOf hi) (oD d) ho'
        rw [ei] at s1
        rw [dimOf_name hoD] at s2
        exact target_lt (iD d) (oD d) _ _ s1 s2 (h.fits d (memI d hd) (oD d) hoD) hu k hk
    · rw [p3] at hm; cases hm
  obtain ⟨S, e1, e2⟩ := expand_cut c h.iNodup h.oNodup ps common hFits [pt] [qt] (.cons t2 .nil)
  have hsh := spreadAll_mem ps common hcn [qt]
  -- the cuts of every pair of slices
  have hcut : ∀ q ∈ spreadAll ps common [qt],
      (∀ n, n ∉ common → q.1 n = qt.1 n ∧ q.2 n = qt.2 n) ∧ ∀ n ∈ common, (q.1 n).2 = (q.2 n).2 ∨ (q.1 n).2 = 0 := by
    intro q hq
    obtain ⟨q0, g0, g1⟩ := hsh q hq
    rw [List.mem_singleton] at g0
    subst g0
    refine ⟨fun n hn => ?_, fun n hn => ?_⟩
    · rcases g1 n with ⟨g2, _⟩ | ⟨_, g3, g4⟩
      · exact absurd g2 hn
      · exact ⟨g3, g4⟩
    · rcases g1 n with ⟨_, m, _, e, _, g3, g4⟩ | ⟨g2, g3, g4⟩
      · left; rw [g3, g4]
      · rcases g2 with g2 | g2
        · exact absurd hn g2
        · obtain ⟨p, p1, _, p3⟩ := hplan n hn
          rw [g2] at p1
          rcases p3 with p3 | ⟨_, p4, _⟩
          · rw [p3] at p1; cases p1
          · rw [g3, g4, (hbase n hn).1, (hbase n hn).2]
            exact p4
  have hone : ∀ n ∈ iShape, (decide (n ∉ fwts.map (·.inputDim))) = false → n ∉ common ∧ ∃ t ∈ fwts, t.inputDim = n := by
    intro n hn hd
    simp only [decide_eq_false_iff_not, Decidable.not_not] at hd
    refine ⟨fun hc => ?_, by obtain ⟨t, ht, e⟩ := List.mem_map.1 hd; exact ⟨t, ht, e⟩⟩
    have := (List.mem_filter.1 (h.left.symm ▸ hc : n ∈ iShape.filter _)).2
    simp only [decide_eq_true_eq] at this
    exact this hd
  have hone' : ∀ n ∈ oShape, (decide (n ∉ fwts.map (·.outputDim))) = false → n ∉ common ∧ ∃ t ∈ fwts, t.outputDim = n := by
    intro n hn hd
    simp only [decide_eq_false_iff_not, Decidable.not_not] at hd
    refine ⟨fun hc => ?_, by obtain ⟨t, ht, e⟩ := List.mem_map.1 hd; exact ⟨t, ht, e⟩⟩
    have := (List.mem_filter.1 (h.right.symm ▸ hc : n ∈ oShape.filter _)).2
    simp only [decide_eq_true_eq] at this
    exact this hd
  have hmoves : ∀ p q, q ∈ spreadAll ps common [qt] → c.Pair p q → ∀ X Y : String → ℕ, Moves [p] (iShape.map X) (oShape.map Y) ↔
      ((∀ t ∈ fwts, t.inputDim ∈ iShape → t.inSlices = [X t.inputDim]) ∧ (∀ t ∈ fwts, t.outputDim ∈ oShape → t.outSlices = [Y t.outputDim])) ∧
        Dimwise common q X Y := by
    intro p q hq hp X Y
    obtain ⟨c1, c2⟩ := hcut q hq
    have hI : ∀ n ∈ iShape, (decide (n ∉ fwts.map (·.inputDim))) = false → ∃ t ∈ fwts, t.inputDim = n ∧ ∃ k, t.inSlices = [k] ∧ q.1 n = (k, 1) := by
      intro n hn hd
      obtain ⟨g1, t, ht, rfl⟩ := hone n hn hd
      obtain ⟨k, k1, k2⟩ := t5 t ht hn
      exact ⟨t, ht, rfl, k, k1, by rw [(c1 _ g1).1, k2]⟩
    have hO : ∀ n ∈ oShape, (decide (n ∉ fwts.map (·.outputDim))) = false → ∃ t ∈ fwts, t.outputDim = n ∧ ∃ k, t.outSlices = [k] ∧ q.2 n = (k, 1) := by
      intro n hn hd
      obtain ⟨g1, t, ht, rfl⟩ := hone' n hn hd
      obtain ⟨k, k1, k2⟩ := t6 t ht hn
      exact ⟨t, ht, rfl, k, k1, by rw [(c1 _ g1).2, k2]⟩
    have key := moves_cut c h.iNodup h.oNodup common (fun n => decide (n ∉ fwts.map (·.inputDim))) (fun n => decide (n ∉ fwts.map (·.outputDim)))
      h.left h.right p q hp
      (fun n hn hd => by obtain ⟨_, _, _, k, _, e⟩ := hI n hn hd; rw [e])
      (fun n hn hd => by obtain ⟨_, _, _, k, _, e⟩ := hO n hn hd; rw [e]) c2 X Y
    show Moves [p] (c.iShape.map X) (c.oShape.map Y) ↔ _
    rw [key, and_assoc]
    refine and_congr ?_ (and_congr ?_ Iff.rfl)
    · constructor
      · intro hx t ht hm
        have hd : decide (t.inputDim ∉ fwts.map (·.inputDim)) = false := by
          simp only [decide_eq_false_iff_not, Decidable.not_not]; exact List.mem_map_of_mem ht
        have hx := hx _ hm hd
        obtain ⟨k, k1, k2⟩ := t5 t ht hm
        obtain ⟨g1, _⟩ := hone _ hm hd
        rw [hx, (c1 _ g1).1, k2, k1]
      · intro hx n hn hd
        obtain ⟨t, ht, rfl, k, k1, k2⟩ := hI n hn hd
        have := hx t ht hn
        rw [k1] at this
        rw [k2]
        exact (List.cons.inj this).1.symm
    · constructor
      · intro hx t ht hm
        have hd : decide (t.outputDim ∉ fwts.map (·.outputDim)) = false := by
          simp only [decide_eq_false_iff_not, Decidable.not_not]; exact List.mem_map_of_mem ht
        have hx := hx _ hm hd
        obtain ⟨k, k1, k2⟩ := t6 t ht hm
        obtain ⟨g1, _⟩ := hone' _ hm hd
        rw [hx, (c1 _ g1).2, k2, k1]
      · intro hx n hn hd
        obtain ⟨t, ht, rfl, k, k1, k2⟩ := hO n hn hd
        have := hx t ht hn
        rw [k1] at this
        rw [k2]
        exact (List.cons.inj this).1.symm
  refine ⟨ps, S, h1, ?_, ?_, ?_⟩
  · have hl : untranslated (fwts.map (·.inputDim)) iShape = common := by rw [← h.left]; rfl
    have hr : untranslated (fwts.map (·.outputDim)) oShape = common := by rw [← h.right]; rfl
    unfold processVar
    rw [h.outShape]
    dsimp only
    rw [husable, if_neg (by simp), hl, hr, stdEqual_self, Res.ok_bind, if_neg (by simp), hbi, Res.ok_bind, hbo, Res.ok_bind]
    have t1' : translate iShape oShape fwts (bi, bo) = .ok pt := t1
    rw [t1', Res.ok_bind]
    exact e1
  · intro X Y
    rw [moves_mem, forall2_exists e2 (fun p => Moves [p] (iShape.map X) (oShape.map Y)) _ (fun p q hq hp => hmoves p q hq hp X Y),
      spreadAll_cells ps X Y common hcn [qt] (fun _ => _) (fun _ _ _ _ _ => Iff.rfl)]
    simp only [List.mem_singleton, exists_eq_left]
    rw [and_assoc]
    refine and_congr Iff.rfl (and_congr Iff.rfl ?_)
    refine forall_congr' fun n => forall_congr' fun hn => ?_
    obtain ⟨p, p1, _, p3⟩ := hplan n hn
    rw [(hbase n hn).1, (hbase n hn).2]
    exact (options_spec I O ps (iD n) (oD n) n p p1 p3).2 (X n) (Y n)
  · have hap := spreadAll_apart ps common [] (by simpa using hcn) (by
      intro d hd m hm
      obtain ⟨p, p1, _, p3⟩ := hplan d hd
      rw [p1] at hm
      rcases p3 with p3 | ⟨p3, _, _⟩
      · rw [p3] at hm
        cases hm
        rw [List.map_map]
        have : (Prod.fst ∘ fun k => (k, target (oD d) (I.coord d) (O.coord d) k)) = id := rfl
        rw [this, List.map_id]
        exact List.nodup_range
      · rw [p3] at hm; cases hm) [qt] (List.pairwise_singleton _ _)
    refine forall2_pairwise e2 hap ?_
    rintro p q p' q' hp hp' ⟨n, hn, hk⟩ x y y' ⟨_, m1, k, k', g1, _, _, _, g5, _⟩ ⟨_, m2, l, l', j1, _, _, _, j5, _⟩
    rw [List.mem_singleton] at m1 m2
    subst m1 m2
    rw [hp.1.2.2] at g1
    rw [hp.1.2.1] at g5
    rw [hp'.1.2.2] at j1
    rw [hp'.1.2.1] at j5
    obtain ⟨f, rfl⟩ := exists_fun c.iShape h.iNodup k (by rw [inShape_length _ _ g1, List.length_map])
    obtain ⟨f', rfl⟩ := exists_fun c.iShape h.iNodup l (by rw [inShape_length _ _ j1, List.length_map])
    rw [zipWith_map_map] at g5 j5
    rw [g5, map_eq_map_iff] at j5
    rw [inShape_map] at g1 j1
    have hn' : n ∈ common := by simpa using hn
    exact hk _ _ (g1 n (memI n hn')) (j1 n (memI n hn')) (j5 n (memI n hn'))

/-- One level of the input, and ensemble member 2 of the output; times are matched by value. -/
def transI : Side ℕ :=
  ⟨[⟨"x", 2, false⟩, ⟨"z", 3, false⟩, ⟨"t", 2, false⟩], fun v => if v = "a" then some ["x", "z", "t"] else none,
    fun v => if v = "t" then some [some 20, some 30] else none⟩

/-- The file to be filled. -/
def transO : Side ℕ :=
  ⟨[⟨"t", 2, true⟩, ⟨"x", 2, false⟩, ⟨"m", 4, false⟩], fun v => if v = "a" then some ["m", "x", "t"] else none,
    fun v => if v = "t" then some [some 10, some 20] else none⟩

/-- Level 1 to member 2. -/
def transT : List Translation := [⟨"z", "m", [1], [2]⟩]

example : ∃ ps S, planDims transI transO transI.dims = .ok ps ∧ processVar transI transO transT ps "a" ["x", "z", "t"] = .ok S ∧
    Moves S [1, 1, 0] [2, 1, 1] ∧ Moves S [0, 1, 1] [2, 0, 2] ∧ ¬ Moves S [0, 2, 1] [2, 0, 2] := by
  obtain ⟨ps, S, h1, h2, h3, _⟩ := C58_translated_dimensions transI transO transT "a" ["x", "z", "t"] ["m", "x", "t"] ["x", "t"]
    (fun n => if n = "x" then ⟨"x", 2, false⟩ else if n = "z" then ⟨"z", 3, false⟩ else ⟨"t", 2, false⟩)
    (fun n => if n = "x" then ⟨"x", 2, false⟩ else if n = "m" then ⟨"m", 4, false⟩ else ⟨"t", 2, true⟩)
    { outShape := by decide, iNodup := by decide, oNodup := by decide, names := by decide, iDim := by decide, oDim := by decide
      sized := by
        intro i hi o ho
        have h1 : ∀ d ∈ transI.dims, (transI.coord d.name).all (fun l => l.length = d.length) = true := by decide
        have h2 : ∀ d ∈ transO.dims, (transO.coord d.name).all (fun l => l.length = d.length) = true := by decide
        constructor <;> intro l hl
        · have := h1 i hi
          rw [hl] at this; simpa using this
        · have := h2 o (mem_of_dimOf ho)
          rw [hl] at this; simpa using this
      left := by decide, right := by decide, ins := by decide, outs := by decide
      inPos := by
        intro t ht _
        simp only [transT, List.mem_singleton] at ht
        subst ht
        exact ⟨1, by decide, rfl⟩
      outPos := by
        intro t ht _
        simp only [transT, List.mem_singleton] at ht
        subst ht
        exact ⟨2, rfl, by decide⟩
      fits := by
        intro n hn o ho
        simp only [List.mem_cons, List.not_mem_nil, or_false] at hn
        rcases hn with rfl | rfl | rfl
        · have : o = ⟨"x", 2, false⟩ := (Option.some.inj (ho.symm.trans (by decide)))
          subst this; simp [Misfit, transI, transO]
        · exact absurd ho (by
            have : dimOf transO "z" = none := by decide
            rw [this]; exact fun h => by cases h)
        · have : o = ⟨"t", 2, true⟩ := (Option.some.inj (ho.symm.trans (by decide)))
          subst this; simp [Misfit] }
  have hx : ∀ a b c : ℕ, [a, b, c] = (["x", "z", "t"] : List String).map (fun n => if n = "x" then a else if n = "z" then b else c) := by
    intro a b c; simp
  have hy : ∀ a b c : ℕ, [a, b, c] = (["m", "x", "t"] : List String).map (fun n => if n = "m" then a else if n = "x" then b else c) := by
    intro a b c; simp
  refine ⟨ps, S, h1, h2, ?_, ?_, ?_⟩
  · rw [hx 1 1 0, hy 2 1 1, h3]; decide
  · rw [hx 0 1 1, hy 2 0 2, h3]; decide
  · rw [hx 0 2 1, hy 2 0 2, h3]; decide

/-- A dimension that is translated from one position to another, and is therefore not matched by its values, still makes the variable unusable
when the two files have different values in it: position 0 of one time axis cannot be put at position 1 of another. -/
theorem C58_translated_dimension_must_match :
    fillWriter (⟨[⟨"t", 1, false⟩], fun _ => none, fun _ => some [some 7]⟩ : Side ℕ)
      ⟨[⟨"t", 2, false⟩], fun _ => some ["t"], fun _ => some [some 8, some 9]⟩ [⟨"t", "t", [0], [1]⟩] [("a", ["t"])] = ([("a", [])], .throws) ∧
    ∃ a b, fillWriter (⟨[⟨"t", 1, false⟩], fun _ => none, fun _ => some [some 8]⟩ : Side ℕ)
      ⟨[⟨"t", 2, false⟩], fun _ => some ["t"], fun _ => some [some 8, some 9]⟩ [⟨"t", "t", [0], [1]⟩] [("a", ["t"])] = ([("a", [(a, b)])], .ok ()) ∧
      a.start = [0] ∧ b.start = [1] :=
  ⟨by decide, _, _, rfl, rfl, rfl⟩

end Fimex.Writer
