import Verif.Writer.FillModel
import Verif.SliceBuilder.Props
import Verif.Fill.Props
import Mathlib.Data.List.Nodup

/-!
# Filling an existing file: C58
-/

namespace Fimex.Writer

set_option linter.unusedSectionVars false

variable {K : Type} [DecidableEq K]

/-! ## Specification -/

/-- Is the coordinate value in the output? -/
def found (o : Dim) (oData : List (Option K)) (x : Option K) : Bool := (oData.take o.length).any fun y => feq y x

/-- How many of the first `i` input coordinates are not in the output. -/
def newBefore (o : Dim) (iData oData : List (Option K)) (i : ℕ) : ℕ := ((iData.take i).filter fun x => !found o oData x).length

/-- Where input position `i` goes: to the first equal coordinate value, or after the existing ones. -/
def place (o : Dim) (iData oData : List (Option K)) (i : ℕ) : ℕ :=
  if found o oData (iData.getD i none) then (oData.take o.length).findIdx fun y => feq y (iData.getD i none)
  else o.length + newBefore o iData oData i

/-- The output position of input position `i` of a dimension. -/
def target (o : Dim) (iC oC : Option (List (Option K))) (i : ℕ) : ℕ :=
  match iC, oC with
  | some iData, some oData => place o iData oData i
  | _, _ => if o.unlimited then o.length + i else i

/-- A dimension whose values cannot all be placed. -/
def Misfit (i o : Dim) (iC oC : Option (List (Option K))) : Prop :=
  o.unlimited = false ∧
  match iC, oC with
  | some iData, some oData => ∃ x ∈ iData, found o oData x = false
  | _, _ => i.length ≠ o.length

/-- Coordinate variables have one value per position. -/
def Sized (d : Dim) (c : Option (List (Option K))) : Prop := ∀ l, c = some l → l.length = d.length

/-- The cells copied by a list of slices: a cell of the read slice to the same cell of the written slice, the two slices having the
same size. -/
def Copies (S : List (SB.Builder × SB.Builder)) (I O : List ℕ) : Prop :=
  ∃ p ∈ S, ∃ k : List ℕ, p.1.size = p.2.size ∧ List.Forall₂ (· < ·) k p.1.size ∧
    I = List.zipWith (· + ·) p.1.start k ∧ O = List.zipWith (· + ·) p.2.start k

/-! ## One dimension -/

theorem findFrom_eq (d : List (Option K)) (x : Option K) (r : ℕ) : ∀ pos, pos + r ≤ d.length →
    findFrom d x pos r = .ok (pos + ((d.drop pos).take r).findIdx fun y => feq y x) := by
  induction r with
  | zero => intro pos _; simp [findFrom]
  | succ r ih =>
    intro pos h
    have hp : pos < d.length := by omega
    rw [findFrom, readAt, List.getElem?_eq_getElem hp]
    dsimp only
    rw [Res.ok_bind, List.drop_eq_getElem_cons hp, List.take_succ_cons, List.findIdx_cons]
    by_cases hf : feq d[pos] x = true
    · simp [hf]
    · simp only [hf, Bool.false_eq_true, if_false]
      rw [ih (pos + 1) (by omega)]
      simp; omega

theorem found_iff (o : Dim) (d : List (Option K)) (x : Option K) (h : o.length ≤ d.length) :
    found o d x = true ↔ (d.take o.length).findIdx (fun y => feq y x) < o.length := by
  have hl : (d.take o.length).length = o.length := by simp; omega
  have := List.findIdx_lt_length (p := fun y => feq y x) (xs := d.take o.length)
  rw [hl] at this
  rw [found, List.any_eq_true, this]

theorem find_out (o : Dim) (d : List (Option K)) (x : Option K) (h : o.length ≤ d.length) :
    findFrom d x 0 o.length = .ok (if found o d x then (d.take o.length).findIdx (fun y => feq y x) else o.length) := by
  rw [findFrom_eq d x o.length 0 (by omega)]
  have hl : (d.take o.length).length = o.length := by simp; omega
  have hf := found_iff o d x h
  have hle : (d.take o.length).findIdx (fun y => feq y x) ≤ (d.take o.length).length := List.findIdx_le_length
  rw [List.drop_zero]
  by_cases h' : found o d x = true
  · simp [h']
  · have hnot : ¬ (d.take o.length).findIdx (fun y => feq y x) < o.length := fun hlt => h' (hf.2 hlt)
    simp only [h', Bool.false_eq_true, if_false]
    congr 1; omega

theorem take_succ_getD {α : Type} (l : List α) (i : ℕ) (d : α) (h : i < l.length) : l.take (i + 1) = l.take i ++ [l.getD i d] := by
  rw [List.take_succ_eq_append_getElem h]
  simp [List.getD, List.getElem?_eq_getElem h]

theorem newBefore_succ (o : Dim) (a b : List (Option K)) (i : ℕ) (h : i < a.length) :
    newBefore o a b (i + 1) = newBefore o a b i + if found o b (a.getD i none) then 0 else 1 := by
  unfold newBefore
  rw [take_succ_getD a i none h, List.filter_append, List.length_append]
  by_cases hf : found o b (a.getD i none) = true
  · simp only [hf, if_true, List.filter_cons, List.filter_nil]; simp
  · simp only [Bool.not_eq_true] at hf
    simp only [hf, List.filter_cons, List.filter_nil]; simp

/-- The state of the loop over the positions. -/
structure LoopInv (o : Dim) (iData oData : List (Option K)) (n : ℕ) (s : DimState) : Prop where
  unl : o.unlimited = true → s.unLimCount = newBefore o iData oData n
  bad : s.bad = true ↔ (o.unlimited = false ∧ ∃ i < n, found o oData (iData.getD i none) = false)
  cur : s.bad = false → s.currentSlices = (List.range n).map fun i => (i, place o iData oData i)
  chg : s.bad = false → (s.changes = 0 ↔ ∀ i < n, place o iData oData i = i)

theorem step_inv (o : Dim) (iData oData : List (Option K)) (n : ℕ) (s : DimState) (hi : n < iData.length) (ho : o.length ≤ oData.length)
    (h : LoopInv o iData oData n s) : ∃ s', dimStep iData oData o n s = .ok s' ∧ LoopInv o iData oData (n + 1) s' := by
  have hr : readAt iData n = .ok (iData.getD n none) := by
    simp [readAt, List.getD, List.getElem?_eq_getElem hi]
  unfold dimStep
  rw [hr, Res.ok_bind, find_out o oData _ ho, Res.ok_bind]
  have hsucc := newBefore_succ o iData oData n hi
  have hpush : ∀ q u, place o iData oData n = q → (o.unlimited = true → u = newBefore o iData oData (n + 1)) →
      (found o oData (iData.getD n none) = true ∨ o.unlimited = true) →
      LoopInv o iData oData (n + 1) { push s n q with unLimCount := u } := by
    intro q u hq hu hor
    refine ⟨hu, ?_, ?_, ?_⟩
    · show s.bad = true ↔ _
      rw [h.bad]
      constructor
      · rintro ⟨h1, i, h2, h3⟩; exact ⟨h1, i, by omega, h3⟩
      · rintro ⟨h1, i, h2, h3⟩
        refine ⟨h1, i, ?_, h3⟩
        rcases Nat.lt_succ_iff_lt_or_eq.1 h2 with h4 | h4
        · exact h4
        · subst h4
          rcases hor with hor | hor
          · rw [hor] at h3; cases h3
          · rw [hor] at h1; cases h1
    · intro hb
      show s.currentSlices ++ [(n, q)] = _
      rw [h.cur hb, List.range_succ, List.map_append, ← hq]; rfl
    · intro hb
      show (if n ≠ q then s.changes + 1 else s.changes) = 0 ↔ _
      have hc := h.chg hb
      by_cases hnq : n = q
      · rw [if_neg (by simpa using hnq), hc]
        constructor
        · intro h1 i h2
          rcases Nat.lt_succ_iff_lt_or_eq.1 h2 with h4 | h4
          · exact h1 i h4
          · rw [h4, hq, hnq]
        · intro h1 i h2; exact h1 i (by omega)
      · rw [if_pos hnq]
        constructor
        · intro h1; omega
        · intro h1
          exact absurd ((h1 n (by omega)).symm.trans hq) hnq
  by_cases hf : found o oData (iData.getD n none) = true
  · have hlt := (found_iff o oData _ ho).1 hf
    rw [if_pos hf, if_neg (by omega)]
    refine ⟨_, rfl, ?_⟩
    have := hpush _ s.unLimCount (by unfold place; rw [if_pos hf]) (by
      intro hu; rw [h.unl hu, hsucc, if_pos hf]; rfl) (Or.inl hf)
    exact this
  · rw [if_neg hf, if_pos rfl]
    by_cases hu : o.unlimited = true
    · rw [if_pos hu]
      refine ⟨_, rfl, ?_⟩
      apply hpush
      · unfold place
        rw [if_neg hf, h.unl hu]
      · intro _; rw [hsucc, if_neg hf, h.unl hu]
      · exact Or.inr hu
    · rw [if_neg hu]
      simp only [Bool.not_eq_true] at hu hf
      refine ⟨_, rfl, ⟨fun h' => (by rw [hu] at h'; cases h'), ?_, ?_, ?_⟩⟩
      · constructor
        · intro _; exact ⟨hu, n, by omega, hf⟩
        · intro _; rfl
      · intro hb; cases hb
      · intro hb; cases hb

theorem planDim_spec (i o : Dim) (iC oC : Option (List (Option K))) (hi : Sized i iC) (ho : Sized o oC) :
    ∃ p, planDim i o iC oC = .ok p ∧ (p.bad = true ↔ Misfit i o iC oC) ∧
      (p.bad = false →
        (p.slices = some ((List.range i.length).map fun k => (k, target o iC oC k)) ∨
        (p.slices = none ∧ (i.length = o.length ∨ i.length = 0) ∧ ∀ k < i.length, target o iC oC k = k))) := by
  have key : ∃ p, planDim0 i o iC oC = .ok p ∧ (p.bad = true ↔ Misfit i o iC oC) ∧
      (p.bad = false →
        (p.slices = some ((List.range i.length).map fun k => (k, target o iC oC k)) ∨
        (p.slices = none ∧ (i.length = o.length ∨ i.length = 0) ∧ ∀ k < i.length, target o iC oC k = k))) := by
    have hother : (∀ a b, ¬ (iC = some a ∧ oC = some b)) →
        planDim0 i o iC oC = (if o.unlimited then .ok ⟨entries ((List.range i.length).map fun k => (k, o.length + k)), false⟩
          else if i.length = o.length then .ok ⟨none, false⟩ else .ok ⟨none, true⟩) ∧
        (Misfit i o iC oC ↔ (o.unlimited = false ∧ i.length ≠ o.length)) ∧
        ∀ k, target o iC oC k = if o.unlimited then o.length + k else k := by
      intro hn
      cases iC <;> cases oC
      · exact ⟨rfl, Iff.rfl, fun _ => rfl⟩
      · exact ⟨rfl, Iff.rfl, fun _ => rfl⟩
      · exact ⟨rfl, Iff.rfl, fun _ => rfl⟩
      · exact absurd ⟨rfl, rfl⟩ (hn _ _)
    by_cases hb : ∃ a b, iC = some a ∧ oC = some b
    · obtain ⟨a, b, rfl, rfl⟩ := hb
      have ha := hi a rfl
      have hbl := ho b rfl
      have h0 : LoopInv o a b 0 ⟨0, 0, [], false⟩ := by
        refine ⟨fun _ => ?_, ?_, fun _ => rfl, fun _ => ?_⟩
        · simp [newBefore]
        · simp
        · simp
      obtain ⟨s, hs, hs2⟩ := Fill.forN_inv (body := dimStep a b o) (LoopInv o a b) i.length 0 _ (by
        intro n s h1 h2 h3
        exact step_inv o a b n s (by omega) (by omega) h3) h0
      rw [Nat.zero_add] at hs2
      have hmis : s.bad = true ↔ Misfit i o (some a) (some b) := by
        rw [hs2.bad]
        show _ ↔ (o.unlimited = false ∧ ∃ x ∈ a, found o b x = false)
        constructor
        · rintro ⟨h1, k, h2, h3⟩
          refine ⟨h1, a.getD k none, ?_, h3⟩
          simp only [List.getD, List.getElem?_eq_getElem (show k < a.length by omega), Option.getD_some]
          exact List.getElem_mem _
        · rintro ⟨h1, x, h2, h3⟩
          obtain ⟨k, hk, rfl⟩ := List.getElem_of_mem h2
          refine ⟨h1, k, by omega, ?_⟩
          simpa [List.getD, List.getElem?_eq_getElem hk] using h3
      unfold planDim0
      dsimp only
      rw [hs, Res.ok_bind]
      by_cases hc : s.changes > 0 ∨ i.length ≠ o.length
      · rw [if_pos hc]
        exact ⟨_, rfl, hmis, fun hb => Or.inl (by rw [hs2.cur hb]; rfl)⟩
      · rw [if_neg hc]
        simp only [not_or, Decidable.not_not, gt_iff_lt, Nat.not_lt, Nat.le_zero, ne_eq] at hc
        exact ⟨_, rfl, hmis, fun hb => Or.inr ⟨rfl, Or.inl hc.2, (hs2.chg hb).1 hc.1⟩⟩
    · obtain ⟨e1, e2, e3⟩ := hother (fun a b hab => hb ⟨a, b, hab⟩)
      rw [e1]
      by_cases hu : o.unlimited = true
      · rw [if_pos hu]
        refine ⟨_, rfl, ?_, fun _ => ?_⟩
        · rw [e2, hu]; simp
        · dsimp only
          unfold entries
          by_cases hz : i.length = 0
          · right
            rw [if_pos (by rw [hz]; rfl)]
            exact ⟨rfl, Or.inr hz, fun k hk => by omega⟩
          · left
            rw [if_neg (by simpa using hz)]
            congr 1
            apply List.map_congr_left
            intro k _
            rw [e3, if_pos hu]
      · rw [if_neg hu]
        by_cases hl : i.length = o.length
        · rw [if_pos hl]
          refine ⟨_, rfl, ?_, fun _ => Or.inr ⟨rfl, Or.inl hl, fun k _ => by rw [e3, if_neg hu]⟩⟩
          rw [e2]; simp [hl]
        · rw [if_neg hl]
          refine ⟨_, rfl, ?_, fun h => by cases h⟩
          rw [e2]; simpa using ⟨by simpa using hu, hl⟩
  obtain ⟨p, h1, h2, h3⟩ := key
  unfold planDim
  rw [h1, Res.ok_bind]
  by_cases hb : p.bad = true
  · rw [if_neg (by simpa using hb)]
    split
    · exact ⟨_, rfl, h2, fun h => by simp only [hb] at h; cases h⟩
    · exact ⟨_, rfl, h2, h3⟩
  · rw [if_pos hb]
    exact ⟨_, rfl, h2, h3⟩

/-! ## Products of slices -/

/-- Start and size on both sides, for one dimension. -/
abbrev Slot := (ℕ × ℕ) × (ℕ × ℕ)

/-- All choices of one slot per dimension, the last dimension varying fastest. -/
def prod : List (List Slot) → List (List Slot)
  | [] => [[]]
  | o :: os => o.flatMap fun x => (prod os).map (x :: ·)

theorem mem_prod (os : List (List Slot)) : ∀ s, s ∈ prod os ↔ List.Forall₂ (fun x o => x ∈ o) s os := by
  induction os with
  | nil => intro s; simp [prod]
  | cons o os ih =>
    intro s
    simp only [prod, List.mem_flatMap, List.mem_map]
    constructor
    · rintro ⟨x, hx, t, ht, rfl⟩
      exact List.Forall₂.cons hx ((ih t).1 ht)
    · intro h
      cases h with
      | cons hx ht => exact ⟨_, hx, _, (ih _).2 ht, rfl⟩

theorem prod_singletons (ds : List Slot) : prod (ds.map fun d => [d]) = [ds] := by
  induction ds with
  | nil => rfl
  | cons d ds ih => simp [prod, ih]

theorem prod_nodup (os : List (List Slot)) (h : ∀ o ∈ os, o.Nodup) : (prod os).Nodup := by
  induction os with
  | nil => simp [prod]
  | cons o os ih =>
    have ih := ih fun o' ho' => h o' (by simp [ho'])
    have ho := h o (by simp)
    rw [prod, List.nodup_flatMap]
    refine ⟨fun x _ => ih.map (fun a b hab => by simpa using hab), ?_⟩
    refine ho.imp ?_
    intro a b hab
    rw [Function.onFun, List.disjoint_left]
    intro t h1 h2
    simp only [List.mem_map] at h1 h2
    obtain ⟨_, _, rfl⟩ := h1
    obtain ⟨_, _, h4⟩ := h2
    injection h4 with h5 _
    exact hab h5.symm

theorem prod_step (A : List (List Slot)) (d : Slot) (opts : List Slot) (ds : List Slot) :
    (prod (A ++ [d] :: ds.map fun d => [d])).flatMap (fun s => opts.map fun x => s.set A.length x) =
      prod (A ++ opts :: ds.map fun d => [d]) := by
  induction A with
  | nil =>
    simp only [List.nil_append, prod, prod_singletons, List.flatMap_cons, List.flatMap_nil, List.map_cons, List.map_nil, List.append_nil,
      List.length_nil, List.set_cons_zero]
    exact List.map_eq_flatMap
  | cons o A ih =>
    simp only [List.cons_append, prod, List.flatMap_assoc, List.length_cons]
    congr 1
    funext x
    rw [← ih, List.flatMap_map, List.map_flatMap]
    congr 1
    funext s
    simp [Function.comp_def]

/-! ## Builders -/

/-- A builder of a variable with a given start and size. -/
def Has (shape : List String) (sizes : List ℕ) (unl : List Bool) (b : SB.Builder) (st sz : List ℕ) : Prop :=
  SB.Shape shape.length sizes unl (shape.zipIdx 0) b ∧ b.start = st ∧ b.size = sz

theorem setB_ok {shape : List String} {sizes : List ℕ} {unl : List Bool} {b : SB.Builder} {st sz : List ℕ}
    (hn : shape.Nodup) (h : Has shape sizes unl b st sz) (j : ℕ) (d : String) (hd : shape[j]? = some d) (x y : ℕ)
    (hx : unl.getD j true = true ∨ wadd x y ≤ sizes.getD j 0) :
    ∃ b', setB b d x y = .ok b' ∧ Has shape sizes unl b' (st.set j x) (sz.set j y) := by
  obtain ⟨hs, h1, h2⟩ := h
  have hg : SB.mapGet (shape.zipIdx 0) d = some (0 + j) := SB.mapGet_zipIdx shape 0 hn j d hd
  rw [Nat.zero_add] at hg
  have hj := hs.lt d j hg
  unfold setB
  have hu : SB.at' b.unlimited j = .ok (unl.getD j true) := by
    have : j < unl.length := by rw [hs.lu]; exact hj
    simp [SB.at', hs.un, this]
  have hm : SB.at' b.maxSize j = .ok (sizes.getD j 0) := by
    have : j < sizes.length := by rw [hs.ls]; exact hj
    simp [SB.at', hs.mx, this]
  have hp : SB.getDimPos b d = .ok j := by simp [SB.getDimPos, hs.dp, hg]
  have hc : ¬ (unl.getD j true = false ∧ sizes.getD j 0 < wadd x y) := by
    rintro ⟨h3, h4⟩
    rcases hx with hx | hx
    · rw [h3] at hx; cases hx
    · omega
  have e1 : ¬ b.start.length ≤ j := by rw [hs.st]; omega
  have e2 : ¬ b.size.length ≤ j := by rw [hs.sz]; omega
  have : SB.setStartAndSize b d x y =
      ({ b with start := b.start.set j x, size := b.size.set j y,
                setDims := if d ∈ b.setDims then b.setDims else d :: b.setDims }, .ok ()) := by
    simp only [SB.setStartAndSize, hp, hu, hm, if_neg hc, if_neg e1, if_neg e2]
  rw [this]
  exact ⟨_, rfl, hs.write j x y _, by simp [h1], by simp [h2]⟩

/-- The slots of a pair of builders. -/
def slots (p : SB.Builder × SB.Builder) : List Slot := (p.1.start.zip p.1.size).zip (p.2.start.zip p.2.size)

/-- Everything fixed about a variable that is copied: names, and sizes and extensibility on both sides. -/
structure Ctx where
  shape : List String
  iSizes : List ℕ
  oSizes : List ℕ
  oUnl : List Bool

/-- Both builders belong to the variable. -/
def Ctx.Pair (c : Ctx) (p : SB.Builder × SB.Builder) : Prop :=
  (∃ st sz, Has c.shape c.iSizes (c.iSizes.map fun _ => false) p.1 st sz) ∧ (∃ st sz, Has c.shape c.oSizes c.oUnl p.2 st sz)

theorem zip_set {α β : Type} (a : List α) (b : List β) (j : ℕ) (x : α) (y : β) : (a.set j x).zip (b.set j y) = (a.zip b).set j (x, y) := by
  induction a generalizing b j with
  | nil => simp
  | cons u a ih =>
    cases b with
    | nil => simp
    | cons v b =>
      cases j with
      | zero => simp
      | succ j => simp [ih]

/-- A position that can be set on both sides. -/
def Ctx.Fits (c : Ctx) (j : ℕ) (e : ℕ × ℕ) : Prop :=
  wadd e.1 1 ≤ c.iSizes.getD j 0 ∧ (c.oUnl.getD j true = true ∨ wadd e.2 1 ≤ c.oSizes.getD j 0)

theorem expandOne_ok (c : Ctx) (hn : c.shape.Nodup) (j : ℕ) (d : String) (hd : c.shape[j]? = some d) (p : SB.Builder × SB.Builder)
    (hp : c.Pair p) (m : List (ℕ × ℕ)) (hm : ∀ e ∈ m, c.Fits j e) :
    ∃ S, expandOne d p m = .ok S ∧ (∀ q ∈ S, c.Pair q) ∧ S.map slots = m.map fun e => (slots p).set j ((e.1, 1), (e.2, 1)) := by
  induction m with
  | nil => exact ⟨[], rfl, by simp, rfl⟩
  | cons e m ih =>
    obtain ⟨S, h1, h2, h3⟩ := ih fun e' he' => hm e' (by simp [he'])
    obtain ⟨⟨st, sz, hi⟩, ⟨st', sz', ho⟩⟩ := hp
    have hf := hm e (by simp)
    obtain ⟨a, ha, ha'⟩ := setB_ok hn hi j d hd e.1 1 (Or.inr hf.1)
    obtain ⟨b, hb, hb'⟩ := setB_ok hn ho j d hd e.2 1 hf.2
    refine ⟨(a, b) :: S, ?_, ?_, ?_⟩
    · obtain ⟨e1, e2⟩ := e
      rw [expandOne, ha, Res.ok_bind, hb, Res.ok_bind, h1, Res.ok_bind]
    · intro q hq
      rcases List.mem_cons.1 hq with rfl | hq
      · exact ⟨⟨_, _, ha'⟩, ⟨_, _, hb'⟩⟩
      · exact h2 q hq
    · rw [List.map_cons, List.map_cons, h3]
      congr 1
      unfold slots
      dsimp only
      rw [ha'.2.1, ha'.2.2, hb'.2.1, hb'.2.2, hi.2.1, hi.2.2, ho.2.1, ho.2.2, zip_set, zip_set, zip_set]

theorem expandAll_ok (c : Ctx) (hn : c.shape.Nodup) (j : ℕ) (d : String) (hd : c.shape[j]? = some d) (m : List (ℕ × ℕ))
    (hm : ∀ e ∈ m, c.Fits j e) (S : List (SB.Builder × SB.Builder)) (hS : ∀ p ∈ S, c.Pair p) :
    ∃ S', expandAll d m S = .ok S' ∧ (∀ q ∈ S', c.Pair q) ∧
      S'.map slots = (S.map slots).flatMap fun s => (m.map fun e => (((e.1, 1), (e.2, 1)) : Slot)).map fun x => s.set j x := by
  induction S with
  | nil => exact ⟨[], rfl, by simp, rfl⟩
  | cons p S ih =>
    obtain ⟨S1, h1, h2, h3⟩ := ih fun p' hp' => hS p' (by simp [hp'])
    obtain ⟨S2, h4, h5, h6⟩ := expandOne_ok c hn j d hd p (hS p (by simp)) m hm
    refine ⟨S2 ++ S1, ?_, ?_, ?_⟩
    · rw [expandAll, h4, Res.ok_bind, h1, Res.ok_bind]
    · intro q hq
      rcases List.mem_append.1 hq with hq | hq
      · exact h5 q hq
      · exact h2 q hq
    · rw [List.map_append, h6, h3, List.map_cons, List.flatMap_cons, List.map_map]
      rfl

/-- The slots tried for a dimension: one per entry, or everything. -/
def options (ps : List (String × Plan)) (d : String) (whole : Slot) : List Slot :=
  match slicesOf ps d with
  | none => [whole]
  | some m => m.map fun e => ((e.1, 1), (e.2, 1))

theorem expand_ok (c : Ctx) (hn : c.shape.Nodup) (ps : List (String × Plan))
    (hfit : ∀ (j : ℕ) d m, c.shape[j]? = some d → slicesOf ps d = some m → ∀ e ∈ m, c.Fits j e) :
    ∀ (ds pre : List String) (wpre w : List Slot) (S : List (SB.Builder × SB.Builder)), c.shape = pre ++ ds → pre.length = wpre.length →
      ds.length = w.length → (∀ p ∈ S, c.Pair p) →
      S.map slots = prod (List.zipWith (options ps) pre wpre ++ w.map fun d => [d]) →
      ∃ S', expand ps ds S = .ok S' ∧ (∀ p ∈ S', c.Pair p) ∧
        S'.map slots = prod (List.zipWith (options ps) (pre ++ ds) (wpre ++ w)) := by
  intro ds
  induction ds with
  | nil =>
    intro pre wpre w S hc h1 h2 h3 h4
    have hw : w = [] := by
      cases w with
      | nil => rfl
      | cons _ _ => simp at h2
    subst hw
    exact ⟨S, rfl, h3, by simpa using h4⟩
  | cons d ds ih =>
    intro pre wpre w S hc h1 h2 h3 h4
    cases w with
    | nil => simp at h2
    | cons x w =>
      have hd : c.shape[pre.length]? = some d := by rw [hc]; simp
      have hz : (List.zipWith (options ps) pre wpre).length = pre.length := by simp [h1]
      have happ : List.zipWith (options ps) (pre ++ [d]) (wpre ++ [x]) = List.zipWith (options ps) pre wpre ++ [options ps d x] := by
        rw [List.zipWith_append h1]; rfl
      have next : ∀ S1 : List (SB.Builder × SB.Builder), (∀ p ∈ S1, c.Pair p) →
          S1.map slots = prod (List.zipWith (options ps) pre wpre ++ options ps d x :: w.map fun d => [d]) →
          ∃ S', expand ps ds S1 = .ok S' ∧ (∀ p ∈ S', c.Pair p) ∧
            S'.map slots = prod (List.zipWith (options ps) (pre ++ d :: ds) (wpre ++ x :: w)) := by
        intro S1 hp1 hs1
        obtain ⟨S', e1, e2, e3⟩ := ih (pre ++ [d]) (wpre ++ [x]) w S1 (by rw [hc]; simp) (by simp [h1]) (by simpa using h2) hp1
          (by rw [happ, List.append_assoc]; exact hs1)
        refine ⟨S', e1, e2, ?_⟩
        rw [e3]; simp
      unfold expand
      cases hsl : slicesOf ps d with
      | none =>
        dsimp only
        apply next S h3
        rw [h4, List.map_cons]
        simp only [options, hsl]
      | some m =>
        dsimp only
        obtain ⟨S1, e1, e2, e3⟩ := expandAll_ok c hn pre.length d hd m (hfit _ d m hd hsl) S h3
        rw [e1, Res.ok_bind]
        apply next S1 e2
        rw [e3, h4, List.map_cons, ← hz, prod_step]
        simp only [options, hsl]

/-! ## Dimensions of the input -/

/-- The dimension of a name. -/
def dimOf (S : Side K) (n : String) : Option Dim := S.dims.find? fun d => d.name = n

theorem dimOf_name {S : Side K} {n : String} {d : Dim} (h : dimOf S n = some d) : d.name = n := by
  have := List.find?_some h
  simpa using this

theorem planDims_ok (I O : Side K) : ∀ (ds : List Dim), (ds.map (·.name)).Nodup →
    (∀ i ∈ ds, ∀ o, dimOf O i.name = some o → Sized i (I.coord i.name) ∧ Sized o (O.coord o.name)) →
    ∃ ps, planDims I O ds = .ok ps ∧ (∀ e ∈ ps, e.1 ∈ ds.map (·.name)) ∧
      ∀ i ∈ ds, ∀ o, dimOf O i.name = some o → ∃ p, planDim i o (I.coord i.name) (O.coord o.name) = .ok p ∧
        slicesOf ps i.name = p.slices ∧ unusable ps i.name = p.bad := by
  intro ds
  induction ds with
  | nil => intro _ _; exact ⟨[], rfl, by simp, by simp⟩
  | cons a ds ih =>
    intro hn hs
    rw [List.map_cons, List.nodup_cons] at hn
    obtain ⟨ps, h1, h2, h3⟩ := ih hn.2 fun i hi => hs i (by simp [hi])
    rw [planDims]
    cases ho : (O.dims.find? fun o => o.name = a.name) with
    | none =>
      refine ⟨ps, h1, fun e he => by simp [show e.1 ∈ _ from h2 e he], ?_⟩
      intro i hi o hio
      rcases List.mem_cons.1 hi with rfl | hi
      · unfold dimOf at hio; rw [ho] at hio; cases hio
      · exact h3 i hi o hio
    | some o =>
      obtain ⟨s1, s2⟩ := hs a (by simp) o ho
      obtain ⟨p, hp, _, _⟩ := planDim_spec a o _ _ s1 s2
      dsimp only
      rw [hp, Res.ok_bind, h1, Res.ok_bind]
      refine ⟨_, rfl, ?_, ?_⟩
      · intro e he
        rcases List.mem_cons.1 he with rfl | he
        · simp
        · rw [List.map_cons, List.mem_cons]; exact Or.inr (h2 e he)
      · intro i hi o' hio
        rcases List.mem_cons.1 hi with rfl | hi
        · have : o' = o := by unfold dimOf at hio; rw [ho] at hio; exact (Option.some.inj hio).symm
          subst this
          refine ⟨p, hp, ?_, ?_⟩
          · simp [slicesOf]
          · have hno : ps.any (fun e => decide (e.1 = i.name) && e.2.bad) = false := by
              rw [List.any_eq_false]
              intro e he hc
              simp only [Bool.and_eq_true, decide_eq_true_eq] at hc
              exact hn.1 (hc.1 ▸ h2 e he)
            simp only [unusable, List.any_cons, hno, decide_true, Bool.true_and, Bool.or_false]
        · obtain ⟨q, q1, q2, q3⟩ := h3 i hi o' hio
          have hne : ¬ a.name = i.name := fun h => hn.1 (h ▸ List.mem_map_of_mem hi)
          refine ⟨q, q1, ?_, ?_⟩
          · rw [← q2]; simp [slicesOf, hne]
          · rw [← q3]; simp [unusable, hne]

theorem mapM_ok {α β : Type} (f : α → Res β) (g : α → β) (l : List α) (h : ∀ a ∈ l, f a = .ok (g a)) : l.mapM f = .ok (l.map g) := by
  induction l with
  | nil => rfl
  | cons a l ih =>
    rw [List.mapM_cons, h a (by simp), Res.ok_bind, ih (fun b hb => h b (by simp [hb])), Res.ok_bind]
    rfl

theorem builderFor_ok (S : Side K) (shape : List String) (D : String → Dim) (hD : ∀ n ∈ shape, dimOf S n = some (D n)) (u : Bool)
    (hn : shape.Nodup) :
    ∃ b, builderFor S.dims shape u = .ok b ∧
      Has shape (shape.map fun n => (D n).length) (shape.map fun n => u && (D n).unlimited) b (shape.map fun _ => 0)
        (shape.map fun n => (D n).length) := by
  have hm : shape.mapM (getDimension S.dims) = .ok (shape.map D) := by
    apply mapM_ok
    intro n hn'
    have := hD n hn'
    unfold dimOf at this
    unfold getDimension
    rw [this]
  unfold builderFor
  rw [hm, Res.ok_bind, List.map_map, List.map_map]
  have hi : SB.init shape (shape.map fun n => (D n).length) (shape.map fun n => u && (D n).unlimited) =
      .ok { dimPos := SB.fillDimPos 0 shape [], setDims := [], maxSize := shape.map fun n => (D n).length,
            unlimited := shape.map fun n => u && (D n).unlimited, start := (shape.map fun n => (D n).length).map fun _ => 0,
            size := shape.map fun n => (D n).length } := by
    unfold SB.init
    rw [if_neg (by simp)]
  refine ⟨_, hi, ?_⟩
  obtain ⟨h1, _, h3, h4⟩ := SB.init_shape hi
  rw [SB.fill_eq shape 0 [] hn (by simp)] at h1
  exact ⟨by simpa [SB.fill_eq shape 0 [] hn (by simp)] using h1, by simp [Function.comp_def], h4⟩

theorem stdEqual_self (l : List String) : stdEqual l l = .ok true := by
  induction l with
  | nil => rfl
  | cons a l ih => simp [stdEqual, ih]

theorem zip_map2 {α β γ : Type} (l : List α) (f : α → β) (g : α → γ) : (l.map f).zip (l.map g) = l.map fun a => (f a, g a) := by
  induction l with
  | nil => rfl
  | cons a l ih => simp [ih]

/-! ## Theorems -/

/-- A variable that exists on both sides with the same dimensions. -/
structure Common (I O : Side K) (v : String) (shape : List String) (iD oD : String → Dim) : Prop where
  outShape : O.shape v = some shape
  nodup : shape.Nodup
  names : (I.dims.map (·.name)).Nodup
  iDim : ∀ n ∈ shape, dimOf I n = some (iD n)
  oDim : ∀ n ∈ shape, dimOf O n = some (oD n)
  sized : ∀ i ∈ I.dims, ∀ o, dimOf O i.name = some o → Sized i (I.coord i.name) ∧ Sized o (O.coord o.name)

theorem target_lt (i o : Dim) (iC oC : Option (List (Option K))) (hi : Sized i iC) (ho : Sized o oC) (hm : ¬ Misfit i o iC oC)
    (hu : o.unlimited = false) (k : ℕ) (hk : k < i.length) : target o iC oC k < o.length := by
  cases iC with
  | none =>
    have : i.length = o.length := by
      by_contra h; exact hm ⟨hu, h⟩
    simp only [target, hu]; simpa [this] using hk
  | some a =>
    cases oC with
    | none =>
      have : i.length = o.length := by
        by_contra h; exact hm ⟨hu, h⟩
      simp only [target, hu]; simpa [this] using hk
    | some b =>
      have ha := hi a rfl
      have hb := ho b rfl
      have hka : k < a.length := by omega
      have hf : found o b (a.getD k none) = true := by
        by_contra hf
        apply hm
        refine ⟨hu, a.getD k none, ?_, by simpa using hf⟩
        simp only [List.getD, List.getElem?_eq_getElem hka, Option.getD_some]
        exact List.getElem_mem _
      show place o a b k < o.length
      unfold place
      rw [if_pos hf]
      exact (found_iff o b _ (by omega)).1 hf

theorem forall2_zip_slots (shape : List String) (opts : String → List Slot) (s : List Slot) :
    List.Forall₂ (fun x o => x ∈ o) s (shape.map opts) ↔ List.Forall₂ (fun x n => x ∈ opts n) s shape := by
  constructor
  · intro h
    induction shape generalizing s with
    | nil => cases h; exact .nil
    | cons n shape ih => cases h with | cons h1 h2 => exact .cons h1 (ih _ h2)
  · intro h
    induction h with
    | nil => exact .nil
    | cons h1 _ ih => exact .cons h1 ih

/-- The slots of a dimension in terms of its target. -/
theorem options_spec (I O : Side K) (ps : List (String × Plan)) (i o : Dim) (n : String) (p : Plan)
    (hp : slicesOf ps n = p.slices)
    (h3 : p.slices = some ((List.range i.length).map fun k => (k, target o (I.coord n) (O.coord n) k)) ∨
        (p.slices = none ∧ (i.length = o.length ∨ i.length = 0) ∧ ∀ k < i.length, target o (I.coord n) (O.coord n) k = k)) :
    (options ps n ((0, i.length), (0, o.length))).Nodup ∧
    ∀ a b : ℕ, (∃ x ∈ options ps n ((0, i.length), (0, o.length)), ∃ k, x.1.2 = x.2.2 ∧ k < x.1.2 ∧ a = x.1.1 + k ∧ b = x.2.1 + k) ↔
      a < i.length ∧ b = target o (I.coord n) (O.coord n) a := by
  unfold options
  rw [hp]
  rcases h3 with h3 | ⟨h3, h4, h5⟩
  · rw [h3]
    dsimp only
    rw [List.map_map]
    constructor
    · apply List.Nodup.map _ List.nodup_range
      intro x y hxy
      simp only [Function.comp_apply, Prod.mk.injEq] at hxy
      exact hxy.1.1
    · intro a b
      constructor
      · rintro ⟨x, hx, k, _, h7, h8, h9⟩
        simp only [List.mem_map, List.mem_range, Function.comp_apply] at hx
        obtain ⟨q, hq, rfl⟩ := hx
        dsimp only at h7 h8 h9
        have hk : k = 0 := by omega
        subst hk
        rw [Nat.add_zero] at h8 h9
        subst h8; exact ⟨hq, h9⟩
      · rintro ⟨ha, hb⟩
        refine ⟨((a, 1), (target o (I.coord n) (O.coord n) a, 1)), ?_, 0, rfl, Nat.one_pos, rfl, hb⟩
        simp only [List.mem_map, List.mem_range, Function.comp_apply]
        exact ⟨a, ha, rfl⟩
  · rw [h3]
    dsimp only
    constructor
    · simp
    · intro a b
      constructor
      · rintro ⟨x, hx, k, h6, h7, h8, h9⟩
        rw [List.mem_singleton] at hx
        subst hx
        dsimp only at h6 h7 h8 h9
        rw [Nat.zero_add] at h8 h9
        subst h8
        exact ⟨h7, by rw [h5 _ h7]; exact h9⟩
      · rintro ⟨ha, hb⟩
        refine ⟨_, List.mem_singleton.2 rfl, a, ?_, ha, by simp, by rw [hb, h5 a ha]; simp⟩
        show i.length = o.length
        omega

/-- One slot copies position `a` to position `b`. -/
def SlotCopies (x : Slot) (a b : ℕ) : Prop := ∃ k, x.1.2 = x.2.2 ∧ k < x.1.2 ∧ a = x.1.1 + k ∧ b = x.2.1 + k

/-- The cells copied by slots, one per dimension. -/
def Cells : List Slot → List ℕ → List ℕ → Prop
  | [], [], [] => True
  | x :: s, a :: I, b :: O => SlotCopies x a b ∧ Cells s I O
  | _, _, _ => False

theorem cells_iff (s : List Slot) : ∀ I O : List ℕ,
    (∃ k : List ℕ, s.map (·.1.2) = s.map (·.2.2) ∧ List.Forall₂ (· < ·) k (s.map (·.1.2)) ∧
      I = List.zipWith (· + ·) (s.map (·.1.1)) k ∧ O = List.zipWith (· + ·) (s.map (·.2.1)) k) ↔ Cells s I O := by
  induction s with
  | nil =>
    intro I O
    constructor
    · rintro ⟨k, _, hk, rfl, rfl⟩
      simp [Cells]
    · intro h
      cases I <;> cases O <;> simp [Cells] at h
      exact ⟨[], rfl, .nil, rfl, rfl⟩
  | cons x s ih =>
    intro I O
    constructor
    · rintro ⟨k, h1, h2, rfl, rfl⟩
      simp only [List.map_cons] at h1 h2 ⊢
      cases h2 with
      | cons h3 h4 =>
        injection h1 with h5 h6
        simp only [List.zipWith_cons_cons, Cells]
        exact ⟨⟨_, h5, h3, rfl, rfl⟩, (ih _ _).1 ⟨_, h6, h4, rfl, rfl⟩⟩
    · intro h
      cases I with
      | nil => simp [Cells] at h
      | cons a I =>
        cases O with
        | nil => simp [Cells] at h
        | cons b O =>
          obtain ⟨⟨k, h1, h2, rfl, rfl⟩, h3⟩ := h
          obtain ⟨ks, h4, h5, h6, h7⟩ := (ih I O).2 h3
          refine ⟨k :: ks, ?_, ?_, ?_, ?_⟩
          · simp [h1, h4]
          · exact .cons h2 h5
          · simp [h6]
          · simp [h7]

theorem Ctx.Pair.slots_eq {c : Ctx} {p : SB.Builder × SB.Builder} (h : c.Pair p) :
    (slots p).map (·.1.1) = p.1.start ∧ (slots p).map (·.1.2) = p.1.size ∧ (slots p).map (·.2.1) = p.2.start ∧
    (slots p).map (·.2.2) = p.2.size := by
  obtain ⟨⟨st, sz, h1, -, -⟩, ⟨st', sz', h2, -, -⟩⟩ := h
  have e1 := h1.st
  have e2 := h1.sz
  have e3 := h2.st
  have e4 := h2.sz
  unfold slots
  have hz1 : (p.1.start.zip p.1.size).length = c.shape.length := by simp [e1, e2]
  have hz2 : (p.2.start.zip p.2.size).length = c.shape.length := by simp [e3, e4]
  refine ⟨?_, ?_, ?_, ?_⟩
  · have : (fun x : Slot => x.1.1) = (fun y : ℕ × ℕ => y.1) ∘ Prod.fst := rfl
    rw [this, ← List.map_map, List.map_fst_zip (by omega), List.map_fst_zip (by omega)]
  · have : (fun x : Slot => x.1.2) = (fun y : ℕ × ℕ => y.2) ∘ Prod.fst := rfl
    rw [this, ← List.map_map, List.map_fst_zip (by omega), List.map_snd_zip (by omega)]
  · have : (fun x : Slot => x.2.1) = (fun y : ℕ × ℕ => y.1) ∘ Prod.snd := rfl
    rw [this, ← List.map_map, List.map_snd_zip (by omega), List.map_fst_zip (by omega)]
  · have : (fun x : Slot => x.2.2) = (fun y : ℕ × ℕ => y.2) ∘ Prod.snd := rfl
    rw [this, ← List.map_map, List.map_snd_zip (by omega), List.map_snd_zip (by omega)]

theorem copies_one {c : Ctx} {p : SB.Builder × SB.Builder} (h : c.Pair p) (I O : List ℕ) :
    Copies [p] I O ↔ Cells (slots p) I O := by
  obtain ⟨h1, h2, h3, h4⟩ := h.slots_eq
  rw [← cells_iff, h1, h2, h3, h4]
  simp [Copies]

theorem copies_mem (S : List (SB.Builder × SB.Builder)) (I O : List ℕ) : Copies S I O ↔ ∃ p ∈ S, Copies [p] I O := by
  simp [Copies]

/-- All cells of a product of slots. -/
theorem cells_prod (shape : List String) (opts : String → List Slot) (len : String → ℕ) (tgt : String → ℕ → ℕ)
    (hopt : ∀ n ∈ shape, ∀ a b, (∃ x ∈ opts n, SlotCopies x a b) ↔ a < len n ∧ b = tgt n a) : ∀ I O : List ℕ,
    (∃ s ∈ prod (shape.map opts), Cells s I O) ↔
      List.Forall₂ (fun a n => a < len n) I shape ∧ O = List.zipWith tgt shape I := by
  induction shape with
  | nil =>
    intro I O
    simp only [List.map_nil, prod, List.mem_singleton, exists_eq_left, List.zipWith_nil_left]
    cases I <;> cases O <;> simp [Cells]
  | cons n shape ih =>
    intro I O
    have ih := ih fun m hm => hopt m (by simp [hm])
    have hn := hopt n (by simp)
    simp only [List.map_cons, prod, List.mem_flatMap, List.mem_map]
    constructor
    · rintro ⟨s, ⟨x, hx, t, ht, rfl⟩, hc⟩
      cases I with
      | nil => simp [Cells] at hc
      | cons a I =>
        cases O with
        | nil => simp [Cells] at hc
        | cons b O =>
          obtain ⟨h1, h2⟩ := hc
          obtain ⟨h3, h4⟩ := (hn a b).1 ⟨x, hx, h1⟩
          obtain ⟨h5, h6⟩ := (ih I O).1 ⟨t, ht, h2⟩
          exact ⟨.cons h3 h5, by rw [List.zipWith_cons_cons, ← h4, ← h6]⟩
    · rintro ⟨h1, rfl⟩
      cases h1 with
      | cons h2 h3 =>
        rename_i a I
        obtain ⟨t, ht, hc⟩ := (ih I _).2 ⟨h3, rfl⟩
        obtain ⟨x, hx, hxc⟩ := (hn a (tgt n a)).2 ⟨h2, rfl⟩
        exact ⟨x :: t, ⟨x, hx, t, ht, rfl⟩, hxc, hc⟩

/-- Slots covering the same input cell are the same. -/
theorem cells_inj (shape : List String) (opts : String → List Slot)
    (hinj : ∀ n ∈ shape, ∀ x ∈ opts n, ∀ y ∈ opts n, ∀ a b b', SlotCopies x a b → SlotCopies y a b' → x = y) :
    ∀ s ∈ prod (shape.map opts), ∀ t ∈ prod (shape.map opts), ∀ I O O', Cells s I O → Cells t I O' → s = t := by
  induction shape with
  | nil =>
    intro s hs t ht
    simp only [List.map_nil, prod, List.mem_singleton] at hs ht
    intro _ _ _ _ _; rw [hs, ht]
  | cons n shape ih =>
    have ih := ih fun m hm => hinj m (by simp [hm])
    intro s hs t ht I O O' h1 h2
    simp only [List.map_cons, prod, List.mem_flatMap, List.mem_map] at hs ht
    obtain ⟨x, hx, s, hs, rfl⟩ := hs
    obtain ⟨y, hy, t, ht, rfl⟩ := ht
    cases I with
    | nil => simp [Cells] at h1
    | cons a I =>
      cases O with
      | nil => simp [Cells] at h1
      | cons b O =>
        cases O' with
        | nil => simp [Cells] at h2
        | cons b' O' =>
          rw [hinj n (by simp) x hx y hy a b b' h1.1 h2.1, ih s hs t ht I O O' h1.2 h2.2]

theorem zipWith_map_self {α β γ : Type} (f : α → β → γ) (g : α → β) (l : List α) :
    List.zipWith f l (l.map g) = l.map fun a => f a (g a) := by
  induction l with
  | nil => rfl
  | cons a l ih => simp [ih]

theorem mem_of_dimOf {S : Side K} {n : String} {d : Dim} (h : dimOf S n = some d) : d ∈ S.dims := List.mem_of_find?_eq_some h

/-- **C58.** A variable that exists on both sides with the same dimensions, none of which is a misfit: every cell of the input is copied
by exactly one pair of slices, and it is copied to the cell that has the target position in every dimension. Nothing else is written. -/
theorem C58_every_cell_at_its_coordinate (I O : Side K) (v : String) (shape : List String) (iD oD : String → Dim)
    (h : Common I O v shape iD oD) (hfit : ∀ n ∈ shape, ¬ Misfit (iD n) (oD n) (I.coord n) (O.coord n)) :
    ∃ ps S, planDims I O I.dims = .ok ps ∧ processVar I O [] ps v shape = .ok S ∧
      (∀ x y, Copies S x y ↔
        List.Forall₂ (fun a n => a < (iD n).length) x shape ∧
        y = List.zipWith (fun n a => target (oD n) (I.coord n) (O.coord n) a) shape x) ∧
      S.Pairwise fun p q => ∀ x y y', Copies [p] x y → ¬ Copies [q] x y' := by
  obtain ⟨ps, h1, _, h3⟩ := planDims_ok I O I.dims h.names h.sized
  have hplan : ∀ n ∈ shape, ∃ p : Plan, slicesOf ps n = p.slices ∧ unusable ps n = false ∧
      (p.slices = some ((List.range (iD n).length).map fun k => (k, target (oD n) (I.coord n) (O.coord n) k)) ∨
        (p.slices = none ∧ ((iD n).length = (oD n).length ∨ (iD n).length = 0) ∧
          ∀ k < (iD n).length, target (oD n) (I.coord n) (O.coord n) k = k)) := by
    intro n hn
    have hi := h.iDim n hn
    have ho := h.oDim n hn
    have ei := dimOf_name hi
    have eo := dimOf_name ho
    have ho' : dimOf O (iD n).name = some (oD n) := by rw [ei]; exact ho
    obtain ⟨p, q1, q2, q3⟩ := h3 (iD n) (mem_of_dimOf hi) (oD n) ho'
    obtain ⟨s1, s2⟩ := h.sized (iD n) (mem_of_dimOf hi) (oD n) ho'
    obtain ⟨p', r1, r2, r3⟩ := planDim_spec (iD n) (oD n) _ _ s1 s2
    have : p' = p := by rw [r1] at q1; exact Res.ok.inj q1
    subst this
    rw [ei, eo] at r2 r3
    have hb : p'.bad = false := by
      by_contra hb
      exact hfit n hn (r2.1 (by simpa using hb))
    exact ⟨p', by rw [← q2, ei], by rw [← hb, ← q3, ei], r3 hb⟩
  obtain ⟨bi, hbi, hHi⟩ := builderFor_ok I shape iD h.iDim false h.nodup
  obtain ⟨bo, hbo, hHo⟩ := builderFor_ok O shape oD h.oDim true h.nodup
  let c : Ctx := ⟨shape, shape.map fun n => (iD n).length, shape.map fun n => (oD n).length, shape.map fun n => (oD n).unlimited⟩
  have hpair : c.Pair (bi, bo) := by
    refine ⟨⟨shape.map fun _ => 0, shape.map fun n => (iD n).length, ?_⟩, ⟨shape.map fun _ => 0, shape.map fun n => (oD n).length, ?_⟩⟩
    · simpa [c, Function.comp_def] using hHi
    · simpa [c] using hHo
  let whole : String → Slot := fun n => ((0, (iD n).length), (0, (oD n).length))
  have hslots : slots (bi, bo) = shape.map whole := by
    unfold slots
    dsimp only
    rw [hHi.2.1, hHi.2.2, hHo.2.1, hHo.2.2, zip_map2, zip_map2, zip_map2]
  have hFits : ∀ (j : ℕ) d m, c.shape[j]? = some d → slicesOf ps d = some m → ∀ e ∈ m, c.Fits j e := by
    intro j d m hd hm e he
    have hdm : d ∈ shape := List.mem_of_getElem? hd
    obtain ⟨p, p1, _, p3⟩ := hplan d hdm
    rw [p1] at hm
    rcases p3 with p3 | ⟨p3, _, _⟩
    · rw [p3] at hm
      cases hm
      simp only [List.mem_map, List.mem_range] at he
      obtain ⟨k, hk, rfl⟩ := he
      have g : ∀ {β : Type} (f : String → β) (z : β), (shape.map f).getD j z = f d := by
        intro β f z
        simp [List.getD, show shape[j]? = some d from hd]
      refine ⟨?_, ?_⟩
      · show wadd k 1 ≤ (shape.map fun n => (iD n).length).getD j 0
        rw [g]
        exact Nat.le_trans (Nat.mod_le _ _) hk
      · show (shape.map fun n => (oD n).unlimited).getD j true = true ∨ wadd _ 1 ≤ (shape.map fun n => (oD n).length).getD j 0
        rw [g, g]
        cases hu : (oD d).unlimited with
        | true => exact Or.inl rfl
        | false =>
          right
          have hi := h.iDim d hdm
          have ei := dimOf_name hi
          have ho' : dimOf O (iD d).name = some (oD d) := by rw [ei]; exact h.oDim d hdm
          obtain ⟨s1, s2⟩ := h.sized (iD d) (mem_of_dimOf hi) (oD d) ho'
          rw [ei] at s1
          rw [dimOf_name (h.oDim d hdm)] at s2
          exact Nat.le_trans (Nat.mod_le _ _) (target_lt (iD d) (oD d) _ _ s1 s2 (hfit d hdm) hu k hk)
    · rw [p3] at hm; cases hm
  obtain ⟨S, e1, e2, e3⟩ := expand_ok c h.nodup ps hFits shape [] [] (shape.map whole) [(bi, bo)] rfl rfl (by simp)
    (by intro p hp; rw [List.mem_singleton] at hp; subst hp; exact hpair)
    (by
      rw [List.zipWith_nil_left, List.nil_append, prod_singletons, List.map_cons, List.map_nil, hslots])
  have hopts : List.zipWith (options ps) ([] ++ shape) ([] ++ shape.map whole) = shape.map fun n => options ps n (whole n) := by
    rw [List.nil_append, List.nil_append, zipWith_map_self]
  rw [hopts] at e3
  refine ⟨ps, S, h1, ?_, ?_, ?_⟩
  · unfold processVar
    rw [h.outShape]
    dsimp only
    have hun : shape.any (unusable ps) = false := by
      rw [List.any_eq_false]
      intro n hn
      obtain ⟨_, _, p2, _⟩ := hplan n hn
      simp [p2]
    have hut : untranslated (([] : List Translation).map (·.inputDim)) shape = shape := by simp [untranslated]
    have hut' : untranslated (([] : List Translation).map (·.outputDim)) shape = shape := by simp [untranslated]
    rw [hun, if_neg (by simp), hut, hut', stdEqual_self, Res.ok_bind, if_neg (by simp), hbi, Res.ok_bind, hbo, Res.ok_bind]
    simp only [translate, Res.ok_bind]
    exact e1
  · intro x y
    have hopt : ∀ n ∈ shape, ∀ a b, (∃ x ∈ options ps n (whole n), SlotCopies x a b) ↔
        a < (iD n).length ∧ b = target (oD n) (I.coord n) (O.coord n) a := by
      intro n hn a b
      obtain ⟨p, p1, _, p3⟩ := hplan n hn
      exact (options_spec I O ps (iD n) (oD n) n p p1 p3).2 a b
    rw [← cells_prod shape (fun n => options ps n (whole n)) (fun n => (iD n).length)
      (fun n a => target (oD n) (I.coord n) (O.coord n) a) hopt x y, ← e3, copies_mem]
    constructor
    · rintro ⟨p, hp, hc⟩
      exact ⟨slots p, List.mem_map_of_mem hp, (copies_one (e2 p hp) x y).1 hc⟩
    · rintro ⟨s, hs, hc⟩
      obtain ⟨p, hp, rfl⟩ := List.mem_map.1 hs
      exact ⟨p, hp, (copies_one (e2 p hp) x y).2 hc⟩
  · have hnd : (S.map slots).Nodup := by
      rw [e3]
      apply prod_nodup
      intro o ho
      obtain ⟨n, hn, rfl⟩ := List.mem_map.1 ho
      obtain ⟨p, p1, _, p3⟩ := hplan n hn
      exact (options_spec I O ps (iD n) (oD n) n p p1 p3).1
    have hinj : ∀ n ∈ shape, ∀ x ∈ options ps n (whole n), ∀ y ∈ options ps n (whole n), ∀ a b b',
        SlotCopies x a b → SlotCopies y a b' → x = y := by
      intro n hn x hx y hy a b b' ⟨k, _, k2, k3, _⟩ ⟨k', _, k2', k3', _⟩
      unfold options at hx hy
      obtain ⟨p, p1, _, p3⟩ := hplan n hn
      rw [p1] at hx hy
      rcases p3 with p3 | ⟨p3, _, _⟩
      · rw [p3] at hx hy
        simp only [List.map_map, List.mem_map, List.mem_range, Function.comp_apply] at hx hy
        obtain ⟨q, _, rfl⟩ := hx
        obtain ⟨q', _, rfl⟩ := hy
        dsimp only at k2 k3 k2' k3'
        have : q = q' := by omega
        rw [this]
      · rw [p3] at hx hy
        simp only [List.mem_singleton] at hx hy
        rw [hx, hy]
    rw [List.Nodup, List.pairwise_map] at hnd
    refine List.Pairwise.imp_of_mem ?_ hnd
    intro p q hp hq hne x y y' c1 c2
    apply hne
    apply cells_inj shape (fun n => options ps n (whole n)) hinj (slots p) (by rw [← e3]; exact List.mem_map_of_mem hp)
      (slots q) (by rw [← e3]; exact List.mem_map_of_mem hq) x y y' ((copies_one (e2 p hp) x y).1 c1) ((copies_one (e2 q hq) x y').1 c2)

/-- Two times on file, one of them and a new one in the input, and a station dimension without coordinate variable. -/
def exampleI : Side ℕ :=
  ⟨[⟨"x", 2, false⟩, ⟨"t", 2, false⟩], fun v => if v = "a" then some ["x", "t"] else none,
    fun v => if v = "t" then some [some 20, some 30] else none⟩

/-- The file to be filled. -/
def exampleO : Side ℕ :=
  ⟨[⟨"t", 2, true⟩, ⟨"x", 2, false⟩], fun v => if v = "a" then some ["x", "t"] else none,
    fun v => if v = "t" then some [some 10, some 20] else none⟩

example : ∃ ps S, planDims exampleI exampleO exampleI.dims = .ok ps ∧ processVar exampleI exampleO [] ps "a" ["x", "t"] = .ok S ∧
    Copies S [1, 0] [1, 1] ∧ Copies S [1, 1] [1, 2] ∧ ¬ Copies S [1, 1] [1, 1] := by
  obtain ⟨ps, S, h1, h2, h3, _⟩ := C58_every_cell_at_its_coordinate exampleI exampleO "a" ["x", "t"]
    (fun n => if n = "x" then ⟨"x", 2, false⟩ else ⟨"t", 2, false⟩) (fun n => if n = "x" then ⟨"x", 2, false⟩ else ⟨"t", 2, true⟩)
    ⟨by decide, by decide, by decide, by decide, by decide, by
      intro i hi o ho
      have h1 : ∀ d ∈ exampleI.dims, (exampleI.coord d.name).all (fun l => l.length = d.length) = true := by decide
      have h2 : ∀ d ∈ exampleO.dims, (exampleO.coord d.name).all (fun l => l.length = d.length) = true := by decide
      constructor <;> intro l hl
      · have := h1 i hi
        rw [hl] at this; simpa using this
      · have := h2 o (mem_of_dimOf ho)
        rw [hl] at this; simpa using this⟩
    (by
      intro n hn
      simp only [List.mem_cons, List.not_mem_nil, or_false] at hn
      rcases hn with rfl | rfl <;> simp [Misfit, exampleI, exampleO])
  refine ⟨ps, S, h1, h2, (h3 _ _).2 ⟨?_, by decide⟩, (h3 _ _).2 ⟨?_, by decide⟩, fun h => ?_⟩
  · exact .cons (by decide) (.cons (by decide) .nil)
  · exact .cons (by decide) (.cons (by decide) .nil)
  · exact absurd ((h3 _ _).1 h).2 (by decide)

/-- **C58.** Where a coordinate goes: a value that is in the output goes to the first position with that value; a value that is not goes
behind the existing ones. New values get consecutive positions in the order of the input, so no two share one; and two input positions
share a position only if they have the same value, which is in the output. -/
theorem C58_positions (o : Dim) (iData oData : List (Option K)) (hl : oData.length = o.length) (i : ℕ) (hi : i < iData.length) :
    (found o oData iData[i] = true → ∃ h : place o iData oData i < oData.length, feq oData[place o iData oData i] iData[i] = true ∧
      ∀ k (hk : k < oData.length), k < place o iData oData i → feq oData[k] iData[i] = false) ∧
    (found o oData iData[i] = false → o.length ≤ place o iData oData i ∧
      (∀ m, o.length ≤ m → m < place o iData oData i → ∃ k, ∃ hk : k < iData.length, k < i ∧ found o oData iData[k] = false ∧
        place o iData oData k = m)) ∧
    (∀ k (hk : k < iData.length), k < i → place o iData oData k = place o iData oData i →
      found o oData iData[k] = true ∧ feq iData[k] iData[i] = true) := by
  have hg : ∀ k (hk : k < iData.length), iData.getD k none = iData[k] := by
    intro k hk; simp [List.getD, List.getElem?_eq_getElem hk]
  have htake : oData.take o.length = oData := List.take_of_length_le (by omega)
  have hfp : ∀ k (hk : k < iData.length), found o oData iData[k] = true → place o iData oData k = oData.findIdx (fun y => feq y iData[k]) ∧
      place o iData oData k < oData.length := by
    intro k hk hf
    have : place o iData oData k = oData.findIdx (fun y => feq y iData[k]) := by
      unfold place; rw [hg k hk, if_pos hf, htake]
    refine ⟨this, ?_⟩
    have := (found_iff o oData iData[k] (by omega)).1 hf
    rw [htake] at this; omega
  have hnp : ∀ k (hk : k < iData.length), found o oData iData[k] = false → place o iData oData k = o.length + newBefore o iData oData k := by
    intro k hk hf
    unfold place; rw [hg k hk, if_neg (by simp [hf])]
  have hsucc : ∀ k (hk : k < iData.length), newBefore o iData oData (k + 1) = newBefore o iData oData k +
      if found o oData iData[k] then 0 else 1 := by
    intro k hk
    have := newBefore_succ o iData oData k hk
    rwa [hg k hk] at this
  have hmono : ∀ a b, a ≤ b → b ≤ iData.length → newBefore o iData oData a ≤ newBefore o iData oData b := by
    intro a b hab
    induction b, hab using Nat.le_induction with
    | base => intro _; exact le_rfl
    | succ b hab ih =>
      intro hb
      have := ih (by omega)
      rw [hsucc b (by omega)]; omega
  have hfeq : ∀ x y z : Option K, feq x y = true → feq x z = true → feq y z = true := by
    intro x y z
    cases x <;> cases y <;> cases z <;> simp [feq]
    intro h1 h2; rw [← h1, h2]
  refine ⟨fun hf => ?_, fun hf => ?_, fun k hk hki he => ?_⟩
  · obtain ⟨h1, h2⟩ := hfp i hi hf
    refine ⟨h2, ?_, ?_⟩
    · have := List.findIdx_getElem (xs := oData) (p := fun y => feq y iData[i]) (w := by omega)
      simp only [h1]
      exact this
    · intro k hk hlt
      have := List.not_of_lt_findIdx (xs := oData) (p := fun y => feq y iData[i]) (i := k) (by omega)
      simpa using this
  · have h1 := hnp i hi hf
    refine ⟨by omega, fun m hm hlt => ?_⟩
    have : ∀ q, q ≤ iData.length → m < o.length + newBefore o iData oData q →
        ∃ k, ∃ hk : k < iData.length, k < q ∧ found o oData iData[k] = false ∧ place o iData oData k = m := by
      intro q
      induction q with
      | zero => intro _ h; simp [newBefore] at h; omega
      | succ q ih =>
        intro hq h
        by_cases h' : m < o.length + newBefore o iData oData q
        · obtain ⟨k, hk, k1, k2, k3⟩ := ih (by omega) h'
          exact ⟨k, hk, by omega, k2, k3⟩
        · rw [hsucc q (by omega)] at h
          cases hfq : found o oData iData[q] with
          | true => rw [hfq] at h; simp at h; omega
          | false =>
            rw [hfq] at h
            refine ⟨q, by omega, by omega, hfq, ?_⟩
            rw [hnp q (by omega) hfq]
            simp at h; omega
    obtain ⟨k, hk, k1, k2, k3⟩ := this i (by omega) (by omega)
    exact ⟨k, hk, k1, k2, k3⟩
  · cases hfk : found o oData iData[k] with
    | true =>
      refine ⟨rfl, ?_⟩
      obtain ⟨a1, a2⟩ := hfp k hk hfk
      cases hfi : found o oData iData[i] with
      | true =>
        obtain ⟨b1, b2⟩ := hfp i hi hfi
        have e1 := List.findIdx_getElem (xs := oData) (p := fun y => feq y iData[k]) (w := by omega)
        have e2 := List.findIdx_getElem (xs := oData) (p := fun y => feq y iData[i]) (w := by omega)
        have : oData.findIdx (fun y => feq y iData[k]) = oData.findIdx (fun y => feq y iData[i]) := by omega
        simp only [← this] at e2
        exact hfeq _ _ _ e1 e2
      | false =>
        have := hnp i hi hfi
        omega
    | false =>
      exfalso
      have h1 := hnp k hk hfk
      cases hfi : found o oData iData[i] with
      | true =>
        obtain ⟨b1, b2⟩ := hfp i hi hfi
        omega
      | false =>
        have h2 := hnp i hi hfi
        have h3 := hsucc k hk
        rw [hfk] at h3
        have h4 := hmono (k + 1) i (by omega) (by omega)
        simp at h3; omega

example : place ⟨"t", 2, true⟩ [some 30, some 20, some 40, none] [some 10, some (20 : ℕ)] 3 = 4 := by decide

/-- A dimension that is a misfit raises, but only after all variables without it have been written. -/
theorem C58_misfit_raises_after_writing :
    ∃ S, fillWriter (⟨[⟨"x", 1, false⟩, ⟨"y", 1, false⟩], fun _ => none, fun n => if n = "x" then some [some 7] else none⟩ : Side ℕ)
      ⟨[⟨"x", 1, false⟩, ⟨"y", 1, false⟩], fun v => if v = "a" then some ["y"] else none,
        fun n => if n = "x" then some [some 8] else none⟩ [] [("a", ["y"])] = ([("a", S)], .throws) ∧ S.length = 1 := by
  exact ⟨_, rfl, rfl⟩

/-- The comparison of the shapes reads past the end when the variable has more dimensions in the input than in the output. -/
theorem C58_longer_input_shape_undefined :
    fillWriter (⟨[⟨"x", 1, false⟩, ⟨"y", 1, false⟩], fun _ => none, fun _ => none⟩ : Side ℕ)
      ⟨[⟨"x", 1, false⟩, ⟨"y", 1, false⟩], fun _ => some ["x"], fun _ => none⟩ [] [("a", ["x", "y"])] = ([], .ub) := by decide

/-- With fewer dimensions in the input than in the output the shapes count as equal: a slice of one value is read, and written to a
slice of three values. -/
theorem C58_shorter_input_shape_accepted :
    ∃ a b, fillWriter (⟨[⟨"x", 1, false⟩], fun _ => none, fun _ => none⟩ : Side ℕ)
      ⟨[⟨"x", 1, false⟩, ⟨"y", 3, false⟩], fun _ => some ["x", "y"], fun _ => none⟩ [] [("a", ["x"])] = ([("a", [(a, b)])], .ok ()) ∧
      a.size = [1] ∧ b.size = [1, 3] := by
  exact ⟨_, _, rfl, rfl, rfl⟩

/-- A translation without slices raises, although a comment in the code says that nothing is done. -/
theorem C58_translation_without_slices_raises :
    (fillWriter (⟨[⟨"x", 1, false⟩], fun _ => none, fun _ => none⟩ : Side ℕ)
      ⟨[⟨"x", 1, false⟩], fun _ => some ["x"], fun _ => none⟩ [⟨"x", "x", [], []⟩] [("a", ["x"])]).2 = .throws := by decide

end Fimex.Writer
