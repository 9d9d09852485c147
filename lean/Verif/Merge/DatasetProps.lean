import Verif.Merge.DatasetLemmas

/-!
# Merged datasets: C102
-/

namespace Fimex.Merged

open Cdm CoordSys Cf

variable {P V CS Pr α : Type}

/-! ## The grid -/

/-- A variable of the inner dataset with a grid: the outer dataset has it, and its complete coordinate system is a simple grid with a projection. -/
def HasGrid (inner : Reader P V CS Pr α) (outer : CDM P V CS) (v : Var P) (s : System Pr) : Prop :=
  (∃ w ∈ outer.vars, w.name = v.name) ∧ findComplete inner.systems v.name = some s ∧ s.proj.isSome ∧ s.simple = true

/-- The values of an axis that is a dimension of fixed length. -/
def AxisHas (r : Reader P V CS Pr α) (name unit : String) (l : List α) : Prop :=
  (∃ d, (r.cdm.dims.find? fun d => d.name == name) = some d ∧ d.unlimited = false) ∧ r.scaled name unit = .ok l ∧ 2 ≤ l.length

theorem candidate_iff {inner : Reader P V CS Pr α} {outer : CDM P V CS} {v : Var P} {s : System Pr} :
    candidate inner outer v = some s ↔ HasGrid inner outer v s := by
  unfold candidate HasGrid
  have hv : hasVariable outer v.name = true ↔ ∃ w ∈ outer.vars, w.name = v.name := by simp [hasVariable]
  by_cases h : hasVariable outer v.name = true
  · rw [if_neg (by rw [h]; decide)]
    cases hs : findComplete inner.systems v.name with
    | none => simp
    | some s' =>
      simp only [Option.some.injEq]
      by_cases hp : (s'.proj.isSome && s'.simple) = true
      · rw [if_pos hp]
        rw [Bool.and_eq_true] at hp
        constructor
        · intro e; cases e; exact ⟨hv.1 h, rfl, hp.1, hp.2⟩
        · rintro ⟨-, rfl, -, -⟩; rfl
      · rw [if_neg hp]
        simp only [reduceCtorEq, false_iff]
        rintro ⟨-, rfl, h1, h2⟩
        exact hp (by rw [h1, h2]; rfl)
  · rw [if_pos (by rw [Bool.not_eq_true] at h; rw [h]; rfl)]
    simp only [reduceCtorEq, false_iff]
    rintro ⟨h', -⟩
    exact h (hv.2 h')

theorem axisValues_iff {r : Reader P V CS Pr α} {name unit : String} {l : List α} : axisValues r name unit = .ok l ↔ AxisHas r name unit l := by
  unfold axisValues AxisHas
  cases hf : r.cdm.dims.find? fun d => d.name == name with
  | none =>
    have : hasDimension r.cdm name = false := by
      rw [Bool.eq_false_iff]
      intro h
      obtain ⟨d, hd, e⟩ := List.mem_map.1 ((hasDimension_iff _ _).1 h)
      have := List.find?_eq_none.1 hf d hd
      simp [e] at this
    simp [this]
  | some d =>
    have : hasDimension r.cdm name = true := by
      rw [hasDimension_iff]
      exact List.mem_map.2 ⟨d, List.mem_of_find?_eq_some hf, by simpa using List.find?_some hf⟩
    rw [if_neg (by rw [this]; decide)]
    have hg : getDimension r.cdm name = .ok d := by unfold getDimension; rw [hf]
    rw [hg, Res.ok_bind]
    cases hu : d.unlimited with
    | true => simp [hu]
    | false =>
      simp only [Bool.false_eq_true, if_false]
      rw [Res.bind_eq_ok]
      constructor
      · rintro ⟨l', h1, h2⟩
        split at h2
        · cases h2
        · cases h2
          exact ⟨⟨d, rfl, hu⟩, h1, by omega⟩
      · rintro ⟨-, h1, h2⟩
        exact ⟨l, h1, by rw [if_neg (by omega)]⟩

/-- **C102.** The grid is that of the first variable of the inner dataset which has one: its projection and the values of its axes, each in the
unit of the axis.  The unit of the x axis is said for both. -/
theorem C102_grid {inner : Reader P V CS Pr α} {outer : CDM P V CS} {nx ny : String} {g : Grid Pr α} (vars : List (Var P)) :
    chooseGrid inner outer vars = .ok (nx, ny, g) ↔
      ∃ l v l' s x y, vars = l ++ v :: l' ∧ (∀ w ∈ l, ∀ s, ¬ HasGrid inner outer w s) ∧ HasGrid inner outer v s ∧
        geoX s = some x ∧ geoY s = some y ∧ nx = x.name ∧ ny = y.name ∧ s.proj = some g.proj ∧
        AxisHas inner x.name (inner.units x.name) g.x ∧ AxisHas inner y.name (inner.units y.name) g.y ∧
        g.xUnit = inner.units x.name ∧ g.yUnit = inner.units x.name := by
  induction vars with
  | nil => simp [chooseGrid]
  | cons v vars ih =>
    unfold chooseGrid
    cases hc : candidate inner outer v with
    | none =>
      have hn : ∀ s, ¬ HasGrid inner outer v s := fun s hs => by rw [candidate_iff.2 hs] at hc; cases hc
      rw [ih]
      constructor
      · rintro ⟨l, w, l', s, x, y, rfl, h1, h2⟩
        refine ⟨v :: l, w, l', s, x, y, rfl, ?_, h2⟩
        intro u hu
        rcases List.mem_cons.1 hu with rfl | hu
        · exact hn
        · exact h1 u hu
      · rintro ⟨l, w, l', s, x, y, e, h1, h2⟩
        cases l with
        | nil =>
          cases e
          exact absurd h2.1 (hn s)
        | cons u l =>
          cases e
          exact ⟨l, w, l', s, x, y, rfl, fun u hu => h1 u (List.mem_cons_of_mem _ hu), h2⟩
    | some s =>
      have hg := candidate_iff.1 hc
      constructor
      · intro h
        unfold gridOf at h
        dsimp only at h
        cases hx : geoX s with
        | none => rw [hx] at h; cases h
        | some x =>
          cases hy : geoY s with
          | none => rw [hx, hy] at h; cases h
          | some y =>
            cases hp : s.proj with
            | none => rw [hx, hy, hp] at h; cases h
            | some p =>
              rw [hx, hy, hp] at h
              obtain ⟨xs, h1, h⟩ := Res.bind_eq_ok.1 h
              obtain ⟨ys, h2, h⟩ := Res.bind_eq_ok.1 h
              cases h
              exact ⟨[], v, vars, s, x, y, rfl, by simp, hg, hx, hy, rfl, rfl, hp, axisValues_iff.1 h1, axisValues_iff.1 h2, rfl, rfl⟩
      · rintro ⟨l, w, l', s', x, y, e, h1, h2, hx, hy, rfl, rfl, hp, h3, h4, h5, h6⟩
        cases l with
        | cons u l =>
          cases e
          exact absurd hg (h1 v (by simp) s)
        | nil =>
          cases e
          have : s' = s := by
            have := candidate_iff.2 h2
            rw [hc] at this
            exact (Option.some.inj this).symm
          subst this
          unfold gridOf
          dsimp only
          rw [hx, hy, hp]
          dsimp only
          rw [axisValues_iff.2 h3, Res.ok_bind, axisValues_iff.2 h4, Res.ok_bind, ← h5]
          congr 3
          cases g
          simp_all

/-- **C102.** Without such a variable merging raises an error. -/
theorem C102_no_grid {inner : Reader P V CS Pr α} {outer : CDM P V CS} {interpolate : Grid Pr α → Res (CDM P V CS × List (System Pr))} {keep : Bool}
    (h : ∀ v ∈ inner.cdm.vars, ∀ s, ¬ HasGrid inner outer v s) : merge inner outer interpolate keep = .throws := by
  have : ∀ l : List (Var P), (∀ v ∈ l, ∀ s, ¬ HasGrid inner outer v s) → chooseGrid inner outer l = .throws := by
    intro l
    induction l with
    | nil => intro _; rfl
    | cons v l ih =>
      intro h
      unfold chooseGrid
      cases hc : candidate inner outer v with
      | none => exact ih fun w hw => h w (List.mem_cons_of_mem _ hw)
      | some s => exact absurd (candidate_iff.1 hc) (h v (by simp) s)
  unfold merge
  rw [this _ h]
  rfl

/-- **C102, partial.** The values of the y axis are in the unit that is said of them, if both axes have the same unit.  Missing: axes with
different units (`C102_unit_of_y`). -/
theorem C102_units_partial {inner : Reader P V CS Pr α} {outer : CDM P V CS} {nx ny : String} {g : Grid Pr α} {vars : List (Var P)}
    (h : chooseGrid inner outer vars = .ok (nx, ny, g)) (hu : inner.units nx = inner.units ny) :
    inner.scaled nx g.xUnit = .ok g.x ∧ inner.scaled ny g.yUnit = .ok g.y := by
  obtain ⟨l, v, l', s, x, y, -, -, -, -, -, rfl, rfl, -, h3, h4, h5, h6⟩ := (C102_grid vars).1 h
  rw [h5, h6]
  refine ⟨h3.2.1, ?_⟩
  rw [hu]
  exact h4.2.1

/-! ## Compatible variables -/

/-- The lengths and the horizontal axes of the dimensions of a variable. -/
def dims (c : CDM P V CS) (s : System Pr) (v : Var P) : List Shapes.Dim := v.shape.map (dimOf c s)

/-- A dataset with coordinate systems whose axes can be compared: the dimensions of shapes exist, and axes of the types compared are
dimensions. -/
structure Regular (c : CDM P V CS) (l : List (System Pr)) : Prop where
  shapes : ShapesExist c
  axes : ∀ s ∈ l, AxesAreDims c s checkedTypes

/-- Both systems have horizontal axes. -/
def Horizontal (sB sT : System Pr) : Prop := (geoX sB).isSome ∧ (geoX sT).isSome ∧ (geoY sB).isSome ∧ (geoY sT).isSome

/-- A variable whose horizontal axes are not asked for, or exist. -/
def Askable (cB cT : CDM P V CS) (sysB sysT : List (System Pr)) (n : String) : Prop :=
  ∀ vB vT sB sT, getVariable cB n = .ok vB → getVariable cT n = .ok vT → findComplete sysB n = some sB → findComplete sysT n = some sT →
    vB.shape = vT.shape ∨ Horizontal sB sT

theorem findComplete_mem {l : List (System Pr)} {n : String} {s : System Pr} (h : findComplete l n = some s) : s ∈ l :=
  List.mem_of_find?_eq_some h

/-- **C102.** The decision about a variable, exactly: both datasets have it; neither has a coordinate system for it, or both have and the
axes fit, and its dimensions have the same names or pass the comparison of C66. -/
theorem C102_compatible {cB cT : CDM P V CS} {sysB sysT : List (System Pr)} (hB : Regular cB sysB) (hT : Regular cT sysT) (n : String)
    (hh : Askable cB cT sysB sysT n) :
    ∃ r, isCompatible cB cT sysB sysT n = .ok r ∧ (r = true ↔
      ∃ vB vT, getVariable cB n = .ok vB ∧ getVariable cT n = .ok vT ∧
        ((findComplete sysB n = none ∧ findComplete sysT n = none) ∨
        ∃ sB sT, findComplete sysB n = some sB ∧ findComplete sysT n = some sT ∧
          (∀ t ∈ checkedTypes, AxisFits (lengthOfType cB sB t) (lengthOfType cT sT t)) ∧
          (vB.shape = vT.shape ∨ Shapes.compatible (dims cB sB vB) (dims cT sT vT) = true))) := by
  unfold isCompatible
  by_cases hv : (hasVariable cT n && hasVariable cB n) = true
  · rw [if_neg (by rw [hv]; decide)]
    rw [Bool.and_eq_true] at hv
    obtain ⟨vB, b1, b2, -⟩ := getVariable_ok hv.2
    obtain ⟨vT, t1, t2, -⟩ := getVariable_ok hv.1
    cases h1 : findComplete sysB n with
    | none =>
      cases h2 : findComplete sysT n with
      | none => exact ⟨true, rfl, by simp only [true_iff]; exact ⟨vB, vT, b1, t1, .inl ⟨trivial, trivial⟩⟩⟩
      | some sT =>
        refine ⟨false, rfl, ?_⟩
        simp only [Bool.false_eq_true, false_iff]
        rintro ⟨_, _, _, _, h | ⟨_, _, h, _⟩⟩
        · exact absurd h.2 (by simp)
        · cases h
    | some sB =>
      cases h2 : findComplete sysT n with
      | none =>
        refine ⟨false, rfl, ?_⟩
        simp only [Bool.false_eq_true, false_iff]
        rintro ⟨_, _, _, _, h | ⟨_, _, _, h, _⟩⟩
        · exact absurd h.1 (by simp)
        · cases h
      | some sT =>
        dsimp only
        have mB := findComplete_mem h1
        have mT := findComplete_mem h2
        obtain ⟨q, q1, q2⟩ := checkAxes_ok (hB.axes sB mB) (hT.axes sT mT)
        rw [q1, Res.ok_bind]
        have hlen : Shapes.compatibleLoop vB.shape.length (vB.shape.map (dimOf cB sB)) (vT.shape.map (dimOf cT sT)) =
            Shapes.compatible (dims cB sB vB) (dims cT sT vT) := by
          unfold Shapes.compatible dims
          rw [List.length_map]
        cases q with
        | false =>
          refine ⟨false, rfl, ?_⟩
          simp only [Bool.false_eq_true, false_iff] at q2 ⊢
          rintro ⟨_, _, _, _, h | ⟨_, _, e1, e2, h, _⟩⟩
          · exact absurd h.1 (by simp)
          · cases e1; cases e2; exact q2 h
        | true =>
          rw [if_pos rfl, b1, Res.ok_bind, t1, Res.ok_bind]
          by_cases hs : vB.shape = vT.shape
          · rw [if_neg (by simpa using hs)]
            exact ⟨true, rfl, by simp only [true_iff]; exact ⟨vB, vT, rfl, rfl, .inr ⟨sB, sT, rfl, rfl, q2.1 rfl, .inl hs⟩⟩⟩
          · have hsh := checkShapes_eq ((hh vB vT sB sT b1 t1 h1 h2).resolve_left hs) vB.shape.length vB.shape vT.shape (hB.shapes vB b2) (hT.shapes vT t2)
            rw [hlen] at hsh
            rw [if_pos hs, hsh]
            refine ⟨_, rfl, ?_⟩
            constructor
            · intro h
              exact ⟨vB, vT, rfl, rfl, .inr ⟨sB, sT, rfl, rfl, q2.1 rfl, .inr h⟩⟩
            · rintro ⟨_, _, e1, e2, h | ⟨_, _, e3, e4, -, h⟩⟩
              · exact absurd h.1 (by simp)
              · cases e1; cases e2; cases e3; cases e4
                rcases h with h | h
                · exact absurd h hs
                · exact h
  · refine ⟨false, ?_, ?_⟩
    · rw [if_pos (by rw [Bool.not_eq_true] at hv; rw [hv]; rfl)]
    · simp only [Bool.false_eq_true, false_iff]
      rintro ⟨vB, vT, h1, h2, -⟩
      apply hv
      have key : ∀ (c : CDM P V CS) (v : Var P), getVariable c n = .ok v → hasVariable c n = true := by
        intro c v h
        unfold getVariable at h
        cases hf : c.vars.find? fun v => v.name == n with
        | none => rw [hf] at h; cases h
        | some w =>
          rw [hasVariable_iff]
          exact List.mem_map.2 ⟨w, List.mem_of_find?_eq_some hf, by simpa using List.find?_some hf⟩
      rw [key _ _ h1, key _ _ h2]
      rfl

/-- **C102.** Variables whose axes fit and whose dimensions of length other than one match, one by one, are compatible. -/
theorem C102_matching_accepted {cB cT : CDM P V CS} {sysB sysT : List (System Pr)} (hB : Regular cB sysB) (hT : Regular cT sysT) {n : String}
    {vB vT : Var P} {sB sT : System Pr} (h1 : getVariable cB n = .ok vB) (h2 : getVariable cT n = .ok vT) (h3 : findComplete sysB n = some sB)
    (h4 : findComplete sysT n = some sT) (h5 : ∀ t ∈ checkedTypes, AxisFits (lengthOfType cB sB t) (lengthOfType cT sT t))
    (h7 : vB.shape = vT.shape ∨ Horizontal sB sT) (h6 : List.Forall₂ Shapes.Matches (Shapes.long (dims cB sB vB)) (Shapes.long (dims cT sT vT))) :
    isCompatible cB cT sysB sysT n = .ok true := by
  obtain ⟨r, r1, r2⟩ := C102_compatible hB hT n fun _ _ _ _ e1 e2 e3 e4 => by
    rw [h1] at e1; rw [h2] at e2; rw [h3] at e3; rw [h4] at e4
    cases e1; cases e2; cases e3; cases e4
    exact h7
  rw [r1, r2.2 ⟨vB, vT, h1, h2, .inr ⟨sB, sT, h3, h4, h5, .inr ((Shapes.C66_compatible_shapes_partial _ _).1 h6)⟩⟩]

theorem hop_long {c : CDM P V CS} {s : System Pr} {sh : List String} (h : ∀ n ∈ sh, ∃ d ∈ c.dims, d.name = n)
    (hl : Shapes.long (sh.map (dimOf c s)) ≠ []) : ∃ n l, hop c sh = .ok (n :: l) := by
  induction sh with
  | nil => exact absurd rfl hl
  | cons n sh ih =>
    obtain ⟨d, h1, h2⟩ := getDimension_ok (h n (by simp))
    unfold hop
    rw [h1, Res.ok_bind]
    by_cases hd : d.length = 1
    · rw [if_pos hd]
      refine ih (fun m hm => h m (List.mem_cons_of_mem _ hm)) fun e => hl ?_
      rw [← e, List.map_cons]
      unfold Shapes.long
      rw [List.filter_cons_of_neg (by simp [dimOf, h2, hd])]
    · rw [if_neg hd]
      exact ⟨n, sh, rfl⟩

/-- **C102.** A variable with different names of dimensions, whose coordinate systems fit and have no horizontal axes, is undefined behaviour:
the name of a missing axis is asked for. -/
theorem C102_null_axis {cB cT : CDM P V CS} {sysB sysT : List (System Pr)} (hB : Regular cB sysB) (hT : Regular cT sysT) {n : String}
    {vB vT : Var P} {sB sT : System Pr} (h1 : getVariable cB n = .ok vB) (h2 : getVariable cT n = .ok vT) (h3 : findComplete sysB n = some sB)
    (h4 : findComplete sysT n = some sT) (h5 : ∀ t ∈ checkedTypes, AxisFits (lengthOfType cB sB t) (lengthOfType cT sT t))
    (h6 : vB.shape ≠ vT.shape) (h7 : ¬ Horizontal sB sT) (h8 : Shapes.long (dims cB sB vB) ≠ []) (h9 : Shapes.long (dims cT sT vT) ≠ []) :
    isCompatible cB cT sysB sysT n = .ub := by
  have key : ∀ (c : CDM P V CS) (v : Var P), getVariable c n = .ok v → hasVariable c n = true ∧ v ∈ c.vars := by
    intro c v h
    unfold getVariable at h
    cases hf : c.vars.find? fun v => v.name == n with
    | none => rw [hf] at h; cases h
    | some w =>
      rw [hf] at h
      cases h
      exact ⟨(hasVariable_iff _ _).2 (List.mem_map.2 ⟨_, List.mem_of_find?_eq_some hf, by simpa using List.find?_some hf⟩), List.mem_of_find?_eq_some hf⟩
  unfold isCompatible
  rw [(key _ _ h1).1, (key _ _ h2).1, if_neg (by decide), h3, h4]
  dsimp only
  obtain ⟨q, q1, q2⟩ := checkAxes_ok (hB.axes sB (findComplete_mem h3)) (hT.axes sT (findComplete_mem h4))
  rw [q1, Res.ok_bind, if_pos (q2.2 h5), h1, Res.ok_bind, h2, Res.ok_bind, if_pos h6]
  obtain ⟨b, l, e1⟩ := hop_long (hB.shapes vB (key _ _ h1).2) h8
  obtain ⟨t, m, e2⟩ := hop_long (hT.shapes vT (key _ _ h2).2) h9
  cases hsB : vB.shape with
  | nil => rw [hsB] at e1; cases e1
  | cons b' l' =>
    cases hsT : vT.shape with
    | nil => rw [hsT] at e2; cases e2
    | cons t' m' =>
      rw [hsB] at e1
      rw [hsT] at e2
      rw [List.length_cons]
      unfold checkShapes
      rw [e1, Res.ok_bind, e2, Res.ok_bind]
      have : checkDim cB cT sB sT b t = .ub := by
        unfold checkDim
        split
        · next e1 e2 e3 e4 => exact absurd ⟨by rw [e1]; rfl, by rw [e2]; rfl, by rw [e3]; rfl, by rw [e4]; rfl⟩ h7
        · rfl
      dsimp only
      rw [this]
      rfl

/-! ## The merged dataset -/

/-- What is kept of the inner dataset: compatible variables, and what they need. -/
def Kept (inner : Reader P V CS Pr α) (out : CDM P V CS) (sysO : List (System Pr)) (n : String) : Prop :=
  Auxiliary.Needed (auxVars inner.cdm) (auxSystems inner.systems)
    ((inner.cdm.vars.map (·.name)).filter fun m => isCompatible inner.cdm out inner.systems sysO m matches .ok true) n

theorem needed_congr {cdm : List Auxiliary.Var} {cs : List Auxiliary.CoordSys} {a b : List String} (h : ∀ n, n ∈ a ↔ n ∈ b) {n : String}
    (hn : Auxiliary.Needed cdm cs a n) : Auxiliary.Needed cdm cs b n := by
  induction hn with
  | self hv => exact .self ((h _).1 hv)
  | dim _ h1 h2 h3 ih => exact .dim ih h1 h2 h3
  | dep _ h1 h2 ih => exact .dep ih h1 h2

theorem kept_list {inner : Reader P V CS Pr α} {out : CDM P V CS} {sysO : List (System Pr)} {names kept : List String}
    (hI : (inner.cdm.vars.map (·.name)).Nodup)
    (h1 : compatibleNames inner.cdm out inner.systems sysO (inner.cdm.vars.map (·.name)) = .ok names)
    (h2 : withAuxiliary inner.cdm inner.systems names = .ok kept) : ∀ n, n ∈ kept ↔ Kept inner out sysO n := by
  obtain ⟨c1, c2⟩ := compatibleNames_ok h1
  obtain ⟨r, r1, -, r3⟩ := Auxiliary.C43_auxiliary_closure (auxVars inner.cdm) (auxSystems inner.systems) names (hI.sublist c1) _ (Nat.lt_succ_self _)
  unfold withAuxiliary at h2
  rw [r1] at h2
  cases h2
  have hm : ∀ n, n ∈ names ↔ n ∈ (inner.cdm.vars.map (·.name)).filter fun m => isCompatible inner.cdm out inner.systems sysO m matches .ok true := by
    intro n
    rw [List.mem_filter]
    constructor
    · intro hn
      obtain ⟨b, hb, hiff⟩ := c2 n (c1.subset hn)
      rw [hiff] at hn
      subst hn
      rw [hb]
      exact ⟨c1.subset ((hiff).2 rfl), rfl⟩
    · rintro ⟨hn, h⟩
      obtain ⟨b, hb, hiff⟩ := c2 n hn
      rw [hb] at h
      rw [hiff]
      cases b with
      | true => rfl
      | false => cases h
  intro n
  rw [r3 n]
  exact ⟨needed_congr hm, needed_congr fun n => (hm n).symm⟩

open Classical in
/-- **C102.** The merged dataset, completely: the variables of the inner dataset that are compatible or needed by compatible ones, in their
order, with their attributes; all its dimensions; and, if wanted, dimensions and variables of the outer dataset on the new grid that the inner
one did not have.  Variables that are not compatible are gone. -/
theorem C102_dataset {inner : Reader P V CS Pr α} {outer : CDM P V CS} {interpolate : Grid Pr α → Res (CDM P V CS × List (System Pr))}
    {keep : Bool} {r : Result P V CS Pr α} (h : merge inner outer interpolate keep = .ok r) (hI : Inv inner.cdm) (hO : Inv r.outer)
    (hg : "_GLOBAL" ∉ inner.cdm.vars.map (·.name) ∧ "_GLOBAL" ∉ r.outer.vars.map (·.name)) :
    ∃ sysO, interpolate r.grid = .ok (r.outer, sysO) ∧ chooseGrid inner outer inner.cdm.vars = .ok (r.nameX, r.nameY, r.grid) ∧
      r.cdm.vars = inner.cdm.vars.filter (fun v => Kept inner r.outer sysO v.name) ++
        (if keep then r.outer.vars.filter fun v => v.name ∉ inner.cdm.vars.map (·.name) else []) ∧
      r.cdm.dims = inner.cdm.dims ++ (if keep then r.outer.dims.filter fun d => d.name ∉ inner.cdm.dims.map (·.name) else []) ∧
      (∀ n, getAttributes r.cdm n =
        if n ∈ inner.cdm.vars.map (·.name) then (if Kept inner r.outer sysO n then getAttributes inner.cdm n else [])
        else if keep ∧ n ∈ r.outer.vars.map (·.name) then getAttributes r.outer n
        else getAttributes inner.cdm n) := by
  unfold merge at h
  obtain ⟨⟨nx, ny, g⟩, hc, h⟩ := Res.bind_eq_ok.1 h
  obtain ⟨⟨out, sysO⟩, hi, h⟩ := Res.bind_eq_ok.1 h
  obtain ⟨names, hn, h⟩ := Res.bind_eq_ok.1 h
  obtain ⟨kept, hk, h⟩ := Res.bind_eq_ok.1 h
  obtain ⟨c, hcc, h⟩ : ∃ c, (if keep then addDims out.dims (removeOthers kept inner.cdm (inner.cdm.vars.map (·.name))) >>= addVars inner.cdm out out.vars
      else .ok (removeOthers kept inner.cdm (inner.cdm.vars.map (·.name)))) = Res.ok c ∧
      (Res.ok { cdm := c, nameX := nx, nameY := ny, grid := g, outer := out } : Res (Result P V CS Pr α)) = .ok r := by
    cases keep with
    | true => exact Res.bind_eq_ok.1 h
    | false => exact Res.bind_eq_ok.1 h
  cases h
  have hkept := kept_list hI.vars hn hk
  obtain ⟨r1, r2, r3⟩ := removeOthers_spec kept (inner.cdm.vars.map (·.name)) inner.cdm
  have hvars : (removeOthers kept inner.cdm (inner.cdm.vars.map (·.name))).vars = inner.cdm.vars.filter (fun v => Kept inner out sysO v.name) := by
    rw [r1]
    refine List.filter_congr fun v hv => ?_
    have hm : v.name ∈ inner.cdm.vars.map (·.name) := List.mem_map_of_mem hv
    rw [decide_eq_decide]
    constructor
    · intro h
      by_contra hc
      exact h ⟨hm, fun hh => hc ((hkept _).1 hh)⟩
    · rintro h ⟨-, h'⟩
      exact h' ((hkept _).2 h)
  have hattr : ∀ n, getAttributes (removeOthers kept inner.cdm (inner.cdm.vars.map (·.name))) n =
      if n ∈ inner.cdm.vars.map (·.name) then (if Kept inner out sysO n then getAttributes inner.cdm n else []) else getAttributes inner.cdm n := by
    intro n
    unfold getAttributes
    rw [r3 n]
    by_cases h1 : n ∈ inner.cdm.vars.map (·.name)
    · rw [if_pos h1]
      by_cases h2 : Kept inner out sysO n
      · rw [if_pos h2, if_neg (fun h => h.2 ((hkept n).2 h2))]
      · rw [if_neg h2, if_pos ⟨h1, fun h => h2 ((hkept n).1 h)⟩]; rfl
    · rw [if_neg h1, if_neg (fun h => h1 h.1)]
  refine ⟨sysO, hi, hc, ?_⟩
  cases keep with
  | false =>
    simp only [Bool.false_eq_true, if_false] at hcc
    cases hcc
    refine ⟨by simpa using hvars, by simpa using r2, fun n => ?_⟩
    rw [hattr n]
    simp
  | true =>
    simp only [if_true] at hcc
    obtain ⟨c1, d1, d2, d3, d4⟩ := addDims_spec out.dims (removeOthers kept inner.cdm (inner.cdm.vars.map (·.name))) hO.dims
    rw [d1, Res.ok_bind] at hcc
    obtain ⟨c2, e1, e2, e3, e4⟩ := addVars_spec (inner := inner.cdm) hO out.vars c1 hO.vars (fun v hv hv' => by
      constructor
      · rw [Bool.eq_false_iff]
        intro hh
        rw [hasVariable_iff, d2, hvars] at hh
        obtain ⟨w, hw, e⟩ := List.mem_map.1 hh
        exact hv' (List.mem_map.2 ⟨w, List.mem_of_mem_filter hw, e⟩)
      · rw [d3, r3 v.name, if_neg (fun h => hv' h.1)]
        by_contra hne
        rcases hI.owners v.name hne with h | h
        · exact hg.2 (List.mem_map.2 ⟨v, hv, h⟩)
        · exact hv' ((hasVariable_iff _ _).1 h))
    rw [e1] at hcc
    cases hcc
    refine ⟨by rw [e3, d2, hvars]; simp, by rw [e2, d4, r2]; simp, fun n => ?_⟩
    rw [e4 n]
    have : getAttributes c1 n = getAttributes (removeOthers kept inner.cdm (inner.cdm.vars.map (·.name))) n := by
      unfold getAttributes
      rw [d3]
    rw [this, hattr n]
    by_cases h1 : n ∈ inner.cdm.vars.map (·.name)
    · rw [if_neg (fun h => h.2 h1), if_pos h1, if_pos h1]
    · by_cases h2 : n ∈ out.vars.map (·.name)
      · rw [if_pos ⟨h2, h1⟩, if_neg h1, if_pos ⟨rfl, h2⟩]
      · rw [if_neg (fun h => h2 h.1), if_neg h1, if_neg h1, if_neg (fun h => h2 h.2)]

/-- **C102.** Once there is a grid, the outer dataset can be brought to it and each variable can be compared, merging succeeds. -/
theorem C102_succeeds {inner : Reader P V CS Pr α} {outer out : CDM P V CS} {interpolate : Grid Pr α → Res (CDM P V CS × List (System Pr))}
    {keep : Bool} {nx ny : String} {g : Grid Pr α} {sysO : List (System Pr)} (hI : Inv inner.cdm) (hO : Inv out)
    (hg : "_GLOBAL" ∉ out.vars.map (·.name)) (h1 : chooseGrid inner outer inner.cdm.vars = .ok (nx, ny, g)) (h2 : interpolate g = .ok (out, sysO))
    (h3 : ∀ v ∈ inner.cdm.vars, ∃ b, isCompatible inner.cdm out inner.systems sysO v.name = .ok b) :
    ∃ r, merge inner outer interpolate keep = .ok r ∧ r.outer = out := by
  have hc : ∀ l : List String, (∀ n ∈ l, ∃ b, isCompatible inner.cdm out inner.systems sysO n = .ok b) →
      ∃ names, compatibleNames inner.cdm out inner.systems sysO l = .ok names := by
    intro l
    induction l with
    | nil => intro _; exact ⟨[], rfl⟩
    | cons n l ih =>
      intro h
      obtain ⟨b, hb⟩ := h n (by simp)
      obtain ⟨r, hr⟩ := ih fun m hm => h m (List.mem_cons_of_mem _ hm)
      unfold compatibleNames
      rw [hb, Res.ok_bind, hr, Res.ok_bind]
      exact ⟨_, rfl⟩
  obtain ⟨names, hn⟩ := hc (inner.cdm.vars.map (·.name)) (by
    intro n hn
    obtain ⟨v, hv, rfl⟩ := List.mem_map.1 hn
    exact h3 v hv)
  obtain ⟨c1, -⟩ := compatibleNames_ok hn
  obtain ⟨kept, k1, -⟩ := Auxiliary.C43_auxiliary_closure (auxVars inner.cdm) (auxSystems inner.systems) names (hI.vars.sublist c1) _ (Nat.lt_succ_self _)
  have hk : withAuxiliary inner.cdm inner.systems names = .ok kept := by
    unfold withAuxiliary
    rw [k1]
  unfold merge
  rw [h1]
  simp only [Res.ok_bind]
  rw [h2]
  simp only [Res.ok_bind]
  rw [hn, Res.ok_bind, hk, Res.ok_bind]
  cases keep with
  | false => exact ⟨_, rfl, rfl⟩
  | true =>
    obtain ⟨r1, r2, r3⟩ := removeOthers_spec kept (inner.cdm.vars.map (·.name)) inner.cdm
    obtain ⟨c2, d1, d2, d3, d4⟩ := addDims_spec out.dims (removeOthers kept inner.cdm (inner.cdm.vars.map (·.name))) hO.dims
    obtain ⟨c3, e1, -⟩ := addVars_spec (inner := inner.cdm) hO out.vars c2 hO.vars (fun v hv hv' => by
      constructor
      · rw [Bool.eq_false_iff]
        intro hh
        rw [hasVariable_iff, d2, r1] at hh
        obtain ⟨w, hw, e⟩ := List.mem_map.1 hh
        exact hv' (List.mem_map.2 ⟨w, List.mem_of_mem_filter hw, e⟩)
      · rw [d3, r3 v.name, if_neg (fun h => hv' h.1)]
        by_contra hne
        rcases hI.owners v.name hne with h | h
        · exact hg (List.mem_map.2 ⟨v, hv, h⟩)
        · exact hv' ((hasVariable_iff _ _).1 h))
    simp only [if_true, d1, e1, Res.ok_bind]
    exact ⟨_, rfl, rfl⟩

/-- **C102.** All dimensions of variables exist in the merged dataset. -/
theorem C102_shapes {inner : Reader P V CS Pr α} {outer : CDM P V CS} {interpolate : Grid Pr α → Res (CDM P V CS × List (System Pr))}
    {keep : Bool} {r : Result P V CS Pr α} (h : merge inner outer interpolate keep = .ok r) (hI : Inv inner.cdm) (hO : Inv r.outer)
    (hg : "_GLOBAL" ∉ inner.cdm.vars.map (·.name) ∧ "_GLOBAL" ∉ r.outer.vars.map (·.name)) (hsI : ShapesExist inner.cdm) (hsO : ShapesExist r.outer) :
    ShapesExist r.cdm := by
  obtain ⟨sysO, -, -, hv, hd, -⟩ := C102_dataset h hI hO hg
  intro v hv' s hs
  rw [hv] at hv'
  rw [hd]
  rcases List.mem_append.1 hv' with h1 | h1
  · obtain ⟨d, hd, e⟩ := hsI v (List.mem_of_mem_filter h1) s hs
    exact ⟨d, List.mem_append_left _ hd, e⟩
  · cases keep with
    | false => simp at h1
    | true =>
      simp only [if_true] at h1 ⊢
      obtain ⟨d, hd, e⟩ := hsO v (List.mem_of_mem_filter h1) s hs
      by_cases hin : s ∈ inner.cdm.dims.map (·.name)
      · obtain ⟨d', hd', e'⟩ := List.mem_map.1 hin
        exact ⟨d', List.mem_append_left _ hd', e'⟩
      · exact ⟨d, List.mem_append_right _ (List.mem_filter.2 ⟨hd, by rw [e]; simpa using hin⟩), e⟩

/-- **C102, partial.** Variables have the lengths of the dataset they come from: those of the inner dataset always, those of the outer one if
dimensions with the same name have the same length.  Missing: other dimensions (`C102_outer_length`). -/
theorem C102_lengths_partial {inner : Reader P V CS Pr α} {outer : CDM P V CS} {interpolate : Grid Pr α → Res (CDM P V CS × List (System Pr))}
    {keep : Bool} {r : Result P V CS Pr α} (h : merge inner outer interpolate keep = .ok r) (hI : Inv inner.cdm) (hO : Inv r.outer)
    (hg : "_GLOBAL" ∉ inner.cdm.vars.map (·.name) ∧ "_GLOBAL" ∉ r.outer.vars.map (·.name)) (hsI : ShapesExist inner.cdm) (hsO : ShapesExist r.outer) :
    (∀ v ∈ r.cdm.vars, v ∈ inner.cdm.vars → ∀ s ∈ v.shape, lengthOf r.cdm s = lengthOf inner.cdm s) ∧
    (∀ v ∈ r.cdm.vars, v.name ∉ inner.cdm.vars.map (·.name) →
      (∀ d ∈ inner.cdm.dims, ∀ e ∈ r.outer.dims, d.name = e.name → d.length = e.length) →
      ∀ s ∈ v.shape, lengthOf r.cdm s = lengthOf r.outer s) := by
  obtain ⟨sysO, -, -, hv, hd, -⟩ := C102_dataset h hI hO hg
  have first : ∀ s, (∃ d ∈ inner.cdm.dims, d.name = s) → lengthOf r.cdm s = lengthOf inner.cdm s := by
    rintro s ⟨d, hd', e⟩
    unfold lengthOf
    rw [hd, List.find?_append]
    have : (inner.cdm.dims.find? fun d => decide (d.name = s)).isSome := List.find?_isSome.2 ⟨d, hd', by simpa using e⟩
    obtain ⟨w, hw⟩ := Option.isSome_iff_exists.1 this
    rw [hw]
    rfl
  refine ⟨fun v _ hv s hs => first s (hsI v hv s hs), fun v hv' hn hl s hs => ?_⟩
  rw [hv] at hv'
  rcases List.mem_append.1 hv' with h1 | h1
  · exact absurd (List.mem_map_of_mem (List.mem_of_mem_filter h1)) hn
  · cases keep with
    | false => simp at h1
    | true =>
      simp only [if_true] at h1 hd
      obtain ⟨d, hdo, e⟩ := hsO v (List.mem_of_mem_filter h1) s hs
      have hfo : ∃ w, (r.outer.dims.find? fun d => decide (d.name = s)) = some w :=
        Option.isSome_iff_exists.1 (List.find?_isSome.2 ⟨d, hdo, by simpa using e⟩)
      obtain ⟨w, hw⟩ := hfo
      by_cases hin : ∃ d ∈ inner.cdm.dims, d.name = s
      · rw [first s hin]
        unfold lengthOf
        obtain ⟨u, hu⟩ : ∃ u, (inner.cdm.dims.find? fun d => decide (d.name = s)) = some u := by
          obtain ⟨d', hd', e'⟩ := hin
          exact Option.isSome_iff_exists.1 (List.find?_isSome.2 ⟨d', hd', by simpa using e'⟩)
        rw [hu, hw]
        have e1 : u.name = s := by simpa using List.find?_some hu
        have e2 : w.name = s := by simpa using List.find?_some hw
        simp [hl u (List.mem_of_find?_eq_some hu) w (List.mem_of_find?_eq_some hw) (e1.trans e2.symm)]
      · unfold lengthOf
        rw [hd, List.find?_append]
        have hn1 : (inner.cdm.dims.find? fun d => decide (d.name = s)) = none := by
          rw [List.find?_eq_none]
          intro x hx
          simpa using fun e => hin ⟨x, hx, e⟩
        rw [hn1, Option.none_or]
        have : ∀ l : List Dim, (l.filter fun d => d.name ∉ inner.cdm.dims.map (·.name)).find? (fun d => decide (d.name = s)) =
            l.find? fun d => decide (d.name = s) := by
          intro l
          rw [List.find?_filter]
          congr 1
          funext x
          by_cases hx : x.name = s
          · simp only [hx, decide_true, decide_eq_true_eq]
            refine ⟨fun hh => ?_, trivial⟩
            obtain ⟨y, hy, e⟩ := List.mem_map.1 hh
            exact hin ⟨y, hy, e⟩
          · simp [hx]
        rw [this]

/-! ## Where values come from -/

/-- **C102.** In a dataset with smoothed borders every variable can be read: from both datasets if both have it and it is not a dimension,
otherwise from the inner one. -/
theorem C102_smoothing_source {outer c : CDM P V CS} {n : String} (h : hasVariable c n = true) :
    smoothingSource outer c n = .ok (if hasDimension c n = false ∧ hasVariable outer n = true then .both else .inner) := by
  unfold smoothingSource
  rw [if_neg (by rw [h]; decide)]
  cases hasDimension c n <;> cases hasVariable outer n <;> rfl

/-- **C102.** In an overlay a variable of the merged dataset is read from the top if it is a dimension there, from the base if only that has it,
and from both otherwise; only a variable that is no dimension and not in the base raises an error.  That can only be one that is not
compatible, but needed by one that is. -/
theorem C102_overlay_source {inner : Reader P V CS Pr α} {outer : CDM P V CS} {interpolate : Grid Pr α → Res (CDM P V CS × List (System Pr))}
    {keep : Bool} {r : Result P V CS Pr α} (h : merge inner outer interpolate keep = .ok r) (hI : Inv inner.cdm) (hO : Inv r.outer)
    (hg : "_GLOBAL" ∉ inner.cdm.vars.map (·.name) ∧ "_GLOBAL" ∉ r.outer.vars.map (·.name)) {v : Var P} (hv : v ∈ r.cdm.vars) :
    (v.name ∉ inner.cdm.vars.map (·.name) → v ∈ r.outer.vars ∧ overlaySource inner.cdm r.outer r.cdm v.name = .ok .outer) ∧
    (v.name ∈ inner.cdm.vars.map (·.name) → hasDimension r.cdm v.name = true → overlaySource inner.cdm r.outer r.cdm v.name = .ok .inner) ∧
    (v.name ∈ inner.cdm.vars.map (·.name) → hasDimension r.cdm v.name = false → v.name ∈ r.outer.vars.map (·.name) →
      overlaySource inner.cdm r.outer r.cdm v.name = .ok .both) ∧
    (overlaySource inner.cdm r.outer r.cdm v.name = .throws ↔
      v.name ∈ inner.cdm.vars.map (·.name) ∧ hasDimension r.cdm v.name = false ∧ v.name ∉ r.outer.vars.map (·.name)) ∧
    (overlaySource inner.cdm r.outer r.cdm v.name = .throws → ∃ sysO, interpolate r.grid = .ok (r.outer, sysO) ∧
      Kept inner r.outer sysO v.name ∧ isCompatible inner.cdm r.outer inner.systems sysO v.name = .ok false) := by
  obtain ⟨sysO, hi, -, hvars, -, -⟩ := C102_dataset h hI hO hg
  have e1 : hasVariable inner.cdm v.name = true ↔ v.name ∈ inner.cdm.vars.map (·.name) := hasVariable_iff _ _
  have e2 : hasVariable r.outer v.name = true ↔ v.name ∈ r.outer.vars.map (·.name) := hasVariable_iff _ _
  have hthrows : overlaySource inner.cdm r.outer r.cdm v.name = .throws ↔
      v.name ∈ inner.cdm.vars.map (·.name) ∧ hasDimension r.cdm v.name = false ∧ v.name ∉ r.outer.vars.map (·.name) := by
    rw [← e1, ← e2]
    unfold overlaySource
    cases hasDimension r.cdm v.name <;> cases hasVariable inner.cdm v.name <;> cases hasVariable r.outer v.name <;> simp
  refine ⟨fun hn => ⟨?_, ?_⟩, fun hn hd => ?_, fun hn hd ho => ?_, hthrows, fun ht => ?_⟩
  · rw [hvars] at hv
    rcases List.mem_append.1 hv with h1 | h1
    · exact absurd (List.mem_map_of_mem (List.mem_of_mem_filter h1)) hn
    · cases keep with
      | false => simp at h1
      | true =>
        simp only [if_true] at h1
        exact List.mem_of_mem_filter h1
  · have : hasVariable inner.cdm v.name = false := by rw [Bool.eq_false_iff]; exact fun h => hn (e1.1 h)
    unfold overlaySource
    simp [this]
  · unfold overlaySource
    rw [e1.2 hn, hd]
    rfl
  · unfold overlaySource
    rw [e1.2 hn, hd, e2.2 ho]
    rfl
  · obtain ⟨h1, -, h3⟩ := hthrows.1 ht
    refine ⟨sysO, hi, ?_, ?_⟩
    · rw [hvars] at hv
      rcases List.mem_append.1 hv with h4 | h4
      · simpa using (List.mem_filter.1 h4).2
      · cases keep with
        | false => simp at h4
        | true =>
          simp only [if_true] at h4
          exact absurd (List.mem_map_of_mem (List.mem_of_mem_filter h4)) h3
    · unfold isCompatible
      have : hasVariable r.outer v.name = false := by rw [Bool.eq_false_iff]; exact fun h => h3 (e2.1 h)
      rw [this]
      rfl

end Fimex.Merged
