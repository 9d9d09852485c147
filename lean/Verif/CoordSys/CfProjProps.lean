import Verif.CoordSys.CfProps

/-!
# C96: simple grids and projections of coordinate systems
-/

namespace Fimex.Cf

open Cdm CoordSys

variable {P V CS Pr : Type} {L : Lib V Pr} {c : CDM P V CS}

/-! ## Specification -/

/-- The first element of a list with a property. -/
def First {α : Type} (p : α → Prop) (l : List α) (a : α) : Prop := ∃ l1 l2, l = l1 ++ a :: l2 ∧ p a ∧ ∀ b ∈ l1, ¬ p b

/-- The axis of a system that is found for a list of types: no axis has an earlier type, and it is the first one, main axes before
auxiliary axes, with its own type. -/
def AxisOfTypes (s : System Pr) (ts : List AxisType) (a : Axis) : Prop :=
  ∃ pre t post, ts = pre ++ t :: post ∧ (∀ b ∈ getAxes s.axes, b.type ∉ pre) ∧ First (fun b => b.type = t) (getAxes s.axes) a

/-- Axis to the east. -/
def XAxis (s : System Pr) (a : Axis) : Prop := AxisOfTypes s [.geoX, .lon] a
/-- Axis to the north. -/
def YAxis (s : System Pr) (a : Axis) : Prop := AxisOfTypes s [.geoY, .lat] a

/-- A dimension of the dataset with values (if any) on one dimension. -/
def OneDim (c : CDM P V CS) (n : String) : Prop :=
  (∃ d ∈ c.dims, d.name = n) ∧ ∀ v ∈ c.vars, v.name = n → v.shape.length = 1

/-- Both horizontal axes are dimensions with values on one dimension. -/
def SimpleGrid (c : CDM P V CS) (s : System Pr) : Prop := ∃ x y, XAxis s x ∧ YAxis s y ∧ OneDim c x.name ∧ OneDim c y.name

/-- What a variable offers as mapping of a coordinate system: the attributes, and the variable they are from. -/
inductive Offers (L : Lib V Pr) (c : CDM P V CS) (s : System Pr) (v : Var P) : List (Attr V) → Option String → Prop
  | mapping {m} : attrText L c v.name "grid_mapping" = some m → (∃ w ∈ c.vars, w.name = m) →
      Offers L c s v (getAttributes c m) (some m)
  | latLon {x y} : attrText L c v.name "grid_mapping" = none → SimpleGrid c s → XAxis s x → x.type = .lon → YAxis s y → y.type = .lat →
      Offers L c s v [⟨"grid_mapping_name", L.latLonValue⟩] none

/-- The coordinate system is for the variable and complete. -/
def Owns (s : System Pr) (v : Var P) : Prop := v.name ∈ s.isFor ∧ v.name ∈ s.complete

/-- The variable that gives a coordinate system its projection. -/
def MappedBy (L : Lib V Pr) (c : CDM P V CS) (s : System Pr) (v : Var P) : Prop :=
  First (fun w => Owns s w ∧ ∃ attrs m, Offers L c s w attrs m) c.vars v

/-! ## Axes -/

theorem find_first {α : Type} {p : α → Bool} {l : List α} {a : α} : l.find? p = some a ↔ First (fun b => p b = true) l a := by
  unfold First
  rw [List.find?_eq_some_iff_append]
  constructor
  · rintro ⟨h, l1, l2, e, h2⟩
    exact ⟨l1, l2, e, h, fun b hb => by simpa using h2 b hb⟩
  · rintro ⟨l1, l2, e, h, h2⟩
    exact ⟨h, l1, l2, e, fun b hb => by simpa using h2 b hb⟩

theorem findAxisOfType_eq (cs : CoordSys.CS) (t : AxisType) : findAxisOfType cs t = (getAxes cs).find? fun a => a.type = t := by
  unfold findAxisOfType getAxes findType
  rw [List.find?_append]
  cases cs.axes.find? fun a => a.type = t <;> rfl

theorem findAxisOfType_none {cs : CoordSys.CS} {t : AxisType} : findAxisOfType cs t = none ↔ ∀ b ∈ getAxes cs, b.type ≠ t := by
  rw [findAxisOfType_eq, List.find?_eq_none]
  simp

theorem findAxisOfType_first {cs : CoordSys.CS} {t : AxisType} {a : Axis} :
    findAxisOfType cs t = some a ↔ First (fun b => b.type = t) (getAxes cs) a := by
  rw [findAxisOfType_eq, find_first]
  simp

theorem findAxisOfTypes_iff {s : System Pr} {ts : List AxisType} {a : Axis} : findAxisOfTypes s.axes ts = some a ↔ AxisOfTypes s ts a := by
  unfold AxisOfTypes
  induction ts with
  | nil => simp [findAxisOfTypes]
  | cons t ts ih =>
    unfold findAxisOfTypes
    cases h : findAxisOfType s.axes t with
    | some b =>
      dsimp only
      constructor
      · intro e
        cases e
        exact ⟨[], t, ts, rfl, by simp, findAxisOfType_first.1 h⟩
      · rintro ⟨pre, t', post, e, h1, h2⟩
        cases pre with
        | nil =>
          cases e
          rw [← h]
          exact findAxisOfType_first.2 h2
        | cons q pre =>
          cases e
          obtain ⟨l1, l2, e, h3, -⟩ := findAxisOfType_first.1 h
          exact absurd (h1 b (by rw [e]; simp)) (by simp [h3])
    | none =>
      dsimp only
      rw [ih]
      constructor
      · rintro ⟨pre, t', post, rfl, h1, h2⟩
        refine ⟨t :: pre, t', post, rfl, fun b hb hm => ?_, h2⟩
        rcases List.mem_cons.1 hm with hm | hm
        · exact findAxisOfType_none.1 h b hb hm
        · exact h1 b hb hm
      · rintro ⟨pre, t', post, e, h1, h2⟩
        cases pre with
        | nil =>
          cases e
          rw [findAxisOfType_first.2 h2] at h
          cases h
        | cons q pre =>
          cases e
          exact ⟨pre, t', post, rfl, fun b hb hm => h1 b hb (List.mem_cons_of_mem _ hm), h2⟩

theorem geoX_iff {s : System Pr} {a : Axis} : geoX s = some a ↔ XAxis s a := findAxisOfTypes_iff
theorem geoY_iff {s : System Pr} {a : Axis} : geoY s = some a ↔ YAxis s a := findAxisOfTypes_iff

/-- The axes of a system are known. -/
def Known (L : Lib V Pr) (c : CDM P V CS) (s : System Pr) : Prop :=
  (∀ a ∈ getAxes s.axes, AxisFor L c a a.name) ∧ ((getAxes s.axes).map (·.name)).Nodup

theorem first_mem {α : Type} {p : α → Prop} {l : List α} {a : α} (h : First p l a) : a ∈ l ∧ p a := by
  obtain ⟨l1, l2, rfl, h, -⟩ := h
  exact ⟨by simp, h⟩

theorem axisOfTypes_mem {s : System Pr} {ts : List AxisType} {a : Axis} (h : AxisOfTypes s ts a) : a ∈ getAxes s.axes ∧ a.type ∈ ts := by
  obtain ⟨pre, t, post, rfl, -, h⟩ := h
  obtain ⟨h1, h2⟩ := first_mem h
  exact ⟨h1, by simp [h2]⟩

theorem oneDim_iff {s : System Pr} (hk : Known L c s) {a : Axis} (ha : a ∈ getAxes s.axes) :
    (a.isExplicit && a.shape.length == 1) = true ↔ OneDim c a.name := by
  have hf := hk.1 a ha
  unfold OneDim
  rw [Bool.and_eq_true, hf.isExplicit, beq_iff_eq]
  refine and_congr_right fun _ => ?_
  constructor
  · intro h v hv hn
    rw [← hf.shapeVar v hv hn, h]
  · intro h
    by_cases he : ∃ v ∈ c.vars, v.name = a.name
    · obtain ⟨v, hv, hn⟩ := he
      rw [hf.shapeVar v hv hn, h v hv hn]
    · rw [hf.shapeNone fun v hv hn => he ⟨v, hv, hn⟩]
      rfl

theorem simple_iff {s : System Pr} (hk : Known L c s) : (setSimple s).simple = true ↔ SimpleGrid c s := by
  unfold setSimple SimpleGrid
  dsimp only
  rw [Bool.and_eq_true]
  constructor
  · rintro ⟨h1, h2⟩
    cases hx : geoX s with
    | none => rw [hx] at h1; cases h1
    | some x =>
      cases hy : geoY s with
      | none => rw [hy] at h2; cases h2
      | some y =>
        rw [hx] at h1
        rw [hy] at h2
        have kx := geoX_iff.1 hx
        have ky := geoY_iff.1 hy
        exact ⟨x, y, kx, ky, (oneDim_iff hk (axisOfTypes_mem kx).1).1 h1, (oneDim_iff hk (axisOfTypes_mem ky).1).1 h2⟩
  · rintro ⟨x, y, kx, ky, h1, h2⟩
    rw [geoX_iff.2 kx, geoY_iff.2 ky]
    exact ⟨(oneDim_iff hk (axisOfTypes_mem kx).1).2 h1, (oneDim_iff hk (axisOfTypes_mem ky).1).2 h2⟩

theorem names_inj {s : System Pr} (hk : Known L c s) {a b : Axis} (ha : a ∈ getAxes s.axes) (hb : b ∈ getAxes s.axes) (h : a.name = b.name) :
    a = b := List.inj_on_of_nodup_map hk.2 ha hb h

/-- An axis found for two types has the second one if it is the first axis with that type. -/
theorem second_type {s : System Pr} (hk : Known L c s) {t u : AxisType} {a : Axis} (htu : t ≠ u) (h : AxisOfTypes s [t, u] a) :
    a.type = u ↔ (findAxisOfType s.axes u).map (·.name) = some a.name := by
  constructor
  · intro hu
    obtain ⟨pre, t', post, e, h1, h2⟩ := h
    have ht' : t' = u := by rw [← (first_mem h2).2, hu]
    subst ht'
    rw [findAxisOfType_first.2 h2]
    rfl
  · intro hm
    obtain ⟨b, hb, hn⟩ := Option.map_eq_some_iff.1 hm
    have kb := first_mem (findAxisOfType_first.1 hb)
    rw [← names_inj hk kb.1 (axisOfTypes_mem h).1 hn]
    exact kb.2

theorem hasAxisType_iff {s : System Pr} {t : AxisType} : hasAxisType s t = true ↔ (findAxisOfType s.axes t).isSome = true := by
  unfold hasAxisType findAxisOfType
  cases findType t s.axes.axes <;> simp

theorem isLatLon_iff {s : System Pr} (hk : Known L c s) (hs : s.simple = true ↔ SimpleGrid c s) :
    isLatLon s = true ↔ SimpleGrid c s ∧ ∃ x y, XAxis s x ∧ x.type = .lon ∧ YAxis s y ∧ y.type = .lat := by
  unfold isLatLon
  simp only [Bool.and_eq_true, hs, hasAxisType_iff, beq_iff_eq]
  constructor
  · rintro ⟨⟨⟨⟨h1, h2⟩, h3⟩, h4⟩, h5⟩
    refine ⟨h1, ?_⟩
    obtain ⟨x, y, hx, hy, -, -⟩ := h1
    rw [geoX_iff.2 hx, Option.map_some] at h4
    rw [geoY_iff.2 hy, Option.map_some] at h5
    exact ⟨x, y, hx, (second_type hk (by decide) hx).2 h4.symm, hy, (second_type hk (by decide) hy).2 h5.symm⟩
  · rintro ⟨h1, x, y, hx, tx, hy, ty⟩
    have ex := (second_type hk (by decide) hx).1 tx
    have ey := (second_type hk (by decide) hy).1 ty
    rw [geoX_iff.2 hx, geoY_iff.2 hy, Option.map_some, Option.map_some, ex, ey]
    refine ⟨⟨⟨⟨h1, ?_⟩, ?_⟩, rfl⟩, rfl⟩
    · cases h : findAxisOfType s.axes .lon with
      | none => rw [h] at ex; cases ex
      | some _ => rfl
    · cases h : findAxisOfType s.axes .lat with
      | none => rw [h] at ey; cases ey
      | some _ => rfl

/-! ## Projection -/

theorem owns_iff {s : System Pr} {v : Var P} : isCSAndCompleteFor s v.name = true ↔ Owns s v := isCSAndCompleteFor_iff

theorem hasVariable_iff' {n : String} : hasVariable c n = true ↔ ∃ w ∈ c.vars, w.name = n := by
  unfold hasVariable
  rw [List.any_eq_true]
  simp

/-- What `setProj` does: it takes the offer of the first variable of the list that has one. -/
theorem setProj_spec (s : System Pr) (hk : Known L c s) (hs : s.simple = true ↔ SimpleGrid c s) (hp : s.proj = none) (vs : List (Var P)) {s' : System Pr}
    (h : setProj L c vs s = .ok s') :
    ((∀ w ∈ vs, Owns s w → ∀ attrs m, ¬ Offers L c s w attrs m) ∧ s' = s) ∨
    ∃ v attrs m p, First (fun w => Owns s w ∧ ∃ attrs m, Offers L c s w attrs m) vs v ∧ Offers L c s v attrs m ∧
      L.createProj attrs = .ok p ∧ s' = { s with proj := some p, deps := match m with | some m => setInsert m s.deps | none => s.deps } := by
  have done : ∀ (vs : List (Var P)) (t t' : System Pr), t.proj.isSome = true → setProj L c vs t = .ok t' → t' = t := by
    intro vs t t' ht h
    cases vs with
    | nil => cases h; rfl
    | cons v vs =>
      unfold setProj at h
      rw [if_pos ht] at h
      cases h
      rfl
  have skip : ∀ (v : Var P) (vs : List (Var P)), (Owns s v → ∀ attrs m, ¬ Offers L c s v attrs m) →
      (((∀ w ∈ vs, Owns s w → ∀ attrs m, ¬ Offers L c s w attrs m) ∧ s' = s) ∨
      ∃ v attrs m p, First (fun w => Owns s w ∧ ∃ attrs m, Offers L c s w attrs m) vs v ∧ Offers L c s v attrs m ∧
        L.createProj attrs = .ok p ∧ s' = { s with proj := some p, deps := match m with | some m => setInsert m s.deps | none => s.deps }) →
      (((∀ w ∈ v :: vs, Owns s w → ∀ attrs m, ¬ Offers L c s w attrs m) ∧ s' = s) ∨
      ∃ u attrs m p, First (fun w => Owns s w ∧ ∃ attrs m, Offers L c s w attrs m) (v :: vs) u ∧ Offers L c s u attrs m ∧
        L.createProj attrs = .ok p ∧
        s' = { s with proj := some p, deps := match m with | some m => setInsert m s.deps | none => s.deps }) := by
    intro v vs hv h
    rcases h with ⟨h1, h2⟩ | ⟨u, attrs, m, p, ⟨l1, l2, e, h1, h2⟩, h3, h4, h5⟩
    · left
      refine ⟨fun w hw => ?_, h2⟩
      rcases List.mem_cons.1 hw with rfl | hw
      · exact hv
      · exact h1 w hw
    · right
      refine ⟨u, attrs, m, p, ⟨v :: l1, l2, by rw [e]; rfl, h1, fun b hb => ?_⟩, h3, h4, h5⟩
      rcases List.mem_cons.1 hb with rfl | hb
      · rintro ⟨ho, attrs, m, hof⟩
        exact hv ho attrs m hof
      · exact h2 b hb
  induction vs with
  | nil =>
    cases h
    exact Or.inl ⟨fun w hw => (by cases hw), rfl⟩
  | cons v vs ih =>
    unfold setProj at h
    rw [if_neg (by rw [hp]; simp)] at h
    by_cases ho : isCSAndCompleteFor s v.name = true
    · rw [if_pos ho] at h
      have ho' := owns_iff.1 ho
      cases hg : attrText L c v.name "grid_mapping" with
      | some m =>
        rw [hg] at h
        dsimp only at h
        by_cases hm : hasVariable c m = true
        · rw [if_pos hm] at h
          obtain ⟨p, hpc, h⟩ := Res.bind_eq_ok.1 h
          have hof : Offers L c s v (getAttributes c m) (some m) := .mapping hg (hasVariable_iff'.1 hm)
          have e := done _ _ _ (by rfl) h
          exact Or.inr ⟨v, _, _, p, ⟨[], vs, rfl, ⟨ho', _, _, hof⟩, by simp⟩, hof, hpc, e⟩
        · rw [if_neg hm] at h
          refine skip v vs (fun _ attrs m' hof => ?_) (ih h)
          cases hof with
          | mapping h1 h2 =>
            rw [hg] at h1
            cases h1
            exact hm (hasVariable_iff'.2 h2)
          | latLon h1 => rw [hg] at h1; cases h1
      | none =>
        rw [hg] at h
        dsimp only at h
        by_cases hl : isLatLon s = true
        · rw [if_pos hl] at h
          obtain ⟨p, hpc, h⟩ := Res.bind_eq_ok.1 h
          obtain ⟨k1, x, y, k2, k3, k4, k5⟩ := (isLatLon_iff hk hs).1 hl
          have hof : Offers L c s v [⟨"grid_mapping_name", L.latLonValue⟩] none := .latLon hg k1 k2 k3 k4 k5
          have e := done _ _ _ (by rfl) h
          exact Or.inr ⟨v, _, _, p, ⟨[], vs, rfl, ⟨ho', _, _, hof⟩, by simp⟩, hof, hpc, e⟩
        · rw [if_neg hl] at h
          refine skip v vs (fun _ attrs m' hof => ?_) (ih h)
          cases hof with
          | mapping h1 => rw [hg] at h1; cases h1
          | latLon _ k1 k2 k3 k4 k5 => exact hl ((isLatLon_iff hk hs).2 ⟨k1, _, _, k2, k3, k4, k5⟩)
    · rw [if_neg ho] at h
      exact skip v vs (fun ho' => absurd (owns_iff.2 ho') ho) (ih h)

theorem addAxes_consistent (find : String → Option Axis) (coords ns : List String) :
    ∀ cs cs' : CoordSys.CS, Consistent cs → addAxes find coords cs ns = .ok cs' → Consistent cs' := by
  induction ns with
  | nil => intro cs cs' h e; cases e; exact h
  | cons n ns ih =>
    intro cs cs' h e
    unfold addAxes at e
    cases hf : find n with
    | none => rw [hf] at e; exact ih _ _ h e
    | some a =>
      rw [hf] at e
      dsimp only at e
      by_cases hc : a.name ∈ coords
      · rw [if_pos hc] at e
        have hs := step_consistent cs (.auxiliary a) h
        unfold CoordSys.step at hs
        dsimp only at hs
        revert e hs
        generalize setAuxiliaryAxis cs a = r
        obtain ⟨r1, r2⟩ := r
        cases r2 with
        | ok u => intro e hs; exact ih _ _ hs e
        | throws => intro e; cases e
        | ub => intro e; cases e
      · rw [if_neg hc] at e
        have hs := step_consistent cs (.axis a) h
        unfold CoordSys.step at hs
        dsimp only at hs
        revert e hs
        generalize setAxis cs a = r
        obtain ⟨r1, r2⟩ := r
        cases r2 with
        | ok u => intro e hs; exact ih _ _ hs e
        | throws => intro e; cases e
        | ub => intro e; cases e

/-- The phases of a listed system, from the marked system `m`. -/
theorem listed_phases (hnd : (c.vars.map fun v : Var P => v.name).Nodup) {l : List (System Pr)} (h : listCF L c = .ok l) {s : System Pr} (hs : s ∈ l) :
    ∃ m s1 s2, Known L c m ∧ m.proj = none ∧ m.deps = [] ∧ m.vtran = none ∧ m.axes = s.axes ∧ m.isFor = s.isFor ∧ m.complete = s.complete ∧
      setProj L c c.vars (setSimple m) = .ok s1 ∧ setVertical L c s1 = .ok s2 ∧ s = addBounds L c s2 := by
  obtain ⟨m, hf, -, h2, -⟩ := listCF_systems hnd h
  obtain ⟨x, hx, hfin⟩ := forall2_right hf hs
  obtain ⟨-, v, hmade⟩ := h2 x hx
  have hkeep := finished_keeps hnd hfin
  obtain ⟨s1, s2, e1, e2, e3⟩ := hfin
  obtain ⟨r1, r2, r3, r4, r5, r6⟩ := mark_rest (L := L) x.2 hnd
  refine ⟨mark L c x.2, s1, s2, ⟨?_, ?_⟩, ?_, ?_, ?_, ?_, hkeep.2.2.1.symm, hkeep.2.2.2.symm, e1, e2, e3⟩
  · rw [r3]; exact hmade.axes.known
  · rw [r3]
    exact (addAxes_consistent _ _ _ _ _ ⟨by simp [getAxes], by simp⟩ hmade.built).names
  · rw [r5, hmade.rest]
  · rw [r4, hmade.rest]
  · rw [r6, hmade.rest]
  · rw [r3]; exact hkeep.2.1.symm

theorem simpleGrid_congr {s t : System Pr} (h : s.axes = t.axes) : SimpleGrid c s ↔ SimpleGrid c t := by
  unfold SimpleGrid XAxis YAxis AxisOfTypes
  rw [h]

theorem offers_congr {s t : System Pr} (h : s.axes = t.axes) {v : Var P} {attrs : List (Attr V)} {m : Option String} :
    Offers L c s v attrs m ↔ Offers L c t v attrs m := by
  have hx : ∀ a, XAxis s a ↔ XAxis t a := fun a => by unfold XAxis AxisOfTypes; rw [h]
  have hy : ∀ a, YAxis s a ↔ YAxis t a := fun a => by unfold YAxis AxisOfTypes; rw [h]
  constructor
  · intro k
    cases k with
    | mapping h1 h2 => exact .mapping h1 h2
    | latLon h1 h2 h3 h4 h5 h6 => exact .latLon h1 ((simpleGrid_congr h).1 h2) ((hx _).1 h3) h4 ((hy _).1 h5) h6
  · intro k
    cases k with
    | mapping h1 h2 => exact .mapping h1 h2
    | latLon h1 h2 h3 h4 h5 h6 => exact .latLon h1 ((simpleGrid_congr h).2 h2) ((hx _).2 h3) h4 ((hy _).2 h5) h6

theorem first_congr {α : Type} {p q : α → Prop} (h : ∀ a, p a ↔ q a) {l : List α} {a : α} : First p l a ↔ First q l a := by
  unfold First
  simp only [h]

/-- **C96.** A listed system is marked as simple grid exactly when both its horizontal axes are dimensions with values on one dimension. -/
theorem C96_simple (hnd : (c.vars.map fun v : Var P => v.name).Nodup) {l : List (System Pr)} (h : listCF L c = .ok l) :
    ∀ s ∈ l, s.simple = true ↔ SimpleGrid c s := by
  intro s hs
  obtain ⟨m, s1, s2, hk, -, -, -, hax, -, -, e1, e2, rfl⟩ := listed_phases hnd h hs
  have k1 := (setProj_keeps _ e1).2.2.2.2.1
  have k2 := (setVertical_keeps e2).2.2.2.2.1
  rw [show (addBounds L c s2).simple = (setSimple m).simple from k2.trans k1, simple_iff hk]
  exact simpleGrid_congr hax

theorem addBounds_proj (s : System Pr) : (addBounds L c s).proj = s.proj := rfl

/-- **C96.** The projection of a listed system is the one of the first variable, in the order of the dataset, among those it is complete
for, that offers one: by an attribute `grid_mapping` that names a variable, or, without the attribute, by longitude and latitude as axes. -/
theorem C96_projection (hnd : (c.vars.map fun v : Var P => v.name).Nodup) {l : List (System Pr)} (h : listCF L c = .ok l) :
    ∀ s ∈ l,
      (∀ p, s.proj = some p ↔ ∃ v attrs m, MappedBy L c s v ∧ Offers L c s v attrs m ∧ L.createProj attrs = .ok p) ∧
      (s.proj = none ↔ ∀ v ∈ c.vars, Owns s v → ∀ attrs m, ¬ Offers L c s v attrs m) := by
  intro s hs
  obtain ⟨m, s1, s2, hk, hp, -, -, hax, hfor, hcom, e1, e2, rfl⟩ := listed_phases hnd h hs
  have hproj : (addBounds L c s2).proj = s1.proj := (setVertical_keeps e2).2.2.2.2.2
  generalize addBounds L c s2 = s at *
  have hsim : (setSimple m).simple = true ↔ SimpleGrid c (setSimple m) := (simple_iff hk).trans (simpleGrid_congr rfl)
  have howns : ∀ v : Var P, Owns (setSimple m) v ↔ Owns s v := fun v => by
    unfold Owns
    rw [show (setSimple m).isFor = s.isFor from hfor, show (setSimple m).complete = s.complete from hcom]
  have hoff : ∀ (v : Var P) attrs n, Offers L c (setSimple m) v attrs n ↔ Offers L c s v attrs n := fun v attrs n => offers_congr (s := setSimple m) hax
  have hone : ∀ {v : Var P} {a b n k}, Offers L c s v a n → Offers L c s v b k → a = b := by
    intro v a b n k h1 h2
    cases h1 with
    | mapping h1 _ =>
      cases h2 with
      | mapping h2 _ => rw [h1] at h2; cases h2; rfl
      | latLon h2 => rw [h1] at h2; cases h2
    | latLon h1 =>
      cases h2 with
      | mapping h2 _ => rw [h1] at h2; cases h2
      | latLon h2 => rfl
  have huniq : ∀ {v w : Var P}, MappedBy L c s v → MappedBy L c s w → v = w := by
    rintro v w ⟨l1, l2, ea, ha, hb⟩ ⟨m1, m2, eb, hc, hd⟩
    have := List.append_eq_append_iff.1 (ea.symm.trans eb)
    rcases this with ⟨t, rfl, et⟩ | ⟨t, rfl, et⟩
    · cases t with
      | nil => cases et; rfl
      | cons x t => cases et; exact absurd ha (hd _ (by simp))
    · cases t with
      | nil => cases et; rfl
      | cons x t => cases et; exact absurd hc (hb _ (by simp))
  rw [hproj]
  rcases setProj_spec (setSimple m) (hk : Known L c (setSimple m)) hsim hp c.vars e1 with ⟨h1, h2⟩ | ⟨v, attrs, n, p, h1, h2, h3, h4⟩
  · have hno : ∀ v ∈ c.vars, Owns s v → ∀ attrs m, ¬ Offers L c s v attrs m :=
      fun v hv ho attrs n hof => h1 v hv ((howns v).2 ho) attrs n ((hoff v attrs n).2 hof)
    have hn : s1.proj = none := by rw [h2]; exact hp
    rw [hn]
    refine ⟨fun p => ⟨fun h => (by cases h), ?_⟩, ⟨fun _ => hno, fun _ => rfl⟩⟩
    rintro ⟨v, attrs, n, hm, hof, -⟩
    obtain ⟨hmem, ho, -⟩ := first_mem hm
    exact absurd hof (hno v hmem ho attrs n)
  · have hm : MappedBy L c s v :=
      (first_congr fun w => and_congr (howns w) (exists_congr fun a => exists_congr fun n => hoff w a n)).1 h1
    have hof := (hoff _ _ _).1 h2
    have hs1 : s1.proj = some p := by rw [h4]
    rw [hs1]
    refine ⟨fun q => ⟨fun e => ?_, ?_⟩, ⟨fun h => (by cases h), fun h => ?_⟩⟩
    · cases e
      exact ⟨v, attrs, n, hm, hof, h3⟩
    · rintro ⟨w, attrs', n', hm', hof', hc'⟩
      cases huniq hm hm'
      cases hone hof hof'
      rw [h3] at hc'
      cases hc'
      rfl
    · obtain ⟨hmem, ho, -⟩ := first_mem hm
      exact absurd hof (h v hmem ho attrs n)

/-- **C96.** A variable with a grid mapping has the projection of that mapping if all variables with the same axes name the same mapping.
The full property (every variable has the projection of its own mapping) is violated: `C96_other_mapping`. -/
theorem C96_own_mapping_partial (hnd : (c.vars.map fun v : Var P => v.name).Nodup) {l : List (System Pr)} (h : listCF L c = .ok l)
    {s : System Pr} (hs : s ∈ l) (v : Var P) (hv : v ∈ c.vars) (ho : Owns s v) (g : String)
    (hg : attrText L c v.name "grid_mapping" = some g) (hgv : ∃ w ∈ c.vars, w.name = g)
    (hsame : ∀ w ∈ c.vars, Owns s w → attrText L c w.name "grid_mapping" = some g) :
    ∃ p, s.proj = some p ∧ L.createProj (getAttributes c g) = .ok p := by
  obtain ⟨h1, h2⟩ := C96_projection hnd h s hs
  have hsome : s.proj ≠ none := fun hn => h2.1 hn v hv ho _ _ (.mapping hg hgv)
  cases hp : s.proj with
  | none => exact absurd hp hsome
  | some p =>
    refine ⟨p, rfl, ?_⟩
    obtain ⟨w, attrs, m, hm, hof, hc⟩ := (h1 p).1 hp
    obtain ⟨hmem, how, -⟩ := first_mem hm
    have := hsame w hmem how
    cases hof with
    | mapping k1 k2 =>
      rw [this] at k1
      cases k1
      exact hc
    | latLon k1 => rw [this] at k1; cases k1

/-! ## Cases -/

/-- The projection found for a variable, src/CDM.cc:704-710 `getProjectionOf`. -/
def foundProj (r : Res (List (System String))) (v : String) : Option (Bool × Option String) :=
  match r with
  | .ok l => (findComplete l v).map fun s => (s.simple, s.proj)
  | _ => none

/-- Two variables on the same axes with grid mappings `g1` and `g2`. -/
def mapsCdm (g1 g2 : String) : CDM Unit String Unit :=
  toyCdm [("x", 3), ("y", 4)]
    [("x", ["x"], [("axis", "X")]), ("y", ["y"], [("axis", "Y")]),
     ("polar", [], [("grid_mapping_name", "polar_stereographic")]), ("lcc", [], [("grid_mapping_name", "lambert_conformal_conic")]),
     ("T", ["x", "y"], [("grid_mapping", g1)]), ("P", ["x", "y"], [("grid_mapping", g2)])]

example : foundProj (listCF toyLib (mapsCdm "lcc" "lcc")) "P" = some (true, some "lambert_conformal_conic") := by decide +kernel

/-- Longitude and latitude as axes; with two-dimensional longitude and latitude there is no projection. -/
example :
    foundProj (listCF toyLib (toyCdm [("x", 3), ("y", 4)] [("x", ["x"], [("units", "degrees_east")]), ("y", ["y"], [("units", "degrees_north")]),
      ("T", ["x", "y"], [])])) "T" = some (true, some "latitude_longitude") ∧
    foundProj (listCF toyLib (toyCdm [("i", 3), ("j", 4)] [("lon", ["i", "j"], [("units", "degrees_east")]),
      ("lat", ["i", "j"], [("units", "degrees_north")]), ("T", ["i", "j"], [("coordinates", "lon lat")])])) "T" = some (false, none) := by
  decide +kernel

/-- The grid mapping of another variable on the same axes decides: `P` has the mapping `lcc`, and is found to be polar stereographic. -/
theorem C96_other_mapping :
    foundProj (listCF toyLib (mapsCdm "polar" "lcc")) "P" = some (true, some "polar_stereographic") := by decide +kernel

end Fimex.Cf
