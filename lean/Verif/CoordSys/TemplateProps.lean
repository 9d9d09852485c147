import Verif.CoordSys.Template

/-! # C117: the dataset after interpolation to the points of a template -/

namespace Fimex.Template

open Cdm CoordSys Cf Change

variable {V CS Pr T α O P : Type}

/-! ## Specification -/

/-- The grids with other dimensions than `x` and `y`. -/
def others (ps : List (String × String)) : List (String × String) := ps.filter fun p => p ≠ ("x", "y")

/-- What is assumed: names are unique, attributes belong to something, the variables to be interpolated are there and are no axes or coordinates of
the template; grids have no dimension in common, and have the dimensions `x` and `y` in this order or neither of them. -/
structure Setup (ss : List (System Pr)) (m0 : List (String × String)) (c0 : CDM P V CS) (ps : List (String × String)) : Prop where
  plain : Plain c0
  map : (m0.map (·.1)).Nodup
  known : ∀ n k, (n, k) ∈ m0 → ∃ v ∈ c0.vars, v.name = n
  grids : List.Forall₂ (fun s p => GridOf c0 s p) ss ps
  apart : (names2 ps).Nodup
  xy : ∀ p ∈ ps, p = ("x", "y") ∨ ∀ d ∈ [p.1, p.2], d ≠ "x" ∧ d ≠ "y"
  axes : ∀ k, ∀ n ∈ ["x", "y", "longitude", "latitude"], (n, k) ∉ m0

/-- A dimension gets a length, or is made. -/
def withDim (n : String) (len : Nat) (l : List Dim) : List Dim :=
  if l.any fun d => d.name == n then l.map fun d => if d.name = n then { d with length := len } else d else l ++ [⟨n, len, false⟩]

/-- The variable of a coordinate of the template; values keep their type if the variable has the same, and are double otherwise. -/
structure CoordVar (E : Ext V Pr T α) (c0 : CDM (Pay T α O) V CS) (ss : List (System Pr)) (later : List (String × String)) (n : String) (d : T × List α)
    (v : Var (Pay T α O)) : Prop where
  name : v.name = n
  shape : v.shape = ["x", "y"]
  kept : ∀ w ∈ c0.vars, w.name = n → ¬ Gone E.lib c0 ss later n → v.payload.other = w.payload.other ∧
    (w.payload.dtype = d.1 → v.payload.dtype = d.1 ∧ v.payload.data = some d) ∧
    (w.payload.dtype ≠ d.1 → v.payload.dtype = E.double ∧ v.payload.data = some (E.double, E.cast E.double d.2))
  made : ((∀ w ∈ c0.vars, w.name ≠ n) ∨ Gone E.lib c0 ss later n) → v.payload.other = none ∧
    v.payload.dtype = E.double ∧ (E.double = d.1 → v.payload.data = some d) ∧ (E.double ≠ d.1 → v.payload.data = some (E.double, E.cast E.double d.2))

/-- The variables of the new dataset. -/
inductive NewVar (E : Ext V Pr T α) (g : Points T α) (ss : List (System Pr)) (m0 : List (String × String)) (c0 : CDM (Pay T α O) V CS)
    (later : List (String × String)) : Var (Pay T α O) → Prop
  | kept {w v} : w ∈ c0.vars → ¬ Gone E.lib c0 ss later w.name → w.name ∉ ["x", "y", "latitude", "longitude"] → Moved m0 "x" "y" later w v →
      NewVar E g ss m0 c0 later v
  | x {v} : AxisVar E c0 ss later "x" g.x v → NewVar E g ss m0 c0 later v
  | y {v} : AxisVar E c0 ss later "y" g.y v → NewVar E g ss m0 c0 later v
  | lat {v} : CoordVar E c0 ss later "latitude" g.lat v → NewVar E g ss m0 c0 later v
  | lon {v} : CoordVar E c0 ss later "longitude" g.lon v → NewVar E g ss m0 c0 later v

/-- The old attributes of a variable that is not removed. -/
def Kept (L : Lib V Pr) (c0 : CDM P V CS) (ss : List (System Pr)) (later : List (String × String)) (n : String) (l : List (Attr V)) : Prop :=
  (Gone L c0 ss later n → l = []) ∧ (¬ Gone L c0 ss later n → l = getAttributes c0 n)

/-- The dataset on the points of a template. -/
structure NewDataset (E : Ext V Pr T α) (g : Points T α) (ss : List (System Pr)) (m0 : List (String × String)) (c0 : CDM (Pay T α O) V CS)
    (later : List (String × String)) (c' : CDM (Pay T α O) V CS) (m' : List (String × String)) : Prop where
  mapped : ∀ n k, (n, k) ∈ m' ↔ (n, k) ∈ m0 ∧ ¬ Gone E.lib c0 ss later n
  dims : c'.dims = (withDim "y" g.y.values.length (withDim "x" g.x.values.length (c0.dims.filter fun d => !(names2 later).contains d.name))).filter
    fun d => !["longitude", "latitude"].contains d.name
  once : (c'.vars.map fun v : Var (Pay T α O) => v.name).Nodup
  vars : ∀ v, v ∈ c'.vars ↔ NewVar E g ss m0 c0 later v
  interpolated : ∀ n k, (n, k) ∈ m' → getAttributes c' n =
    without ["coordinates", "grid_mapping"] (getAttributes c0 n) ++ [⟨"coordinates", E.value "longitude latitude"⟩]
  other : ∀ n, n ∉ ["x", "y", "latitude", "longitude"] → (∀ k, (n, k) ∉ m0) → ¬ Gone E.lib c0 ss later n → getAttributes c' n = getAttributes c0 n
  x : ∃ l, Kept E.lib c0 ss later "x" l ∧ getAttributes c' "x" = without ["long_name", "axis", "standard_name", "units"] l ++
    [⟨"axis", E.value "x"⟩, ⟨"long_name", E.value "x-coordinate in Cartesian system"⟩, ⟨"standard_name", E.value "projection_x_coordinate"⟩,
      ⟨"units", E.value g.x.unit⟩]
  y : ∃ l, Kept E.lib c0 ss later "y" l ∧ getAttributes c' "y" = without ["long_name", "axis", "standard_name", "units"] l ++
    [⟨"axis", E.value "y"⟩, ⟨"long_name", E.value "y-coordinate in Cartesian system"⟩, ⟨"standard_name", E.value "projection_y_coordinate"⟩,
      ⟨"units", E.value g.y.unit⟩]
  lat : ∃ l, Kept E.lib c0 ss later "latitude" l ∧ getAttributes c' "latitude" = without ["standard_name", "long_name", "units"] l ++
    [⟨"standard_name", E.value "latitude"⟩, ⟨"long_name", E.value "latitude"⟩, ⟨"units", E.value "degree_north"⟩]
  lon : ∃ l, Kept E.lib c0 ss later "longitude" l ∧ getAttributes c' "longitude" = without ["standard_name", "long_name", "units"] l ++
    [⟨"standard_name", E.value "longitude"⟩, ⟨"long_name", E.value "longitude"⟩, ⟨"units", E.value "degree_east"⟩]

/-! ## Loop over the systems -/

variable {c0 c c' : CDM P V CS} {m0 m m' : List (String × String)} {gone lost : String → Bool} {σ : String → String} {L : Lib V Pr}

theorem same_step (h0 : (c0.vars.map fun v : Var P => v.name).Nodup) {s : System Pr} (hr : Rep c0 m0 gone σ lost c m) (hp : GridOf c0 s ("x", "y"))
    (h1 : σ "x" = "x") (h2 : σ "y" = "y") {st' : CDM P V CS × List (String × String)} (h : templateSystem L (c, m) s = .ok st') :
    Rep c0 m0 (fun n => gone n || goneBy L c0 s n) σ lost st'.1 st'.2 := by
  unfold templateSystem at h
  dsimp only at h
  obtain ⟨q, hq, h⟩ := Res.bind_eq_ok.1 h
  have r1 := hr.dropMappings L s
  have e := gridAxes_rep r1 h0 hp h1 h2 hq
  subst e
  obtain ⟨c1, hc, h⟩ := Res.bind_eq_ok.1 h
  unfold renameDims at hc
  rw [if_neg (by simp)] at hc
  cases hc
  unfold dropOld at h
  rw [if_neg (by simp)] at h
  cases h
  refine (r1.dropLonLat s).congr (fun n => ?_) (fun _ => rfl) (fun _ => rfl)
  unfold goneBy
  cases gone n <;> cases (s.proj.isSome && isMapping L c0 n) <;> cases isLonLat s n <;> rfl

theorem other_step (h0 : (c0.vars.map fun v : Var P => v.name).Nodup) (hm0 : (m0.map (·.1)).Nodup) {s : System Pr} {p : String × String}
    (hr : Rep c0 m0 gone σ lost c m) (hp : GridOf c0 s p) (hx : p.1 ≠ "x") (hy : p.2 ≠ "y")
    (h1 : σ p.1 = p.1) (h2 : σ p.2 = p.2) (hl : lost p.1 = false ∧ lost p.2 = false) {st' : CDM P V CS × List (String × String)}
    (h : templateSystem L (c, m) s = .ok st') :
    Rep c0 m0 (fun n => gone n || goneBy L c0 s n || n == p.1 || n == p.2)
      (fun d => (fun d => if d = p.2 then "y" else d) (if σ d = p.1 then "x" else σ d)) (fun n => lost n || n == p.1 || n == p.2) st'.1 st'.2 ∧
    ∀ d, (d = p.1 ∨ d = p.2) → (∃ e ∈ c0.dims, e.name = d) → ∀ v ∈ st'.1.vars, d ∉ v.shape := by
  unfold templateSystem at h
  dsimp only at h
  obtain ⟨q, hq, h⟩ := Res.bind_eq_ok.1 h
  have r1 := hr.dropMappings L s
  have e := gridAxes_rep r1 h0 hp h1 h2 hq
  subst e
  obtain ⟨c1, hc, h⟩ := Res.bind_eq_ok.1 h
  unfold renameDims at hc
  rw [if_pos (.inl hx)] at hc
  have r2 := ((r1.reshape h0 hm0 hc).dropLonLat s)
  have r3 := (r2.drop q.1).drop q.2
  unfold dropOld at h
  rw [if_pos ⟨Ne.symm hx, Ne.symm hy⟩] at h
  dsimp only at h
  obtain ⟨c2, hc2, h⟩ := Res.bind_eq_ok.1 h
  obtain ⟨c3, hc3, h⟩ := Res.bind_eq_ok.1 h
  cases h
  have hd : dropDims q.1 q.2 "x" (drop (drop (dropLonLat s c1 (dropMappings L s c m).2) q.1) q.2).1 = .ok c3 := by
    unfold dropDims
    rw [if_pos hx]
    exact Res.bind_eq_ok.2 ⟨c2, hc2, hc3⟩
  obtain ⟨r4, hu⟩ := r3.dropDims hx hd
  refine ⟨r4.congr (fun n => ?_) (fun _ => rfl) (fun _ => rfl), ?_⟩
  · unfold goneBy
    cases gone n <;> cases (s.proj.isSome && isMapping L c0 n) <;> cases isLonLat s n <;> cases n == q.1 <;> cases n == q.2 <;> rfl
  · intro d hd he v hv
    refine hu d hd he ?_ v ?_
    · rcases hd with rfl | rfl
      · exact hl.1
      · exact hl.2
    · have e1 := r4.vars
      rw [← r3.vars] at e1
      rw [← e1]
      exact hv

theorem names2_others {ps : List (String × String)} {d : String} (h : d ∈ names2 (others ps)) : d ∈ names2 ps := by
  obtain ⟨p, hp, e⟩ := mem_names2.1 h
  exact mem_names2.2 ⟨p, (List.mem_filter.1 hp).1, e⟩

theorem others_off {ps : List (String × String)} (h : ∀ p ∈ ps, p = ("x", "y") ∨ ∀ d ∈ [p.1, p.2], d ≠ "x" ∧ d ≠ "y") :
    "x" ∉ names2 (others ps) ∧ "y" ∉ names2 (others ps) := by
  have main : ∀ d ∈ names2 (others ps), d ≠ "x" ∧ d ≠ "y" := by
    intro d hd
    obtain ⟨p, hp, e⟩ := mem_names2.1 hd
    obtain ⟨hp, hne⟩ := List.mem_filter.1 hp
    exact ((h p hp).resolve_left (by simpa using hne)) d (by simpa using e)
  exact ⟨fun h => (main _ h).1 rfl, fun h => (main _ h).2 rfl⟩

theorem loop_is (h0 : (c0.vars.map fun v : Var P => v.name).Nodup) (hm0 : (m0.map (·.1)).Nodup) :
    ∀ {ss : List (System Pr)} {ps : List (String × String)} (done : List (String × String)) {gone : String → Bool}
      {st st' : CDM P V CS × List (String × String)},
    List.Forall₂ (fun s p => GridOf c0 s p) ss ps → (names2 (done ++ ps)).Nodup →
    (∀ p ∈ done ++ ps, p = ("x", "y") ∨ ∀ d ∈ [p.1, p.2], d ≠ "x" ∧ d ≠ "y") →
    Rep c0 m0 gone (newDim "x" "y" (others done)) (isLater (others done)) st.1 st.2 → templateSystems L ss st = .ok st' →
    ∃ g, (∀ n, g n = (gone n || (ss.any fun s => goneBy L c0 s n) || isLater (others ps) n)) ∧
      Rep c0 m0 g (newDim "x" "y" (others (done ++ ps))) (isLater (others (done ++ ps))) st'.1 st'.2 ∧
      ∀ d ∈ names2 (others ps), (∃ e ∈ c0.dims, e.name = d) → ∀ w ∈ c0.vars, g w.name = false → (∀ k, (w.name, k) ∉ m0) → d ∉ w.shape
  | [], ps, done, gone, st, st', hf, _, _, hr, h => by
    cases hf
    unfold templateSystems at h
    cases h
    refine ⟨gone, fun n => by simp [isLater, others], ?_, ?_⟩
    · rw [List.append_nil]
      exact hr
    · intro d hd
      simp [names2, others] at hd
  | s :: ss, ps, done, gone, st, st', hf, hn, hoff, hr, h => by
    cases hf with
    | cons hp hf =>
      rename_i p ps
      unfold templateSystems at h
      obtain ⟨c, m⟩ := st
      obtain ⟨st1, h1, h⟩ := Res.bind_eq_ok.1 h
      obtain ⟨o1, o2⟩ := others_off (ps := done) fun p hp => hoff p (List.mem_append_left _ hp)
      have hn' : (names2 done ++ p.1 :: p.2 :: names2 ps).Nodup := by simpa [names2] using hn
      have hn2 : (names2 ((done ++ [p]) ++ ps)).Nodup := by simpa [names2] using hn
      have hoff2 : ∀ q ∈ (done ++ [p]) ++ ps, q = ("x", "y") ∨ ∀ d ∈ [q.1, q.2], d ≠ "x" ∧ d ≠ "y" := by simpa using hoff
      have eap : done ++ [p] ++ ps = done ++ p :: ps := by simp
      by_cases hpx : p = ("x", "y")
      · subst hpx
        have e1 : others (done ++ [("x", "y")]) = others done := by simp [others]
        have e2 : others (("x", "y") :: ps) = others ps := by simp [others]
        have i1 := same_step h0 hr hp (newDim_fix o1) (newDim_fix o2) h1
        rw [← e1] at i1
        obtain ⟨g, hg, j1, j2⟩ := loop_is h0 hm0 (done ++ [("x", "y")]) hf hn2 hoff2 i1 h
        rw [eap] at j1
        refine ⟨g, fun n => ?_, j1, ?_⟩
        · rw [hg, e2, List.any_cons, Bool.or_assoc (gone n)]
        · rw [e2]
          exact j2
      · have hpo : ∀ d ∈ [p.1, p.2], d ≠ "x" ∧ d ≠ "y" := (hoff p (by simp)).resolve_left hpx
        have x1 := hpo p.1 (by simp)
        have x2 := hpo p.2 (by simp)
        have d1 : ∀ d ∈ names2 done, d ≠ p.1 ∧ d ≠ p.2 := by
          intro d hd
          have := (List.nodup_append.1 hn').2.2 d hd
          exact ⟨this p.1 (by simp), this p.2 (by simp)⟩
        have d2 : p.1 ≠ p.2 := by
          have := List.nodup_cons.1 (List.nodup_append.1 hn').2.1
          intro e
          exact this.1 (by rw [e]; simp)
        have n1 : p.1 ∉ names2 (others done) := fun hd => (d1 _ (names2_others hd)).1 rfl
        have n2 : p.2 ∉ names2 (others done) := fun hd => (d1 _ (names2_others hd)).2 rfl
        have e1 : others (done ++ [p]) = others done ++ [p] := by simp [others, hpx]
        have e2 : others (p :: ps) = p :: others ps := by simp [others, hpx]
        obtain ⟨i3, i4⟩ := other_step h0 hm0 hr hp x1.1 x2.2 (newDim_fix n1) (newDim_fix n2)
          ⟨by rw [← Bool.not_eq_true, isLater_iff]; exact n1, by rw [← Bool.not_eq_true, isLater_iff]; exact n2⟩ h1
        have i3' := i3.congr (gone' := fun n => gone n || goneBy L c0 s n || n == p.1 || n == p.2) (σ' := newDim "x" "y" (others (done ++ [p])))
          (lost' := isLater (others (done ++ [p]))) (fun _ => rfl)
          (by
            rw [e1]
            exact newDim_step (Ne.symm x1.1) (Ne.symm x2.1) (Ne.symm x1.2) (Ne.symm x2.2) d2
              fun q hq => (d1 q.2 (names2_others (mem_names2.2 ⟨q, hq, .inr rfl⟩))).1)
          (fun n => by rw [e1]; simp [isLater, Bool.or_assoc])
        obtain ⟨g, hg, j3, j4⟩ := loop_is h0 hm0 (done ++ [p]) hf hn2 hoff2 i3' h
        rw [eap] at j3
        refine ⟨g, fun n => ?_, j3, ?_⟩
        · rw [hg, e2]
          simp only [List.any_cons, isLater]
          cases gone n <;> cases goneBy L c0 s n <;> cases n == p.1 <;> cases n == p.2 <;> simp
        · intro d hd he w hw hgw hm
          rw [e2] at hd
          have hd' : (d = p.1 ∨ d = p.2) ∨ d ∈ names2 (others ps) := by simpa [names2, or_assoc] using hd
          rcases hd' with hd' | hd'
          · have hgw' : (gone w.name || goneBy L c0 s w.name || w.name == p.1 || w.name == p.2) = false := by
              rw [hg] at hgw
              simp only [Bool.or_eq_false_iff] at hgw ⊢
              exact hgw.1.1
            have := i4 d hd' he _ (i3.mem.2 ⟨w, hw, hgw', rfl⟩)
            unfold adapt at this
            rw [if_neg] at this
            · exact this
            · intro e
              obtain ⟨q, hq, e⟩ := List.any_eq_true.1 e
              exact hm q.2 (by rw [← (by simpa using e : q.1 = w.name)]; exact hq)
          · exact j4 d hd' he w hw hgw hm

/-! ## Axes and coordinates -/

theorem addDimension_is {d : Dim} (h : after (addDimension c d) = .ok c') : (∀ e ∈ c.dims, e.name ≠ d.name) ∧ Is c' c.vars (c.dims ++ [d]) c.attrs := by
  obtain ⟨b, hb⟩ := after_ok h
  unfold addDimension at hb
  dsimp only at hb
  have hsame : hasDimension { c with coordsInitialized := false } d.name = hasDimension c d.name := rfl
  rw [hsame] at hb
  cases hv : hasDimension c d.name with
  | true => rw [hv] at hb; simp at hb
  | false =>
    rw [hv] at hb
    simp only [Bool.not_false, if_true, Prod.mk.injEq] at hb
    rw [← hb.1]
    refine ⟨fun e he hn => ?_, rfl, rfl, fun _ => rfl⟩
    have : hasDimension c d.name = true := by
      rw [hasDimension_iff]
      exact hn ▸ List.mem_map_of_mem (f := fun d : Dim => d.name) he
    rw [this] at hv
    cases hv

theorem withDim_names {n : String} {len : Nat} {l : List Dim} (h : (l.map fun d : Dim => d.name).Nodup) :
    ((withDim n len l).map fun d : Dim => d.name).Nodup := by
  unfold withDim
  by_cases ha : (l.any fun d => d.name == n) = true
  · rw [if_pos ha, List.map_map, List.map_congr_left (g := fun d : Dim => d.name)]
    · exact h
    · intro d _
      simp only [Function.comp_apply]
      split <;> rfl
  · rw [if_neg ha, List.map_append, List.nodup_append]
    refine ⟨h, by simp, fun a hm b hb e => ha ?_⟩
    obtain ⟨d, hd, rfl⟩ := List.mem_map.1 hm
    simp only [List.map_cons, List.map_nil, List.mem_singleton] at hb
    exact List.any_eq_true.2 ⟨d, hd, by simpa using e.trans hb⟩

section
variable [DecidableEq T] {k k' : CDM (Pay T α O) V CS} {E : Ext V Pr T α}

theorem ensureDim_is (hnd : (k.vars.map fun v : Var (Pay T α O) => v.name).Nodup) (hd : (k.dims.map fun d : Dim => d.name).Nodup) {n : String} {t : T}
    {len : Nat} (h : ensureDim n t len k = .ok k') :
    ∃ w, w.name = n ∧ w.payload.dtype = t ∧ (∀ u ∈ k.vars, u.name = n → w.shape = u.shape ∧ w.payload.other = u.payload.other) ∧
      ((∀ u ∈ k.vars, u.name ≠ n) → w.shape = [n] ∧ w.payload.other = none) ∧ Sets { k with dims := k'.dims } w k' ∧ k'.dims = withDim n len k.dims := by
  unfold ensureDim at h
  by_cases hv : hasVariable k n = true
  · rw [if_neg (by simpa using hv)] at h
    obtain ⟨k1, h1, h⟩ := Res.bind_eq_ok.1 h
    obtain ⟨⟨e, he, hen⟩, i1⟩ := setLength_is hd h1
    obtain ⟨⟨u, hu, hn⟩, hi⟩ := modifyVar_is (by rw [i1.vars]; exact hnd) h
    have S := sets_map (by rw [i1.vars]; exact hnd) (f := setDataType t) (fun v => rfl) hu hn hi
    rw [i1.vars] at hu
    refine ⟨setDataType t u, hn, rfl, fun u' hu' hn' => ?_, fun hno => absurd hn (hno u hu), ⟨fun v => ?_, S.nodup, rfl, fun m => ?_⟩, ?_⟩
    · rw [List.inj_on_of_nodup_map hnd hu' hu (hn'.trans hn.symm)]
      exact ⟨rfl, rfl⟩
    · rw [S.mem, i1.vars]
    · rw [S.attrs, i1.attrs]
    · rw [S.dims, i1.dims]
      unfold withDim
      rw [if_pos (List.any_eq_true.2 ⟨e, he, by simpa using hen⟩)]
  · have hv' : hasVariable k n = false := by simpa using hv
    rw [if_pos (by simpa using hv)] at h
    obtain ⟨k1, h1, h⟩ := Res.bind_eq_ok.1 h
    obtain ⟨f1, i1⟩ := addDimension_is h1
    obtain ⟨-, hs⟩ := addVariable_sets (by rw [i1.vars]; exact hnd) h
    refine ⟨⟨n, [n], ⟨t, none, none⟩⟩, rfl, rfl, fun u hu hn => absurd hn (hasVariable_false.1 hv' u hu), fun _ => ⟨rfl, rfl⟩, ⟨fun v => ?_, hs.nodup, rfl, fun m => ?_⟩, ?_⟩
    · rw [hs.mem, i1.vars]
    · rw [hs.attrs, i1.attrs]
    · rw [hs.dims, i1.dims]
      unfold withDim
      rw [if_neg]
      intro e
      obtain ⟨e, he, hen⟩ := List.any_eq_true.1 e
      exact f1 e he (by simpa using hen)

/-- One axis. -/
theorem templateAxis_is (hnd : (k.vars.map fun v : Var (Pay T α O) => v.name).Nodup) (hd : (k.dims.map fun d : Dim => d.name).Nodup)
    {n ln sn : String} {a : NewAxis T α} (h : templateAxis E n ln sn a k = .ok k') :
    (k'.vars.map fun v : Var (Pay T α O) => v.name).Nodup ∧ k'.dims = withDim n a.values.length k.dims ∧
    (∃ w, w.name = n ∧ w.payload.dtype = a.dtype ∧ w.payload.data = some (a.dtype, E.cast a.dtype a.values) ∧
      (∀ u ∈ k.vars, u.name = n → w.shape = u.shape ∧ w.payload.other = u.payload.other) ∧
      ((∀ u ∈ k.vars, u.name ≠ n) → w.shape = [n] ∧ w.payload.other = none) ∧ ∀ v, v ∈ k'.vars ↔ (v ∈ k.vars ∧ v.name ≠ n) ∨ v = w) ∧
    ∀ m, getAttributes k' m = if m = n then without ["axis", "long_name", "standard_name", "units"] (getAttributes k n) ++
      [⟨"axis", E.value n⟩, ⟨"long_name", E.value ln⟩, ⟨"standard_name", E.value sn⟩, ⟨"units", E.value a.unit⟩] else getAttributes k m := by
  unfold templateAxis at h
  obtain ⟨k1, h1, h⟩ := Res.bind_eq_ok.1 h
  obtain ⟨k2, h2, h⟩ := Res.bind_eq_ok.1 h
  obtain ⟨k3, h3, h⟩ := Res.bind_eq_ok.1 h
  obtain ⟨k4, h4, h⟩ := Res.bind_eq_ok.1 h
  obtain ⟨k5, h5, h6⟩ := Res.bind_eq_ok.1 h
  obtain ⟨w1, n1, t1, s1, o1, S1, d1⟩ := ensureDim_is hnd hd h1
  have I2 := (addOrReplace_is h2).2
  have I3 := (addOrReplace_is h3).2
  have I4 := (addOrReplace_is h4).2
  have I5 := (addOrReplace_is h5).2
  have v5 : k5.vars = k1.vars := I5.vars.trans (I4.vars.trans (I3.vars.trans I2.vars))
  have d5 : k5.dims = k1.dims := I5.dims.trans (I4.dims.trans (I3.dims.trans I2.dims))
  obtain ⟨w6, m6, n6, -, S6⟩ := setVarData_sets (by rw [v5]; exact S1.nodup) h6
  have e6 : w6 = w1 := by
    rw [v5, S1.mem] at m6
    rcases m6 with ⟨-, hne⟩ | rfl
    · exact absurd (n6.trans n1.symm) hne
    · rfl
  subst e6
  have a1 : ∀ m, getAttributes k1 m = getAttributes k m := fun m => by
    rw [S1.ga]
    rfl
  refine ⟨S6.nodup, by rw [S6.dims, d5, d1], ⟨{ w6 with payload := { w6.payload with data := some (a.dtype, E.cast a.dtype a.values) } }, n1, t1, rfl, s1, o1, fun v => ?_⟩, fun m => ?_⟩
  · rw [S6.mem, v5, S1.mem]
    dsimp only
    rw [n1]
    constructor
    · rintro (⟨(h | rfl), h2⟩ | h)
      · exact .inl h
      · exact absurd n1 h2
      · exact .inr h
    · rintro (h | h)
      · exact .inl ⟨.inl h, h.2⟩
      · exact .inr h
  · rw [S6.ga]
    simp only [ga_replace h5, ga_replace h4, ga_replace h3, ga_replace h2, a1]
    by_cases hm : m = n
    · subst hm
      simp only [if_true, without_append, without_without]
      simp [without]
    · simp [hm]

theorem coordData_sets (hnd : (k.vars.map fun v : Var (Pay T α O) => v.name).Nodup) {n : String} {d : T × List α} (h : coordData E n d k = .ok k') :
    ∃ u ∈ k.vars, u.name = n ∧
      ∃ w, w.name = n ∧ w.shape = u.shape ∧ w.payload.other = u.payload.other ∧
        (u.payload.dtype = d.1 → w.payload.dtype = d.1 ∧ w.payload.data = some d) ∧
        (u.payload.dtype ≠ d.1 → w.payload.dtype = E.double ∧ w.payload.data = some (E.double, E.cast E.double d.2)) ∧ Sets k w k' := by
  unfold coordData at h
  obtain ⟨u, hu, h⟩ := Res.bind_eq_ok.1 h
  obtain ⟨hu, hn⟩ := getVariable_some hu
  refine ⟨u, hu, hn, ?_⟩
  by_cases ht : u.payload.dtype = d.1
  · rw [if_pos ht] at h
    obtain ⟨u', hu', hn', -, S⟩ := setVarData_sets hnd h
    have e : u' = u := List.inj_on_of_nodup_map hnd hu' hu (hn'.trans hn.symm)
    subst e
    exact ⟨{ u' with payload := { u'.payload with data := some d } }, hn, rfl, rfl, fun _ => ⟨ht, rfl⟩, fun hne => absurd ht hne, S⟩
  · rw [if_neg ht] at h
    obtain ⟨k1, h1, h⟩ := Res.bind_eq_ok.1 h
    obtain ⟨⟨u', hu', hn'⟩, hi⟩ := modifyVar_is hnd h1
    have e : u' = u := List.inj_on_of_nodup_map hnd hu' hu (hn'.trans hn.symm)
    subst e
    have S1 := sets_map hnd (f := setDataType E.double) (fun v => rfl) hu hn hi
    obtain ⟨u2, hu2, hn2, -, S2⟩ := setVarData_sets S1.nodup h
    have e2 : u2 = setDataType E.double u' := by
      rcases (S1.mem u2).1 hu2 with ⟨-, hne⟩ | e
      · exact absurd (hn2.trans hn.symm) hne
      · exact e
    subst e2
    refine ⟨{ setDataType E.double u' with payload := { (setDataType E.double u').payload with data := some (E.double, E.cast E.double d.2) } },
      hn, rfl, rfl, fun he => absurd he ht, fun _ => ⟨rfl, rfl⟩, ⟨fun v => ?_, S2.nodup, S2.dims.trans S1.dims, fun m => (S2.attrs m).trans (S1.attrs m)⟩⟩
    rw [S2.mem, S1.mem]
    have hnn : (setDataType E.double u').name = u'.name := rfl
    dsimp only
    rw [hnn]
    constructor
    · rintro (⟨(h | rfl), h2⟩ | h)
      · exact .inl h
      · exact absurd rfl h2
      · exact .inr h
    · rintro (h | h)
      · exact .inl ⟨.inl h, h.2⟩
      · exact .inr h

/-- One coordinate. -/
theorem templateCoord_is (hnd : (k.vars.map fun v : Var (Pay T α O) => v.name).Nodup) {n unit : String} {d : T × List α}
    (h : templateCoord E n unit d k = .ok k') :
    (k'.vars.map fun v : Var (Pay T α O) => v.name).Nodup ∧ k'.dims = k.dims ∧
    (∃ w, w.name = n ∧ w.shape = ["x", "y"] ∧
      (∀ u ∈ k.vars, u.name = n → w.payload.other = u.payload.other ∧ (u.payload.dtype = d.1 → w.payload.dtype = d.1 ∧ w.payload.data = some d) ∧
        (u.payload.dtype ≠ d.1 → w.payload.dtype = E.double ∧ w.payload.data = some (E.double, E.cast E.double d.2))) ∧
      ((∀ u ∈ k.vars, u.name ≠ n) → w.payload.other = none ∧ w.payload.dtype = E.double ∧ (E.double = d.1 → w.payload.data = some d) ∧
        (E.double ≠ d.1 → w.payload.data = some (E.double, E.cast E.double d.2))) ∧ ∀ v, v ∈ k'.vars ↔ (v ∈ k.vars ∧ v.name ≠ n) ∨ v = w) ∧
    ∀ m, getAttributes k' m = if m = n then without ["standard_name", "long_name", "units"] (getAttributes k n) ++
      [⟨"standard_name", E.value n⟩, ⟨"long_name", E.value n⟩, ⟨"units", E.value unit⟩] else getAttributes k m := by
  unfold templateCoord addWithData at h
  obtain ⟨k5, h, h6⟩ := Res.bind_eq_ok.1 h
  obtain ⟨k1, h1, h⟩ := Res.bind_eq_ok.1 h
  obtain ⟨k2, h2, h⟩ := Res.bind_eq_ok.1 h
  obtain ⟨k3, h3, h⟩ := Res.bind_eq_ok.1 h
  obtain ⟨k4, h4, h5⟩ := Res.bind_eq_ok.1 h
  -- the variable is there
  have start : ∃ u, u.name = n ∧ ((u ∈ k.vars) ∨ ((∀ v ∈ k.vars, v.name ≠ n) ∧ u = ⟨n, ["x", "y"], ⟨E.double, none, none⟩⟩)) ∧ Sets k u k1 := by
    unfold ensureCoord at h1
    by_cases hv : hasVariable k n = true
    · rw [if_neg (by simpa using hv)] at h1
      cases h1
      obtain ⟨u, hu, hn⟩ := hasVariable_true.1 hv
      refine ⟨u, hn, .inl hu, fun v => ⟨fun h => ?_, fun h => ?_⟩, hnd, rfl, fun _ => rfl⟩
      · by_cases e : v.name = u.name
        · exact .inr (List.inj_on_of_nodup_map hnd h hu e)
        · exact .inl ⟨h, e⟩
      · rcases h with h | rfl
        · exact h.1
        · exact hu
    · rw [if_pos (by simpa using hv)] at h1
      obtain ⟨f, S⟩ := addVariable_sets hnd h1
      exact ⟨_, rfl, .inr ⟨f, rfl⟩, S⟩
  obtain ⟨u, un, uk, S1⟩ := start
  have I2 := (addOrReplace_is h2).2
  have I3 := (addOrReplace_is h3).2
  have v3 : k3.vars = k1.vars := I3.vars.trans I2.vars
  have n3 : (k3.vars.map fun v : Var (Pay T α O) => v.name).Nodup := by rw [v3]; exact S1.nodup
  obtain ⟨-, i4⟩ := modifyVar_is n3 h4
  have hu3 : u ∈ k3.vars := by rw [v3]; exact (S1.mem u).2 (.inr rfl)
  have S4 := sets_map n3 (f := fun v : Var (Pay T α O) => { v with shape := ["x", "y"] }) (fun v => rfl) hu3 un i4
  obtain ⟨u5, hu5, hn5, w, wn, ws, wo, w1, w2, S5⟩ := coordData_sets S4.nodup h5
  have e5 : u5 = { u with shape := ["x", "y"] } := by
    rcases (S4.mem u5).1 hu5 with ⟨-, hne⟩ | e
    · exact absurd (hn5.trans un.symm) hne
    · exact e
  subst e5
  have I6 := (addOrReplace_is h6).2
  refine ⟨by rw [I6.vars]; exact S5.nodup, ?_, ⟨w, wn, ws, fun v hv hvn => ?_, fun hno => ?_, fun v => ?_⟩, fun m => ?_⟩
  · rw [I6.dims, S5.dims, S4.dims, I3.dims, I2.dims, S1.dims]
  · rcases uk with uk | ⟨uk, -⟩
    · have e : v = u := List.inj_on_of_nodup_map hnd hv uk (hvn.trans un.symm)
      subst e
      exact ⟨wo, w1, w2⟩
    · exact absurd hvn (uk v hv)
  · rcases uk with uk | ⟨-, rfl⟩
    · exact absurd un (hno u uk)
    · refine ⟨wo, ?_, fun e => (w1 e).2, fun e => (w2 e).2⟩
      by_cases e : E.double = d.1
      · rw [(w1 e).1, e]
      · exact (w2 e).1
  · rw [I6.vars, S5.mem, S4.mem, v3, S1.mem]
    dsimp only
    rw [wn, un]
    constructor
    · rintro (⟨(⟨(h | rfl), h2⟩ | rfl), h3⟩ | h)
      · exact .inl h
      · exact absurd un h2
      · exact absurd rfl h3
      · exact .inr h
    · rintro (h | h)
      · exact .inl ⟨.inl ⟨.inl h, h.2⟩, h.2⟩
      · exact .inr h
  · have a5 : ∀ m, getAttributes k5 m = getAttributes k3 m := fun m => (S5.ga m).trans (S4.ga m)
    simp only [ga_replace h6, a5, ga_replace h3, ga_replace h2, S1.ga]
    by_cases hm : m = n
    · subst hm
      simp only [if_true, without_append, without_without]
      simp [without]
    · simp [hm]

end

theorem describeAll_is {E : Ext V Pr T α} : ∀ {m : List (String × String)} {c c' : CDM P V CS}, (m.map (·.1)).Nodup → describeAll E m c = .ok c' →
    c'.vars = c.vars ∧ c'.dims = c.dims ∧ (∀ n, (∀ k, (n, k) ∉ m) → getAttributes c' n = getAttributes c n) ∧
    ∀ n k, (n, k) ∈ m → getAttributes c' n =
      without ["coordinates", "grid_mapping"] (getAttributes c n) ++ [⟨"coordinates", E.value "longitude latitude"⟩]
  | [], c, c', _, h => by
    unfold describeAll at h
    cases h
    exact ⟨rfl, rfl, fun _ _ => rfl, fun n k hk => by simp at hk⟩
  | p :: m, c, c', hm, h => by
    have hmc := List.nodup_cons.1 hm
    unfold describeAll at h
    obtain ⟨c1, h1, h⟩ := Res.bind_eq_ok.1 h
    have I1 := (addOrReplace_is h1).2
    obtain ⟨i1, i2, i3, i4⟩ := describeAll_is hmc.2 h
    have ga : ∀ n, getAttributes (removeAttribute c1 p.1 "grid_mapping") n = if n = p.1 then
        without ["coordinates", "grid_mapping"] (getAttributes c p.1) ++ [⟨"coordinates", E.value "longitude latitude"⟩] else getAttributes c n := by
      intro n
      rw [ga_remove]
      simp only [ga_replace h1]
      by_cases hn : n = p.1
      · simp only [hn, if_true, without_append, without_without]
        simp [without]
      · simp [hn]
    refine ⟨i1.trans I1.vars, i2.trans I1.dims, fun n hn => ?_, fun n k hk => ?_⟩
    · rw [i3 n fun k hk => hn k (List.mem_cons_of_mem _ hk), ga, if_neg]
      rintro rfl
      exact hn p.2 (by simp)
    · rcases List.mem_cons.1 hk with hk | hk
      · have en : n = p.1 := by rw [← hk]
        subst en
        rw [i3 p.1 fun k' hk' => hmc.1 (List.mem_map.2 ⟨_, hk', rfl⟩), ga, if_pos rfl]
      · have hn : n ≠ p.1 := by
          rintro rfl
          exact hmc.1 (List.mem_map.2 ⟨_, hk, rfl⟩)
        rw [i4 n k hk, ga, if_neg hn]

/-! ## Result -/

theorem moved_iff {later : List (String × String)} {w v : Var P} : Moved m0 "x" "y" later w v ↔ v = adapt m0 (newDim "x" "y" later) w := by
  have key : (m0.any fun p => p.1 == w.name) = true ↔ ∃ k, (w.name, k) ∈ m0 := by
    rw [List.any_eq_true]
    constructor
    · rintro ⟨⟨a, b⟩, hp, e⟩
      have e : a = w.name := by simpa using e
      subst e
      exact ⟨b, hp⟩
    · rintro ⟨k, hk⟩
      exact ⟨_, hk, by simp⟩
  have hw : Moved m0 "x" "y" later w (adapt m0 (newDim "x" "y" later) w) := by
    unfold adapt
    by_cases hc : (m0.any fun p => p.1 == w.name) = true
    · rw [if_pos hc]
      exact ⟨rfl, rfl, fun _ => rfl, fun hno => absurd (key.1 hc) (fun ⟨k, hk⟩ => hno k hk)⟩
    · rw [if_neg hc]
      exact ⟨rfl, rfl, fun hyes => absurd (key.2 hyes) hc, fun _ => rfl⟩
  constructor
  · intro hv
    obtain ⟨n1, s1, p1⟩ := v
    have e1 : n1 = w.name := hv.name
    have e2 : p1 = w.payload := hv.payload
    have e3 : s1 = (adapt m0 (newDim "x" "y" later) w).shape := by
      by_cases hk : ∃ k, (w.name, k) ∈ m0
      · exact (hv.interpolated hk).trans (hw.interpolated hk).symm
      · push Not at hk
        exact (hv.other hk).trans (hw.other hk).symm
    rw [e1, e2, e3, ← hw.name, ← hw.payload]
  · rintro rfl
    exact hw

theorem axisVar_unique {E : Ext V Pr T α} {d0 : CDM (Pay T α O) V CS} {ss : List (System Pr)} {later : List (String × String)} {n : String} {a : NewAxis T α}
    {v w : Var (Pay T α O)} (hv : AxisVar E d0 ss later n a v) (hw : AxisVar E d0 ss later n a w) : v = w := by
  have : v.shape = w.shape ∧ v.payload.other = w.payload.other := by
    by_cases hk : (∀ w ∈ d0.vars, w.name ≠ n) ∨ Gone E.lib d0 ss later n
    · have a1 := hv.made hk
      have a2 := hw.made hk
      exact ⟨a1.1.trans a2.1.symm, a1.2.trans a2.2.symm⟩
    · push Not at hk
      obtain ⟨⟨u, hu, hn⟩, hg⟩ := hk
      have a1 := hv.kept u hu hn hg
      have a2 := hw.kept u hu hn hg
      exact ⟨a1.1.trans a2.1.symm, a1.2.trans a2.2.symm⟩
  obtain ⟨n1, s1, ⟨t1, d1, o1⟩⟩ := v
  obtain ⟨n2, s2, ⟨t2, d2, o2⟩⟩ := w
  have b1 := hv.name.trans hw.name.symm
  have b2 := hv.dtype.trans hw.dtype.symm
  have b3 := hv.data.trans hw.data.symm
  dsimp only at b1 b2 b3 this
  obtain ⟨b4, b5⟩ := this
  subst b1 b2 b3 b4 b5
  rfl

theorem coordVar_unique {E : Ext V Pr T α} {d0 : CDM (Pay T α O) V CS} {ss : List (System Pr)} {later : List (String × String)} {n : String}
    {d : T × List α} {v w : Var (Pay T α O)} (hv : CoordVar E d0 ss later n d v) (hw : CoordVar E d0 ss later n d w) : v = w := by
  have : v.payload.dtype = w.payload.dtype ∧ v.payload.data = w.payload.data ∧ v.payload.other = w.payload.other := by
    by_cases hk : (∀ w ∈ d0.vars, w.name ≠ n) ∨ Gone E.lib d0 ss later n
    · have a1 := hv.made hk
      have a2 := hw.made hk
      refine ⟨a1.2.1.trans a2.2.1.symm, ?_, a1.1.trans a2.1.symm⟩
      by_cases e : E.double = d.1
      · exact (a1.2.2.1 e).trans (a2.2.2.1 e).symm
      · exact (a1.2.2.2 e).trans (a2.2.2.2 e).symm
    · push Not at hk
      obtain ⟨⟨u, hu, hn⟩, hg⟩ := hk
      have a1 := hv.kept u hu hn hg
      have a2 := hw.kept u hu hn hg
      by_cases e : u.payload.dtype = d.1
      · exact ⟨(a1.2.1 e).1.trans (a2.2.1 e).1.symm, (a1.2.1 e).2.trans (a2.2.1 e).2.symm, a1.1.trans a2.1.symm⟩
      · exact ⟨(a1.2.2 e).1.trans (a2.2.2 e).1.symm, (a1.2.2 e).2.trans (a2.2.2 e).2.symm, a1.1.trans a2.1.symm⟩
  obtain ⟨n1, s1, ⟨t1, d1, o1⟩⟩ := v
  obtain ⟨n2, s2, ⟨t2, d2, o2⟩⟩ := w
  have b1 := hv.name.trans hw.name.symm
  have b2 := hv.shape.trans hw.shape.symm
  dsimp only at b1 b2 this
  obtain ⟨b3, b4, b5⟩ := this
  subst b1 b2 b3 b4 b5
  rfl

section
variable [DecidableEq T] {E : Ext V Pr T α} {g : Points T α} {ss : List (System Pr)} {d0 d' : CDM (Pay T α O) V CS} {ps : List (String × String)}

/-- **C117.** If the horizontal grids of a dataset have no dimension in common, and have the dimensions `x` and `y` or neither of them, the dataset on the
points of a template has the dimensions of the old one but those of the grids, and `x` and `y` with the lengths of the axes of the template; the
variables of the old one but those that describe the old grids, those to be interpolated on `x` and `y`; the axes, longitudes and latitudes of the
template; and the attributes that say so.  Variables that are left use none of the removed dimensions. -/
theorem C117_new_dataset (hs : Setup ss m0 d0 ps) {systems : List (String × System Pr)} (he : systems.map (·.2) = ss)
    (h : changeToTemplate E g systems m0 d0 = .ok (d', m')) :
    projectionName g.projString = .ok "latlong" ∧ NewDataset E g ss m0 d0 (others ps) d' m' ∧
    (∀ n, n = "longitude" ∨ n = "latitude" → (∃ d ∈ d0.dims, d.name = n ∧ n ∉ names2 (others ps)) → ∀ v ∈ d'.vars, n ∉ v.shape) ∧
    ∀ n ∈ names2 (others ps), (∃ d ∈ d0.dims, d.name = n) → ∀ w ∈ d0.vars, ¬ Gone E.lib d0 ss (others ps) w.name → (∀ k, (w.name, k) ∉ m0) → n ∉ w.shape := by
  subst he
  unfold changeToTemplate at h
  obtain ⟨np, hnp, h⟩ := Res.bind_eq_ok.1 h
  by_cases hll : np ≠ "latlong"
  · rw [if_pos hll] at h
    cases h
  rw [if_neg hll] at h
  have hll : np = "latlong" := not_not.1 hll
  subst hll
  obtain ⟨⟨k0, mm⟩, hst, h⟩ := Res.bind_eq_ok.1 h
  obtain ⟨k7, hg, h⟩ := Res.bind_eq_ok.1 h
  cases h
  obtain ⟨hx, hy⟩ := others_off hs.xy
  obtain ⟨gn, hgn, hr, huse⟩ := loop_is (L := E.lib) hs.plain.vars hs.map [] (st := (d0, m0)) hs.grids (by simpa using hs.apart) (by simpa using hs.xy)
    ((rep_start d0 m0).congr (fun _ => rfl) (σ' := newDim "x" "y" (others [])) (lost' := isLater (others [])) (fun _ => rfl) (fun _ => rfl)) hst
  simp only [List.nil_append] at hr
  dsimp only at hr hg
  have hgone : ∀ n, gn n = true ↔ Gone E.lib d0 (systems.map (·.2)) (others ps) n := fun n => by rw [hgn, Bool.false_or]; exact gone_iff
  have hgone' : ∀ n, gn n = false ↔ ¬ Gone E.lib d0 (systems.map (·.2)) (others ps) n := fun n => by rw [← hgone, Bool.not_eq_true]
  -- the state after the loop
  have hnd := hr.nodup hs.plain.vars
  have hdims : (k0.dims.map fun d : Dim => d.name).Nodup := by
    rw [hr.dims]
    exact hs.plain.dims.sublist (List.filter_sublist.map _)
  have hmap : (mm.map (·.1)).Nodup := by
    rw [hr.mapped]
    exact hs.map.sublist (List.filter_sublist.map _)
  have hga : ∀ n, ¬ Gone E.lib d0 (systems.map (·.2)) (others ps) n → getAttributes k0 n = getAttributes d0 n := by
    intro n hn
    refine ga_eq ?_
    rw [hr.attrs, (hgone' n).2 hn]
    rfl
  have hga0 : ∀ n, Gone E.lib d0 (systems.map (·.2)) (others ps) n → getAttributes k0 n = [] := by
    intro n hn
    unfold getAttributes
    rw [hr.attrs, (hgone n).2 hn]
    rfl
  have hkeep : ∀ n, Kept E.lib d0 (systems.map (·.2)) (others ps) n (getAttributes k0 n) := fun n => ⟨hga0 n, hga n⟩
  have hmapped : ∀ n k, (n, k) ∈ mm ↔ (n, k) ∈ m0 ∧ ¬ Gone E.lib d0 (systems.map (·.2)) (others ps) n := by
    intro n k
    rw [hr.mapped, List.mem_filter, ← hgone']
    simp
  have hfree : ∀ n ∈ ["x", "y", "longitude", "latitude"], ∀ k, (n, k) ∉ mm := fun n hn k hk => hs.axes k n hn ((hmapped n k).1 hk).1
  -- the steps
  unfold newPoints at hg
  obtain ⟨k1, h1, hg⟩ := Res.bind_eq_ok.1 hg
  obtain ⟨k2, h2, hg⟩ := Res.bind_eq_ok.1 hg
  obtain ⟨k3, h3, hg⟩ := Res.bind_eq_ok.1 hg
  obtain ⟨k4, h4, hg⟩ := Res.bind_eq_ok.1 hg
  obtain ⟨k5, h5, hg⟩ := Res.bind_eq_ok.1 hg
  obtain ⟨k6, h6, h7⟩ := Res.bind_eq_ok.1 hg
  obtain ⟨n1, e1, ⟨wx, x1, x2, x3, x4, x5, x6⟩, a1⟩ := templateAxis_is (k := removeAttribute (removeAttribute k0 "x" "long_name") "y" "long_name") hnd hdims h1
  have hd1 : (k1.dims.map fun d : Dim => d.name).Nodup := by rw [e1]; exact withDim_names hdims
  obtain ⟨n2, e2, ⟨wy, y1, y2, y3, y4, y5, y6⟩, a2⟩ := templateAxis_is n1 hd1 h2
  obtain ⟨n3, e3, ⟨wa, l1, l2, l3, l4, l5⟩, a3⟩ := templateCoord_is n2 h3
  obtain ⟨n4, e4, ⟨wo, o1, o2, o3, o4, o5⟩, a4⟩ := templateCoord_is n3 h4
  obtain ⟨f1, f2, f3, f4⟩ := describeAll_is hmap h5
  obtain ⟨u6, i6⟩ := removeDimension_is h6
  obtain ⟨u7, i7⟩ := removeDimension_is h7
  have hshape : ∀ n, (∀ k, (n, k) ∉ m0) → ∀ w : Var (Pay T α O), w.name = n → (adapt m0 (newDim "x" "y" (others ps)) w).shape = w.shape ∧
      (adapt m0 (newDim "x" "y" (others ps)) w).payload = w.payload := by
    rintro n hn w rfl
    have := moved_iff.2 (rfl : adapt m0 (newDim "x" "y" (others ps)) w = _)
    exact ⟨this.other hn, this.payload⟩
  -- variables before that have the names of the template
  have hold : ∀ n w, w ∈ d0.vars → w.name = n → (∀ k, (n, k) ∉ m0) → ¬ Gone E.lib d0 (systems.map (·.2)) (others ps) n →
      ∃ u ∈ k0.vars, u.name = n ∧ u.shape = w.shape ∧ u.payload = w.payload := by
    intro n w hw hwn hk hg
    exact ⟨_, hr.mem.2 ⟨w, hw, (hgone' _).2 (hwn ▸ hg), rfl⟩, (adapt_name _ _ _).trans hwn, hshape n hk w hwn⟩
  have hnone : ∀ n, ((∀ w ∈ d0.vars, w.name ≠ n) ∨ Gone E.lib d0 (systems.map (·.2)) (others ps) n) → ∀ u ∈ k0.vars, u.name ≠ n := by
    intro n hno u hu hun
    obtain ⟨w, hw, hg, rfl⟩ := hr.mem.1 hu
    rw [adapt_name] at hun
    rcases hno with hno | hno
    · exact hno w hw hun
    · exact (hgone' _).1 hg (hun ▸ hno)
  have ax := fun k => hs.axes k "x" (by simp)
  have ay := fun k => hs.axes k "y" (by simp)
  have alo := fun k => hs.axes k "longitude" (by simp)
  have ala := fun k => hs.axes k "latitude" (by simp)
  have v0 : (removeAttribute (removeAttribute k0 "x" "long_name") "y" "long_name").vars = k0.vars := rfl
  have m1 : ∀ u : Var (Pay T α O), u.name ≠ "x" → (u ∈ k1.vars ↔ u ∈ k0.vars) := by
    intro u hu
    rw [x6, v0]
    exact ⟨fun h => h.elim (·.1) (fun e => absurd (e ▸ x1) hu), fun h => .inl ⟨h, hu⟩⟩
  have m2 : ∀ u : Var (Pay T α O), u.name ≠ "x" → u.name ≠ "y" → (u ∈ k2.vars ↔ u ∈ k0.vars) := by
    intro u hu hu'
    rw [y6, m1 u hu]
    exact ⟨fun h => h.elim (·.1) (fun e => absurd (e ▸ y1) hu'), fun h => .inl ⟨h, hu'⟩⟩
  have m3 : ∀ u : Var (Pay T α O), u.name ≠ "x" → u.name ≠ "y" → u.name ≠ "latitude" → (u ∈ k3.vars ↔ u ∈ k0.vars) := by
    intro u hu hu' hu''
    rw [l5, m2 u hu hu']
    exact ⟨fun h => h.elim (·.1) (fun e => absurd (e ▸ l1) hu''), fun h => .inl ⟨h, hu''⟩⟩
  have X : AxisVar E d0 (systems.map (·.2)) (others ps) "x" g.x wx := by
    refine ⟨x1, x2, x3, fun w hw hwn hg => ?_, fun hno => x5 (hnone _ hno)⟩
    obtain ⟨u, hu, hun, hs1, hs2⟩ := hold "x" w hw hwn ax hg
    rw [← hs1, ← hs2]
    exact x4 u hu hun
  have Y : AxisVar E d0 (systems.map (·.2)) (others ps) "y" g.y wy := by
    refine ⟨y1, y2, y3, fun w hw hwn hg => ?_, fun hno => y5 fun u hu hun => hnone _ hno u ((m1 u (by rw [hun]; decide)).1 hu) hun⟩
    obtain ⟨u, hu, hun, hs1, hs2⟩ := hold "y" w hw hwn ay hg
    rw [← hs1, ← hs2]
    exact y4 u ((m1 u (by rw [hun]; decide)).2 hu) hun
  have A : CoordVar E d0 (systems.map (·.2)) (others ps) "latitude" g.lat wa := by
    refine ⟨l1, l2, fun w hw hwn hg => ?_, fun hno => l4 fun u hu hun => hnone _ hno u ((m2 u (by rw [hun]; decide) (by rw [hun]; decide)).1 hu) hun⟩
    obtain ⟨u, hu, hun, -, hs2⟩ := hold "latitude" w hw hwn ala hg
    rw [← hs2]
    exact l3 u ((m2 u (by rw [hun]; decide) (by rw [hun]; decide)).2 hu) hun
  have B : CoordVar E d0 (systems.map (·.2)) (others ps) "longitude" g.lon wo := by
    refine ⟨o1, o2, fun w hw hwn hg => ?_,
      fun hno => o4 fun u hu hun => hnone _ hno u ((m3 u (by rw [hun]; decide) (by rw [hun]; decide) (by rw [hun]; decide)).1 hu) hun⟩
    obtain ⟨u, hu, hun, -, hs2⟩ := hold "longitude" w hw hwn alo hg
    rw [← hs2]
    exact o3 u ((m3 u (by rw [hun]; decide) (by rw [hun]; decide) (by rw [hun]; decide)).2 hu) hun
  have vf : d'.vars = k4.vars := i7.vars.trans (i6.vars.trans f1)
  have af : ∀ n, getAttributes d' n = getAttributes k5 n := fun n => (ga_eq (i7.attrs n)).trans (ga_eq (i6.attrs n))
  have a0 : ∀ n, getAttributes (removeAttribute (removeAttribute k0 "x" "long_name") "y" "long_name") n =
      if n = "y" then without ["long_name"] (getAttributes k0 "y") else if n = "x" then without ["long_name"] (getAttributes k0 "x") else getAttributes k0 n := by
    intro n
    simp only [ga_remove]
    simp
  refine ⟨hnp, ⟨hmapped, ?_, ?_, fun v => ?_, ?_, ?_, ?_, ?_, ?_, ?_⟩, ?_, ?_⟩
  · rw [i7.dims, i6.dims, f2, e4, e3, e2, e1, List.filter_filter]
    have : (removeAttribute (removeAttribute k0 "x" "long_name") "y" "long_name").dims = d0.dims.filter fun d => !(names2 (others ps)).contains d.name := by
      show k0.dims = _
      rw [hr.dims]
      refine List.filter_congr fun d _ => ?_
      congr 1
      rw [Bool.eq_iff_iff, isLater_iff]
      simp
    rw [this]
    refine List.filter_congr fun d _ => ?_
    by_cases q1 : d.name = "longitude" <;> by_cases q2 : d.name = "latitude" <;> simp [q1, q2]
  · rw [vf]
    exact n4
  · rw [vf, o5, l5, y6, x6, v0, hr.mem]
    constructor
    · rintro (⟨(⟨(⟨(⟨⟨w, hw, hwg, rfl⟩, q1⟩ | rfl), q2⟩ | rfl), q3⟩ | rfl), q4⟩ | rfl)
      · rw [adapt_name] at q1 q2 q3 q4
        exact .kept hw ((hgone' _).1 hwg) (by simp [q1, q2, q3, q4]) (moved_iff.2 rfl)
      · exact .x X
      · exact .y Y
      · exact .lat A
      · exact .lon B
    · intro hv
      cases hv with
      | @kept w v hw hwg hn hm =>
        rw [moved_iff] at hm
        subst hm
        have hn' : w.name ≠ "x" ∧ w.name ≠ "y" ∧ w.name ≠ "latitude" ∧ w.name ≠ "longitude" := by simpa using hn
        rw [adapt_name]
        exact .inl ⟨.inl ⟨.inl ⟨.inl ⟨⟨w, hw, (hgone' _).2 hwg, rfl⟩, hn'.1⟩, hn'.2.1⟩, hn'.2.2.1⟩, hn'.2.2.2⟩
      | x a =>
        rw [axisVar_unique a X, x1]
        exact .inl ⟨.inl ⟨.inl ⟨.inr rfl, by decide⟩, by decide⟩, by decide⟩
      | y a =>
        rw [axisVar_unique a Y, y1]
        exact .inl ⟨.inl ⟨.inr rfl, by decide⟩, by decide⟩
      | lat a =>
        rw [coordVar_unique a A, l1]
        exact .inl ⟨.inr rfl, by decide⟩
      | lon a => exact .inr (coordVar_unique a B)
  · intro n k hk
    have hne : ∀ q ∈ ["x", "y", "longitude", "latitude"], n ≠ q := by
      rintro q hq rfl
      exact hfree n hq k hk
    have q1 := hne "x" (by simp)
    have q2 := hne "y" (by simp)
    have q3 := hne "longitude" (by simp)
    have q4 := hne "latitude" (by simp)
    rw [af, f4 n k hk, a4, if_neg q3, a3, if_neg q4, a2, if_neg q2, a1, if_neg q1, a0, if_neg q2, if_neg q1, hga n ((hmapped n k).1 hk).2]
  · intro n hn hk hg
    have hn' : n ≠ "x" ∧ n ≠ "y" ∧ n ≠ "latitude" ∧ n ≠ "longitude" := by simpa using hn
    rw [af, f3 n (fun k hk' => hk k ((hmapped n k).1 hk').1), a4, if_neg hn'.2.2.2, a3, if_neg hn'.2.2.1, a2, if_neg hn'.2.1, a1, if_neg hn'.1, a0,
      if_neg hn'.2.1, if_neg hn'.1, hga n hg]
  · refine ⟨_, hkeep "x", ?_⟩
    rw [af, f3 "x" (hfree _ (by simp)), a4, if_neg (by decide), a3, if_neg (by decide), a2, if_neg (by decide), a1, if_pos rfl, a0, if_neg (by decide),
      if_pos rfl, without_without]
    congr 1
    unfold without
    refine List.filter_congr fun d _ => ?_
    by_cases q1 : d.name = "long_name" <;> by_cases q2 : d.name = "axis" <;> simp [q1, q2]
  · refine ⟨_, hkeep "y", ?_⟩
    rw [af, f3 "y" (hfree _ (by simp)), a4, if_neg (by decide), a3, if_neg (by decide), a2, if_pos rfl, a1, if_neg (by decide), a0, if_pos rfl,
      without_without]
    congr 1
    unfold without
    refine List.filter_congr fun d _ => ?_
    by_cases q1 : d.name = "long_name" <;> by_cases q2 : d.name = "axis" <;> simp [q1, q2]
  · refine ⟨_, hkeep "latitude", ?_⟩
    rw [af, f3 "latitude" (hfree _ (by simp)), a4, if_neg (by decide), a3, if_pos rfl, a2, if_neg (by decide), a1, if_neg (by decide), a0, if_neg (by decide),
      if_neg (by decide)]
  · refine ⟨_, hkeep "longitude", ?_⟩
    rw [af, f3 "longitude" (hfree _ (by simp)), a4, if_pos rfl, a3, if_neg (by decide), a2, if_neg (by decide), a1, if_neg (by decide), a0, if_neg (by decide),
      if_neg (by decide)]
  · rintro n hn ⟨d, hd, hdn, hl⟩ v hv
    have hd4 : ∃ d ∈ k4.dims, d.name = n := by
      have step : ∀ (q : String) (len : Nat) (l : List Dim), (∃ d ∈ l, d.name = n) → ∃ d ∈ withDim q len l, d.name = n := by
        rintro q len l ⟨d, hd, hdn⟩
        unfold withDim
        split
        · refine ⟨_, List.mem_map_of_mem hd, ?_⟩
          split <;> exact hdn
        · exact ⟨d, List.mem_append_left _ hd, hdn⟩
      rw [e4, e3, e2, e1]
      refine step _ _ _ (step _ _ _ ⟨d, ?_, hdn⟩)
      show d ∈ k0.dims
      rw [hr.dims, List.mem_filter]
      refine ⟨hd, ?_⟩
      rw [Bool.not_eq_true', ← Bool.not_eq_true, isLater_iff, hdn]
      exact hl
    rw [vf] at hv
    rcases hn with rfl | rfl
    · exact u6 (by rw [f2]; exact hd4) v (by rw [f1]; exact hv)
    · refine u7 ?_ v (by rw [i6.vars, f1]; exact hv)
      obtain ⟨d, hd, hdn⟩ := hd4
      refine ⟨d, ?_, hdn⟩
      rw [i6.dims, f2, List.mem_filter]
      exact ⟨hd, by rw [hdn]; decide⟩
  · intro n hn hd w hw hg hk
    exact huse n hn hd w hw ((hgone' _).2 hg) hk

theorem withDim_has {n q : String} {len : Nat} {l : List Dim} (h : q = n ∨ ∃ d ∈ l, d.name = q) : ∃ d ∈ withDim n len l, d.name = q := by
  unfold withDim
  by_cases ha : (l.any fun d => d.name == n) = true
  · rw [if_pos ha]
    have : ∃ d ∈ l, d.name = q := by
      rcases h with rfl | h
      · obtain ⟨d, hd, e⟩ := List.any_eq_true.1 ha
        exact ⟨d, hd, by simpa using e⟩
      · exact h
    obtain ⟨d, hd, e⟩ := this
    refine ⟨_, List.mem_map_of_mem hd, ?_⟩
    split <;> exact e
  · rw [if_neg ha]
    rcases h with rfl | ⟨d, hd, e⟩
    · exact ⟨_, List.mem_append_right _ (List.mem_singleton.2 rfl), rfl⟩
    · exact ⟨d, List.mem_append_left _ hd, e⟩

/-- **C117.** If all dimensions of variables exist, this is so in the new dataset. -/
theorem C117_dimensions_exist (hs : Setup ss m0 d0 ps) {systems : List (String × System Pr)} (he : systems.map (·.2) = ss)
    (h : changeToTemplate E g systems m0 d0 = .ok (d', m')) (hd : ∀ v ∈ d0.vars, ∀ d ∈ v.shape, ∃ e ∈ d0.dims, e.name = d) :
    ∀ v ∈ d'.vars, ∀ d ∈ v.shape, ∃ e ∈ d'.dims, e.name = d := by
  obtain ⟨-, hn, hll, huse⟩ := C117_new_dataset hs he h
  have hxy : ∀ q, q = "x" ∨ q = "y" → ∃ e ∈ d'.dims, e.name = q := by
    intro q hq
    obtain ⟨e, he, hq'⟩ := withDim_has (n := "y") (q := q) (len := g.y.values.length)
      (l := withDim "x" g.x.values.length (d0.dims.filter fun d => !(names2 (others ps)).contains d.name))
      (hq.symm.imp id fun hq => withDim_has (.inl hq))
    refine ⟨e, ?_, hq'⟩
    rw [hn.dims, List.mem_filter]
    refine ⟨he, ?_⟩
    rw [hq']
    rcases hq with rfl | rfl <;> decide
  have hold : ∀ v ∈ d'.vars, ∀ q ∈ v.shape, (∃ e ∈ d0.dims, e.name = q) → q ∉ names2 (others ps) → ∃ e ∈ d'.dims, e.name = q := by
    rintro v hv q hq ⟨e, he, rfl⟩ hl
    have hno : ¬ (e.name = "longitude" ∨ e.name = "latitude") := fun hc => hll e.name hc ⟨e, he, rfl, hl⟩ v hv hq
    obtain ⟨e', he', hq'⟩ := withDim_has (n := "y") (q := e.name) (len := g.y.values.length)
      (l := withDim "x" g.x.values.length (d0.dims.filter fun d => !(names2 (others ps)).contains d.name))
      (.inr (withDim_has (.inr ⟨e, List.mem_filter.2 ⟨he, by simpa using hl⟩, rfl⟩)))
    refine ⟨e', ?_, hq'⟩
    rw [hn.dims, List.mem_filter]
    refine ⟨he', ?_⟩
    rw [hq']
    push Not at hno
    simp [hno.1, hno.2]
  have axis : ∀ n (a : NewAxis T α) (v : Var (Pay T α O)), (n = "x" ∨ n = "y") → v ∈ d'.vars → AxisVar E d0 ss (others ps) n a v →
      ∀ d ∈ v.shape, ∃ e ∈ d'.dims, e.name = d := by
    intro n a v hxn hv ha q hq
    have hk : ∀ k, (n, k) ∉ m0 := fun k => hs.axes k n (by rcases hxn with rfl | rfl <;> simp)
    by_cases hex : (∀ w ∈ d0.vars, w.name ≠ n) ∨ Gone E.lib d0 ss (others ps) n
    · rw [(ha.made hex).1, List.mem_singleton] at hq
      subst hq
      exact hxy _ hxn
    · push Not at hex
      obtain ⟨⟨w, hw, hwn⟩, hg⟩ := hex
      have hq' := hq
      rw [(ha.kept w hw hwn hg).1] at hq'
      exact hold v hv q hq (hd w hw q hq') fun hl => huse q hl (hd w hw q hq') w hw (hwn ▸ hg) (hwn ▸ hk) hq'
  intro v hv q hq
  cases (hn.vars v).1 hv with
  | @kept w v hw hg _ hm =>
    by_cases hk : ∃ k, (w.name, k) ∈ m0
    · have hq' := hq
      rw [hm.interpolated hk, List.mem_map] at hq'
      obtain ⟨e, he, hq'⟩ := hq'
      rcases newDim_cases "x" "y" (others ps) e with ⟨-, hc⟩ | ⟨h1, h2⟩
      · rw [hq'] at hc
        exact hxy q hc
      · have : e = q := h2.symm.trans hq'
        subst this
        exact hold v hv e hq (hd w hw e he) h1
    · push Not at hk
      have hq' := hq
      rw [hm.other hk] at hq'
      exact hold v hv q hq (hd w hw q hq') fun hl => huse q hl (hd w hw q hq') w hw hg hk hq'
  | x a => exact axis _ _ v (.inl rfl) hv a q hq
  | y a => exact axis _ _ v (.inr rfl) hv a q hq
  | lat a =>
    rw [a.shape] at hq
    exact hxy q (by simpa using hq)
  | lon a =>
    rw [a.shape] at hq
    exact hxy q (by simpa using hq)

/-- **C117.** Templates in other coordinates than longitude and latitude are refused. -/
theorem C117_refused {systems : List (String × System Pr)} {p : String} (h : projectionName g.projString = .ok p) (hp : p ≠ "latlong") :
    changeToTemplate E g systems m0 d0 = .throws := by
  unfold changeToTemplate
  rw [h]
  show (if p ≠ "latlong" then Res.throws else _) = _
  rw [if_pos hp]

end

/-! ## Cases -/

def points : Points Bool Nat := ⟨"+proj=latlong", ⟨[0, 1, 2], "1", true⟩, ⟨[0], "1", true⟩, (true, [10, 11, 12]), (false, [60, 61, 62])⟩

/-- The change of a dataset to three points. -/
def toPoints (c : CDM (Pay Bool Nat Unit) String Unit) : Res View :=
  match listCF toyLib c with
  | .ok l => match prepare true l c c with
    | .ok r => view (changeToTemplate toyExt points r.1.systems r.1.mapped r.2)
    | .throws => .throws
    | .ub => .ub
  | _ => .ub

/-- Attributes of the axes and coordinates. -/
def axesAttrs : List (String × String × String) :=
  [("x", "axis", "x"), ("x", "long_name", "x-coordinate in Cartesian system"), ("x", "standard_name", "projection_x_coordinate"), ("x", "units", "1"),
   ("y", "axis", "y"), ("y", "long_name", "y-coordinate in Cartesian system"), ("y", "standard_name", "projection_y_coordinate"), ("y", "units", "1")]

def coordAttrs : List (String × String × String) :=
  [("latitude", "standard_name", "latitude"), ("latitude", "long_name", "latitude"), ("latitude", "units", "degree_north"),
   ("longitude", "standard_name", "longitude"), ("longitude", "long_name", "longitude"), ("longitude", "units", "degree_east")]

/-- Two grids, one of them on `x` and `y`. -/
example : toPoints twoGrids = .ok
    { dims := [("x", 3), ("y", 1), ("time", 2)]
      vars := [("x", ["x"], true), ("y", ["y"], true), ("T", ["x", "y", "time"], false), ("U", ["x", "y", "time"], false), ("time", ["time"], false),
        ("latitude", ["x", "y"], true), ("longitude", ["x", "y"], true)]
      attrs := axesAttrs ++ [("T", "coordinates", "longitude latitude"), ("U", "coordinates", "longitude latitude")] ++ coordAttrs
      mapped := ["T", "U"] } := by decide +kernel

/-- They are as assumed. -/
example (ss : List (System String)) (h : List.Forall₂ (fun s p => GridOf twoGrids s p) ss [("x", "y"), ("xs", "ys")]) :
    Setup ss [("T", "x,y"), ("U", "xs,ys")] twoGrids [("x", "y"), ("xs", "ys")] where
  plain := dataset_plain (by decide +kernel) (by decide +kernel) (by decide +kernel)
  map := by decide +kernel
  known n k h := by
    have : n = "T" ∨ n = "U" := by
      simp at h
      rcases h with h | h
      · exact .inl h.1
      · exact .inr h.1
    rcases this with rfl | rfl
    · exact ⟨⟨"T", ["x", "y", "time"], ⟨true, none, none⟩⟩, by decide +kernel, rfl⟩
    · exact ⟨⟨"U", ["xs", "ys", "time"], ⟨true, none, none⟩⟩, by decide +kernel, rfl⟩
  grids := h
  apart := by decide +kernel
  xy := by decide +kernel
  axes k n hn := by
    simp at hn
    rcases hn with rfl | rfl | rfl | rfl <;> simp

/-- A grid of longitudes and latitudes: the names are used for the coordinates of the points, the dimensions are gone. -/
example : toPoints (dataset [("longitude", 5), ("latitude", 6)] [("longitude", ["longitude"], [("units", "degrees_east")]),
    ("latitude", ["latitude"], [("units", "degrees_north")]), ("T", ["longitude", "latitude"], [])]) = .ok
    { dims := [("x", 3), ("y", 1)]
      vars := [("T", ["x", "y"], false), ("x", ["x"], true), ("y", ["y"], true), ("latitude", ["x", "y"], true), ("longitude", ["x", "y"], true)]
      attrs := [("T", "coordinates", "longitude latitude")] ++ axesAttrs ++ coordAttrs
      mapped := ["T"] } := by decide +kernel

/-- A grid whose axes are called the other way round cannot be changed. -/
theorem C117_names_exchanged : toPoints (dataset [("y", 5), ("x", 6)] [("y", ["y"], [("axis", "X")]), ("x", ["x"], [("axis", "Y")]),
    ("lcc", [], [("grid_mapping_name", "lcc")]), ("T", ["y", "x"], [("grid_mapping", "lcc")])]) = .throws := by decide +kernel

/-- If only one of the axes has the name of an axis of the template, the other one and its dimension stay. -/
theorem C117_axis_left : ∃ r, toPoints (dataset [("x", 5), ("yc", 6)] [("x", ["x"], [("axis", "X")]), ("yc", ["yc"], [("axis", "Y")]),
    ("lcc", [], [("grid_mapping_name", "lcc")]), ("T", ["x", "yc"], [("grid_mapping", "lcc")])]) = .ok r ∧
    r.dims = [("x", 3), ("yc", 6), ("y", 1)] ∧ ("yc", ["yc"], false) ∈ r.vars ∧ ("T", ["x", "y"], false) ∈ r.vars := by
  refine ⟨⟨[("x", 3), ("yc", 6), ("y", 1)],
    [("x", ["x"], true), ("yc", ["yc"], false), ("T", ["x", "y"], false), ("y", ["y"], true), ("latitude", ["x", "y"], true), ("longitude", ["x", "y"], true)],
    axesAttrs.take 4 ++ [("yc", "axis", "Y"), ("T", "coordinates", "longitude latitude")] ++ axesAttrs.drop 4 ++ coordAttrs, ["T"]⟩, ?_⟩
  decide +kernel

/-- A dimension `x` without variable, that has nothing to do with the grid: the change fails. -/
theorem C117_dimension_exists : toPoints (dataset [("x", 4), ("xc", 5), ("yc", 6)] [("xc", ["xc"], [("axis", "X")]), ("yc", ["yc"], [("axis", "Y")]),
    ("lcc", [], [("grid_mapping_name", "lcc")]), ("T", ["xc", "yc"], [("grid_mapping", "lcc")]), ("S", ["x"], [])]) = .throws := by decide +kernel

/-- With a variable, the dimension is taken over: variables on it that have nothing to do with the grid have another length than their data. -/
theorem C117_dimension_taken : ∃ r, toPoints (dataset [("x", 4), ("xc", 5), ("yc", 6)] [("x", ["x"], []), ("xc", ["xc"], [("axis", "X")]),
    ("yc", ["yc"], [("axis", "Y")]), ("lcc", [], [("grid_mapping_name", "lcc")]), ("T", ["xc", "yc"], [("grid_mapping", "lcc")]), ("S", ["x"], [])]) = .ok r ∧
    r.dims = [("x", 3), ("y", 1)] ∧ ("S", ["x"], false) ∈ r.vars ∧ r.mapped = ["T"] := by
  refine ⟨⟨[("x", 3), ("y", 1)],
    [("x", ["x"], true), ("T", ["x", "y"], false), ("S", ["x"], false), ("y", ["y"], true), ("latitude", ["x", "y"], true), ("longitude", ["x", "y"], true)],
    axesAttrs.take 4 ++ [("T", "coordinates", "longitude latitude")] ++ axesAttrs.drop 4 ++ coordAttrs, ["T"]⟩, ?_⟩
  decide +kernel

end Fimex.Template
