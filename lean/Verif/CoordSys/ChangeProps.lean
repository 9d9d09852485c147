import Verif.CoordSys.ChangeLemmas
import Mathlib.Data.List.Infix

/-!
# C100: the dataset after a change of the grid
-/

namespace Fimex.Change

open Cdm CoordSys Cf

variable {V CS Pr T α O P : Type}

/-! ## Specification -/

/-- The axis to the east is a longitude on two dimensions. -/
def TwoDimLon (c : CDM P V CS) (s : System Pr) (ax : Axis) (x y : String) : Prop :=
  (∃ b, TypeAxis s .lon b ∧ b.name = ax.name) ∧ ∃ v ∈ c.vars, v.name = ax.name ∧ v.shape = [x, y]

/-- The dimensions of the horizontal grid of a system. -/
def GridOf (c : CDM P V CS) (s : System Pr) (p : String × String) : Prop :=
  ∃ ax ay, XAxis s ax ∧ YAxis s ay ∧ (TwoDimLon c s ax p.1 p.2 ∨ ((∀ x y, ¬ TwoDimLon c s ax x y) ∧ p = (ax.name, ay.name)))

/-- The name of a dimension after the change: those of the first grid stand for those of the others. -/
def newDim (x y : String) (later : List (String × String)) (d : String) : String :=
  if later.any fun p => p.1 == d then x else if later.any fun p => p.2 == d then y else d

/-- All names of dimensions of grids. -/
def names2 (ps : List (String × String)) : List String := ps.flatMap fun p => [p.1, p.2]

/-- A variable that says it has the parameters of a projection. -/
def MappingVar (L : Lib V Pr) (c : CDM P V CS) (n : String) : Prop :=
  (∃ v ∈ c.vars, v.name = n) ∧ ∃ t, attrText L c n "grid_mapping_name" = some t ∧ ∀ ch ∈ t.toList, ch ≠ '\n' ∧ ch ≠ '\r'

/-- The variables that are removed: parameters of old projections, axes of all grids but the first, longitudes and latitudes. -/
def Gone (L : Lib V Pr) (c : CDM P V CS) (ss : List (System Pr)) (later : List (String × String)) (n : String) : Prop :=
  (∃ s ∈ ss, s.proj ≠ none ∧ MappingVar L c n) ∨ (∃ p ∈ later, n = p.1 ∨ n = p.2) ∨
    ∃ s ∈ ss, ∃ a b, TypeAxis s .lat a ∧ TypeAxis s .lon b ∧ (n = a.name ∨ n = b.name)

/-- Names of the variables that are made for a new projection. -/
structure Extra where
  projection : String
  lon : String
  lat : String

/-- A variable of the dataset before and after the change. -/
structure Moved (m0 : List (String × String)) (x y : String) (later : List (String × String)) (w v : Var P) : Prop where
  name : v.name = w.name
  payload : v.payload = w.payload
  interpolated : (∃ k, (w.name, k) ∈ m0) → v.shape = w.shape.map (newDim x y later)
  other : (∀ k, (w.name, k) ∉ m0) → v.shape = w.shape

/-- The variable of a new axis: the old one with new values, or a new one. -/
structure AxisVar (E : Ext V Pr T α) (c0 : CDM (Pay T α O) V CS) (ss : List (System Pr)) (later : List (String × String)) (n : String) (a : NewAxis T α)
    (v : Var (Pay T α O)) : Prop where
  name : v.name = n
  dtype : v.payload.dtype = a.dtype
  data : v.payload.data = some (a.dtype, E.cast a.dtype a.values)
  kept : ∀ w ∈ c0.vars, w.name = n → ¬ Gone E.lib c0 ss later n → v.shape = w.shape ∧ v.payload.other = w.payload.other
  made : ((∀ w ∈ c0.vars, w.name ≠ n) ∨ Gone E.lib c0 ss later n) → v.shape = [n] ∧ v.payload.other = none

/-- The variables of the new dataset. -/
inductive NewVar (E : Ext V Pr T α) (g : Target T α) (ss : List (System Pr)) (m0 : List (String × String)) (c0 : CDM (Pay T α O) V CS) (x y : String)
    (later : List (String × String)) (extra : Option Extra) : Var (Pay T α O) → Prop
  | kept {w v} : w ∈ c0.vars → ¬ Gone E.lib c0 ss later w.name → w.name ≠ x → w.name ≠ y → Moved m0 x y later w v → NewVar E g ss m0 c0 x y later extra v
  | x {v} : AxisVar E c0 ss later x g.x v → NewVar E g ss m0 c0 x y later extra v
  | y {v} : AxisVar E c0 ss later y g.y v → NewVar E g ss m0 c0 x y later extra v
  | projection {e} : extra = some e → NewVar E g ss m0 c0 x y later extra ⟨e.projection, [], ⟨E.int, some (E.int, []), none⟩⟩
  | lon {e ps p lons lats} : extra = some e → E.parameters g.projString = .ok ps → E.lib.createProj ps = .ok p →
      E.lonLat p (E.cast g.x.dtype g.x.values) (E.cast g.y.dtype g.y.values) = .ok (lons, lats) →
      NewVar E g ss m0 c0 x y later extra ⟨e.lon, [x, y], ⟨E.double, some (E.double, lons), none⟩⟩
  | lat {e ps p lons lats} : extra = some e → E.parameters g.projString = .ok ps → E.lib.createProj ps = .ok p →
      E.lonLat p (E.cast g.x.dtype g.x.values) (E.cast g.y.dtype g.y.values) = .ok (lons, lats) →
      NewVar E g ss m0 c0 x y later extra ⟨e.lat, [x, y], ⟨E.double, some (E.double, lats), none⟩⟩

/-- The attributes but those with some names. -/
def without (ns : List String) (l : List (Attr V)) : List (Attr V) := l.filter fun a => !ns.contains a.name

/-- A dimension of the new dataset. -/
def newLength (x y : String) (nx ny : Nat) (d : Dim) : Dim :=
  if d.name = x then { d with length := nx } else if d.name = y then { d with length := ny } else d

/-- Standard names and units of the new axes. -/
inductive Titles (newProj projection ux uy : String) : String → String → String → String → Prop
  | lonLat {ux' uy'} : newProj = "latlong" → (ux = "degree" → ux' = "degrees_east") → (ux ≠ "degree" → ux' = ux) → (uy = "degree" → uy' = "degrees_north") →
      (uy ≠ "degree" → uy' = uy) → Titles newProj projection ux uy "longitude" "latitude" ux' uy'
  | rotated : newProj ≠ "latlong" → projection = "projection_rotated_latitude_longitude" → Titles newProj projection ux uy "grid_longitude" "grid_latitude" ux uy
  | other : newProj ≠ "latlong" → projection ≠ "projection_rotated_latitude_longitude" →
      Titles newProj projection ux uy "projection_x_coordinate" "projection_y_coordinate" ux uy

/-- The value of the attribute `Conventions` for given global attributes. -/
inductive Conventions (E : Ext V Pr T α) (l : List (Attr V)) : V → Prop
  | kept {a} : First (fun a : Attr V => a.name = "Conventions") l a → (∃ p q, E.lib.text a.value = p ++ "CF-" ++ q) → Conventions E l a.value
  | more {a} : First (fun a : Attr V => a.name = "Conventions") l a → (¬ ∃ p q, E.lib.text a.value = p ++ "CF-" ++ q) →
      Conventions E l (E.value (E.lib.text a.value ++ " CF-1.4"))
  | made : (∀ a ∈ l, a.name ≠ "Conventions") → Conventions E l (E.value "CF-1.4")

/-- The dataset after the change. -/
structure NewDataset (E : Ext V Pr T α) (g : Target T α) (newProj : String) (ss : List (System Pr)) (m0 : List (String × String))
    (c0 : CDM (Pay T α O) V CS) (x y : String) (later : List (String × String)) (extra : Option Extra) (c' : CDM (Pay T α O) V CS)
    (m' : List (String × String)) : Prop where
  kind : extra = none ↔ newProj = "latlong"
  mapped : ∀ n k, (n, k) ∈ m' ↔ (n, k) ∈ m0 ∧ ¬ Gone E.lib c0 ss later n
  hasDims : (∃ d ∈ c0.dims, d.name = x) ∧ ∃ d ∈ c0.dims, d.name = y
  dims : c'.dims = (c0.dims.filter fun d => !(names2 later).contains d.name).map (newLength x y g.x.values.length g.y.values.length)
  once : (c'.vars.map fun v : Var (Pay T α O) => v.name).Nodup
  vars : ∀ v, v ∈ c'.vars ↔ NewVar E g ss m0 c0 x y later extra v
  interpolated : ∀ n k, (n, k) ∈ m' → getAttributes c' n = without ["coordinates", "grid_mapping"] (getAttributes c0 n) ++
    match extra with
    | none => []
    | some e => [⟨"coordinates", E.value (e.lon ++ " " ++ e.lat)⟩, ⟨"grid_mapping", E.value e.projection⟩]
  other : ∀ w ∈ c0.vars, ¬ Gone E.lib c0 ss later w.name → w.name ≠ x → w.name ≠ y → (∀ k, (w.name, k) ∉ m0) →
    getAttributes c' w.name = getAttributes c0 w.name
  titles : ∃ nx ny ux uy, Titles newProj ((extra.map (·.projection)).getD "") g.x.unit g.y.unit nx ny ux uy ∧
    (¬ Gone E.lib c0 ss later x → getAttributes c' x = without ["long_name", "standard_name", "units"] (getAttributes c0 x) ++
      [⟨"standard_name", E.value nx⟩, ⟨"units", E.value ux⟩]) ∧
    (Gone E.lib c0 ss later x → getAttributes c' x = [⟨"standard_name", E.value nx⟩, ⟨"units", E.value ux⟩]) ∧
    (¬ Gone E.lib c0 ss later y → getAttributes c' y = without ["long_name", "standard_name", "units"] (getAttributes c0 y) ++
      [⟨"standard_name", E.value ny⟩, ⟨"units", E.value uy⟩]) ∧
    (Gone E.lib c0 ss later y → getAttributes c' y = [⟨"standard_name", E.value ny⟩, ⟨"units", E.value uy⟩])
  projection : ∀ e, extra = some e → E.parameters g.projString = .ok (getAttributes c' e.projection)
  lon : ∀ e, extra = some e → e.lon ≠ globalNS → getAttributes c' e.lon =
    [⟨"units", E.value "degree_east"⟩, ⟨"long_name", E.value "longitude"⟩, ⟨"standard_name", E.value "longitude"⟩]
  lat : ∀ e, extra = some e → e.lat ≠ globalNS → getAttributes c' e.lat =
    [⟨"units", E.value "degree_north"⟩, ⟨"long_name", E.value "latitude"⟩, ⟨"standard_name", E.value "latitude"⟩]
  globals : ¬ Gone E.lib c0 ss later globalNS → (∀ e, extra = some e → e.lon ≠ globalNS ∧ e.lat ≠ globalNS) →
    ∃ v, Conventions E (getAttributes c0 globalNS) v ∧
      getAttributes c' globalNS = without ["Conventions", "MAP_PROJ"] (getAttributes c0 globalNS) ++ [⟨"Conventions", v⟩]

/-- What is assumed: names are unique, attributes belong to something, the variables to be interpolated are there and are not the axes of the grid,
and no two grids have a dimension in common. -/
structure Setup (ss : List (System Pr)) (m0 : List (String × String)) (c0 : CDM P V CS) (x y : String) (later : List (String × String)) : Prop where
  vars : (c0.vars.map fun v : Var P => v.name).Nodup
  dims : (c0.dims.map fun d : Dim => d.name).Nodup
  owned : ∀ n, c0.attrs n ≠ none → n = globalNS ∨ ∃ v ∈ c0.vars, v.name = n
  global : ∀ v ∈ c0.vars, v.name ≠ globalNS
  map : (m0.map (·.1)).Nodup
  known : ∀ n k, (n, k) ∈ m0 → ∃ v ∈ c0.vars, v.name = n
  grids : List.Forall₂ (fun s p => GridOf c0 s p) ss ((x, y) :: later)
  apart : (names2 ((x, y) :: later)).Nodup
  named : x ≠ "" ∧ x ≠ globalNS ∧ y ≠ globalNS
  axes : ∀ k, (x, k) ∉ m0 ∧ (y, k) ∉ m0
  free : ∀ r, x ≠ "projection_" ++ r ∧ y ≠ "projection_" ++ r

/-! ## Loop over the systems -/

variable {c0 c c' : CDM P V CS} {m0 m m' : List (String × String)} {gone lost : String → Bool} {σ : String → String} {L : Lib V Pr}

theorem gridAxes_rep (h : Rep c0 m0 gone σ lost c m) (h0 : (c0.vars.map fun v : Var P => v.name).Nodup) {s : System Pr} {p q : String × String}
    (hp : GridOf c0 s p) (h1 : σ p.1 = p.1) (h2 : σ p.2 = p.2) (hg : gridAxes c s = .ok q) : q = p := by
  obtain ⟨ax, ay, hx, hy, hp⟩ := hp
  unfold gridAxes at hg
  rw [geoX_iff.2 hx, geoY_iff.2 hy] at hg
  dsimp only at hg
  have hlon : (hasAxisType s .lon && (findAxisOfType s.axes .lon).map (·.name) == some ax.name) = true ↔ ∃ b, TypeAxis s .lon b ∧ b.name = ax.name := by
    rw [hasAxisType_eq]
    cases hf : findAxisOfType s.axes .lon with
    | none =>
      simp only [Option.isSome_none, Bool.false_and, Bool.false_eq_true, false_iff]
      rintro ⟨b, hb, -⟩
      rw [typeAxis_iff.2 hb] at hf
      cases hf
    | some b =>
      simp only [Option.isSome_some, Bool.true_and, Option.map_some, beq_iff_eq, Option.some.injEq]
      constructor
      · exact fun e => ⟨b, typeAxis_iff.1 hf, e⟩
      · rintro ⟨b', hb, e⟩
        rw [TypeAxis.unique (typeAxis_iff.1 hf) hb]
        exact e
  by_cases hl : ∃ b, TypeAxis s .lon b ∧ b.name = ax.name
  · rw [if_pos (hlon.2 hl)] at hg
    obtain ⟨v, hv, hq⟩ := Res.bind_eq_ok.1 hg
    obtain ⟨hv, hn⟩ := getVariable_some hv
    obtain ⟨w, hw, -, rfl⟩ := h.mem.1 hv
    rw [adapt_name] at hn
    rcases hp with ⟨-, w', hw', hn', hs⟩ | ⟨hno, rfl⟩
    · have e : w' = w := List.inj_on_of_nodup_map h0 hw' hw (hn'.trans hn.symm)
      subst e
      have e : (adapt m0 σ w').shape = [p.1, p.2] := by
        unfold adapt
        split
        · simp [hs, h1, h2]
        · exact hs
      rw [e] at hq
      cases hq
      rfl
    · have hlen : (adapt m0 σ w).shape.length ≠ 2 := by
        rw [adapt_length]
        intro e
        obtain ⟨x, y, e⟩ := List.length_eq_two.1 e
        exact hno x y ⟨hl, w, hw, hn, e⟩
      split at hq
      · rename_i a b e
        rw [e] at hlen
        exact absurd rfl hlen
      · cases hq
        rfl
  · rw [if_neg (fun e => hl (hlon.1 e))] at hg
    cases hg
    rcases hp with ⟨hl', -⟩ | ⟨-, rfl⟩
    · exact absurd hl' hl
    · rfl

/-- What a system removes, besides its own axes. -/
def goneBy (L : Lib V Pr) (c0 : CDM P V CS) (s : System Pr) (n : String) : Bool := (s.proj.isSome && isMapping L c0 n) || isLonLat s n

theorem first_step {st : St P V CS} {s : System Pr} {p : String × String} (hx : (⟨c0, m0, "", ""⟩ : St P V CS) = st)
    (h0 : (c0.vars.map fun v : Var P => v.name).Nodup) (hp : GridOf c0 s p) {st' : St P V CS} (h : changeSystem L st s = .ok st') :
    st'.x = p.1 ∧ st'.y = p.2 ∧ Rep c0 m0 (goneBy L c0 s) id (fun _ => false) st'.cdm st'.mapped := by
  subst hx
  unfold changeSystem at h
  dsimp only at h
  obtain ⟨q, hq, h⟩ := Res.bind_eq_ok.1 h
  have r1 := (rep_start c0 m0).dropMappings L s
  have e := gridAxes_rep r1 h0 hp rfl rfl hq
  subst e
  obtain ⟨st1, h1, h⟩ := Res.bind_eq_ok.1 h
  unfold unify at h1
  rw [if_pos rfl] at h1
  cases h1
  obtain ⟨c1, h1, h⟩ := Res.bind_eq_ok.1 h
  unfold dropDims at h1
  rw [if_neg (fun h => h rfl)] at h1
  cases h1
  cases h
  refine ⟨rfl, rfl, (r1.dropLonLat s).congr (fun n => ?_) (fun _ => rfl) (fun _ => rfl)⟩
  rw [Bool.false_or]
  rfl

theorem later_step {st st' : St P V CS} {s : System Pr} {p : String × String} (hx : st.x ≠ "") (hr : Rep c0 m0 gone σ lost st.cdm st.mapped)
    (h0 : (c0.vars.map fun v : Var P => v.name).Nodup) (hm0 : (m0.map (·.1)).Nodup) (hp : GridOf c0 s p) (hpx : p.1 ≠ st.x)
    (h1 : σ p.1 = p.1) (h2 : σ p.2 = p.2) (hl : lost p.1 = false ∧ lost p.2 = false) (h : changeSystem L st s = .ok st') :
    st'.x = st.x ∧ st'.y = st.y ∧
    Rep c0 m0 (fun n => gone n || goneBy L c0 s n || n == p.1 || n == p.2)
      (fun d => (fun d => if d = p.2 then st.y else d) (if σ d = p.1 then st.x else σ d)) (fun n => lost n || n == p.1 || n == p.2) st'.cdm st'.mapped ∧
    ∀ d, (d = p.1 ∨ d = p.2) → (∃ e ∈ c0.dims, e.name = d) → ∀ v ∈ st'.cdm.vars, d ∉ v.shape := by
  unfold changeSystem at h
  dsimp only at h
  obtain ⟨q, hq, h⟩ := Res.bind_eq_ok.1 h
  have r1 := hr.dropMappings L s
  have e := gridAxes_rep r1 h0 hp h1 h2 hq
  subst e
  obtain ⟨st1, hu, h⟩ := Res.bind_eq_ok.1 h
  unfold unify at hu
  rw [if_neg hx] at hu
  dsimp only at hu
  obtain ⟨c1, hc1, hu⟩ := Res.bind_eq_ok.1 hu
  cases hu
  have r2 := r1.reshape h0 hm0 hc1
  have r3 := ((r2.drop q.1).drop q.2).dropLonLat s
  obtain ⟨c2, hc2, h⟩ := Res.bind_eq_ok.1 h
  cases h
  obtain ⟨r4, hu⟩ := r3.dropDims hpx hc2
  refine ⟨rfl, rfl, r4.congr (fun n => ?_) (fun _ => rfl) (fun _ => rfl), ?_⟩
  · unfold goneBy
    cases gone n <;> cases (s.proj.isSome && isMapping L c0 n) <;> cases isLonLat s n <;> cases n == q.1 <;> cases n == q.2 <;> rfl
  · intro d hd he v hv
    refine hu d hd he ?_ v ?_
    · rcases hd with rfl | rfl
      · exact hl.1
      · exact hl.2
    · have e1 := r4.vars
      rw [← r3.vars] at e1
      rw [← e1]
      exact hv

/-- Names of dimensions that are replaced. -/
def isLater (later : List (String × String)) (n : String) : Bool := later.any fun p => n == p.1 || n == p.2

theorem newDim_step {x y : String} {done : List (String × String)} {p : String × String} (hx1 : x ≠ p.1) (hx2 : x ≠ p.2) (hy1 : y ≠ p.1)
    (hy2 : y ≠ p.2) (hp : p.1 ≠ p.2) (hd : ∀ q ∈ done, q.2 ≠ p.1) (d : String) :
    (fun d => if d = p.2 then y else d) (if newDim x y done d = p.1 then x else newDim x y done d) = newDim x y (done ++ [p]) d := by
  unfold newDim
  simp only [List.any_append, List.any_cons, List.any_nil, Bool.or_false]
  cases done.any fun p => p.1 == d with
  | true => simp [hx1, hx2]
  | false =>
    cases hany : done.any fun p => p.2 == d with
    | true =>
      by_cases h1 : p.1 = d
      · obtain ⟨q, hq, e⟩ := List.any_eq_true.1 hany
        exact absurd ((by simpa using e : q.2 = d).trans h1.symm) (hd q hq)
      · simp [hy1, hy2, h1]
    | false =>
      by_cases h1 : d = p.1
      · subst h1
        simp [hx2]
      · by_cases h2 : d = p.2
        · subst h2
          simp [hp.symm, hp]
        · simp [h1, h2, Ne.symm h1, Ne.symm h2]

theorem mem_names2 {ps : List (String × String)} {d : String} : d ∈ names2 ps ↔ ∃ p ∈ ps, d = p.1 ∨ d = p.2 := by
  simp [names2]

theorem isLater_iff {ps : List (String × String)} {d : String} : isLater ps d = true ↔ d ∈ names2 ps := by
  unfold isLater
  rw [mem_names2, List.any_eq_true]
  simp

theorem newDim_fix {x y d : String} {later : List (String × String)} (h : d ∉ names2 later) : newDim x y later d = d := by
  unfold newDim
  rw [if_neg, if_neg]
  · intro e
    obtain ⟨p, hp, e⟩ := List.any_eq_true.1 e
    exact h (mem_names2.2 ⟨p, hp, .inr (by simpa using Eq.symm (by simpa using e))⟩)
  · intro e
    obtain ⟨p, hp, e⟩ := List.any_eq_true.1 e
    exact h (mem_names2.2 ⟨p, hp, .inl (by simpa using Eq.symm (by simpa using e))⟩)

theorem loop_later {x y : String} (hx : x ≠ "") (h0 : (c0.vars.map fun v : Var P => v.name).Nodup) (hm0 : (m0.map (·.1)).Nodup) :
    ∀ {ss : List (System Pr)} {ps : List (String × String)} (done : List (String × String)) {gone : String → Bool} {st st' : St P V CS},
    List.Forall₂ (fun s p => GridOf c0 s p) ss ps → (names2 ((x, y) :: done ++ ps)).Nodup → st.x = x → st.y = y →
    Rep c0 m0 gone (newDim x y done) (isLater done) st.cdm st.mapped → changeSystems L ss st = .ok st' →
    st'.x = x ∧ st'.y = y ∧
    ∃ g, (∀ n, g n = (gone n || (ss.any fun s => goneBy L c0 s n) || isLater ps n)) ∧
      Rep c0 m0 g (newDim x y (done ++ ps)) (isLater (done ++ ps)) st'.cdm st'.mapped ∧
      ∀ d ∈ names2 ps, (∃ e ∈ c0.dims, e.name = d) → ∀ w ∈ c0.vars, g w.name = false → (∀ k, (w.name, k) ∉ m0) → d ∉ w.shape
  | [], ps, done, gone, st, st', hf, hn, e1, e2, hr, h => by
    cases hf
    unfold changeSystems at h
    cases h
    refine ⟨e1, e2, gone, fun n => by simp [isLater], ?_, ?_⟩
    · rw [List.append_nil]
      exact hr
    · intro d hd
      simp [names2] at hd
  | s :: ss, ps, done, gone, st, st', hf, hn, e1, e2, hr, h => by
    cases hf with
    | cons hp hf =>
      rename_i p ps
      unfold changeSystems at h
      obtain ⟨st1, h1, h⟩ := Res.bind_eq_ok.1 h
      subst e1 e2
      have hn' : (st.x :: st.y :: (names2 done ++ p.1 :: p.2 :: names2 ps)).Nodup := by
        simpa [names2] using hn
      have d1 : ∀ d ∈ names2 done, d ≠ p.1 ∧ d ≠ p.2 := by
        intro d hd
        have := (List.nodup_append.1 (List.nodup_cons.1 (List.nodup_cons.1 hn').2).2).2.2 d hd
        exact ⟨this p.1 (by simp), this p.2 (by simp)⟩
      have d2 : p.1 ≠ p.2 := by
        have := List.nodup_cons.1 (List.nodup_append.1 (List.nodup_cons.1 (List.nodup_cons.1 hn').2).2).2.1
        intro e
        exact this.1 (by rw [e]; simp)
      have d3 : st.x ≠ p.1 ∧ st.x ≠ p.2 := by
        have := (List.nodup_cons.1 hn').1
        constructor <;> (intro e; apply this; rw [e]; simp)
      have d4 : st.y ≠ p.1 ∧ st.y ≠ p.2 := by
        have := (List.nodup_cons.1 (List.nodup_cons.1 hn').2).1
        constructor <;> (intro e; apply this; rw [e]; simp)
      have n1 : p.1 ∉ names2 done := fun hd => (d1 _ hd).1 rfl
      have n2 : p.2 ∉ names2 done := fun hd => (d1 _ hd).2 rfl
      obtain ⟨i1, i2, i3, i4⟩ := later_step hx hr h0 hm0 hp (Ne.symm d3.1) (newDim_fix n1) (newDim_fix n2)
        ⟨by rw [← Bool.not_eq_true, isLater_iff]; exact n1, by rw [← Bool.not_eq_true, isLater_iff]; exact n2⟩ h1
      have i3' := i3.congr (gone' := fun n => gone n || goneBy L c0 s n || n == p.1 || n == p.2) (σ' := newDim st.x st.y (done ++ [p]))
        (lost' := isLater (done ++ [p])) (fun _ => rfl)
        (newDim_step d3.1 d3.2 d4.1 d4.2 d2 fun q hq => (d1 q.2 (mem_names2.2 ⟨q, hq, .inr rfl⟩)).1)
        (fun n => by simp [isLater, Bool.or_assoc])
      obtain ⟨j1, j2, g, hg, j3, j4⟩ := loop_later hx h0 hm0 (done ++ [p]) hf (by simpa [names2] using hn) i1 i2 i3' h
      refine ⟨j1, j2, g, fun n => ?_, ?_, ?_⟩
      · rw [hg]
        simp only [List.any_cons, isLater]
        cases gone n <;> cases goneBy L c0 s n <;> cases n == p.1 <;> cases n == p.2 <;> simp
      · simpa using j3
      · intro d hd he w hw hgw hm
        have hd' : (d = p.1 ∨ d = p.2) ∨ d ∈ names2 ps := by simpa [names2, or_assoc] using hd
        rcases hd' with hd' | hd'
        · have hgw' : (gone w.name || goneBy L c0 s w.name || w.name == p.1 || w.name == p.2) = false := by
            rw [hg] at hgw
            simp only [Bool.or_eq_false_iff] at hgw ⊢
            exact hgw.1.1
          have := i4 d hd' he _ (i3.mem.2 ⟨w, hw, hgw', rfl⟩)
          unfold adapt at this
          rw [if_neg] at this
          · exact this
          · intro e
            obtain ⟨q, hq, e⟩ := List.any_eq_true.1 e
            exact hm q.2 (by rw [← (by simpa using e : q.1 = w.name)]; exact hq)
        · exact j4 d hd' he w hw hgw hm

/-- The state after the loop. -/
theorem loop_is {x y : String} {later : List (String × String)} {ss : List (System Pr)} (hx : x ≠ "")
    (h0 : (c0.vars.map fun v : Var P => v.name).Nodup) (hm0 : (m0.map (·.1)).Nodup)
    (hf : List.Forall₂ (fun s p => GridOf c0 s p) ss ((x, y) :: later)) (hn : (names2 ((x, y) :: later)).Nodup) {st : St P V CS}
    (h : changeSystems L ss ⟨c0, m0, "", ""⟩ = .ok st) :
    st.x = x ∧ st.y = y ∧
    ∃ g, (∀ n, g n = ((ss.any fun s => goneBy L c0 s n) || isLater later n)) ∧
      Rep c0 m0 g (newDim x y later) (isLater later) st.cdm st.mapped ∧
      ∀ d ∈ names2 later, (∃ e ∈ c0.dims, e.name = d) → ∀ w ∈ c0.vars, g w.name = false → (∀ k, (w.name, k) ∉ m0) → d ∉ w.shape := by
  cases hf with
  | cons hp hf =>
    rename_i s ss
    unfold changeSystems at h
    obtain ⟨st1, h1, h⟩ := Res.bind_eq_ok.1 h
    obtain ⟨i1, i2, i3⟩ := first_step rfl h0 hp h1
    have i3' := i3.congr (σ' := newDim x y []) (lost' := isLater []) (fun _ => rfl) (fun _ => rfl) (fun _ => rfl)
    obtain ⟨j1, j2, g, hg, j3, j4⟩ := loop_later hx h0 hm0 [] hf (by simpa [names2] using hn) i1 i2 i3' h
    exact ⟨j1, j2, g, fun n => by rw [hg]; rfl, j3, j4⟩

/-! ## New grid -/

theorem ga_remove (c : CDM P V CS) (n a m : String) :
    getAttributes (removeAttribute c n a) m = if m = n then without [a] (getAttributes c n) else getAttributes c m := by
  unfold getAttributes removeAttribute without
  dsimp only
  by_cases h : m = n
  · rw [if_pos h, if_pos h]
    cases c.attrs n with
    | none => rfl
    | some l =>
      simp only [Option.map_some, Option.getD_some]
      refine List.filter_congr fun b _ => ?_
      by_cases hb : b.name = a <;> simp [hb]
  · rw [if_neg h, if_neg h]

theorem replaced_eq (l : List (Attr V)) (a : Attr V) : replaced l a = without [a.name] l ++ [a] := by
  unfold replaced without
  congr 1
  refine List.filter_congr fun b _ => ?_
  by_cases hb : b.name = a.name <;> simp [hb]

theorem ga_replace {n : String} {a : Attr V} (h : after (addOrReplaceAttribute c n a) = .ok c') (m : String) :
    getAttributes c' m = if m = n then without [a.name] (getAttributes c n) ++ [a] else getAttributes c m := by
  obtain ⟨-, h⟩ := addOrReplace_is h
  have : getAttributes c' m = ((if m = n then some (replaced (getAttributes c n) a) else c.attrs m) : Option _).getD [] := by
    unfold getAttributes
    rw [h.attrs]
    rfl
  rw [this, replaced_eq]
  split <;> rfl

theorem without_without (ns ms : List String) (l : List (Attr V)) : without ns (without ms l) = without (ms ++ ns) l := by
  unfold without
  rw [List.filter_filter]
  refine List.filter_congr fun b _ => ?_
  simp only [List.contains_eq_any_beq, List.any_append, Bool.not_or]
  rw [Bool.and_comm]

theorem without_append (ns : List String) (l r : List (Attr V)) : without ns (l ++ r) = without ns l ++ without ns r := by
  unfold without
  rw [List.filter_append]

/-- One variable is set; the others, the dimensions and the attributes are as before. -/
structure Sets (c : CDM P V CS) (w : Var P) (c' : CDM P V CS) : Prop where
  mem : ∀ v, v ∈ c'.vars ↔ (v ∈ c.vars ∧ v.name ≠ w.name) ∨ v = w
  nodup : (c'.vars.map fun v : Var P => v.name).Nodup
  dims : c'.dims = c.dims
  attrs : ∀ n, c'.attrs n = c.attrs n

theorem Sets.ga {w : Var P} (h : Sets c w c') (n : String) : getAttributes c' n = getAttributes c n := by
  unfold getAttributes
  rw [h.attrs]

theorem sets_map (hnd : (c.vars.map fun v : Var P => v.name).Nodup) {n : String} {f : Var P → Var P} (hf : ∀ v, (f v).name = v.name) {w : Var P}
    (hw : w ∈ c.vars) (hn : w.name = n) (h : Is c' (c.vars.map fun v => if v.name = n then f v else v) c.dims c.attrs) : Sets c (f w) c' where
  mem v := by
    rw [h.vars, List.mem_map, hf, hn]
    constructor
    · rintro ⟨u, hu, rfl⟩
      by_cases hun : u.name = n
      · rw [if_pos hun]
        right
        rw [List.inj_on_of_nodup_map hnd hu hw (hun.trans hn.symm)]
      · rw [if_neg hun]
        exact .inl ⟨hu, hun⟩
    · rintro (⟨hv, hvn⟩ | rfl)
      · exact ⟨v, hv, if_neg hvn⟩
      · exact ⟨w, hw, if_pos hn⟩
  nodup := by
    rw [h.vars, List.map_map, List.map_congr_left (g := fun v : Var P => v.name)]
    · exact hnd
    · intro v _
      simp only [Function.comp_apply]
      split
      · exact hf v
      · rfl
  dims := h.dims
  attrs := h.attrs

theorem addVariable_sets (hnd : (c.vars.map fun v : Var P => v.name).Nodup) {w : Var P} (h : after (addVariable c w) = .ok c') :
    (∀ v ∈ c.vars, v.name ≠ w.name) ∧ Sets c w c' := by
  obtain ⟨h1, h2⟩ := addVariable_is h
  refine ⟨h1, fun v => ?_, ?_, h2.dims, h2.attrs⟩
  · rw [h2.vars, List.mem_append, List.mem_singleton]
    exact or_congr_left ⟨fun h => ⟨h, h1 v h⟩, fun h => h.1⟩
  · rw [h2.vars, List.map_append, List.nodup_append]
    refine ⟨hnd, by simp, ?_⟩
    intro a ha b hb e
    obtain ⟨v, hv, rfl⟩ := List.mem_map.1 ha
    simp only [List.map_cons, List.map_nil, List.mem_singleton] at hb
    exact h1 v hv (e.trans hb)

section
variable [DecidableEq T] {k k' : CDM (Pay T α O) V CS}

theorem ensureAxis_sets (hnd : (k.vars.map fun v : Var (Pay T α O) => v.name).Nodup) {n : String} {t : T} (h : ensureAxis n t k = .ok k') :
    ∃ w, w.name = n ∧ w.payload.dtype = t ∧ (∀ u ∈ k.vars, u.name = n → w.shape = u.shape ∧ w.payload.other = u.payload.other) ∧
      ((∀ u ∈ k.vars, u.name ≠ n) → w.shape = [n] ∧ w.payload.other = none) ∧ Sets k w k' := by
  unfold ensureAxis at h
  by_cases hv : hasVariable k n = true
  · rw [if_neg (by simpa using hv)] at h
    obtain ⟨⟨u, hu, hn⟩, hi⟩ := modifyVar_is hnd h
    refine ⟨setDataType t u, hn, rfl, fun u' hu' hn' => ?_, fun hno => absurd hn (hno u hu), sets_map hnd (f := setDataType t) (fun v => rfl) hu hn hi⟩
    rw [List.inj_on_of_nodup_map hnd hu' hu (hn'.trans hn.symm)]
    exact ⟨rfl, rfl⟩
  · have hv' : hasVariable k n = false := by simpa using hv
    rw [if_pos (by simpa using hv)] at h
    obtain ⟨-, hs⟩ := addVariable_sets hnd h
    refine ⟨_, rfl, rfl, fun u hu hn => ?_, fun _ => ⟨rfl, rfl⟩, hs⟩
    exact absurd hn (hasVariable_false.1 hv' u hu)

theorem setVarData_sets (hnd : (k.vars.map fun v : Var (Pay T α O) => v.name).Nodup) {n : String} {d : T × List α} (h : setVarData n d k = .ok k') :
    ∃ u ∈ k.vars, u.name = n ∧ u.payload.dtype = d.1 ∧ Sets k { u with payload := { u.payload with data := some d } } k' := by
  unfold setVarData at h
  cases hv : getVariable k n with
  | throws => rw [hv] at h; cases h
  | ub => rw [hv] at h; cases h
  | ok u =>
    rw [hv] at h
    dsimp only at h
    obtain ⟨hu, hn⟩ := getVariable_some hv
    by_cases ht : u.payload.dtype ≠ d.1
    · rw [if_pos ht] at h
      cases h
    · rw [if_neg ht] at h
      cases h
      exact ⟨u, hu, hn, not_not.1 ht, sets_map hnd (f := fun v => { v with payload := { v.payload with data := some d } }) (fun v => rfl) hu hn
        ⟨modifyFirst_eq n _ _ hnd, rfl, fun _ => rfl⟩⟩

/-- Variables, dimensions and attributes after the axes are set. -/
theorem setAxes_is {E : Ext V Pr T α} {x y : String} (hxy : x ≠ y) {ax ay : NewAxis T α} {t : AxisText}
    (hnd : (k.vars.map fun v : Var (Pay T α O) => v.name).Nodup) (hd : (k.dims.map fun d : Dim => d.name).Nodup) (h : setAxes E x y ax ay t k = .ok k') :
    (∃ wx wy, wx.name = x ∧ wy.name = y ∧ wx.payload.dtype = ax.dtype ∧ wy.payload.dtype = ay.dtype ∧
      wx.payload.data = some (ax.dtype, E.cast ax.dtype ax.values) ∧ wy.payload.data = some (ay.dtype, E.cast ay.dtype ay.values) ∧
      (∀ u ∈ k.vars, u.name = x → wx.shape = u.shape ∧ wx.payload.other = u.payload.other) ∧
      ((∀ u ∈ k.vars, u.name ≠ x) → wx.shape = [x] ∧ wx.payload.other = none) ∧
      (∀ u ∈ k.vars, u.name = y → wy.shape = u.shape ∧ wy.payload.other = u.payload.other) ∧
      ((∀ u ∈ k.vars, u.name ≠ y) → wy.shape = [y] ∧ wy.payload.other = none) ∧
      (k'.vars.map fun v : Var (Pay T α O) => v.name).Nodup ∧
      ∀ v, v ∈ k'.vars ↔ (v ∈ k.vars ∧ v.name ≠ x ∧ v.name ≠ y) ∨ v = wx ∨ v = wy) ∧
    (∃ d ∈ k.dims, d.name = x) ∧ (∃ d ∈ k.dims, d.name = y) ∧
    k'.dims = k.dims.map (newLength x y ax.values.length ay.values.length) ∧
    ∀ n, getAttributes k' n =
      if n = x then without ["long_name", "standard_name", "units"] (getAttributes k x) ++ [⟨"standard_name", E.value t.xName⟩, ⟨"units", E.value t.xUnit⟩]
      else if n = y then without ["long_name", "standard_name", "units"] (getAttributes k y) ++ [⟨"standard_name", E.value t.yName⟩, ⟨"units", E.value t.yUnit⟩]
      else getAttributes k n := by
  unfold setAxes at h
  dsimp only at h
  obtain ⟨k1, h1, h⟩ := Res.bind_eq_ok.1 h
  obtain ⟨k2, h2, h⟩ := Res.bind_eq_ok.1 h
  obtain ⟨k3, h3, h⟩ := Res.bind_eq_ok.1 h
  obtain ⟨k4, h4, h⟩ := Res.bind_eq_ok.1 h
  obtain ⟨k5, h5, h⟩ := Res.bind_eq_ok.1 h
  obtain ⟨k6, h6, h⟩ := Res.bind_eq_ok.1 h
  obtain ⟨k7, h7, h⟩ := Res.bind_eq_ok.1 h
  obtain ⟨k8, h8, h⟩ := Res.bind_eq_ok.1 h
  obtain ⟨k9, h9, h10⟩ := Res.bind_eq_ok.1 h
  obtain ⟨w1, n1, t1, s1, o1, S1⟩ := ensureAxis_sets (k := removeAttribute (removeAttribute k x "long_name") y "long_name") hnd h1
  obtain ⟨w2, n2, t2, s2, o2, S2⟩ := ensureAxis_sets S1.nodup h2
  have I3 := (addOrReplace_is h3).2
  have I4 := (addOrReplace_is h4).2
  have I5 := (addOrReplace_is h5).2
  have I6 := (addOrReplace_is h6).2
  have v6 : k6.vars = k2.vars := I6.vars.trans (I5.vars.trans (I4.vars.trans I3.vars))
  have d6 : k6.dims = k.dims := I6.dims.trans (I5.dims.trans (I4.dims.trans (I3.dims.trans (S2.dims.trans S1.dims))))
  obtain ⟨w7, m7, n7, -, S7⟩ := setVarData_sets (by rw [v6]; exact S2.nodup) h7
  obtain ⟨w8, m8, n8, -, S8⟩ := setVarData_sets S7.nodup h8
  obtain ⟨e9, I9⟩ := setLength_is (by rw [S8.dims, S7.dims, d6]; exact hd) h9
  have d8 : k8.dims = k.dims := S8.dims.trans (S7.dims.trans d6)
  have n9 : (k9.dims.map fun d : Dim => d.name) = k.dims.map fun d : Dim => d.name := by
    rw [I9.dims, d8, List.map_map]
    refine List.map_congr_left fun d _ => ?_
    simp only [Function.comp_apply]
    split <;> rfl
  obtain ⟨e10, I10⟩ := setLength_is (by rw [n9]; exact hd) h10
  have hyx : y ≠ x := Ne.symm hxy
  -- the variables found later are those made first
  have e7 : w7 = w1 := by
    rw [v6, S2.mem] at m7
    rcases m7 with ⟨m7, -⟩ | rfl
    · rcases (S1.mem w7).1 m7 with ⟨-, hne⟩ | rfl
      · exact absurd (n7.trans n1.symm) hne
      · rfl
    · exact absurd (n7.symm.trans n2) hxy
  subst e7
  have e8 : w8 = w2 := by
    rcases (S7.mem w8).1 m8 with ⟨m8, -⟩ | rfl
    · rw [v6, S2.mem] at m8
      rcases m8 with ⟨-, hne⟩ | rfl
      · exact absurd (n8.trans n2.symm) hne
      · rfl
    · exact absurd (n7.symm.trans n8) hxy
  subst e8
  have kk : ∀ u : Var (Pay T α O), u.name = y → (u ∈ k1.vars ↔ u ∈ k.vars) := by
    intro u hu
    rw [S1.mem]
    constructor
    · rintro (⟨h, -⟩ | rfl)
      · exact h
      · exact absurd (n7.symm.trans hu) hxy
    · exact fun h => .inl ⟨h, by rw [hu, n1]; exact hyx⟩
  refine ⟨⟨{ w7 with payload := { w7.payload with data := some (ax.dtype, E.cast ax.dtype ax.values) } },
      { w8 with payload := { w8.payload with data := some (ay.dtype, E.cast ay.dtype ay.values) } },
      n1, n2, t1, t2, rfl, rfl, s1, o1, fun u hu hn => s2 u ((kk u hn).2 hu) hn, fun hno => o2 fun u hu hn => hno u ((kk u hn).1 hu) hn, ?_, fun v => ?_⟩,
    ?_, ?_, ?_, fun n => ?_⟩
  · rw [I10.vars, I9.vars]
    exact S8.nodup
  · rw [I10.vars, I9.vars, S8.mem, S7.mem, v6, S2.mem, S1.mem]
    simp only [n1, n2]
    constructor
    · rintro (⟨(⟨(⟨(⟨h1, h2⟩ | rfl), h3⟩ | rfl), h4⟩ | rfl), h5⟩ | rfl)
      · exact .inl ⟨h1, h2, h5⟩
      · exact absurd n1 h4
      · exact absurd n2 h5
      · exact .inr (.inl rfl)
      · exact .inr (.inr rfl)
    · rintro (⟨h1, h2, h3⟩ | rfl | rfl)
      · exact .inl ⟨.inl ⟨.inl ⟨.inl ⟨h1, h2⟩, h3⟩, h2⟩, h3⟩
      · exact .inl ⟨.inr rfl, hxy⟩
      · exact .inr rfl
  · obtain ⟨d, hd, e⟩ := e9
    exact ⟨d, by rwa [d8] at hd, e⟩
  · obtain ⟨d, hd, e⟩ := e10
    have : d.name ∈ k9.dims.map fun d : Dim => d.name := List.mem_map_of_mem hd
    rw [n9] at this
    obtain ⟨d', hd', e'⟩ := List.mem_map.1 this
    exact ⟨d', hd', e'.trans e⟩
  · rw [I10.dims, I9.dims, d8, List.map_map]
    refine List.map_congr_left fun d _ => ?_
    simp only [Function.comp_apply, newLength]
    by_cases h1 : d.name = x
    · simp [h1, hxy]
    · simp [h1]
  · have a10 : getAttributes k' n = getAttributes k6 n := by
      unfold getAttributes
      rw [I10.attrs, I9.attrs, S8.attrs, S7.attrs]
    have a2 : ∀ n, getAttributes k2 n = getAttributes (removeAttribute (removeAttribute k x "long_name") y "long_name") n := fun n => (S2.ga n).trans (S1.ga n)
    rw [a10]
    simp only [ga_replace h6, ga_replace h5, ga_replace h4, ga_replace h3, a2, ga_remove]
    by_cases h1 : n = x
    · subst h1
      simp only [if_neg hxy, if_true, without_append, without_without]
      simp [without]
    · by_cases h2 : n = y
      · subst h2
        simp only [if_neg hyx, if_true, without_append, without_without]
        simp [without]
      · simp [h1, h2]

end

/-- The search for a name ends with one that is free. -/
theorem uniqueVarName_fresh {n r : String} (h : uniqueVarName c n = .ok r) :
    (∀ v ∈ c.vars, v.name ≠ r) ∧ (r = n ∨ ∃ j : Nat, r = n ++ toString j) := by
  unfold uniqueVarName at h
  obtain ⟨r', h1, h2, h3⟩ := Names.C45_fresh_name (c.vars.map (·.name)) n (c.vars.length + 2) (by simp)
  rw [h1] at h
  cases h
  refine ⟨fun v hv e => h2 (e ▸ List.mem_map_of_mem (f := fun v : Var P => v.name) hv), ?_⟩
  rcases h3 with h3 | ⟨-, j, -, h3, -⟩
  · exact .inl h3
  · exact .inr ⟨j, h3⟩

theorem ga_eq {a b : CDM P V CS} {n : String} (h : a.attrs n = b.attrs n) : getAttributes a n = getAttributes b n := by
  unfold getAttributes
  rw [h]

/-- Attributes belong to variables or to the dataset. -/
def Owned (c : CDM P V CS) : Prop := ∀ n, c.attrs n ≠ none → n = globalNS ∨ ∃ v ∈ c.vars, v.name = n

theorem Owned.ga {n : String} (h : Owned c) (hn : n ≠ globalNS) (hv : ∀ v ∈ c.vars, v.name ≠ n) : getAttributes c n = [] := by
  unfold getAttributes
  cases hc : c.attrs n with
  | none => rfl
  | some l =>
    rcases h n (by rw [hc]; simp) with h | ⟨v, h1, h2⟩
    · exact absurd h hn
    · exact absurd h2 (hv v h1)

section
variable {k k' : CDM (Pay T α O) V CS}

theorem addProjection_is {E : Ext V Pr T α} {np s q : String} (hnd : (k.vars.map fun v : Var (Pay T α O) => v.name).Nodup) (ho : Owned k)
    (h : addProjection E np s k = .ok (k', q)) :
    (np = "latlong" ∧ k' = k ∧ q = "latlong") ∨
    (np ≠ "latlong" ∧ (∃ r, q = "projection_" ++ r) ∧ (∀ v ∈ k.vars, v.name ≠ q) ∧ Sets k ⟨q, [], ⟨E.int, some (E.int, []), none⟩⟩ { k' with attrs := k.attrs } ∧
      E.parameters s = .ok (getAttributes k' q) ∧ ∀ n, n ≠ q → getAttributes k' n = getAttributes k n) := by
  unfold addProjection at h
  by_cases hp : np = "latlong"
  · rw [if_neg (fun h => h hp)] at h
    cases h
    exact .inl ⟨hp, rfl, rfl⟩
  · rw [if_pos hp] at h
    right
    obtain ⟨r, h1, h⟩ := Res.bind_eq_ok.1 h
    obtain ⟨k1, h2, h⟩ := Res.bind_eq_ok.1 h
    obtain ⟨as, h3, h⟩ := Res.bind_eq_ok.1 h
    obtain ⟨k2, h4, h⟩ := Res.bind_eq_ok.1 h
    cases h
    obtain ⟨f1, f2⟩ := uniqueVarName_fresh h1
    have hpre : ∃ t, q = "projection_" ++ t := by
      rcases f2 with f2 | ⟨j, f2⟩
      · exact ⟨np, f2⟩
      · exact ⟨np ++ toString j, by rw [f2, String.append_assoc]⟩
    obtain ⟨-, S⟩ := addVariable_sets hnd h2
    obtain ⟨-, a1, a2, a3, a4⟩ := addAttributes_after h4
    have hq : q ≠ globalNS := by
      obtain ⟨t, ht⟩ := hpre
      rw [ht]
      intro e
      have := congrArg (fun s : String => s.toList.head?) e
      rw [String.toList_append] at this
      exact absurd this (by simp [globalNS])
    refine ⟨hp, hpre, f1, ⟨fun v => ?_, ?_, a2.trans S.dims, fun _ => rfl⟩, ?_, fun n hn => ?_⟩
    · show v ∈ k'.vars ↔ _
      rw [a1]
      exact S.mem v
    · show (k'.vars.map fun v : Var (Pay T α O) => v.name).Nodup
      rw [a1]
      exact S.nodup
    · rw [a3, S.ga, ho.ga hq f1, List.nil_append]
      exact h3
    · rw [ga_eq (a4 n hn), S.ga]

theorem axisValues_is {n : String} {l : List α} (h : axisValues k n = .ok l) :
    ∃ v ∈ k.vars, v.name = n ∧ ∃ t, v.payload.data = some (t, l) := by
  unfold axisValues at h
  obtain ⟨v, h1, h⟩ := Res.bind_eq_ok.1 h
  obtain ⟨d, h2, h⟩ := Res.bind_eq_ok.1 h
  obtain ⟨hv, hn⟩ := getVariable_some h1
  refine ⟨v, hv, hn, ?_⟩
  split at h
  · rename_i w hw
    split at h
    · cases h
      exact ⟨w.1, hw⟩
    · cases h
  · cases h

theorem addLonLat_is {E : Ext V Pr T α} {np q x y ln lt : String} {r : String × String}
    (hnd : (k.vars.map fun v : Var (Pay T α O) => v.name).Nodup) (h : addLonLat E np q x y ln lt k = .ok (k', r)) :
    (np = "latlong" ∧ k' = k) ∨
    (np ≠ "latlong" ∧ ∃ p lons lats vx vy tx ty, (∀ v ∈ k.vars, v.name ≠ r.1) ∧ (∀ v ∈ k.vars, v.name ≠ r.2) ∧ r.1 ≠ r.2 ∧
      E.lib.createProj (getAttributes k q) = .ok p ∧
      (vx ∈ k.vars ∧ vx.name = x) ∧ (vy ∈ k.vars ∧ vy.name = y) ∧ (∃ xs ys, vx.payload.data = some (tx, xs) ∧ vy.payload.data = some (ty, ys) ∧
      E.lonLat p xs ys = .ok (lons, lats)) ∧
      (k'.vars.map fun v : Var (Pay T α O) => v.name).Nodup ∧ k'.dims = k.dims ∧
      (∀ v, v ∈ k'.vars ↔ v ∈ k.vars ∨ v = ⟨r.1, [x, y], ⟨E.double, some (E.double, lons), none⟩⟩ ∨ v = ⟨r.2, [x, y], ⟨E.double, some (E.double, lats), none⟩⟩) ∧
      getAttributes k' r.1 = getAttributes k r.1 ++ [⟨"units", E.value "degree_east"⟩, ⟨"long_name", E.value "longitude"⟩, ⟨"standard_name", E.value "longitude"⟩] ∧
      getAttributes k' r.2 = getAttributes k r.2 ++ [⟨"units", E.value "degree_north"⟩, ⟨"long_name", E.value "latitude"⟩, ⟨"standard_name", E.value "latitude"⟩] ∧
      ∀ n, n ≠ r.1 → n ≠ r.2 → getAttributes k' n = getAttributes k n) := by
  unfold addLonLat at h
  by_cases hp : np = "latlong"
  · rw [if_neg (fun h => h hp)] at h
    cases h
    exact .inl ⟨hp, rfl⟩
  · rw [if_pos hp] at h
    right
    obtain ⟨lon, h1, h⟩ := Res.bind_eq_ok.1 h
    obtain ⟨lat, h2, h⟩ := Res.bind_eq_ok.1 h
    obtain ⟨p, h3, h⟩ := Res.bind_eq_ok.1 h
    obtain ⟨k1, h4, h⟩ := Res.bind_eq_ok.1 h
    cases h
    unfold generateCoordinates at h4
    obtain ⟨xs, g1, h4⟩ := Res.bind_eq_ok.1 h4
    obtain ⟨ys, g2, h4⟩ := Res.bind_eq_ok.1 h4
    obtain ⟨v, g3, h4⟩ := Res.bind_eq_ok.1 h4
    obtain ⟨k2, g4, h4⟩ := Res.bind_eq_ok.1 h4
    obtain ⟨k3, g5, h4⟩ := Res.bind_eq_ok.1 h4
    obtain ⟨k4, g6, g7⟩ := Res.bind_eq_ok.1 h4
    obtain ⟨vx, hvx, nx, tx, dx⟩ := axisValues_is g1
    obtain ⟨vy, hvy, ny, ty, dy⟩ := axisValues_is g2
    obtain ⟨f1, S1⟩ := addVariable_sets hnd g4
    obtain ⟨f2, S2⟩ := addVariable_sets S1.nodup g5
    obtain ⟨-, a1, a2, a3, a4⟩ := addAttributes_after g6
    obtain ⟨-, b1, b2, b3, b4⟩ := addAttributes_after g7
    have hne : lon ≠ lat := f2 _ ((S1.mem _).2 (.inr rfl))
    have gs : ∀ n, getAttributes k3 n = getAttributes k n := fun n => (S2.ga n).trans (S1.ga n)
    refine ⟨hp, p, v.1, v.2, vx, vy, tx, ty, f1, fun w hw => f2 w ((S1.mem w).2 (.inl ⟨hw, f1 w hw⟩)), hne, h3, ⟨hvx, nx⟩, ⟨hvy, ny⟩,
      ⟨xs, ys, dx, dy, g3⟩, ?_, ?_, fun w => ?_, ?_, ?_, fun n hn1 hn2 => ?_⟩
    · rw [b1, a1]
      exact S2.nodup
    · rw [b2, a2, S2.dims, S1.dims]
    · rw [b1, a1, S2.mem, S1.mem]
      dsimp only
      constructor
      · rintro (⟨(⟨h, -⟩ | rfl), -⟩ | rfl)
        · exact .inl h
        · exact .inr (.inl rfl)
        · exact .inr (.inr rfl)
      · rintro (h | rfl | rfl)
        · exact .inl ⟨.inl ⟨h, f1 w h⟩, f2 w ((S1.mem w).2 (.inl ⟨h, f1 w h⟩))⟩
        · exact .inl ⟨.inr rfl, hne⟩
        · exact .inr rfl
    · dsimp only
      rw [ga_eq (b4 lon hne), a3, gs]
    · dsimp only
      rw [b3, ga_eq (a4 lat (Ne.symm hne)), gs]
    · rw [ga_eq (b4 n hn2), ga_eq (a4 n hn1), gs]

end

theorem describe_is {E : Ext V Pr T α} {np q lon lat : String} : ∀ {m : List (String × String)} {c c' : CDM P V CS}, (m.map (·.1)).Nodup →
    describe E np q lon lat m c = .ok c' →
    c'.vars = c.vars ∧ c'.dims = c.dims ∧
    (∀ n, (∀ k, (n, k) ∉ m) → getAttributes c' n = getAttributes c n) ∧
    ∀ n k, (n, k) ∈ m → getAttributes c' n = without ["coordinates", "grid_mapping"] (getAttributes c n) ++
      if np = "latlong" then [] else [⟨"coordinates", E.value (lon ++ " " ++ lat)⟩, ⟨"grid_mapping", E.value q⟩]
  | [], c, c', _, h => by
    unfold describe at h
    cases h
    exact ⟨rfl, rfl, fun _ _ => rfl, fun n k hk => by simp at hk⟩
  | p :: m, c, c', hm, h => by
    have hmc := List.nodup_cons.1 hm
    have main : ∀ c1 : CDM P V CS, c1.vars = c.vars → c1.dims = c.dims → (∀ n, n ≠ p.1 → getAttributes c1 n = getAttributes c n) →
        (getAttributes c1 p.1 = without ["coordinates", "grid_mapping"] (getAttributes c p.1) ++
          if np = "latlong" then [] else [⟨"coordinates", E.value (lon ++ " " ++ lat)⟩, ⟨"grid_mapping", E.value q⟩]) →
        describe E np q lon lat m c1 = .ok c' →
        c'.vars = c.vars ∧ c'.dims = c.dims ∧
        (∀ n, (∀ k, (n, k) ∉ p :: m) → getAttributes c' n = getAttributes c n) ∧
        ∀ n k, (n, k) ∈ p :: m → getAttributes c' n = without ["coordinates", "grid_mapping"] (getAttributes c n) ++
          if np = "latlong" then [] else [⟨"coordinates", E.value (lon ++ " " ++ lat)⟩, ⟨"grid_mapping", E.value q⟩] := by
      intro c1 e1 e2 e3 e4 h
      obtain ⟨i1, i2, i3, i4⟩ := describe_is hmc.2 h
      refine ⟨i1.trans e1, i2.trans e2, fun n hn => ?_, fun n k hk => ?_⟩
      · rw [i3 n fun k hk => hn k (List.mem_cons_of_mem _ hk)]
        refine e3 n ?_
        rintro rfl
        exact hn p.2 (by simp)
      · rcases List.mem_cons.1 hk with hk | hk
        · have en : n = p.1 := by rw [← hk]
          subst en
          rw [i3 p.1 fun k' hk' => hmc.1 (List.mem_map.2 ⟨_, hk', rfl⟩)]
          exact e4
        · have hn : n ≠ p.1 := by
            rintro rfl
            exact hmc.1 (List.mem_map.2 ⟨_, hk, rfl⟩)
          rw [i4 n k hk, e3 n hn]
    unfold describe at h
    by_cases hp : np = "latlong"
    · rw [if_neg (fun h => h hp)] at h
      refine main (removeAttribute (removeAttribute c p.1 "coordinates") p.1 "grid_mapping") rfl rfl (fun n hn => ?_) ?_ h
      · simp only [ga_remove, if_neg hn]
      · simp only [ga_remove, if_true, without_without, if_pos hp, List.append_nil]
        rfl
    · rw [if_pos hp] at h
      obtain ⟨c1, h1, h⟩ := Res.bind_eq_ok.1 h
      obtain ⟨c2, h2, h⟩ := Res.bind_eq_ok.1 h
      have I1 := (addOrReplace_is h1).2
      have I2 := (addOrReplace_is h2).2
      refine main c2 (I2.vars.trans I1.vars) (I2.dims.trans I1.dims) (fun n hn => ?_) ?_ h
      · simp only [ga_replace h2, ga_replace h1, if_neg hn]
      · simp only [ga_replace h2, ga_replace h1, if_true, without_without, without_append, if_neg hp]
        simp [without]

theorem setGlobals_is {E : Ext V Pr T α} (h : setGlobals E c = .ok c') :
    c'.vars = c.vars ∧ c'.dims = c.dims ∧ ∀ n, n ≠ globalNS → getAttributes c' n = getAttributes c n := by
  unfold setGlobals at h
  dsimp only at h
  obtain ⟨c1, h1, h⟩ := Res.bind_eq_ok.1 h
  have I1 := (addOrReplace_is h1).2
  split at h
  · cases h
    refine ⟨I1.vars, I1.dims, fun n hn => ?_⟩
    rw [ga_remove, if_neg hn, ga_replace h1, if_neg hn]
  · cases h
    refine ⟨I1.vars, I1.dims, fun n hn => ?_⟩
    rw [ga_replace h1, if_neg hn]

theorem isPrefixOf_iff {a b : List Char} : a.isPrefixOf b = true ↔ ∃ r, b = a ++ r := by
  rw [List.isPrefixOf_iff_prefix]
  exact ⟨fun ⟨r, h⟩ => ⟨r, h.symm⟩, fun ⟨r, h⟩ => ⟨r, h.symm⟩⟩

theorem saysCF_iff {s : String} : saysCF s = true ↔ ∃ p q, s = p ++ "CF-" ++ q := by
  unfold saysCF
  simp only [List.any_eq_true, List.mem_tails, isPrefixOf_iff]
  constructor
  · rintro ⟨t, ⟨p, hp⟩, r, rfl⟩
    refine ⟨String.ofList p, String.ofList r, ?_⟩
    rw [← String.toList_inj]
    simp [← hp]
  · rintro ⟨p, q, rfl⟩
    exact ⟨"CF-".toList ++ q.toList, ⟨p.toList, by simp⟩, q.toList, rfl⟩

theorem setGlobals_attrs {E : Ext V Pr T α} {c c' : CDM P V CS} (h : setGlobals E c = .ok c') :
    ∃ v, Conventions E (getAttributes c globalNS) v ∧
      getAttributes c' globalNS = without ["Conventions", "MAP_PROJ"] (getAttributes c globalNS) ++ [⟨"Conventions", v⟩] := by
  unfold setGlobals at h
  dsimp only at h
  obtain ⟨c1, h1, h⟩ := Res.bind_eq_ok.1 h
  have hga := ga_replace h1 globalNS
  rw [if_pos rfl] at hga
  dsimp only at hga
  clear h1
  refine ⟨match getAttribute c globalNS "Conventions" with
    | .ok a => if saysCF (E.lib.text a.value) then a.value else E.value (E.lib.text a.value ++ " CF-1.4")
    | _ => E.value "CF-1.4", ?_, ?_⟩
  rotate_left
  · have hmp : getAttributes c' globalNS = without ["MAP_PROJ"] (getAttributes c1 globalNS) := by
      split at h
      · cases h
        rw [ga_remove, if_pos rfl]
      · rename_i hno
        cases h
        symm
        unfold without
        rw [List.filter_eq_self]
        intro a ha
        by_contra hc
        have hc : a.name = "MAP_PROJ" := by simpa using hc
        unfold getAttribute at hno
        unfold getAttributes at ha
        cases hl : c'.attrs globalNS with
        | none => rw [hl] at ha; simp at ha
        | some l =>
          rw [hl] at ha hno
          dsimp only at hno
          cases hf : l.find? fun b => b.name == "MAP_PROJ" with
          | none =>
            have := List.find?_eq_none.1 hf a ha
            exact this (by simp [hc])
          | some b =>
            rw [hf] at hno
            exact hno b rfl
    rw [hmp, hga, without_append, without_without]
    rfl
  · cases hc : getAttribute c globalNS "Conventions" with
    | ok a =>
      dsimp only
      have hf : First (fun a : Attr V => a.name = "Conventions") (getAttributes c globalNS) a := by
        unfold getAttribute at hc
        unfold getAttributes
        cases hl : c.attrs globalNS with
        | none => rw [hl] at hc; cases hc
        | some l =>
          rw [hl] at hc
          dsimp only at hc
          cases hfd : l.find? fun b => b.name == "Conventions" with
          | none => rw [hfd] at hc; cases hc
          | some b =>
            rw [hfd] at hc
            cases hc
            obtain ⟨h1, as, bs, h2, h3⟩ := List.find?_eq_some_iff_append.1 hfd
            exact ⟨as, bs, h2, by simpa using h1, fun z hz => by simpa using h3 z hz⟩
      by_cases hs : saysCF (E.lib.text a.value) = true
      · rw [if_pos hs]
        exact .kept hf (saysCF_iff.1 hs)
      · rw [if_neg hs]
        exact .more hf (fun h => hs (saysCF_iff.2 h))
    | throws =>
      dsimp only
      refine .made fun a ha e => ?_
      unfold getAttribute at hc
      unfold getAttributes at ha
      cases hl : c.attrs globalNS with
      | none => rw [hl] at ha; simp at ha
      | some l =>
        rw [hl] at hc ha
        dsimp only at hc
        cases hfd : l.find? fun b => b.name == "Conventions" with
        | none => exact List.find?_eq_none.1 hfd a ha (by simp [e])
        | some b => rw [hfd] at hc; cases hc
    | ub =>
      unfold getAttribute at hc
      split at hc
      · cases hc
      · split at hc <;> cases hc

theorem isLonLat_iff {s : System Pr} {n : String} : isLonLat s n = true ↔ ∃ a b, TypeAxis s .lat a ∧ TypeAxis s .lon b ∧ (n = a.name ∨ n = b.name) := by
  unfold isLonLat
  simp only [← typeAxis_iff]
  cases findAxisOfType s.axes .lat with
  | none => simp
  | some a =>
    cases findAxisOfType s.axes .lon with
    | none => simp
    | some b => simp

theorem isMapping_spec {n : String} : isMapping L c n = true ↔ MappingVar L c n := by
  rw [isMapping_iff]
  unfold MappingVar
  refine and_congr_right fun _ => ?_
  unfold checkVariableAttribute attrText getAttribute dotStar
  cases c.attrs n with
  | none => simp
  | some l =>
    dsimp only
    cases l.find? fun b => b.name == "grid_mapping_name" with
    | none => simp
    | some b => simp [List.all_eq_true]

theorem gone_iff {ss : List (System Pr)} {later : List (String × String)} {n : String} :
    ((ss.any fun s => goneBy L c s n) || isLater later n) = true ↔ Gone L c ss later n := by
  unfold Gone goneBy
  rw [Bool.or_eq_true, isLater_iff, mem_names2, List.any_eq_true]
  simp only [Bool.or_eq_true, Bool.and_eq_true, isMapping_spec, isLonLat_iff, Option.isSome_iff_ne_none]
  constructor
  · rintro (⟨s, hs, h | h⟩ | h)
    · exact .inl ⟨s, hs, h⟩
    · exact .inr (.inr ⟨s, hs, h⟩)
    · exact .inr (.inl h)
  · rintro (⟨s, hs, h⟩ | h | ⟨s, hs, h⟩)
    · exact .inl ⟨s, hs, .inl h⟩
    · exact .inr h
    · exact .inl ⟨s, hs, .inr h⟩

theorem titles_is (np q ux uy : String) : Titles np q ux uy (axisText np q ux uy).xName (axisText np q ux uy).yName (axisText np q ux uy).xUnit
    (axisText np q ux uy).yUnit := by
  unfold axisText
  by_cases h : np = "latlong"
  · rw [if_pos h]
    exact .lonLat h (fun e => if_pos e) (fun e => if_neg e) (fun e => if_pos e) (fun e => if_neg e)
  · rw [if_neg h]
    by_cases h2 : q = "projection_rotated_latitude_longitude"
    · rw [if_pos h2]
      exact .rotated h h2
    · rw [if_neg h2]
      exact .other h h2

theorem titles_lonLat {np : String} (h : np = "latlong") (q r ux uy : String) : Titles np r ux uy (axisText np q ux uy).xName (axisText np q ux uy).yName
    (axisText np q ux uy).xUnit (axisText np q ux uy).yUnit := by
  unfold axisText
  rw [if_pos h]
  exact .lonLat h (fun e => if_pos e) (fun e => if_neg e) (fun e => if_pos e) (fun e => if_neg e)

section
variable [DecidableEq T] {E : Ext V Pr T α} {g : Target T α} {ss : List (System Pr)} {d0 d' : CDM (Pay T α O) V CS} {x y : String}
  {later : List (String × String)}

/-- **C100.** If the grid of a dataset with horizontal grids that have no dimension in common is changed, the new dataset has the dimensions of the old
one but those of all grids except the first, with new lengths for the two of the first; the variables of the old one but those that describe the old
grids, those to be interpolated on the dimensions of the first grid; the new axes; for another projection than longitude and latitude its parameters
and the longitude and latitude on the new grid; and the attributes that say so. -/
theorem C100_new_dataset (hs : Setup ss m0 d0 x y later) {systems : List (String × System Pr)} (he : systems.map (·.2) = ss)
    (h : changeCDM E g systems m0 d0 = .ok (d', m')) :
    ∃ np extra, projectionName g.projString = .ok np ∧ NewDataset E g np ss m0 d0 x y later extra d' m' := by
  subst he
  unfold changeCDM at h
  obtain ⟨np, hnp, h⟩ := Res.bind_eq_ok.1 h
  obtain ⟨st, hst, h⟩ := Res.bind_eq_ok.1 h
  obtain ⟨k5, hg, h⟩ := Res.bind_eq_ok.1 h
  cases h
  refine ⟨np, ?_⟩
  obtain ⟨ex, ey, gn, hgn, hr, -⟩ := loop_is hs.named.1 hs.vars hs.map hs.grids hs.apart hst
  have hgone : ∀ n, gn n = true ↔ Gone E.lib d0 (systems.map (·.2)) later n := fun n => by rw [hgn]; exact gone_iff
  have hgone' : ∀ n, gn n = false ↔ ¬ Gone E.lib d0 (systems.map (·.2)) later n := fun n => by rw [← hgone, Bool.not_eq_true]
  have hxy : x ≠ y := by
    have := (List.nodup_cons.1 (show (x :: y :: names2 later).Nodup from hs.apart)).1
    rintro rfl
    simp at this
  unfold newGrid at hg
  by_cases hempty : st.x = "" ∨ st.y = ""
  · rw [if_pos hempty] at hg
    cases hg
  rw [if_neg hempty, ex, ey] at hg
  obtain ⟨⟨k1, q⟩, h1, hg⟩ := Res.bind_eq_ok.1 hg
  obtain ⟨k2, h2, hg⟩ := Res.bind_eq_ok.1 hg
  obtain ⟨⟨k3, lon, lat⟩, h3, hg⟩ := Res.bind_eq_ok.1 hg
  obtain ⟨k4, h4, h5⟩ := Res.bind_eq_ok.1 hg
  dsimp only at h2 h3 h4
  -- the state after the loop
  have hnd := hr.nodup hs.vars
  have hdims : (st.cdm.dims.map fun d : Dim => d.name).Nodup := by
    rw [hr.dims]
    exact hs.dims.sublist (List.filter_sublist.map _)
  have hown : Owned st.cdm := by
    intro n hn
    rw [hr.attrs] at hn
    cases hgn' : gn n with
    | true => rw [hgn'] at hn; exact absurd rfl hn
    | false =>
      rw [hgn'] at hn
      rcases hs.owned n hn with h | ⟨v, hv, rfl⟩
      · exact .inl h
      · exact .inr ⟨_, hr.mem.2 ⟨v, hv, hgn', rfl⟩, adapt_name _ _ _⟩
  have hmap : (st.mapped.map (·.1)).Nodup := by
    rw [hr.mapped]
    exact hs.map.sublist (List.filter_sublist.map _)
  have hga : ∀ n, ¬ Gone E.lib d0 (systems.map (·.2)) later n → getAttributes st.cdm n = getAttributes d0 n := by
    intro n hn
    refine ga_eq ?_
    rw [hr.attrs, (hgone' n).2 hn]
    rfl
  have hga0 : ∀ n, Gone E.lib d0 (systems.map (·.2)) later n → getAttributes st.cdm n = [] := by
    intro n hn
    unfold getAttributes
    rw [hr.attrs, (hgone n).2 hn]
    rfl
  have hmapped : ∀ n k, (n, k) ∈ st.mapped ↔ (n, k) ∈ m0 ∧ ¬ Gone E.lib d0 (systems.map (·.2)) later n := by
    intro n k
    rw [hr.mapped, List.mem_filter, ← hgone']
    simp
  have hmoved : ∀ w : Var (Pay T α O), Moved m0 x y later w (adapt m0 (newDim x y later) w) := by
    intro w
    have key : (m0.any fun p => p.1 == w.name) = true ↔ ∃ k, (w.name, k) ∈ m0 := by
      rw [List.any_eq_true]
      constructor
      · rintro ⟨⟨a, b⟩, hp, e⟩
        have e : a = w.name := by simpa using e
        subst e
        exact ⟨b, hp⟩
      · rintro ⟨k, hk⟩
        exact ⟨_, hk, by simp⟩
    unfold adapt
    by_cases hc : (m0.any fun p => p.1 == w.name) = true
    · rw [if_pos hc]
      exact ⟨rfl, rfl, fun _ => rfl, fun hno => absurd (key.1 hc) (fun ⟨k, hk⟩ => hno k hk)⟩
    · rw [if_neg hc]
      exact ⟨rfl, rfl, fun hyes => absurd (key.2 hyes) hc, fun _ => rfl⟩
  have hmoved' : ∀ w v : Var (Pay T α O), Moved m0 x y later w v → v = adapt m0 (newDim x y later) w := by
    intro w v hv
    have hw := hmoved w
    obtain ⟨n1, s1, p1⟩ := v
    have e1 : n1 = w.name := hv.name
    have e2 : p1 = w.payload := hv.payload
    have e3 : s1 = (adapt m0 (newDim x y later) w).shape := by
      by_cases hk : ∃ k, (w.name, k) ∈ m0
      · exact (hv.interpolated hk).trans (hw.interpolated hk).symm
      · push Not at hk
        exact (hv.other hk).trans (hw.other hk).symm
    rw [e1, e2, e3, ← hw.name, ← hw.payload]
  have hshape : ∀ n, (∀ k, (n, k) ∉ m0) → ∀ w : Var (Pay T α O), w.name = n → (adapt m0 (newDim x y later) w).shape = w.shape := by
    rintro n hn w rfl
    exact (hmoved w).other hn
  have hax : ∀ n, (∀ k, (n, k) ∉ m0) → ∀ a : NewAxis T α, ∀ v : Var (Pay T α O), v.name = n → v.payload.dtype = a.dtype →
      v.payload.data = some (a.dtype, E.cast a.dtype a.values) →
      (∀ u ∈ st.cdm.vars, u.name = n → v.shape = u.shape ∧ v.payload.other = u.payload.other) →
      ((∀ u ∈ st.cdm.vars, u.name ≠ n) → v.shape = [n] ∧ v.payload.other = none) → AxisVar E d0 (systems.map (·.2)) later n a v := by
    intro n hn a v e1 e2 e3 e4 e5
    refine ⟨e1, e2, e3, fun w hw hwn hg => ?_, fun hno => ?_⟩
    · have := e4 _ (hr.mem.2 ⟨w, hw, (hgone' _).2 (hwn ▸ hg), rfl⟩) ((adapt_name _ _ _).trans hwn)
      rw [hshape n hn w hwn, (hmoved w).payload] at this
      exact this
    · refine e5 fun u hu hun => ?_
      obtain ⟨w, hw, hg, rfl⟩ := hr.mem.1 hu
      rw [adapt_name] at hun
      rcases hno with hno | hno
      · exact hno w hw hun
      · exact (hgone' _).1 hg (hun ▸ hno)
  have hax1 : ∀ n (a : NewAxis T α) (v w : Var (Pay T α O)), AxisVar E d0 (systems.map (·.2)) later n a v →
      AxisVar E d0 (systems.map (·.2)) later n a w → v = w := by
    intro n a v w hv hw
    have : v.shape = w.shape ∧ v.payload.other = w.payload.other := by
      by_cases hk : (∀ w ∈ d0.vars, w.name ≠ n) ∨ Gone E.lib d0 (systems.map (·.2)) later n
      · have a1 := hv.made hk
        have a2 := hw.made hk
        exact ⟨a1.1.trans a2.1.symm, a1.2.trans a2.2.symm⟩
      · push Not at hk
        obtain ⟨⟨u, hu, hn⟩, hg⟩ := hk
        have a1 := hv.kept u hu hn hg
        have a2 := hw.kept u hu hn hg
        exact ⟨a1.1.trans a2.1.symm, a1.2.trans a2.2.symm⟩
    obtain ⟨n1, s1, ⟨t1, d1, o1⟩⟩ := v
    obtain ⟨n2, s2, ⟨t2, d2, o2⟩⟩ := w
    have b1 := hv.name.trans hw.name.symm
    have b2 := hv.dtype.trans hw.dtype.symm
    have b3 := hv.data.trans hw.data.symm
    dsimp only at b1 b2 b3 this
    obtain ⟨b4, b5⟩ := this
    subst b1 b2 b3 b4 b5
    rfl
  have hkept : ∀ v : Var (Pay T α O), (v ∈ st.cdm.vars ∧ v.name ≠ x ∧ v.name ≠ y) ↔
      ∃ w ∈ d0.vars, ¬ Gone E.lib d0 (systems.map (·.2)) later w.name ∧ w.name ≠ x ∧ w.name ≠ y ∧ Moved m0 x y later w v := by
    intro v
    rw [hr.mem]
    constructor
    · rintro ⟨⟨w, hw, hg, rfl⟩, n1, n2⟩
      rw [adapt_name] at n1 n2
      exact ⟨w, hw, (hgone' _).1 hg, n1, n2, hmoved w⟩
    · rintro ⟨w, hw, hg, n1, n2, hm⟩
      rw [hmoved' w v hm, adapt_name]
      exact ⟨⟨w, hw, (hgone' _).2 hg, rfl⟩, n1, n2⟩
  obtain ⟨g1, g2, g3⟩ := setGlobals_is h5
  have g4 := setGlobals_attrs h5
  obtain ⟨f1, f2, f3, f4⟩ := describe_is hmap h4
  have hdimfinal : ∀ k : CDM (Pay T α O) V CS, k.dims = st.cdm.dims → k2.dims = k.dims.map (newLength x y g.x.values.length g.y.values.length) →
      k3.dims = k2.dims →
      d'.dims = (d0.dims.filter fun d => !(names2 later).contains d.name).map (newLength x y g.x.values.length g.y.values.length) := by
    intro k e1 e2 e3
    rw [g2, f2, e3, e2, e1, hr.dims]
    congr 1
    refine List.filter_congr fun d _ => ?_
    congr 1
    rw [Bool.eq_iff_iff, isLater_iff]
    simp
  have hnotG : ∀ n k, (n, k) ∈ st.mapped → n ≠ globalNS ∧ n ≠ x ∧ n ≠ y ∧ ¬ Gone E.lib d0 (systems.map (·.2)) later n ∧
      ∃ v ∈ st.cdm.vars, v.name = n := by
    intro n k hk
    obtain ⟨hk, hg⟩ := (hmapped n k).1 hk
    obtain ⟨v, hv, hn⟩ := hs.known n k hk
    refine ⟨hn ▸ hs.global v hv, ?_, ?_, hg, _, hr.mem.2 ⟨v, hv, ?_, rfl⟩, (adapt_name _ _ _).trans hn⟩
    · rintro rfl; exact (hs.axes k).1 hk
    · rintro rfl; exact (hs.axes k).2 hk
    · rw [hn]; exact (hgone' _).2 hg
  have hmg : ∀ k, (globalNS, k) ∉ st.mapped := fun k hk => (hnotG _ k hk).1 rfl
  rcases addProjection_is hnd hown h1 with ⟨p1, p2, p3⟩ | ⟨p1, p2, p3, p4, p5, p6⟩
  · -- longitude and latitude
    subst p2 p3
    obtain ⟨⟨wx, wy, n1, n2, t1, t2, v1, v2, s1, o1, s2, o2, hnd2, hmem2⟩, dx, dy, hd2, ga2⟩ := setAxes_is hxy hnd hdims h2
    rcases addLonLat_is hnd2 h3 with ⟨-, q2⟩ | ⟨q1, -⟩
    swap
    · exact absurd p1 q1
    subst q2
    have X := hax x (fun k => (hs.axes k).1) g.x wx n1 t1 v1 s1 o1
    have Y := hax y (fun k => (hs.axes k).2) g.y wy n2 t2 v2 s2 o2
    refine ⟨none, hnp, ⟨fun _ => p1, fun _ => rfl⟩, hmapped, ⟨?_, ?_⟩, hdimfinal _ rfl hd2 rfl, ?_, fun v => ?_, ?_, ?_, ?_, ?_, ?_, ?_, ?_⟩
    · obtain ⟨d, hd, e⟩ := dx
      rw [hr.dims] at hd
      exact ⟨d, (List.mem_filter.1 hd).1, e⟩
    · obtain ⟨d, hd, e⟩ := dy
      rw [hr.dims] at hd
      exact ⟨d, (List.mem_filter.1 hd).1, e⟩
    · rw [g1, f1]
      exact hnd2
    · rw [g1, f1, hmem2, hkept]
      constructor
      · rintro (⟨w, a1, a2, a3, a4, a5⟩ | rfl | rfl)
        · exact .kept a1 a2 a3 a4 a5
        · exact .x X
        · exact .y Y
      · intro hv
        cases hv with
        | kept a1 a2 a3 a4 a5 => exact .inl ⟨_, a1, a2, a3, a4, a5⟩
        | x a => exact .inr (.inl (hax1 _ _ _ _ a X))
        | y a => exact .inr (.inr (hax1 _ _ _ _ a Y))
        | projection a => cases a
        | lon a => cases a
        | lat a => cases a
    · intro n k hk
      obtain ⟨a1, a2, a3, a4, -⟩ := hnotG n k hk
      rw [g3 n a1, f4 n k hk, if_pos p1, ga2, if_neg a2, if_neg a3, hga n a4]
    · intro w hw a1 a2 a3 a4
      rw [g3 _ (hs.global w hw), f3 _ (fun k hk => a4 k ((hmapped _ _).1 hk).1), ga2, if_neg a2, if_neg a3, hga _ a1]
    · have exx := g3 x hs.named.2.1
      rw [f3 x (fun k hk => (hs.axes k).1 ((hmapped _ _).1 hk).1), ga2, if_pos rfl] at exx
      have eyy := g3 y hs.named.2.2
      rw [f3 y (fun k hk => (hs.axes k).2 ((hmapped _ _).1 hk).1), ga2, if_neg (Ne.symm hxy), if_pos rfl] at eyy
      refine ⟨_, _, _, _, titles_lonLat p1 "latlong" "" g.x.unit g.y.unit, fun hg => ?_, fun hg => ?_, fun hg => ?_, fun hg => ?_⟩
      · rw [exx, hga x hg]
      · rw [exx, hga0 x hg]
        rfl
      · rw [eyy, hga y hg]
      · rw [eyy, hga0 y hg]
        rfl
    · intro e he; cases he
    · intro e he; cases he
    · intro e he; cases he
    · intro hg _
      rw [f3 _ hmg, ga2, if_neg (Ne.symm hs.named.2.1), if_neg (Ne.symm hs.named.2.2), hga _ hg] at g4
      exact g4
  · -- a projection
    obtain ⟨r, hq⟩ := p2
    have hqx : q ≠ x := fun e => (hs.free r).1 (e.symm.trans hq)
    have hqy : q ≠ y := fun e => (hs.free r).2 (e.symm.trans hq)
    have hqg : q ≠ globalNS := by
      rw [hq]
      intro e
      have := congrArg (fun s : String => s.toList.head?) e
      rw [String.toList_append] at this
      exact absurd this (by simp [globalNS])
    have hmem1 : ∀ v, v ∈ k1.vars ↔ v ∈ st.cdm.vars ∨ v = ⟨q, [], ⟨E.int, some (E.int, []), none⟩⟩ := by
      intro v
      refine (p4.mem v).trans (or_congr_left ⟨And.left, fun h => ⟨h, p3 v h⟩⟩)
    have hd1 : k1.dims = st.cdm.dims := p4.dims
    obtain ⟨⟨wx, wy, n1, n2, t1, t2, v1, v2, s1, o1, s2, o2, hnd2, hmem2⟩, dx, dy, hd2, ga2⟩ :=
      setAxes_is hxy (k := k1) p4.nodup (by rw [hd1]; exact hdims) h2
    rcases addLonLat_is hnd2 h3 with ⟨q1, -⟩ | ⟨-, P, lons, lats, vx, vy, tx, ty, l1, l2, l3, l4, ⟨l5, l6⟩, ⟨l7, l8⟩, ⟨xs, ys, l9, l10, l11⟩, hnd3, hd3,
      hmem3, a1, a2, a3⟩
    · exact absurd q1 p1
    dsimp only at l1 l2 l3 hmem3 a1 a2 a3
    have hwx : wx ∈ k2.vars := (hmem2 wx).2 (.inr (.inl rfl))
    have hwy : wy ∈ k2.vars := (hmem2 wy).2 (.inr (.inr rfl))
    have hpv : (⟨q, [], ⟨E.int, some (E.int, []), none⟩⟩ : Var (Pay T α O)) ∈ k2.vars :=
      (hmem2 _).2 (.inl ⟨(hmem1 _).2 (.inr rfl), hqx, hqy⟩)
    have e1 : vx = wx := List.inj_on_of_nodup_map hnd2 l5 hwx (l6.trans n1.symm)
    have e2 : vy = wy := List.inj_on_of_nodup_map hnd2 l7 hwy (l8.trans n2.symm)
    subst e1 e2
    rw [v1] at l9
    rw [v2] at l10
    cases l9
    cases l10
    have hqlon : q ≠ lon := l1 _ hpv
    have hqlat : q ≠ lat := l2 _ hpv
    have hxlon : x ≠ lon := fun e => l1 _ hwx (l6.trans e)
    have hxlat : x ≠ lat := fun e => l2 _ hwx (l6.trans e)
    have hylon : y ≠ lon := fun e => l1 _ hwy (l8.trans e)
    have hylat : y ≠ lat := fun e => l2 _ hwy (l8.trans e)
    have hstlon : ∀ v ∈ st.cdm.vars, v.name ≠ lon := fun v hv e => by
      by_cases hx : v.name = x
      · exact hxlon (hx.symm.trans e)
      by_cases hy : v.name = y
      · exact hylon (hy.symm.trans e)
      exact l1 v ((hmem2 v).2 (.inl ⟨(hmem1 v).2 (.inl hv), hx, hy⟩)) e
    have hstlat : ∀ v ∈ st.cdm.vars, v.name ≠ lat := fun v hv e => by
      by_cases hx : v.name = x
      · exact hxlat (hx.symm.trans e)
      by_cases hy : v.name = y
      · exact hylat (hy.symm.trans e)
      exact l2 v ((hmem2 v).2 (.inl ⟨(hmem1 v).2 (.inl hv), hx, hy⟩)) e
    have hga2q : getAttributes k2 q = getAttributes k1 q := by rw [ga2, if_neg hqx, if_neg hqy]
    rw [hga2q] at l4
    have hmq : ∀ k, (q, k) ∉ st.mapped := fun k hk => by
      obtain ⟨-, -, -, -, v, hv, e⟩ := hnotG q k hk
      exact p3 v hv e
    have hmlon : ∀ k, (lon, k) ∉ st.mapped := fun k hk => by
      obtain ⟨-, -, -, -, v, hv, e⟩ := hnotG lon k hk
      exact hstlon v hv e
    have hmlat : ∀ k, (lat, k) ∉ st.mapped := fun k hk => by
      obtain ⟨-, -, -, -, v, hv, e⟩ := hnotG lat k hk
      exact hstlat v hv e
    have s1' : ∀ u ∈ st.cdm.vars, u.name = x → vx.shape = u.shape ∧ vx.payload.other = u.payload.other := fun u hu => s1 u ((hmem1 u).2 (.inl hu))
    have s2' : ∀ u ∈ st.cdm.vars, u.name = y → vy.shape = u.shape ∧ vy.payload.other = u.payload.other := fun u hu => s2 u ((hmem1 u).2 (.inl hu))
    have o1' : (∀ u ∈ st.cdm.vars, u.name ≠ x) → vx.shape = [x] ∧ vx.payload.other = none := fun h => o1 fun u hu => by
      rcases (hmem1 u).1 hu with hu | rfl
      · exact h u hu
      · exact hqx
    have o2' : (∀ u ∈ st.cdm.vars, u.name ≠ y) → vy.shape = [y] ∧ vy.payload.other = none := fun h => o2 fun u hu => by
      rcases (hmem1 u).1 hu with hu | rfl
      · exact h u hu
      · exact hqy
    have X := hax x (fun k => (hs.axes k).1) g.x vx n1 t1 v1 s1' o1'
    have Y := hax y (fun k => (hs.axes k).2) g.y vy n2 t2 v2 s2' o2'
    have hgst : ∀ n, n ≠ x → n ≠ y → n ≠ q → n ≠ lon → n ≠ lat → getAttributes k3 n = getAttributes st.cdm n := by
      intro n b1 b2 b3 b4 b5
      rw [a3 n b4 b5, ga2, if_neg b1, if_neg b2, p6 n b3]
    refine ⟨some ⟨q, lon, lat⟩, hnp, ⟨(fun h => by cases h), fun h => absurd h p1⟩, hmapped, ⟨?_, ?_⟩, hdimfinal _ hd1 hd2 hd3, ?_, fun v => ?_, ?_, ?_, ?_, ?_, ?_, ?_, ?_⟩
    · obtain ⟨d, hd, e⟩ := dx
      rw [hd1, hr.dims] at hd
      exact ⟨d, (List.mem_filter.1 hd).1, e⟩
    · obtain ⟨d, hd, e⟩ := dy
      rw [hd1, hr.dims] at hd
      exact ⟨d, (List.mem_filter.1 hd).1, e⟩
    · rw [g1, f1]
      exact hnd3
    · rw [g1, f1, hmem3, hmem2, hmem1]
      constructor
      · rintro ((⟨h | rfl, b2, b3⟩ | rfl | rfl) | rfl | rfl)
        · obtain ⟨w, a1, a2, a3, a4, a5⟩ := (hkept v).1 ⟨h, b2, b3⟩
          exact .kept a1 a2 a3 a4 a5
        · exact .projection (e := ⟨q, lon, lat⟩) rfl
        · exact .x X
        · exact .y Y
        · exact .lon (e := ⟨q, lon, lat⟩) rfl p5 l4 l11
        · exact .lat (e := ⟨q, lon, lat⟩) rfl p5 l4 l11
      · intro hv
        cases hv with
        | kept a1 a2 a3 a4 a5 =>
          obtain ⟨b1, b2, b3⟩ := (hkept v).2 ⟨_, a1, a2, a3, a4, a5⟩
          exact .inl (.inl ⟨.inl b1, b2, b3⟩)
        | x a => exact .inl (.inr (.inl (hax1 _ _ _ _ a X)))
        | y a => exact .inl (.inr (.inr (hax1 _ _ _ _ a Y)))
        | projection a =>
          cases a
          exact .inl (.inl ⟨.inr rfl, hqx, hqy⟩)
        | lon a b c d =>
          cases a
          rw [p5] at b
          cases b
          rw [l4] at c
          cases c
          rw [l11] at d
          cases d
          exact .inr (.inl rfl)
        | lat a b c d =>
          cases a
          rw [p5] at b
          cases b
          rw [l4] at c
          cases c
          rw [l11] at d
          cases d
          exact .inr (.inr rfl)
    · intro n k hk
      obtain ⟨a1, a2, a3, a4, v, hv, hvn⟩ := hnotG n k hk
      rw [g3 n a1, f4 n k hk, if_neg p1, hgst n a2 a3 (hvn ▸ p3 v hv) (hvn ▸ hstlon v hv) (hvn ▸ hstlat v hv), hga n a4]
    · intro w hw a1 a2 a3 a4
      have hv := hr.mem.2 ⟨w, hw, (hgone' _).2 a1, rfl⟩
      have b1 := p3 _ hv
      have b2 := hstlon _ hv
      have b3 := hstlat _ hv
      rw [adapt_name] at b1 b2 b3
      rw [g3 _ (hs.global w hw), f3 _ (fun k hk => a4 k ((hmapped _ _).1 hk).1), hgst _ a2 a3 b1 b2 b3, hga _ a1]
    · have exx := g3 x hs.named.2.1
      rw [f3 x (fun k hk => (hs.axes k).1 ((hmapped _ _).1 hk).1), a3 x hxlon hxlat, ga2, if_pos rfl, p6 x (Ne.symm hqx)] at exx
      have eyy := g3 y hs.named.2.2
      rw [f3 y (fun k hk => (hs.axes k).2 ((hmapped _ _).1 hk).1), a3 y hylon hylat, ga2, if_neg (Ne.symm hxy), if_pos rfl, p6 y (Ne.symm hqy)] at eyy
      refine ⟨_, _, _, _, titles_is np q g.x.unit g.y.unit, fun hg => ?_, fun hg => ?_, fun hg => ?_, fun hg => ?_⟩
      · rw [exx, hga x hg]
      · rw [exx, hga0 x hg]
        rfl
      · rw [eyy, hga y hg]
      · rw [eyy, hga0 y hg]
        rfl
    · intro e he
      cases he
      rw [g3 q hqg, f3 q hmq, a3 q hqlon hqlat, hga2q]
      exact p5
    · intro e he hgl
      cases he
      dsimp only at hgl ⊢
      rw [g3 lon hgl, f3 lon hmlon, a1, ga2, if_neg (Ne.symm hxlon), if_neg (Ne.symm hylon), p6 lon (Ne.symm hqlon), hown.ga hgl hstlon]
      rfl
    · intro e he hgl
      cases he
      dsimp only at hgl ⊢
      rw [g3 lat hgl, f3 lat hmlat, a2, ga2, if_neg (Ne.symm hxlat), if_neg (Ne.symm hylat), p6 lat (Ne.symm hqlat), hown.ga hgl hstlat]
      rfl
    · intro hg hne
      obtain ⟨b1, b2⟩ := hne _ rfl
      rw [f3 _ hmg, hgst _ (Ne.symm hs.named.2.1) (Ne.symm hs.named.2.2) (Ne.symm hqg) (Ne.symm b1) (Ne.symm b2), hga _ hg] at g4
      exact g4

end

end Fimex.Change
