import Verif.CoordSys.WrfSteps
import Mathlib.Data.Rat.Defs
import Mathlib.Algebra.Field.Rat
import Mathlib.Algebra.CharZero.Defs

/-!
# C109: coordinate systems of WRF datasets

Nothing that exists is changed, also if the listing raises; the axes are equally spaced around the centre of the grid; every variable on a horizontal grid has
its own system; a repeated listing gives the same.  A listing of a new dataset without a reference time, or with a further dimension without a
variable, always raises.
-/

namespace Fimex.Wrf

open Cdm CoordSys Cf Change Tables

variable {V CS Pr K O : Type} [Field K] {E : Ext V Pr K} {c c' : Ds V CS K O}

/-! ## Specification -/

/-- The number of a global attribute, undefined without the attribute. -/
def Num (E : Ext V Pr K) (c : Ds V CS K O) (n : String) (x : Option K) : Prop :=
  (∃ a, getAttribute c globalNS n = .ok a ∧ E.num a.value = .ok x) ∨ ((∀ a, getAttribute c globalNS n ≠ .ok a) ∧ x = none)

/-- The dataset is one with a known projection. -/
def Projected (E : Ext V Pr K) (c : Ds V CS K O) (t : String) (latLon : Bool) : Prop :=
  wrfIsMine c = true ∧ (projText E c).2 = .ok (some (t, latLon))

/-- The centre of the grid in the projection, in degrees for longitude and latitude. -/
def Centre (E : Ext V Pr K) (c : Ds V CS K O) (t : String) (latLon : Bool) (x y : Option K) : Prop :=
  ∃ lon lat u v, Num E c "CEN_LON" lon ∧ Num E c "CEN_LAT" lat ∧ E.reproject t (E.toRad lon, E.toRad lat) = .ok (u, v) ∧
    (x, y) = if latLon then (E.toDeg u, E.toDeg v) else (u, v)

/-- Equally spaced values with a given middle. -/
def Centred (x d : K) (n : Nat) (vals : List (Option K)) : Prop :=
  ∃ f : Nat → K, vals = (List.range n).map (fun i => some (f i)) ∧ (∀ i, f (i + 1) - f i = d) ∧ (n ≠ 0 → f 0 + f (n - 1) = 2 * x)

/-- A variable on a horizontal grid. -/
def OnGrid (v : Var (Pay DataType (Option K) O)) : Prop :=
  ("west_east" ∈ v.shape ∨ "west_east_stag" ∈ v.shape) ∧ ("south_north" ∈ v.shape ∨ "south_north_stag" ∈ v.shape)

/-- Names of dimensions that the text of a shape keeps apart. -/
def PlainShapes (c : Ds V CS K O) : Prop := ∀ v ∈ c.vars, ∀ n ∈ v.shape, n ≠ "" ∧ ',' ∉ n.toList

/-! ## Parts of a listing -/

omit [Field K] in
theorem attrNum_ok {n : String} {x : Option K} (h : attrNum E n c = (c', .ok x)) : c' = c ∧ Num E c n x := by
  obtain ⟨rfl, h⟩ := read_ok h
  refine ⟨rfl, ?_⟩
  unfold Num
  cases ha : getAttribute c' globalNS n with
  | ok a =>
    rw [ha] at h
    exact .inl ⟨a, rfl, h⟩
  | throws =>
    rw [ha] at h
    cases h
    exact .inr ⟨fun a h => (by cases h), rfl⟩
  | ub =>
    rw [ha] at h
    cases h
    exact .inr ⟨fun a h => (by cases h), rfl⟩

omit [Field K] in
theorem centre_ok {t : String} {b : Bool} {r : Pr × Option K × Option K} (h : centre E t b c = (c', .ok r)) :
    c' = c ∧ E.create t = .ok r.1 ∧ Centre E c t b r.2.1 r.2.2 := by
  unfold centre at h
  obtain ⟨c1, p, h1, g1⟩ := bind_ok h
  obtain ⟨c2, lon, h2, g2⟩ := bind_ok g1
  obtain ⟨c3, lat, h3, g3⟩ := bind_ok g2
  obtain ⟨c4, uv, h4, g4⟩ := bind_ok g3
  rw [pure_apply] at g4
  obtain ⟨e1, k1⟩ := read_ok h1
  subst e1
  obtain ⟨e2, k2⟩ := attrNum_ok h2
  subst e2
  obtain ⟨e3, k3⟩ := attrNum_ok h3
  subst e3
  obtain ⟨e4, k4⟩ := read_ok h4
  subst e4
  cases g4
  exact ⟨rfl, k1, lon, lat, uv.1, uv.2, k2, k3, k4, rfl⟩

omit [Field K] in
theorem isGrid_iff {v : Var (Pay DataType (Option K) O)} : isGrid v.shape = true ↔ OnGrid v := by
  unfold isGrid OnGrid
  simp

theorem projText_same {r : Res (Option (String × Bool))} (h : projText E c = (c', r)) : c' = c := by
  have : (projText E c).1 = c := by
    unfold projText attrNum globalAttr
    simp only [bind_apply, read_apply]
    repeat' (first | rfl | (split <;> rename_i he <;> rw [Prod.mk.injEq] at he <;> obtain ⟨rfl, -⟩ := he))
    repeat' split
    all_goals rfl
  rw [h] at this
  exact this

/-- The parts of a listing that has not raised. -/
theorem listWrf_parts {r : List (System Pr)} {t : String} {b : Bool} (hc : Named c) (hp : Projected E c t b) (h : listWrf E c = (c', .ok r)) :
    ∃ p x y A m, E.create t = .ok p ∧ Centre E c t b x y ∧ centre E t b c = (c, .ok (p, x, y)) ∧ allAxes E b x y c = (c', .ok A) ∧ Good c' A ∧
      systems p A c'.vars [] c' = (c', .ok m) ∧ Systems c' p c'.vars m ∧ r = m.map (·.2) := by
  unfold listWrf at h
  rw [hp.1] at h
  simp only [Bool.not_true, Bool.false_eq_true, if_false] at h
  obtain ⟨c1, q, h1, g1⟩ := bind_ok h
  obtain rfl := projText_same h1
  have hq : q = some (t, b) := by
    have := hp.2
    rw [h1] at this
    cases this
    rfl
  subst hq
  dsimp only at g1
  obtain ⟨c2, pc, h2, g2⟩ := bind_ok g1
  obtain ⟨e2, h3, h4⟩ := centre_ok h2
  subst e2
  obtain ⟨c3, A, h5, g3⟩ := bind_ok g2
  obtain ⟨c4, m, h6, g4⟩ := bind_ok g3
  have hg := allAxes_good hc h5
  obtain ⟨e4, h7⟩ := systems_ok hg (p := pc.1) (D := []) (m := []) ⟨by simp, by simp, by simp, by simp, by simp⟩ h6
  subst e4
  rw [pure_apply] at g4
  cases g4
  exact ⟨pc.1, pc.2.1, pc.2.2, A, m, h3, h4, h2, h5, hg, h6, h7, rfl⟩

/-! ## Theorems -/

/-- **C109, what exists.**  Whether the listing succeeds or raises: dimensions, variables with their data and their attributes and the global attributes stay,
names of variables stay different, and a new variable is one along its own dimension or the reference time. -/
theorem C109_kept (E : Ext V Pr K) (hc : Named c) :
    (listWrf E c).1.dims = c.dims ∧ (∀ v ∈ c.vars, v ∈ (listWrf E c).1.vars) ∧ Named (listWrf E c).1 ∧
    (∀ n, (n = globalNS ∨ ∃ v ∈ c.vars, v.name = n) → (listWrf E c).1.attrs n = c.attrs n) ∧
    ∀ w ∈ (listWrf E c).1.vars, w ∈ c.vars ∨ ((∀ v ∈ c.vars, v.name ≠ w.name) ∧ (w.shape = [w.name] ∨ (w.name = "forecast_reference_time" ∧ w.shape = []))) := by
  have h := listWrf_grows (E := E) c hc
  exact ⟨h.dims, h.keeps, h.named, h.attrs, h.fresh⟩

omit [Field K] in
/-- A variable that is added stays as it is added. -/
theorem Added.final {c1 : Ds V CS K O} {n : String} {attrs : List (String × String)} {vals : List (Option K)} (h : Added E c c1 n attrs vals)
    (h0 : Extends c1 c') : (⟨n, [n], ⟨.float, some (.float, vals), none⟩⟩ : Var (Pay DataType (Option K) O)) ∈ c'.vars ∧
      getAttributes c' n = getAttributes c n ++ attrs.map fun a => ⟨a.1, E.value a.2⟩ := by
  have hm : (⟨n, [n], ⟨.float, some (.float, vals), none⟩⟩ : Var (Pay DataType (Option K) O)) ∈ c1.vars := h.vars ▸ List.mem_append_right _ (List.mem_singleton.2 rfl)
  refine ⟨h0.keeps _ hm, ?_⟩
  rw [← h.own]
  unfold getAttributes
  rw [h0.attrs n (.inr ⟨_, hm, rfl⟩)]

theorem spread_centred [CharZero K] (x d : K) (n : Nat) : Centred x d n (spread (some x) (some d) n) := by
  refine ⟨fun i => x - d * ((n : K) - 1) / 2 + i * d, rfl, fun i => ?_, fun hn => ?_⟩
  · push_cast
    ring
  · obtain ⟨k, rfl⟩ := Nat.exists_eq_succ_of_ne_zero hn
    have h2 : (2 : K) ≠ 0 := by exact_mod_cast (Nat.cast_ne_zero (R := K)).2 (by decide : (2 : Nat) ≠ 0)
    simp only [Nat.succ_eq_add_one, Nat.add_sub_cancel]
    push_cast
    field_simp
    ring

/-- The horizontal axes: dimension, attribute of the distance, standard name in metres and in degrees. -/
def directions : List (String × String × String × String × Bool) :=
  [("west_east", "DX", "projection_x_axis", "grid_longitude", true), ("west_east_stag", "DX", "projection_x_axis", "grid_longitude", true),
    ("south_north", "DY", "projection_y_axis", "grid_latitude", false), ("south_north_stag", "DY", "projection_y_axis", "grid_latitude", false)]

omit [Field K] in
/-- The variables after making one axis. -/
theorem Made.only {c1 : Ds V CS K O} {n : String} (h : c1 = c ∨ ∃ attrs vals, Added E c c1 n attrs vals) (m : String) (hm : m ≠ n) :
    hasVariable c1 m = hasVariable c m ∧ getAttributes c1 m = getAttributes c m := by
  rcases h with rfl | ⟨attrs, vals, h⟩
  · exact ⟨rfl, rfl⟩
  · constructor
    · unfold hasVariable
      rw [h.vars, List.any_append]
      have : (n == m) = false := by simpa using fun e : n = m => hm e.symm
      simp [this]
    · unfold getAttributes
      rw [h.attrs m hm]

theorem horizontal_cases {latLon : Bool} {x : Option K} {n delta metres degrees : String} {t : AxisType} {r : Option Axis}
    (h : horizontal E latLon x n delta metres degrees t c = (c', .ok r)) : c' = c ∨ ∃ attrs vals, Added E c c' n attrs vals := by
  obtain ⟨h1, h2, h3⟩ := horizontal_ok h
  cases hd : hasDimension c n with
  | false => exact .inl (h1.none hd).2
  | true =>
    cases hv : hasVariable c n with
    | true => exact .inl (h2 hd hv)
    | false =>
      obtain ⟨_, _, _, -, -, -, ha⟩ := h3 hd hv
      exact .inr ⟨_, _, ha⟩

theorem vertical_cases {n : String} {r : Option Axis} (h : vertical E n c = (c', .ok r)) : c' = c ∨ ∃ attrs vals, Added E c c' n attrs vals := by
  obtain ⟨h1, h2, h3⟩ := vertical_ok h
  cases hd : hasDimension c n with
  | false => exact .inl (h1.none hd).2
  | true =>
    cases hv : hasVariable c n with
    | true => exact .inl (h2 hd hv)
    | false =>
      obtain ⟨_, -, ha⟩ := h3 hd hv
      exact .inr ⟨_, _, ha⟩

/-- **C109, horizontal axes.**  A horizontal dimension without a variable gets one: its values are equally spaced, by the distance of the global attribute (as an
angle on the sphere for longitude and latitude), and the middle is the centre of the grid in the projection; units and standard name are those of the direction. -/
theorem C109_axes [CharZero K] {r : List (System Pr)} {t : String} {b : Bool} (hc : Named c) (hp : Projected E c t b) (h : listWrf E c = (c', .ok r)) :
    ∃ x y, Centre E c t b x y ∧ ∀ e ∈ directions, ∀ dim, getDimension c e.1 = .ok dim → hasVariable c e.1 = false →
      ∃ a d, getAttribute c globalNS e.2.1 = .ok a ∧ E.num a.value = .ok d ∧
      ∃ vals, (⟨e.1, [e.1], ⟨.float, some (.float, vals), none⟩⟩ : Var (Pay DataType (Option K) O)) ∈ c'.vars ∧ vals.length = dim.length ∧
        getAttributes c' e.1 = getAttributes c e.1 ++
          [⟨"units", E.value (if b then "degree" else "m")⟩, ⟨"standard_name", E.value (if b then e.2.2.2.1 else e.2.2.1)⟩] ∧
        ∀ x' d', (if e.2.2.2.2 then x else y) = some x' → (if b then (E.toDeg d).map fun x => x / 6370000 else d) = some d' → Centred x' d' dim.length vals := by
  obtain ⟨p, x, y, A, m, -, hcen, -, hA, -, -, -, -⟩ := listWrf_parts hc hp h
  refine ⟨x, y, hcen, ?_⟩
  obtain ⟨c1, c2, c3, c4, c5, c6, h1, h2, h3, h4, h5, h6, h7, e1, e2, e3, e4, e5, e6, e7⟩ := allAxes_split hc hA
  have main : ∀ {d0 d1 : Ds V CS K O} {n delta metres degrees : String} {z : Option K} {ty : AxisType} {r : Option Axis}, Extends c d0 → Extends d1 c' →
      hasVariable d0 n = hasVariable c n → getAttributes d0 n = getAttributes c n → horizontal E b z n delta metres degrees ty d0 = (d1, .ok r) →
      ∀ dim, getDimension c n = .ok dim → hasVariable c n = false →
      ∃ a d, getAttribute c globalNS delta = .ok a ∧ E.num a.value = .ok d ∧
      ∃ vals, (⟨n, [n], ⟨.float, some (.float, vals), none⟩⟩ : Var (Pay DataType (Option K) O)) ∈ c'.vars ∧ vals.length = dim.length ∧
        getAttributes c' n = getAttributes c n ++
          [⟨"units", E.value (if b then "degree" else "m")⟩, ⟨"standard_name", E.value (if b then degrees else metres)⟩] ∧
        ∀ x' d', z = some x' → (if b then (E.toDeg d).map fun x => x / 6370000 else d) = some d' → Centred x' d' dim.length vals := by
    intro d0 d1 n delta metres degrees z ty r x0 x1 hv ha hh dim hd hn
    have hdim : hasDimension d0 n = true := by
      rw [x0.hasDimension]
      obtain ⟨k1, k2⟩ := getDimension_some hd
      unfold hasDimension
      rw [List.any_eq_true]
      exact ⟨dim, k1, by simpa using k2⟩
    obtain ⟨a, d, dim', k1, k2, k3, k4⟩ := (horizontal_ok hh).2.2 hdim (hv.trans hn)
    rw [x0.getAttribute] at k1
    rw [x0.getDimension, hd] at k3
    cases k3
    obtain ⟨k5, k6⟩ := k4.final x1
    refine ⟨a, d, k1, k2, _, k5, by simp [spread], ?_, ?_⟩
    · rw [k6, ha]
      cases b <;> rfl
    · rintro x' d' rfl hd'
      rw [hd']
      exact spread_centred x' d' dim.length
  have o1 := fun m hm => Made.only (horizontal_cases h1) m hm
  have o2 := fun m hm => Made.only (horizontal_cases h2) m hm
  have o3 := fun m hm => Made.only (horizontal_cases h3) m hm
  have n1 : "west_east_stag" ≠ "west_east" ∧ "south_north" ≠ "west_east" ∧ "south_north" ≠ "west_east_stag" ∧ "south_north_stag" ≠ "west_east" ∧
      "south_north_stag" ≠ "west_east_stag" ∧ "south_north_stag" ≠ "south_north" := by decide +kernel
  intro e he
  simp only [directions, List.mem_cons, List.not_mem_nil, or_false] at he
  rcases he with rfl | rfl | rfl | rfl
  · exact main (Extends.refl hc) (e2.trans (e3.trans (e4.trans (e5.trans (e6.trans e7))))) rfl rfl h1
  · exact main e1 (e3.trans (e4.trans (e5.trans (e6.trans e7)))) (o1 _ n1.1).1 (o1 _ n1.1).2 h2
  · exact main (e1.trans e2) (e4.trans (e5.trans (e6.trans e7))) ((o2 _ n1.2.2.1).1.trans (o1 _ n1.2.1).1) ((o2 _ n1.2.2.1).2.trans (o1 _ n1.2.1).2) h3
  · exact main (e1.trans (e2.trans e3)) (e5.trans (e6.trans e7))
      ((o3 _ n1.2.2.2.2.2).1.trans ((o2 _ n1.2.2.2.2.1).1.trans (o1 _ n1.2.2.2.1).1))
      ((o3 _ n1.2.2.2.2.2).2.trans ((o2 _ n1.2.2.2.2.1).2.trans (o1 _ n1.2.2.2.1).2)) h4

/-- The dimensions that the builder knows. -/
def known : List String := ["west_east", "west_east_stag", "south_north", "south_north_stag", "bottom_top", "bottom_top_stag", "Time"]

theorem allAxes_only {b : Bool} {x y : Option K} {A : Axes} (hc : Named c) (h : allAxes E b x y c = (c', .ok A)) (q : String) (hq : q ∉ known) :
    hasVariable c' q = hasVariable c q := by
  obtain ⟨c1, c2, c3, c4, c5, c6, h1, h2, h3, h4, h5, h6, h7, -⟩ := allAxes_split hc h
  simp only [known, List.mem_cons, List.not_mem_nil, or_false, not_or] at hq
  obtain ⟨q1, q2, q3, q4, q5, q6, q7⟩ := hq
  have o7 : hasVariable c' q = hasVariable c6 q := by
    obtain ⟨-, k1, k2⟩ := time_ok h7
    cases hv : hasVariable c6 "Time" with
    | true => rw [k1 hv]
    | false =>
      obtain ⟨_, _, _, -, -, -, ha⟩ := addTime_ok (k2 hv).2.2
      exact (Made.only (.inr ⟨_, _, ha⟩) q q7).1
  rw [o7, (Made.only (vertical_cases h6) q q6).1, (Made.only (vertical_cases h5) q q5).1, (Made.only (horizontal_cases h4) q q4).1,
    (Made.only (horizontal_cases h3) q q3).1, (Made.only (horizontal_cases h2) q q2).1, (Made.only (horizontal_cases h1) q q1).1]

theorem plain_after {b : Bool} {x y : Option K} {A : Axes} (hc : Named c) (h : allAxes E b x y c = (c', .ok A)) (hp : PlainShapes c) : PlainShapes c' := by
  intro v hv n hn
  have hx : Extends c c' := grows_of allAxes_grows hc h
  rcases hx.fresh v hv with h1 | ⟨h1, h2 | ⟨-, h2⟩⟩
  · exact hp v h1 n hn
  · rw [h2, List.mem_singleton] at hn
    by_cases hk : v.name ∈ known
    · rw [hn]
      have : ∀ q ∈ known, q ≠ "" ∧ ',' ∉ q.toList := by decide +kernel
      exact this _ hk
    · have h3 := allAxes_only hc h v.name hk
      rw [hasVariable_true.2 ⟨v, hv, rfl⟩] at h3
      obtain ⟨w, hw, he⟩ := hasVariable_true.1 h3.symm
      exact absurd he (h1 w hw)
  · rw [h2] at hn
    cases hn

/-- **C109, coordinate systems.**  Every variable on a horizontal grid has exactly one system: its axes are those of the dimensions of the variable, with the types of
the WRF dimensions, and it is a simple grid in the projection; no other variable has one.  Partial: names of dimensions with a comma, see
`C109_comma`, and the cases that raise, see `C109_needs`. -/
theorem C109_systems_partial {r : List (System Pr)} {t : String} {b : Bool} (hc : Named c) (hp : Projected E c t b) (h : listWrf E c = (c', .ok r))
    (hpl : PlainShapes c) :
    (∀ v ∈ c'.vars, OnGrid v → ∃ s ∈ r, v.name ∈ s.isFor ∧ v.name ∈ s.complete ∧ s.convention = "WRF" ∧ s.simple = true ∧
      (∃ p, E.create t = .ok p ∧ s.proj = some p) ∧
      (∀ n, HasAxis s n ↔ n ∈ v.shape) ∧ (∀ a ∈ getAxes s.axes, IsAxis c' a.name (typeOf a.name) a) ∧ Consistent s.axes ∧
      (∀ n, n ∈ s.deps ↔ n = "Times" ∧ "Time" ∈ v.shape) ∧ ∀ s' ∈ r, v.name ∈ s'.isFor ∨ v.name ∈ s'.complete → s' = s) ∧
    ∀ s ∈ r, ∀ n, n ∈ s.isFor ∨ n ∈ s.complete → ∃ v ∈ c'.vars, v.name = n ∧ OnGrid v := by
  obtain ⟨p, x, y, A, m, hcr, -, -, hA, -, -, hm, rfl⟩ := listWrf_parts hc hp h
  replace hpl := plain_after hc hA hpl
  have hn : Named c' := by
    have := listWrf_grows (E := E) c hc
    rw [h] at this
    exact this.named
  constructor
  · intro v hv hg
    obtain ⟨e, he, hk⟩ := hm.all v hv (isGrid_iff.2 hg)
    obtain ⟨w, hw, -, hk', hs⟩ := hm.shape e he
    have hsh : w.shape = v.shape := by
      refine join_inj (hpl w hw) (hpl v hv) ?_
      have := hk'.symm.trans hk
      unfold shapeId at this
      exact String.ofList_injective this
    rw [hsh] at hs
    have hin : ∃ u ∈ c'.vars, isGrid u.shape = true ∧ e.1 = shapeId u.shape ∧ u.name = v.name := ⟨v, hv, isGrid_iff.2 hg, hk, rfl⟩
    refine ⟨e.2, List.mem_map_of_mem he, (hm.isFor e he _).2 hin, (hm.complete e he _).2 hin, hs.convention, hs.simple, ⟨p, hcr, hs.proj⟩, hs.names, hs.axes,
      hs.consistent, hs.deps, ?_⟩
    intro s' hs' hor
    obtain ⟨e', he', rfl⟩ := List.mem_map.1 hs'
    have : ∃ u ∈ c'.vars, isGrid u.shape = true ∧ e'.1 = shapeId u.shape ∧ u.name = v.name := by
      rcases hor with hor | hor
      · exact (hm.isFor e' he' _).1 hor
      · exact (hm.complete e' he' _).1 hor
    obtain ⟨u, hu, -, hku, hun⟩ := this
    have huv : u = v := List.inj_on_of_nodup_map hn hu hv hun
    subst huv
    have hnd : (m.map (·.1)).Nodup := hm.sorted.imp fun h => ne_of_lt h
    rw [List.inj_on_of_nodup_map hnd he' he (hku.trans hk.symm)]
  · intro s hs n hor
    obtain ⟨e, he, rfl⟩ := List.mem_map.1 hs
    have : ∃ u ∈ c'.vars, isGrid u.shape = true ∧ e.1 = shapeId u.shape ∧ u.name = n := by
      rcases hor with hor | hor
      · exact (hm.isFor e he _).1 hor
      · exact (hm.complete e he _).1 hor
    obtain ⟨u, hu, hg, -, hun⟩ := this
    exact ⟨u, hu, hun, isGrid_iff.1 hg⟩

omit [Field K] in
theorem wrfIsMine_extends (h : Extends c c') : wrfIsMine c' = wrfIsMine c := by
  unfold wrfIsMine
  rw [h.hasDimension, h.getAttribute]

/-- **C109, repeated listing.**  After a listing that has not raised, a second one leaves the dataset as it is and gives the same systems. -/
theorem C109_again {r : List (System Pr)} (hc : Named c) (h : listWrf E c = (c', .ok r)) : listWrf E c' = (c', .ok r) := by
  have hx : Extends c c' := grows_of listWrf_grows hc h
  have h0 := h
  unfold listWrf at h ⊢
  rw [wrfIsMine_extends hx]
  by_cases hmine : wrfIsMine c = true
  · rw [hmine] at h ⊢
    simp only [Bool.not_true, Bool.false_eq_true, if_false] at h ⊢
    obtain ⟨c1, q, h1, g1⟩ := bind_ok h
    obtain rfl := projText_same h1
    rw [bind_of_ok (projText_stable _ _ _ c' hc h1 hx)]
    rcases q with _ | ⟨t, b⟩
    · dsimp only at g1 ⊢
      rw [pure_apply] at g1 ⊢
      cases g1
      rfl
    · obtain ⟨p, x, y, A, m, -, -, hcen, hA, -, hm, -, rfl⟩ := listWrf_parts hc ⟨hmine, by rw [h1]⟩ h0
      dsimp only
      rw [bind_of_ok (centre_stable _ _ _ c' hc hcen hx), bind_of_ok (allAxes_stable _ _ _ c' hc hA (Extends.refl hx.named)), bind_of_ok (m := fun c => systems (p, x, y).1 A c.vars [] c) hm, pure_apply]
  · rw [Bool.eq_false_iff.2 hmine] at h ⊢
    simp only [Bool.not_false, if_true] at h ⊢
    cases h
    rfl

/-- **C109, what is needed.**  A listing does not succeed if there is neither a variable for the time nor a reference time, or if a variable on the grid has a further
dimension without a variable: the type of the new variable is not that of its data. -/
theorem C109_needs {r : List (System Pr)} {t : String} {b : Bool} (hc : Named c) (hp : Projected E c t b) (h : listWrf E c = (c', .ok r)) (hpl : PlainShapes c) :
    (hasVariable c "Time" = true ∨ hasVariable c "forecast_reference_time" = true) ∧
    ∀ v ∈ c.vars, OnGrid v → ∀ n ∈ v.shape, n ∉ known → hasVariable c n = true := by
  constructor
  · obtain ⟨p, x, y, A, m, -, -, -, hA, -, -, -, -⟩ := listWrf_parts hc hp h
    obtain ⟨c1, c2, c3, c4, c5, c6, h1, h2, h3, h4, h5, h6, h7, -⟩ := allAxes_split hc hA
    have hT : ∀ q, q ∉ ["west_east", "west_east_stag", "south_north", "south_north_stag", "bottom_top", "bottom_top_stag"] → hasVariable c6 q = hasVariable c q := by
      intro q hq
      simp only [List.mem_cons, List.not_mem_nil, or_false, not_or] at hq
      obtain ⟨q1, q2, q3, q4, q5, q6⟩ := hq
      rw [(Made.only (vertical_cases h6) q q6).1, (Made.only (vertical_cases h5) q q5).1, (Made.only (horizontal_cases h4) q q4).1,
        (Made.only (horizontal_cases h3) q q3).1, (Made.only (horizontal_cases h2) q q2).1, (Made.only (horizontal_cases h1) q q1).1]
    cases hv : hasVariable c6 "Time" with
    | true => exact .inl ((hT "Time" (by decide +kernel)).symm.trans hv)
    | false => exact .inr ((hT "forecast_reference_time" (by decide +kernel)).symm.trans ((time_ok h7).2.2 hv).2.1)
  · intro v hv hg n hn hk
    have hx : Extends c c' := grows_of listWrf_grows hc h
    obtain ⟨s, -, -, -, -, -, -, h1, h2, -⟩ := (C109_systems_partial hc hp h hpl).1 v (hx.keeps v hv) hg
    obtain ⟨a, ha, rfl⟩ := (h1 n).2 hn
    obtain ⟨w, hw, -⟩ := h2 a ha
    obtain ⟨p, x, y, A, m, -, -, -, hA, -, -, -, -⟩ := listWrf_parts hc hp h
    rw [← allAxes_only hc hA a.name hk]
    exact hasVariable_true.2 ⟨w, getVariable_some hw⟩

/-- **C109, levels and time.**  A vertical dimension without a variable gets one with the numbers of the levels; a time without one gets hours in steps of the
attribute, or of three hours, since the start. -/
theorem C109_levels_time {r : List (System Pr)} {t : String} {b : Bool} (hc : Named c) (hp : Projected E c t b) (h : listWrf E c = (c', .ok r)) :
    (∀ n ∈ ["bottom_top", "bottom_top_stag"], ∀ dim, getDimension c n = .ok dim → hasVariable c n = false →
      (⟨n, [n], ⟨.float, some (.float, (List.range dim.length).map fun (i : Nat) => some (i : K)), none⟩⟩ : Var (Pay DataType (Option K) O)) ∈ c'.vars ∧
      getAttributes c' n = getAttributes c n ++ [⟨"units", E.value "1"⟩]) ∧
    (hasVariable c "Time" = false → ∃ dim units step, getDimension c "Time" = .ok dim ∧ sinceDate E "START_DATE" c = (c, .ok units) ∧
      ((∃ a, getAttribute c globalNS "TIME_STEP_MN" = .ok a ∧ E.num a.value = .ok step) ∨
        ((∀ a, getAttribute c globalNS "TIME_STEP_MN" ≠ .ok a) ∧ step = some 180)) ∧
      getAttributes c' "Time" = getAttributes c "Time" ++ [⟨"units", E.value units⟩] ∧
      ∃ vals, (⟨"Time", ["Time"], ⟨.float, some (.float, vals), none⟩⟩ : Var (Pay DataType (Option K) O)) ∈ c'.vars ∧ vals.length = dim.length ∧
        ∀ q, step = some q → ∀ i < dim.length, vals[i]? = some (some (i * (q / 60)))) := by
  obtain ⟨p, x, y, A, m, -, -, -, hA, -, -, -, -⟩ := listWrf_parts hc hp h
  obtain ⟨c1, c2, c3, c4, c5, c6, h1, h2, h3, h4, h5, h6, h7, e1, e2, e3, e4, e5, e6, e7⟩ := allAxes_split hc hA
  have o4 : ∀ q, q ∉ ["west_east", "west_east_stag", "south_north", "south_north_stag"] →
      hasVariable c4 q = hasVariable c q ∧ getAttributes c4 q = getAttributes c q := by
    intro q hq
    simp only [List.mem_cons, List.not_mem_nil, or_false, not_or] at hq
    obtain ⟨q1, q2, q3, q4⟩ := hq
    rw [(Made.only (horizontal_cases h4) q q4).1, (Made.only (horizontal_cases h3) q q3).1, (Made.only (horizontal_cases h2) q q2).1,
      (Made.only (horizontal_cases h1) q q1).1, (Made.only (horizontal_cases h4) q q4).2, (Made.only (horizontal_cases h3) q q3).2,
      (Made.only (horizontal_cases h2) q q2).2, (Made.only (horizontal_cases h1) q q1).2]
    exact ⟨rfl, rfl⟩
  have x4 : Extends c c4 := e1.trans (e2.trans (e3.trans e4))
  have hdim : ∀ {n : String} {dim : Dim}, getDimension c n = .ok dim → hasDimension c n = true := by
    intro n dim hd
    obtain ⟨k1, k2⟩ := getDimension_some hd
    unfold hasDimension
    rw [List.any_eq_true]
    exact ⟨dim, k1, by simpa using k2⟩
  have main : ∀ {d0 d1 : Ds V CS K O} {n : String} {r : Option Axis}, Extends c d0 → Extends d1 c' →
      hasVariable d0 n = hasVariable c n ∧ getAttributes d0 n = getAttributes c n → vertical E n d0 = (d1, .ok r) →
      ∀ dim, getDimension c n = .ok dim → hasVariable c n = false →
      (⟨n, [n], ⟨.float, some (.float, (List.range dim.length).map fun (i : Nat) => some (i : K)), none⟩⟩ : Var (Pay DataType (Option K) O)) ∈ c'.vars ∧
      getAttributes c' n = getAttributes c n ++ [⟨"units", E.value "1"⟩] := by
    intro d0 d1 n r x0 x1 hva hh dim hd hn
    obtain ⟨dim', k3, k4⟩ := (vertical_ok hh).2.2 (by rw [x0.hasDimension]; exact hdim hd) (hva.1.trans hn)
    rw [x0.getDimension, hd] at k3
    cases k3
    obtain ⟨k5, k6⟩ := k4.final x1
    exact ⟨k5, by rw [k6, hva.2]; rfl⟩
  have o5 := o4 "bottom_top_stag" (by decide +kernel)
  have o6 := Made.only (vertical_cases h5) "bottom_top_stag" (by decide +kernel)
  constructor
  · intro n hn
    simp only [List.mem_cons, List.not_mem_nil, or_false] at hn
    rcases hn with rfl | rfl
    · exact main x4 (e6.trans e7) (o4 _ (by decide +kernel)) h5
    · exact main (x4.trans e5) e7 ⟨o6.1.trans o5.1, o6.2.trans o5.2⟩ h6
  · intro hv
    have o7 : hasVariable c6 "Time" = hasVariable c "Time" ∧ getAttributes c6 "Time" = getAttributes c "Time" := by
      have k6 := Made.only (vertical_cases h6) "Time" (by decide +kernel)
      have k5 := Made.only (vertical_cases h5) "Time" (by decide +kernel)
      have k4 := o4 "Time" (by decide +kernel)
      exact ⟨k6.1.trans (k5.1.trans k4.1), k6.2.trans (k5.2.trans k4.2)⟩
    obtain ⟨dim, units, step, k1, k2, k3, k4⟩ := addTime_ok ((time_ok h7).2.2 (o7.1.trans hv)).2.2
    have x6 := x4.trans (e5.trans e6)
    obtain ⟨k5, k6⟩ := k4.final (Extends.refl e7.named)
    refine ⟨dim, units, step, (x6.getDimension _).symm.trans k1, ?_, ?_, ?_, _, k5, by simp, ?_⟩
    · unfold sinceDate at k2 ⊢
      obtain ⟨d1, s1, k7, k8⟩ := bind_ok k2
      obtain ⟨rfl, k7⟩ := read_ok k7
      obtain ⟨-, k8⟩ := read_ok k8
      have k9 : globalAttr (fun v => Res.ok (E.text v)) "START_DATE" c = (c, .ok s1) := by
        unfold globalAttr
        rw [read_apply, ← x6.getAttribute, k7]
      rw [bind_of_ok k9, read_apply, k8]
    · rw [x6.getAttribute] at k3
      cases ha : getAttribute c globalNS "TIME_STEP_MN" with
      | ok a =>
        rw [ha] at k3
        exact .inl ⟨a, rfl, k3⟩
      | throws =>
        rw [ha] at k3
        cases k3
        exact .inr ⟨fun a h => (by cases h), rfl⟩
      | ub =>
        rw [ha] at k3
        cases k3
        exact .inr ⟨fun a h => (by cases h), rfl⟩
    · rw [k6, o7.2]
      rfl
    · rintro q rfl i hi
      rw [List.getElem?_map, List.getElem?_range hi]
      simp [mul_comm]

/-- Words with spaces between. -/
def sentence : List String → String
  | [] => ""
  | [w] => w
  | w :: l => w ++ " " ++ sentence l

/-- The words of the text of a projection. -/
def wordsOf (E : Ext V Pr K) (lat1 lat2 cenLat cenLon lon lat poleLat poleLon : Option K) : Int → Option (List String × Bool)
  | 1 => some (["+proj=lcc", "+lon_0=" ++ E.str lon, "+lat_0=" ++ E.str lat, "+lat_1=" ++ E.str lat1, "+lat_2=" ++ E.str lat2], false)
  | 2 => some (["+proj=stere", "+lon_0=" ++ E.str (lon.or cenLon), "+lat_0=" ++ E.str (cenLat.or lat2), "+k=" ++ E.str (E.scale lat1)], false)
  | 3 => some (["+proj=merc", "+lon_0=" ++ E.str lon, "+lat_0=" ++ E.str lat], false)
  | 6 => some (["+proj=ob_tran", "+o_proj=longlat", "+lon_0=" ++ E.str (lon.map fun x => -x), "+o_lon_p=" ++ E.str (poleLon.map fun x => 180 - x), "+o_lat_p=" ++ E.str poleLat], true)
  | _ => none

/-- **C109, projection.**  The text of the projection, as a table by the number of the projection in the dataset. -/
theorem C109_projection {r : Option (String × Bool)} (h : projText E c = (c', .ok r)) :
    ∃ lat1 lat2 cenLat cenLon lon lat poleLat poleLon a id, Num E c "TRUELAT1" lat1 ∧ Num E c "TRUELAT2" lat2 ∧ Num E c "CEN_LAT" cenLat ∧ Num E c "CEN_LON" cenLon ∧
      Num E c "STAND_LON" lon ∧ Num E c "MOAD_CEN_LAT" lat ∧ Num E c "POLE_LAT" poleLat ∧ Num E c "POLE_LON" poleLon ∧
      getAttribute c globalNS "MAP_PROJ" = .ok a ∧ E.int a.value = .ok id ∧
      r = (wordsOf E lat1 lat2 cenLat cenLon lon lat poleLat poleLon id).map fun w => (sentence (w.1 ++ ["+R=6370000", "+no_defs"]), w.2) := by
  unfold projText at h
  obtain ⟨c1, lat1, h1, g1⟩ := bind_ok h
  obtain ⟨c2, lat2, h2, g2⟩ := bind_ok g1
  obtain ⟨c3, cenLat, h3, g3⟩ := bind_ok g2
  obtain ⟨c4, cenLon, h4, g4⟩ := bind_ok g3
  obtain ⟨c5, lon, h5, g5⟩ := bind_ok g4
  obtain ⟨c6, lat, h6, g6⟩ := bind_ok g5
  obtain ⟨c7, poleLat, h7, g7⟩ := bind_ok g6
  obtain ⟨c8, poleLon, h8, g8⟩ := bind_ok g7
  obtain ⟨c9, id, h9, g9⟩ := bind_ok g8
  obtain ⟨e1, k1⟩ := attrNum_ok h1
  subst e1
  obtain ⟨e2, k2⟩ := attrNum_ok h2
  subst e2
  obtain ⟨e3, k3⟩ := attrNum_ok h3
  subst e3
  obtain ⟨e4, k4⟩ := attrNum_ok h4
  subst e4
  obtain ⟨e5, k5⟩ := attrNum_ok h5
  subst e5
  obtain ⟨e6, k6⟩ := attrNum_ok h6
  subst e6
  obtain ⟨e7, k7⟩ := attrNum_ok h7
  subst e7
  obtain ⟨e8, k8⟩ := attrNum_ok h8
  subst e8
  obtain ⟨e9, k9⟩ := read_ok h9
  obtain ⟨a, k10, k11⟩ := Res.bind_eq_ok.1 k9
  refine ⟨lat1, lat2, cenLat, cenLon, lon, lat, poleLat, poleLon, a, id, k1, k2, k3, k4, k5, k6, k7, k8, k10, k11, ?_⟩
  clear h h1 h2 h3 h4 h5 h6 h7 h8 h9 g1 g2 g3 g4 g5 g6 g7 g8 k1 k2 k3 k4 k5 k6 k7 k8 k9 k10 k11
  dsimp only at g9
  by_cases i1 : id = 1
  · subst i1
    rw [if_pos rfl, pure_apply] at g9
    cases g9
    simp [wordsOf, sentence, ← String.toList_inj]
  rw [if_neg i1] at g9
  by_cases i2 : id = 2
  · subst i2
    rw [if_pos rfl, pure_apply] at g9
    cases g9
    cases lon <;> cases cenLat <;> simp [wordsOf, sentence, ← String.toList_inj]
  rw [if_neg i2] at g9
  by_cases i3 : id = 3
  · subst i3
    rw [if_pos rfl, pure_apply] at g9
    cases g9
    simp [wordsOf, sentence, ← String.toList_inj]
  rw [if_neg i3] at g9
  by_cases i6 : id = 6
  · subst i6
    rw [if_pos rfl, pure_apply] at g9
    cases g9
    cases lon <;> cases poleLon <;> simp [wordsOf, minus, sentence, ← String.toList_inj]
  rw [if_neg i6, pure_apply] at g9
  cases g9
  unfold wordsOf
  split <;> first | contradiction | rfl

/-! ## Witnesses -/

/-- Texts, numbers and integers as attributes; the projection is its text. -/
def toyE : Ext (String × Option ℚ × Int) String ℚ where
  text v := v.1
  num v := .ok v.2.1
  int v := .ok v.2.2
  str q := match q with | some _ => "1" | none => "nan"
  scale q := q
  toRad q := q
  toDeg q := q
  create t := .ok t
  reproject _ p := .ok p
  value s := (s, none, 0)

/-- A dataset with the given variables. -/
def toyDs (dims : List Dim) (vars : List (String × List String)) : Ds (String × Option ℚ × Int) Unit ℚ Unit where
  attrs n := if n = globalNS then some [⟨"MAP_PROJ", ("", none, 1)⟩, ⟨"CEN_LON", ("", some 10, 0)⟩, ⟨"CEN_LAT", ("", some 60, 0)⟩, ⟨"DX", ("", some 4, 0)⟩,
    ⟨"DY", ("", some 2, 0)⟩, ⟨"START_DATE", ("2020-01-01_00:00:00", none, 0)⟩, ⟨"SIMULATION_START_DATE", ("2020-01-01_00:00:00", none, 0)⟩] else none
  vars := vars.map fun v => ⟨v.1, v.2, ⟨.float, none, none⟩⟩
  dims := dims
  coordsInitialized := false
  coordSystems := ()

/-- Outcome and names of the variables with a system, with the axes. -/
def toyView (r : Ds (String × Option ℚ × Int) Unit ℚ Unit × Res (List (System String))) : Res (List (List String × List String)) :=
  match r.2 with
  | .ok l => .ok (l.map fun s => (s.isFor, s.axes.axes.map (·.name)))
  | .throws => .throws
  | .ub => .ub

/-- The values of a variable. -/
def toyVals (c : Ds (String × Option ℚ × Int) Unit ℚ Unit) (n : String) : Option (List (Option ℚ)) :=
  match getVariable c n with
  | .ok v => v.payload.data.map (·.2)
  | _ => none

def toyDims : List Dim := [⟨"west_east", 3, false⟩, ⟨"south_north", 2, false⟩, ⟨"Time", 2, true⟩]

/-- A dataset with a reference time is listed: values around the centre, one system for the variable on the grid. -/
theorem C109_toy : toyView (listWrf toyE (toyDs toyDims [("T", ["west_east", "south_north", "Time"]), ("Times", ["Time"]), ("forecast_reference_time", [])])) =
      .ok [(["T"], ["west_east", "south_north", "Time"])] ∧
    toyVals (listWrf toyE (toyDs toyDims [("T", ["west_east", "south_north", "Time"]), ("Times", ["Time"]), ("forecast_reference_time", [])])).1 "west_east" =
      some [some 6, some 10, some 14] ∧
    toyVals (listWrf toyE (toyDs toyDims [("T", ["west_east", "south_north", "Time"]), ("Times", ["Time"]), ("forecast_reference_time", [])])).1 "Time" =
      some [some 0, some 3] := by
  decide +kernel

/-- A usual dataset has no reference time: the first listing raises; the half made variable stays, so that the second does not. -/
theorem C109_first_raises : toyView (listWrf toyE (toyDs toyDims [("T", ["west_east", "south_north", "Time"]), ("Times", ["Time"])])) = .throws ∧
    toyView (listWrf toyE (listWrf toyE (toyDs toyDims [("T", ["west_east", "south_north", "Time"]), ("Times", ["Time"])])).1) =
      .ok [(["T"], ["west_east", "south_north", "Time"])] ∧
    toyVals (listWrf toyE (toyDs toyDims [("T", ["west_east", "south_north", "Time"]), ("Times", ["Time"])])).1 "forecast_reference_time" = none := by
  decide +kernel

/-- Names of dimensions with a comma: the second variable gets the system of the first one, which has not its axes. -/
theorem C109_comma : toyView (listWrf toyE (toyDs ([⟨"a,b", 1, false⟩, ⟨"a", 1, false⟩, ⟨"b", 1, false⟩] ++ toyDims)
      [("Time", ["Time"]), ("a,b", ["a,b"]), ("a", ["a"]), ("b", ["b"]), ("S", ["west_east", "south_north", "a,b"]), ("T", ["west_east", "south_north", "a", "b"])])) =
    .ok [(["S", "T"], ["west_east", "south_north", "a,b"])] := by
  decide +kernel

/-- The true latitude of a Mercator projection is not used. -/
theorem C109_mercator (E : Ext V Pr K) (lat1 lat1' lat2 cenLat cenLon lon lat poleLat poleLon : Option K) :
    wordsOf E lat1 lat2 cenLat cenLon lon lat poleLat poleLon 3 = wordsOf E lat1' lat2 cenLat cenLon lon lat poleLat poleLon 3 := rfl

end Fimex.Wrf
