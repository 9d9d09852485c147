import Verif.CoordSys.ProjAttrs

/-!
# From the text to the attributes
-/

namespace Fimex.Proj

variable {K : Type}

/-! ## Small facts -/

/-- The result of a call that returned. -/
def okOf {α : Type} : Res α → Option α
  | .ok a => some a
  | _ => none

/-- The word behind the first of these keys, read as a number. -/
def number (L : Lib K) (keys : List String) (s : Text) : Option K :=
  (search noSpace (keys.map plus) s).bind fun w => okOf (L.string2type w)

theorem kindOfName_name (k : Kind) : kindOfName k.name.toList = some k := by cases k <;> decide +kernel

theorem kindOfName_eq {n : Text} {k : Kind} (h : kindOfName n = some k) : n = k.name.toList := by
  unfold kindOfName at h
  have step : ∀ {c : Prop} [Decidable c] {a : Kind} {b : Option Kind}, (if c then some a else b) = some k → (c ∧ a = k) ∨ b = some k := by
    intro c _ a b h
    split at h
    · cases h; exact .inl ⟨by assumption, rfl⟩
    · exact .inr h
  iterate 17
    rcases step h with ⟨e, rfl⟩ | h
    · exact e
  cases h

section
variable [Field K] [LinearOrder K]

omit [Field K] [LinearOrder K] in
theorem collect_nil {as : List (Attr K)} : collect [] = .ok as ↔ as = [] := by
  show Res.ok [] = .ok as ↔ _
  constructor
  · intro h; cases h; rfl
  · rintro rfl; rfl

omit [Field K] [LinearOrder K] in
theorem collect_cons {r : Res (List (Attr K))} {rs : List (Res (List (Attr K)))} {as : List (Attr K)} :
    collect (r :: rs) = .ok as ↔ ∃ x y, r = .ok x ∧ collect rs = .ok y ∧ as = x ++ y := by
  show (r >>= fun x => collect rs >>= fun y => .ok (x ++ y)) = .ok as ↔ _
  simp only [Res.bind_eq_ok]
  constructor
  · rintro ⟨x, hx, y, hy, e⟩; cases e; exact ⟨x, y, hx, hy, rfl⟩
  · rintro ⟨x, y, hx, hy, rfl⟩; exact ⟨x, hx, y, hy, rfl⟩

omit [Field K] [LinearOrder K] in
theorem number_of_word {L : Lib K} {key : String} {s w : Text} (h : word key s = some w) : number L [key] s = okOf (L.string2type w) := by
  unfold number
  have : search noSpace ([key].map plus) s = some w := h
  rw [this]
  rfl

omit [Field K] [LinearOrder K] in
theorem number_of_no_word {L : Lib K} {key : String} {s : Text} (h : word key s = none) : number L [key] s = none := by
  unfold number
  have : search noSpace ([key].map plus) s = none := h
  rw [this]
  rfl

omit [Field K] [LinearOrder K] in
theorem pushed_ok {L : Lib K} {key attr : String} {s : Text} {x : List (Attr K)} (h : pushed L key attr s = .ok x) :
    x = (number L [key] s).toList.map (num attr) := by
  unfold pushed at h
  cases hw : word key s with
  | none =>
    rw [hw] at h
    rw [number_of_no_word hw]
    cases h; rfl
  | some w =>
    rw [hw] at h
    obtain ⟨v, hv, e⟩ := Res.bind_eq_ok.1 h
    rw [number_of_word hw, hv]
    cases e; rfl

omit [LinearOrder K] in
theorem pushed0_ok {L : Lib K} {key attr : String} {s : Text} {x : List (Attr K)} (h : pushed0 L key attr s = .ok x) :
    x = [num attr ((number L [key] s).getD 0)] := by
  unfold pushed0 at h
  obtain ⟨v, hv, e⟩ := Res.bind_eq_ok.1 h
  cases hw : word key s with
  | none =>
    rw [hw] at hv
    rw [number_of_no_word hw]
    cases hv; cases e; rfl
  | some w =>
    rw [hw] at hv
    rw [number_of_word hw]
    have hv : L.string2type w = .ok v := hv
    rw [hv]
    cases e; rfl

omit [Field K] [LinearOrder K] in
theorem pushedC_eq {L : Lib K} {key attr : String} {s : Text} :
    pushedC L key attr s = ((word key s).map L.strtod).toList.map (num attr) := by
  unfold pushedC
  cases word key s <;> rfl

omit [Field K] [LinearOrder K] in
theorem numberOr_ok {L : Lib K} {d : K} {key : String} {s : Text} {x : K} (h : numberOr L d key s = .ok x) :
    x = (number L [key] s).getD d := by
  unfold numberOr at h
  cases hw : word key s with
  | none =>
    rw [hw] at h
    rw [number_of_no_word hw]
    cases h; rfl
  | some w =>
    rw [hw] at h
    rw [number_of_word hw]
    have h : L.string2type w = .ok x := h
    rw [h]; rfl

/-! ## The earth -/

omit [LinearOrder K] in
theorem earthAttributes_ok {L : Lib K} {s : Text} {e : List (Attr K)} (h : earthAttributes L s = .ok e) :
    ∃ A T, axesFrom L s = .ok A ∧ towgs84From L s = .ok T ∧
      e = (number L ["x_0"] s).toList.map (num "false_easting") ++ ((number L ["y_0"] s).toList.map (num "false_northing") ++
        (A ++ ((match ellipsoidName s with | some n => ellipsoid n | none => []) ++ T))) := by
  unfold earthAttributes at h
  obtain ⟨x1, y1, h1, k1, rfl⟩ := collect_cons.1 h
  obtain ⟨x2, y2, h2, k2, rfl⟩ := collect_cons.1 k1
  obtain ⟨x3, y3, h3, k3, rfl⟩ := collect_cons.1 k2
  obtain ⟨x4, y4, h4, k4, rfl⟩ := collect_cons.1 k3
  obtain ⟨x5, y5, h5, k5, rfl⟩ := collect_cons.1 k4
  rw [collect_nil.1 k5, List.append_nil, pushed_ok h1, pushed_ok h2]
  cases h4
  exact ⟨x3, x5, h3, h5, rfl⟩

omit [LinearOrder K] in
theorem axesFrom_names {L : Lib K} {s : Text} {A : List (Attr K)} (h : axesFrom L s = .ok A) : ∀ a ∈ A, a.name ∈ earthNames := by
  unfold axesFrom at h
  split at h
  · cases h; simp
  · obtain ⟨v, -, h⟩ := Res.bind_eq_ok.1 h
    obtain ⟨r, hr, h⟩ := Res.bind_eq_ok.1 h
    have haxes : ∀ (v w : K), ∀ a ∈ num "semi_major_axis" v :: axes v w, a.name ∈ earthNames := by
      intro v w a ha
      simp only [axes, List.mem_cons, List.not_mem_nil, or_false] at ha
      rcases ha with rfl | rfl | rfl <;> simp [num, earthNames]
    cases r with
    | some l =>
      cases h
      split at hr
      · split at hr
        · cases hr
        · obtain ⟨e, -, he⟩ := Res.bind_eq_ok.1 hr
          cases he
          exact haxes _ _
      · cases hr
    | none =>
      dsimp only at h
      split at h
      · obtain ⟨b, -, h⟩ := Res.bind_eq_ok.1 h
        cases h
        exact haxes _ _
      · cases h
        intro a ha
        simp only [List.mem_cons, List.not_mem_nil, or_false] at ha
        rcases ha with rfl | rfl <;> simp [num, earthNames]

omit [LinearOrder K] in
theorem ellipsoid_names (n : Text) : ∀ a ∈ (ellipsoid n : List (Attr K)), a.name ∈ earthNames := by
  have haxes : ∀ (v w : K), ∀ a ∈ axes v w, a.name ∈ earthNames := by
    intro v w a ha
    simp only [axes, List.mem_cons, List.not_mem_nil, or_false] at ha
    rcases ha with rfl | rfl <;> simp [num, earthNames]
  unfold ellipsoid
  dsimp only
  repeat' split
  all_goals first | exact haxes _ _ | skip
  · intro a ha
    simp only [List.mem_cons, List.not_mem_nil, or_false] at ha
    rcases ha with rfl | rfl <;> simp [num, earthNames]
  · simp

omit [LinearOrder K] in
theorem towgs84From_names {L : Lib K} {s : Text} {T : List (Attr K)} (h : towgs84From L s = .ok T) : ∀ a ∈ T, a.name = "towgs84" := by
  unfold towgs84From at h
  split at h
  · obtain ⟨v, -, h⟩ := Res.bind_eq_ok.1 h
    cases h; simp
  · split at h <;> cases h <;> simp

/-- Names of what the earth contributes. -/
def earthSide : List String := earthNames ++ ["false_easting", "false_northing", "towgs84"]

omit [LinearOrder K] in
theorem earthAttributes_names {L : Lib K} {s : Text} {e : List (Attr K)} (h : earthAttributes L s = .ok e) :
    ∀ a ∈ e, a.name ∈ earthSide := by
  obtain ⟨A, T, hA, hT, rfl⟩ := earthAttributes_ok h
  intro a ha
  simp only [List.mem_append, List.mem_map] at ha
  unfold earthSide
  rcases ha with ⟨v, -, rfl⟩ | ⟨v, -, rfl⟩ | ha | ha | ha
  · simp [num]
  · simp [num]
  · exact List.mem_append_left _ (axesFrom_names hA a ha)
  · split at ha
    · exact List.mem_append_left _ (ellipsoid_names _ a ha)
    · simp at ha
  · rw [towgs84From_names hT a ha]; simp

omit [LinearOrder K] in
theorem earth_filter {L : Lib K} {s : Text} {e A : List (Attr K)} (h : earthAttributes L s = .ok e) (hA : axesFrom L s = .ok A) :
    (e.filter fun a => a.name ∈ earthNames) = A ++ (match ellipsoidName s with | some n => ellipsoid n | none => []) := by
  obtain ⟨A', T, hA', hT, rfl⟩ := earthAttributes_ok h
  rw [hA] at hA'
  cases hA'
  have h1 : ∀ (o : Option K) (n : String), n ∉ earthNames → ((o.toList.map (num n)).filter fun a => a.name ∈ earthNames) = [] := by
    intro o n hn
    rw [List.filter_eq_nil_iff]
    intro a ha
    obtain ⟨v, -, rfl⟩ := List.mem_map.1 ha
    simp [num, hn]
  have h2 : ∀ l : List (Attr K), (∀ a ∈ l, a.name ∈ earthNames) → (l.filter fun a => a.name ∈ earthNames) = l := by
    intro l hl
    rw [List.filter_eq_self]
    intro a ha
    simpa using hl a ha
  have h3 : (T.filter fun a => a.name ∈ earthNames) = [] := by
    rw [List.filter_eq_nil_iff]
    intro a ha
    rw [towgs84From_names hT a ha]
    decide
  rw [List.filter_append, List.filter_append, List.filter_append, List.filter_append, h1 _ _ (by decide), h1 _ _ (by decide),
    h2 _ (axesFrom_names hA), h3, h2 _ (by split; exact ellipsoid_names _; simp)]
  simp

/-! ## The attributes of a class -/

/-- Attributes from the text: the name of the class, its own attributes, and those of the earth. -/
structure Shape (L : Lib K) (s : Text) (k : Kind) (as : List (Attr K)) (front e back : List (Attr K)) : Prop where
  eq : as = txt "grid_mapping_name" k.name.toList :: (front ++ (e ++ back))
  earth : earthAttributes L s = .ok e
  front : ∀ a ∈ front, a.name ∉ earthNames ∧ a.name ≠ "grid_mapping_name"
  back : ∀ a ∈ back, a.name = "proj4"

omit [Field K] [LinearOrder K] in
/-- The own attributes of a class: a list of `num`. -/
theorem front_names {front : List (Attr K)} {names : List String} (h : ∀ a ∈ front, a.name ∈ names)
    (hn : ∀ n ∈ names, n ∉ earthNames ∧ n ≠ "grid_mapping_name") : ∀ a ∈ front, a.name ∉ earthNames ∧ a.name ≠ "grid_mapping_name" :=
  fun a ha => hn _ (h a ha)

omit [Field K] [LinearOrder K] in
theorem parallelsFrom_ok {L : Lib K} {s : Text} {x : List (Attr K)} (h : parallelsFrom L s = .ok x) :
    x = match number L ["lat_1"] s with
      | none => []
      | some l1 => [⟨"standard_parallel", .nums (l1 :: (number L ["lat_2"] s).toList)⟩] := by
  unfold parallelsFrom at h
  cases h1 : word "lat_1" s with
  | none => rw [h1] at h; cases h; rw [number_of_no_word h1]
  | some w =>
    rw [h1] at h
    obtain ⟨l1, e1, h⟩ := Res.bind_eq_ok.1 h
    rw [number_of_word h1, e1]
    cases h2 : word "lat_2" s with
    | none => rw [h2] at h; cases h; rw [number_of_no_word h2]; rfl
    | some w2 =>
      rw [h2] at h
      obtain ⟨l2, e2, h⟩ := Res.bind_eq_ok.1 h
      rw [number_of_word h2, e2]
      cases h; rfl

/-- The own attributes of the class in the text, in order. -/
def ownOf (L : Lib K) (s : Text) : Kind → List (Attr K)
  | .albers | .lambertConformal =>
    (match number L ["lat_1"] s with
      | none => []
      | some l1 => [⟨"standard_parallel", .nums (l1 :: (number L ["lat_2"] s).toList)⟩]) ++
    [num "longitude_of_central_meridian" ((number L ["lon_0"] s).getD 0),
     num "latitude_of_projection_origin" ((number L ["lat_0"] s).getD 0)]
  | .azimuthalEquidistant | .lambertAzimuthal | .orthographic =>
    [num "longitude_of_projection_origin" ((number L ["lon_0"] s).getD 0),
     num "latitude_of_projection_origin" ((number L ["lat_0"] s).getD 0)]
  | .geostationary =>
    [num "longitude_of_projection_origin" ((number L ["lon_0"] s).getD 0),
     num "latitude_of_projection_origin" ((number L ["lat_0"] s).getD 0),
     num "perspective_point_height" ((number L ["h"] s).getD 0), txt "sweep_axis" ((word "sweep" s).getD "y".toList)]
  | .lambertCylindrical =>
    num "longitude_of_central_meridian" ((number L ["lon_0"] s).getD 0) ::
      ((number L ["lat_ts"] s).toList.map (num "standard_parallel") ++
       (number L ["k"] s).toList.map (num "scale_factor_at_projection_origin"))
  | .latLong | .unknown => []
  | .mercator =>
    num "longitude_of_projection_origin" ((number L ["lon_0"] s).getD 0) ::
      ((number L ["lat_ts"] s).toList.map (num "standard_parallel") ++
       (number L ["k"] s).toList.map (num "scale_factor_at_projection_origin"))
  | .obliqueMercator =>
    num "longitude_of_projection_origin" ((number L ["lonc"] s).getD 0) ::
      ((number L ["lat_0"] s).toList.map (num "latitude_of_projection_origin") ++
       (num "azimuth_of_central_line" ((number L ["alpha"] s).getD 0) :: num "gamma" ((number L ["gamma"] s).getD 0) ::
        ((number L ["k"] s).toList.map (num "scale_factor_at_projection_origin") ++
         if occurs "+no_rot".toList s then [txt "no_rotation" []] else [])))
  | .polarStereographic =>
    ((word "lon_0" s).map L.strtod).toList.map (num "straight_vertical_longitude_from_pole") ++
      (((word "lat_0" s).map L.strtod).toList.map (num "latitude_of_projection_origin") ++
       if (word "lat_ts" s).isSome then ((word "lat_ts" s).map L.strtod).toList.map (num "standard_parallel")
       else ((word "k" s).map L.strtod).toList.map (num "scale_factor_at_projection_origin"))
  | .rotated => []
  | .sinusoidal => [num "longitude_of_projection_origin" ((number L ["lon_0"] s).getD 0)]
  | .stereographic =>
    ((word "lon_0" s).map L.strtod).toList.map (num "longitude_of_projection_origin") ++
      (((word "lat_0" s).map L.strtod).toList.map (num "latitude_of_projection_origin") ++
       if (word "lat_ts" s).isSome then ((word "lat_ts" s).map L.strtod).toList.map (num "standard_parallel")
       else ((word "k" s).map L.strtod).toList.map (num "scale_factor_at_projection_origin"))
  | .transverseMercator =>
    num "longitude_of_central_meridian" ((number L ["lon_0"] s).getD 0) ::
      ((number L ["lat_0"] s).toList.map (num "latitude_of_projection_origin") ++
       (number L ["k"] s).toList.map (num "scale_factor_at_central_meridian"))
  | .verticalPerspective =>
    [num "longitude_of_projection_origin" ((number L ["lon_0"] s).getD 0),
     num "latitude_of_projection_origin" ((number L ["lat_0"] s).getD 0),
     num "perspective_point_height" ((number L ["h"] s).getD 0)]

omit [Field K] [LinearOrder K] in
theorem opt_names {o : Option K} {n : String} : ∀ a ∈ o.toList.map (num n), a.name = n := by
  intro a ha
  obtain ⟨v, -, rfl⟩ := List.mem_map.1 ha
  rfl

omit [LinearOrder K] in
theorem ownOf_names {L : Lib K} {s : Text} {k : Kind} : ∀ a ∈ ownOf L s k, a.name ∉ earthSide ∧ a.name ≠ "grid_mapping_name" ∧ a.name ≠ "proj4" := by
  have key : ∀ n ∈ ["standard_parallel", "longitude_of_central_meridian", "latitude_of_projection_origin",
      "longitude_of_projection_origin", "perspective_point_height", "sweep_axis", "scale_factor_at_projection_origin",
      "azimuth_of_central_line", "gamma", "no_rotation", "straight_vertical_longitude_from_pole",
      "scale_factor_at_central_meridian"], n ∉ earthSide ∧ n ≠ "grid_mapping_name" ∧ n ≠ "proj4" := by decide
  cases k <;> simp only [ownOf, List.forall_mem_append, List.forall_mem_cons]
  all_goals
    repeat' (first
      | exact key _ (by simp [num, txt])
      | (intro a ha; rw [opt_names a ha]; exact key _ (by simp))
      | (intro a ha; simp at ha; done)
      | apply And.intro
      | split)
  all_goals
    intro a ha
    simp only [List.mem_cons, List.not_mem_nil, or_false] at ha
    rw [ha]
    exact key _ (by simp [txt])

/-- What stands behind the attributes of the earth. -/
def backOf (s : Text) (k : Kind) : List (Attr K) := if k = .unknown then [txt "proj4" s] else []

omit [LinearOrder K] in
theorem stereographicFrom_ok {L : Lib K} {s : Text} {as : List (Attr K)} (h : stereographicFrom L s = .ok as) :
    ∃ e, earthAttributes L s = .ok e ∧
      as = txt "grid_mapping_name" Kind.stereographic.name.toList :: (ownOf L s .stereographic ++ e) := by
  unfold stereographicFrom at h
  obtain ⟨x1, y1, h1, k1, rfl⟩ := collect_cons.1 h
  obtain ⟨x2, y2, h2, k2, rfl⟩ := collect_cons.1 k1
  obtain ⟨x3, y3, h3, k3, rfl⟩ := collect_cons.1 k2
  obtain ⟨x4, y4, h4, k4, rfl⟩ := collect_cons.1 k3
  obtain ⟨x5, y5, h5, k5, rfl⟩ := collect_cons.1 k4
  rw [collect_nil.1 k5, List.append_nil]
  cases h1; cases h2; cases h3; cases h4
  refine ⟨x5, h5, ?_⟩
  simp only [ownOf, pushedC_eq, List.append_assoc]
  rfl

omit [Field K] [LinearOrder K] in
theorem renamed_skip {n : String} {a : Attr K} : ∀ {xs ys : List (Attr K)}, (∀ b ∈ xs, b.name ≠ n) →
    renamed n a (xs ++ ys) = renamed n a ys >>= fun r => .ok (xs ++ r)
  | [], ys, _ => by cases h : renamed n a ys <;> simp [h]
  | b :: xs, ys, h => by
    rw [List.cons_append, renamed, if_neg (h b (by simp)), renamed_skip fun c hc => h c (List.mem_cons_of_mem _ hc)]
    cases h : renamed n a ys <;> simp

omit [Field K] [LinearOrder K] in
theorem renamed_here {n : String} {a b : Attr K} {ys : List (Attr K)} (h : b.name = n) : renamed n a (b :: ys) = .ok (a :: ys) := by
  rw [renamed, if_pos h]

omit [Field K] [LinearOrder K] in
theorem renamed_none {n : String} {a : Attr K} : ∀ {xs : List (Attr K)}, (∀ b ∈ xs, b.name ≠ n) → renamed n a xs = .throws
  | [], _ => rfl
  | b :: xs, h => by
    rw [renamed, if_neg (h b (by simp)), renamed_none fun c hc => h c (List.mem_cons_of_mem _ hc)]
    rfl

omit [LinearOrder K] in
/-- The attributes of a polar stereographic text. -/
theorem polarFrom_eq {L : Lib K} {s : Text} : polarFrom L s =
    stereographicFrom L s >>= fun _ => earthAttributes L s >>= fun e =>
      if word "lon_0" s = none then .throws
      else .ok (txt "grid_mapping_name" Kind.polarStereographic.name.toList :: (ownOf L s .polarStereographic ++ e)) := by
  unfold polarFrom
  cases h : stereographicFrom L s with
  | throws => rfl
  | ub => rfl
  | ok as =>
    obtain ⟨e, he, rfl⟩ := stereographicFrom_ok h
    rw [Res.ok_bind, Res.ok_bind, he, Res.ok_bind, renamed_here (n := "grid_mapping_name") rfl, Res.ok_bind]
    have hrest : ∀ b ∈ (((word "lat_0" s).map L.strtod).toList.map (num "latitude_of_projection_origin") ++
       if (word "lat_ts" s).isSome then ((word "lat_ts" s).map L.strtod).toList.map (num "standard_parallel")
       else ((word "k" s).map L.strtod).toList.map (num "scale_factor_at_projection_origin")) ++ e,
        b.name ≠ "longitude_of_projection_origin" := by
      intro b hb
      rw [List.append_assoc, List.mem_append, List.mem_append] at hb
      rcases hb with hb | hb | hb
      · rw [opt_names b hb]; decide
      · split at hb <;> rw [opt_names b hb] <;> decide
      · have := earthAttributes_names he b hb
        intro e
        rw [e] at this
        revert this; decide
    have hgm : (txt "grid_mapping_name" Kind.polarStereographic.name.toList : Attr K).name ≠ "longitude_of_projection_origin" := by
      simp [txt]
    cases hw : word "lon_0" s with
    | none =>
      have hown : ownOf L s .stereographic = (((word "lat_0" s).map L.strtod).toList.map (num "latitude_of_projection_origin") ++
       if (word "lat_ts" s).isSome then ((word "lat_ts" s).map L.strtod).toList.map (num "standard_parallel")
       else ((word "k" s).map L.strtod).toList.map (num "scale_factor_at_projection_origin")) := by
        simp [ownOf, hw]
      rw [hown, find_cons, if_neg hgm, find_none.2 hrest, if_pos rfl]
    | some w =>
      have hown : ownOf L s .stereographic = num "longitude_of_projection_origin" (L.strtod w) ::
        (((word "lat_0" s).map L.strtod).toList.map (num "latitude_of_projection_origin") ++
       if (word "lat_ts" s).isSome then ((word "lat_ts" s).map L.strtod).toList.map (num "standard_parallel")
       else ((word "k" s).map L.strtod).toList.map (num "scale_factor_at_projection_origin")) := by
        simp [ownOf, hw]
      have hown' : ownOf L s .polarStereographic = num "straight_vertical_longitude_from_pole" (L.strtod w) ::
        (((word "lat_0" s).map L.strtod).toList.map (num "latitude_of_projection_origin") ++
       if (word "lat_ts" s).isSome then ((word "lat_ts" s).map L.strtod).toList.map (num "standard_parallel")
       else ((word "k" s).map L.strtod).toList.map (num "scale_factor_at_projection_origin")) := by
        simp [ownOf, hw]
      rw [hown, hown', List.cons_append, find_cons, if_neg hgm, find_cons,
        if_pos (show (num "longitude_of_projection_origin" (L.strtod w)).name = "longitude_of_projection_origin" from rfl)]
      show renamed _ _ _ = _
      rw [renamed, if_neg hgm, renamed_here (n := "longitude_of_projection_origin") rfl,
        if_neg (show ¬ some w = none from by simp)]
      rfl

/-- The classes whose own attributes are in `ownOf`. -/
def Plain (s : Text) (k : Kind) : Prop := k ≠ .rotated ∧ (k = .transverseMercator → matchesName s "utm" = false)

theorem parameters_ok {L : Lib K} {fuel : ℕ} {s : Text} {k : Kind} {as : List (Attr K)} (hk : Plain s k)
    (h : parameters L fuel s k = .ok as) :
    ∃ e, earthAttributes L s = .ok e ∧
      as = txt "grid_mapping_name" k.name.toList :: (ownOf L s k ++ (e ++ backOf s k)) := by
  have one : ∀ {r1 : Res (List (Attr K))} {x : List (Attr K)}, collect [r1] = .ok x → r1 = .ok x := by
    intro r1 x h
    obtain ⟨x1, y1, h1, k1, rfl⟩ := collect_cons.1 h
    rw [collect_nil.1 k1, List.append_nil]; exact h1
  cases k with
  | rotated => exact absurd rfl hk.1
  | stereographic =>
    obtain ⟨e, he, rfl⟩ := stereographicFrom_ok h
    exact ⟨e, he, by simp [backOf]⟩
  | polarStereographic =>
    have h : polarFrom L s = .ok as := h
    rw [polarFrom_eq] at h
    obtain ⟨-, -, h⟩ := Res.bind_eq_ok.1 h
    obtain ⟨e, he, h⟩ := Res.bind_eq_ok.1 h
    split at h
    · cases h
    · cases h
      exact ⟨e, he, by simp [backOf]⟩
  | latLong =>
    obtain ⟨x1, y1, h1, k1, rfl⟩ := collect_cons.1 h
    cases h1
    exact ⟨y1, one k1, by simp [backOf, ownOf]⟩
  | unknown =>
    obtain ⟨x1, y1, h1, k1, rfl⟩ := collect_cons.1 h
    obtain ⟨x2, y2, h2, k2, rfl⟩ := collect_cons.1 k1
    cases h1
    cases one k2
    exact ⟨x2, h2, by simp [backOf, ownOf]⟩
  | sinusoidal =>
    obtain ⟨x1, y1, h1, k1, rfl⟩ := collect_cons.1 h
    obtain ⟨x2, y2, h2, k2, rfl⟩ := collect_cons.1 k1
    cases h1
    exact ⟨y2, one k2, by simp [backOf, ownOf, pushed0_ok h2]⟩
  | azimuthalEquidistant | lambertAzimuthal | orthographic =>
    obtain ⟨x1, y1, h1, k1, rfl⟩ := collect_cons.1 h
    obtain ⟨x2, y2, h2, k2, rfl⟩ := collect_cons.1 k1
    obtain ⟨x3, y3, h3, k3, rfl⟩ := collect_cons.1 k2
    cases h1
    exact ⟨y3, one k3, by simp [backOf, ownOf, pushed0_ok h2, pushed0_ok h3]⟩
  | verticalPerspective =>
    obtain ⟨x1, y1, h1, k1, rfl⟩ := collect_cons.1 h
    obtain ⟨x2, y2, h2, k2, rfl⟩ := collect_cons.1 k1
    obtain ⟨x3, y3, h3, k3, rfl⟩ := collect_cons.1 k2
    obtain ⟨x4, y4, h4, k4, rfl⟩ := collect_cons.1 k3
    cases h1
    exact ⟨y4, one k4, by simp [backOf, ownOf, pushed0_ok h2, pushed0_ok h3, pushed0_ok h4]⟩
  | geostationary =>
    obtain ⟨x1, y1, h1, k1, rfl⟩ := collect_cons.1 h
    obtain ⟨x2, y2, h2, k2, rfl⟩ := collect_cons.1 k1
    obtain ⟨x3, y3, h3, k3, rfl⟩ := collect_cons.1 k2
    obtain ⟨x4, y4, h4, k4, rfl⟩ := collect_cons.1 k3
    obtain ⟨x5, y5, h5, k5, rfl⟩ := collect_cons.1 k4
    cases h1; cases h5
    exact ⟨y5, one k5, by simp [backOf, ownOf, pushed0_ok h2, pushed0_ok h3, pushed0_ok h4]⟩
  | albers | lambertConformal =>
    obtain ⟨x1, y1, h1, k1, rfl⟩ := collect_cons.1 h
    obtain ⟨x2, y2, h2, k2, rfl⟩ := collect_cons.1 k1
    obtain ⟨x3, y3, h3, k3, rfl⟩ := collect_cons.1 k2
    obtain ⟨x4, y4, h4, k4, rfl⟩ := collect_cons.1 k3
    cases h1
    refine ⟨y4, one k4, ?_⟩
    rw [parallelsFrom_ok h2, pushed0_ok h3, pushed0_ok h4]
    simp [backOf, ownOf]
  | lambertCylindrical | mercator =>
    obtain ⟨x1, y1, h1, k1, rfl⟩ := collect_cons.1 h
    obtain ⟨x2, y2, h2, k2, rfl⟩ := collect_cons.1 k1
    obtain ⟨x3, y3, h3, k3, rfl⟩ := collect_cons.1 k2
    obtain ⟨x4, y4, h4, k4, rfl⟩ := collect_cons.1 k3
    cases h1
    exact ⟨y4, one k4, by simp [backOf, ownOf, pushed0_ok h2, pushed_ok h3, pushed_ok h4]⟩
  | transverseMercator =>
    have h : transverseFrom L s = .ok as := h
    unfold transverseFrom at h
    rw [if_neg (by simp [hk.2 rfl])] at h
    obtain ⟨x1, y1, h1, k1, rfl⟩ := collect_cons.1 h
    obtain ⟨x2, y2, h2, k2, rfl⟩ := collect_cons.1 k1
    obtain ⟨x3, y3, h3, k3, rfl⟩ := collect_cons.1 k2
    obtain ⟨x4, y4, h4, k4, rfl⟩ := collect_cons.1 k3
    cases h1
    exact ⟨y4, one k4, by simp [backOf, ownOf, pushed0_ok h2, pushed_ok h3, pushed_ok h4]⟩
  | obliqueMercator =>
    obtain ⟨x1, y1, h1, k1, rfl⟩ := collect_cons.1 h
    obtain ⟨x2, y2, h2, k2, rfl⟩ := collect_cons.1 k1
    obtain ⟨x3, y3, h3, k3, rfl⟩ := collect_cons.1 k2
    obtain ⟨x4, y4, h4, k4, rfl⟩ := collect_cons.1 k3
    obtain ⟨x5, y5, h5, k5, rfl⟩ := collect_cons.1 k4
    obtain ⟨x6, y6, h6, k6, rfl⟩ := collect_cons.1 k5
    obtain ⟨x7, y7, h7, k7, rfl⟩ := collect_cons.1 k6
    cases h1; cases h7
    refine ⟨y7, one k7, ?_⟩
    rw [pushed0_ok h2, pushed_ok h3, pushed0_ok h4, pushed0_ok h5, pushed_ok h6]
    simp [backOf, ownOf]

/-! ## Rotated pole and UTM -/

/-- The own attributes of a rotated pole. -/
def rotatedOwn (L : Lib K) (s : Text) (p : K) : List (Attr K) :=
  [num "grid_north_pole_longitude" p, num "grid_north_pole_latitude" ((number L ["o_lat_p"] s).getD 90)] ++
    (if (number L ["o_lon_p"] s).getD 0 > 1 / 10000 then [num "north_pole_grid_longitude" ((number L ["o_lon_p"] s).getD 0)] else [])

theorem rotated_ok {L : Lib K} {fuel : ℕ} {s : Text} {as : List (Attr K)} (h : rotatedFrom L fuel s = .ok as) :
    ∃ p e, pole fuel ((number L ["lon_0"] s).getD 0) = .ok p ∧ earthAttributes L s = .ok e ∧
      as = txt "grid_mapping_name" Kind.rotated.name.toList :: (rotatedOwn L s p ++ e) := by
  unfold rotatedFrom at h
  obtain ⟨lat, h1, h⟩ := Res.bind_eq_ok.1 h
  obtain ⟨g, h2, h⟩ := Res.bind_eq_ok.1 h
  obtain ⟨lon, h3, h⟩ := Res.bind_eq_ok.1 h
  obtain ⟨p, h4, h⟩ := Res.bind_eq_ok.1 h
  obtain ⟨e, h5, h⟩ := Res.bind_eq_ok.1 h
  cases h
  rw [numberOr_ok h3] at h4
  refine ⟨p, e, h4, h5, ?_⟩
  rw [numberOr_ok h1, numberOr_ok h2]
  simp [rotatedOwn]

theorem rotatedOwn_names {L : Lib K} {s : Text} {p : K} :
    ∀ a ∈ rotatedOwn L s p, a.name ∉ earthSide ∧ a.name ≠ "grid_mapping_name" ∧ a.name ≠ "proj4" := by
  intro a ha
  unfold rotatedOwn at ha
  simp only [List.mem_append, List.mem_cons, List.not_mem_nil, or_false] at ha
  rcases ha with (rfl | rfl) | ha
  · simp only [num]; decide
  · simp only [num]; decide
  · split at ha
    · simp only [List.mem_cons, List.not_mem_nil, or_false] at ha
      subst ha; simp [num]; decide
    · simp at ha

/-- The central meridian of a zone. -/
def zoneMeridian (z : ℤ) : ℤ := 6 * (max 1 (min 60 z)) - 183

omit [LinearOrder K] in
theorem zoneFrom_ok {s : Text} {x : List (Attr K)} (h : zoneFrom s = .ok x) :
    x = ((search isDigit [plus "zone"] s).map fun w => ((zoneMeridian (digitsValue w) : ℤ) : K)).toList.map (num "longitude_of_central_meridian") := by
  unfold zoneFrom at h
  cases hs : search isDigit [plus "zone"] s with
  | none => rw [hs] at h; cases h; rfl
  | some w =>
    rw [hs] at h
    dsimp only at h
    split at h
    · cases h
    · cases h
      have : (if (digitsValue w : ℤ) ≤ 0 then (1 : ℤ) else if (digitsValue w : ℤ) > 60 then 60 else (digitsValue w : ℤ)) - 1 =
          max 1 (min 60 (digitsValue w : ℤ)) - 1 := by
        congr 1
        split
        · omega
        · split <;> omega
      rw [this]
      have e : ((max 1 (min 60 (digitsValue w : ℤ)) - 1) * 6 - 180 + 3 : ℤ) = zoneMeridian (digitsValue w) := by
        unfold zoneMeridian; omega
      rw [e]
      rfl

/-- The own attributes of UTM. -/
def utmOwn (L : Lib K) (s : Text) : List (Attr K) :=
  [num "scale_factor_at_central_meridian" (9996 / 10000), num "latitude_of_projection_origin" 0, num "false_easting" 500000] ++
    (((search isDigit [plus "zone"] s).map fun w => ((zoneMeridian (digitsValue w) : ℤ) : K)).toList.map (num "longitude_of_central_meridian") ++
     (((search isDigit [plus "lon_0"] s).bind fun w => okOf (L.string2type w)).toList.map (num "longitude_of_central_meridian") ++
      if occurs "+south".toList s then [num "false_northing" 10000000] else []))

omit [LinearOrder K] in
theorem utm_ok {L : Lib K} {s : Text} {as : List (Attr K)} (hu : matchesName s "utm" = true) (h : transverseFrom L s = .ok as) :
    ∃ e, earthAttributes L s = .ok e ∧
      as = txt "grid_mapping_name" Kind.transverseMercator.name.toList :: (utmOwn L s ++ e) := by
  unfold transverseFrom at h
  rw [if_pos hu] at h
  obtain ⟨x1, y1, h1, k1, rfl⟩ := collect_cons.1 h
  obtain ⟨x2, y2, h2, k2, rfl⟩ := collect_cons.1 k1
  obtain ⟨x3, y3, h3, k3, rfl⟩ := collect_cons.1 k2
  obtain ⟨x4, y4, h4, k4, rfl⟩ := collect_cons.1 k3
  obtain ⟨x5, y5, h5, k5, rfl⟩ := collect_cons.1 k4
  obtain ⟨x6, y6, h6, k6, rfl⟩ := collect_cons.1 k5
  rw [collect_nil.1 k6, List.append_nil]
  cases h1; cases h2; cases h5
  refine ⟨x6, h6, ?_⟩
  have hx4 : x4 = ((search isDigit [plus "lon_0"] s).bind fun w => okOf (L.string2type w)).toList.map (num "longitude_of_central_meridian") := by
    unfold utmLongitude at h4
    cases hs : search isDigit [plus "lon_0"] s with
    | none => rw [hs] at h4; cases h4; rfl
    | some w =>
      rw [hs] at h4
      obtain ⟨v, hv, e⟩ := Res.bind_eq_ok.1 h4
      cases e
      simp [okOf, hv]
  rw [zoneFrom_ok h3, hx4]
  simp [utmOwn]

omit [LinearOrder K] in
theorem utmOwn_names {L : Lib K} {s : Text} : ∀ a ∈ utmOwn L s, a.name ∉ earthNames ∧ a.name ≠ "grid_mapping_name" ∧
    a.name ≠ "proj4" ∧ a.name ≠ "towgs84" := by
  intro a ha
  unfold utmOwn at ha
  simp only [List.mem_append, List.mem_cons, List.not_mem_nil, or_false] at ha
  rcases ha with (rfl | rfl | rfl) | ha | ha | ha
  · simp only [num]; decide
  · simp only [num]; decide
  · simp only [num]; decide
  · rw [opt_names a ha]; decide
  · rw [opt_names a ha]; decide
  · split at ha
    · simp only [List.mem_cons, List.not_mem_nil, or_false] at ha
      subst ha; simp [num]; decide
    · simp at ha

/-! ## The new projection -/

/-- The own attributes of any class. -/
inductive Own (L : Lib K) (fuel : ℕ) (s : Text) : Kind → List (Attr K) → Prop
  | plain {k : Kind} (h : Plain s k) : Own L fuel s k (ownOf L s k)
  | rotated {p : K} (h : pole fuel ((number L ["lon_0"] s).getD 0) = .ok p) : Own L fuel s .rotated (rotatedOwn L s p)
  | utm (h : matchesName s "utm" = true) : Own L fuel s .transverseMercator (utmOwn L s)

theorem own_names {L : Lib K} {fuel : ℕ} {s : Text} {k : Kind} {own : List (Attr K)} (h : Own L fuel s k own) :
    ∀ a ∈ own, a.name ∉ earthNames ∧ a.name ≠ "grid_mapping_name" ∧ a.name ≠ "proj4" ∧ a.name ≠ "towgs84" := by
  have key : ∀ n, n ∉ earthSide ∧ n ≠ "grid_mapping_name" ∧ n ≠ "proj4" →
      n ∉ earthNames ∧ n ≠ "grid_mapping_name" ∧ n ≠ "proj4" ∧ n ≠ "towgs84" := by
    rintro n ⟨h1, h2, h3⟩
    refine ⟨fun h => h1 (List.mem_append_left _ h), h2, h3, fun h => h1 ?_⟩
    rw [h]; decide
  cases h with
  | plain h => exact fun a ha => key _ (ownOf_names a ha)
  | rotated h => exact fun a ha => key _ (rotatedOwn_names a ha)
  | utm h => exact utmOwn_names

theorem parameters_own {L : Lib K} {fuel : ℕ} {s : Text} {k : Kind} {as : List (Attr K)} (h : parameters L fuel s k = .ok as) :
    ∃ own e, Own L fuel s k own ∧ earthAttributes L s = .ok e ∧
      as = txt "grid_mapping_name" k.name.toList :: (own ++ (e ++ backOf s k)) := by
  by_cases hr : k = .rotated
  · subst hr
    obtain ⟨p, e, hp, he, rfl⟩ := rotated_ok h
    exact ⟨_, e, .rotated hp, he, by simp [backOf]⟩
  · by_cases hu : k = .transverseMercator ∧ matchesName s "utm" = true
    · obtain ⟨rfl, hu⟩ := hu
      obtain ⟨e, he, rfl⟩ := utm_ok hu h
      exact ⟨_, e, .utm hu, he, by simp [backOf]⟩
    · have hp : Plain s k := ⟨hr, fun hk => by
        cases hm : matchesName s "utm" with
        | true => exact absurd ⟨hk, hm⟩ hu
        | false => rfl⟩
      obtain ⟨e, he, rfl⟩ := parameters_ok hp h
      exact ⟨_, e, .plain hp, he, rfl⟩

omit [LinearOrder K] in
theorem tidy_fresh (L : Lib K) (k : Kind) (name : Text) : Tidy L name (fresh k : Projection K).params := by
  refine ⟨by simp [fresh], ?_, ?_⟩
  · intro a ha b hb
    simp only [fresh, List.mem_cons, List.not_mem_nil, or_false] at ha hb
    subst ha; subst hb
    simp only [num]
    decide
  · intro a ha h
    simp only [fresh, List.mem_cons, List.not_mem_nil, or_false] at ha
    subst ha
    exact absurd h (by simp [num])

omit [LinearOrder K] in
theorem create_spec {L : Lib K} {k : Kind} {as : List (Attr K)} {P : Projection K}
    (hf : (find "grid_mapping_name" as).map (fun a => a.str L) = some k.name.toList) (h : create L as = .ok P) :
    P.kind = k ∧ Tidy L k.name.toList P.params ∧
      (fun n => find n P.params) = as.foldl upd (fun n => find n (fresh k : Projection K).params) := by
  unfold create at h
  cases hg : find "grid_mapping_name" as with
  | none => rw [hg] at hf; cases hf
  | some a =>
    rw [hg] at hf h
    have hs : a.str L = k.name.toList := Option.some.inj hf
    dsimp only at h
    rw [hs, kindOfName_name] at h
    dsimp only at h
    rw [Res.ok_bind] at h
    obtain ⟨ps, hps, e⟩ := Res.bind_eq_ok.1 h
    cases e
    have := addParameters_spec (L := L) (name := k.name.toList) (as := as) (tidy_fresh L k k.name.toList)
    rw [hps] at this
    exact ⟨rfl, this.1, this.2.1⟩

/-- What a projection from a text has. -/
structure FromText (L : Lib K) (fuel : ℕ) (s : Text) (P : Projection K) (own e : List (Attr K)) : Prop where
  isOwn : Own L fuel s P.kind own
  earth : earthAttributes L s = .ok e
  tidy : Tidy L P.kind.name.toList P.params
  found : (fun n => find n P.params) =
    (txt "grid_mapping_name" P.kind.name.toList :: (own ++ (e ++ backOf s P.kind))).foldl upd
      (fun n => find n (fresh P.kind : Projection K).params)

theorem createByProj4_ok {L : Lib K} {fuel : ℕ} {s : Text} {P : Projection K} (h : createByProj4 L fuel s = .ok P) :
    firstOf L s asked = .ok (some P.kind) ∧ ∃ own e, FromText L fuel s P own e := by
  unfold createByProj4 at h
  obtain ⟨k, hk, h⟩ := Res.bind_eq_ok.1 h
  cases k with
  | none => cases h
  | some k =>
    obtain ⟨as, has, h⟩ := Res.bind_eq_ok.1 h
    split at h
    · cases h
    · obtain ⟨own, e, ho, he, rfl⟩ := parameters_own has
      obtain ⟨rfl, ht, hf⟩ := create_spec (k := k) (by simp [find_cons, txt, Attr.str]) h
      exact ⟨hk, own, e, ho, he, ht, hf⟩

/-- An own attribute. -/
theorem FromText.value {L : Lib K} {fuel : ℕ} {s : Text} {P : Projection K} {own e : List (Attr K)} (h : FromText L fuel s P own e)
    {n : String} (hn : n ∉ earthSide) (h1 : n ≠ "grid_mapping_name") (h2 : n ≠ "proj4") : find n P.params = lastOf own n := by
  have hn' : n ∉ earthNames := fun h => hn (List.mem_append_left _ h)
  have := congrFun h.found n
  rw [this, foldl_other hn', lastOf_cons, lastOf_append, lastOf_append]
  have he : lastOf e n = none := lastOf_none fun a ha e' => hn (e' ▸ earthAttributes_names h.earth a ha)
  have hb : lastOf (backOf s P.kind : List (Attr K)) n = none := by
    refine lastOf_none fun a ha e' => ?_
    unfold backOf at ha
    split at ha
    · simp only [List.mem_cons, List.not_mem_nil, or_false] at ha
      subst ha
      exact h2 e'.symm
    · simp at ha
  have hf : find n (fresh P.kind : Projection K).params = none := by
    rw [find_none]
    intro a ha
    simp only [fresh, List.mem_cons, List.not_mem_nil, or_false] at ha
    subst ha
    intro e'
    exact hn' (e' ▸ (by simp [num, earthNames] : (num "earth_radius" (6371000 : K)).name ∈ earthNames))
  rw [he, hb, hf, if_neg (fun e' => h1 e'.symm)]
  simp

end

end Fimex.Proj
