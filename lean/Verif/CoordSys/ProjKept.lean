import Verif.CoordSys.ProjWrite

/-!
# From a text to a text
-/

namespace Fimex.Proj

variable {K : Type}

/-- A number of a class: where it stands in the text, the attribute, and whether it becomes 0 if the text does not have it. -/
structure Row where
  key : String
  attr : String
  zero : Bool

/-- The numbers of the classes, by the tables of CF ("Grid mappings") and of PROJ. -/
def rows : Kind → List Row
  | .albers | .lambertConformal =>
    [⟨"lon_0", "longitude_of_central_meridian", true⟩, ⟨"lat_0", "latitude_of_projection_origin", true⟩]
  | .azimuthalEquidistant | .lambertAzimuthal | .orthographic =>
    [⟨"lon_0", "longitude_of_projection_origin", true⟩, ⟨"lat_0", "latitude_of_projection_origin", true⟩]
  | .geostationary | .verticalPerspective =>
    [⟨"lon_0", "longitude_of_projection_origin", true⟩, ⟨"lat_0", "latitude_of_projection_origin", true⟩,
     ⟨"h", "perspective_point_height", true⟩]
  | .lambertCylindrical =>
    [⟨"lon_0", "longitude_of_central_meridian", true⟩, ⟨"lat_ts", "standard_parallel", false⟩,
     ⟨"k", "scale_factor_at_projection_origin", false⟩]
  | .mercator => [⟨"lon_0", "longitude_of_projection_origin", true⟩, ⟨"lat_ts", "standard_parallel", false⟩]
  | .obliqueMercator =>
    [⟨"lonc", "longitude_of_projection_origin", true⟩, ⟨"lat_0", "latitude_of_projection_origin", false⟩,
     ⟨"alpha", "azimuth_of_central_line", true⟩, ⟨"gamma", "gamma", true⟩]
  | .polarStereographic =>
    [⟨"lon_0", "straight_vertical_longitude_from_pole", false⟩, ⟨"lat_0", "latitude_of_projection_origin", false⟩,
     ⟨"lat_ts", "standard_parallel", false⟩]
  | .stereographic =>
    [⟨"lon_0", "longitude_of_projection_origin", false⟩, ⟨"lat_0", "latitude_of_projection_origin", false⟩,
     ⟨"lat_ts", "standard_parallel", false⟩]
  | .sinusoidal => [⟨"lon_0", "longitude_of_projection_origin", true⟩]
  | .transverseMercator =>
    [⟨"lon_0", "longitude_of_central_meridian", true⟩, ⟨"lat_0", "latitude_of_projection_origin", false⟩]
  | .latLong | .rotated | .unknown => []

/-- The scale factor of the classes that have one besides the rows; read from `+k=`. -/
def scaleOf : Kind → Option String
  | .mercator | .obliqueMercator | .stereographic | .polarStereographic => some "scale_factor_at_projection_origin"
  | .transverseMercator => some "scale_factor_at_central_meridian"
  | _ => none

/-- The attribute has the number behind the key, or what stands for none. -/
structure ReadAs (L : Lib K) [Zero K] (s : Text) (ps : List (Attr K)) (r : Row) : Prop where
  given : ∀ v, number L [r.key] s = some v → find r.attr ps = some (num r.attr v)
  absent : word r.key s = none → find r.attr ps = if r.zero then some (num r.attr 0) else none

/-- `strtod` reads what `string2type` reads. -/
def StrtodAgrees (L : Lib K) : Prop := ∀ w v, L.string2type w = .ok v → L.strtod w = v

theorem number_some {L : Lib K} {key : String} {s : Text} {v : K} (h : number L [key] s = some v) :
    ∃ w, word key s = some w ∧ L.string2type w = .ok v := by
  unfold number at h
  obtain ⟨w, hw, hv⟩ := Option.bind_eq_some_iff.1 h
  refine ⟨w, hw, ?_⟩
  cases hr : L.string2type w with
  | ok a => rw [hr] at hv; exact congrArg Res.ok (Option.some.inj hv)
  | throws => rw [hr] at hv; cases hv
  | ub => rw [hr] at hv; cases hv

theorem lastOf_opt (o : Option K) (a n : String) : lastOf (o.toList.map (num a)) n = if a = n then o.map (num a) else none := by
  cases o with
  | none => simp [lastOf_nil]
  | some v => simp [lastOf_cons, lastOf_nil, num]

theorem lastOf_ite (c : Prop) [Decidable c] (xs ys : List (Attr K)) (n : String) :
    lastOf (if c then xs else ys) n = if c then lastOf xs n else lastOf ys n := by
  split <;> rfl

section
variable [Field K] [LinearOrder K]

omit [LinearOrder K] in
theorem readAs_zero {L : Lib K} {s : Text} {ps : List (Attr K)} {key attr : String}
    (h : find attr ps = some (num attr ((number L [key] s).getD 0))) : ReadAs L s ps ⟨key, attr, true⟩ := by
  refine ⟨fun v hv => ?_, fun hw => ?_⟩
  · show find attr ps = _
    rw [h, show number L [key] s = some v from hv]; rfl
  · show find attr ps = _
    rw [h, number_of_no_word hw]; rfl

omit [LinearOrder K] in
theorem readAs_opt {L : Lib K} {s : Text} {ps : List (Attr K)} {key attr : String}
    (h : find attr ps = (number L [key] s).map (num attr)) : ReadAs L s ps ⟨key, attr, false⟩ := by
  refine ⟨fun v hv => ?_, fun hw => ?_⟩
  · show find attr ps = _
    rw [h, show number L [key] s = some v from hv]; rfl
  · show find attr ps = _
    rw [h, number_of_no_word hw]; rfl

omit [LinearOrder K] in
theorem readAs_strtod {L : Lib K} (hL : StrtodAgrees L) {s : Text} {ps : List (Attr K)} {key attr : String}
    (h : find attr ps = ((word key s).map L.strtod).map (num attr)) : ReadAs L s ps ⟨key, attr, false⟩ := by
  refine ⟨fun v hv => ?_, fun hw => ?_⟩
  · show find attr ps = _
    obtain ⟨w, h1, h2⟩ := number_some hv
    have h1 : word key s = some w := h1
    rw [h, h1]
    simp [hL w v h2]
  · show find attr ps = _
    have hw : word key s = none := hw
    rw [h, hw]; rfl

theorem rows_names : ∀ k, ∀ r ∈ rows k, r.attr ∉ earthSide ∧ r.attr ≠ "grid_mapping_name" ∧ r.attr ≠ "proj4" := by
  intro k
  cases k <;> decide +kernel

theorem FromText.plain {L : Lib K} {fuel : ℕ} {s : Text} {P : Projection K} {own e : List (Attr K)} (h : FromText L fuel s P own e)
    (hp : Plain s P.kind) : own = ownOf L s P.kind := by
  generalize hk : P.kind = k at *
  have ho : Own L fuel s k own := hk ▸ h.isOwn
  cases ho with
  | plain _ => rfl
  | rotated _ => exact absurd rfl hp.1
  | utm hu => rw [hp.2 rfl] at hu; cases hu

/-- Numbers of a class, as they are in its attributes. -/
theorem read_rows {L : Lib K} (hL : StrtodAgrees L) {fuel : ℕ} {s : Text} {P : Projection K} {own e : List (Attr K)}
    (h : FromText L fuel s P own e) (hp : Plain s P.kind) : ∀ r ∈ rows P.kind, ReadAs L s P.params r := by
  intro r hr
  have hn := rows_names _ r hr
  have hv := h.value hn.1 hn.2.1 hn.2.2
  rw [h.plain hp] at hv
  obtain ⟨k, ps⟩ := P
  dsimp only at hv hr hp ⊢
  clear h hn hp
  cases k <;> simp only [rows, List.mem_cons, List.not_mem_nil, or_false] at hr <;>
    (repeat' (rcases hr with hr | hr)) <;> dsimp only [ownOf] at hv
  all_goals
    simp only [lastOf_append, lastOf_cons, lastOf_nil, lastOf_opt, lastOf_ite, num, txt] at hv
  all_goals
    first
    | (apply readAs_zero; rw [hv]; simp [num])
    | (apply readAs_opt; rw [hv]; simp; done)
    | (apply readAs_strtod hL; rw [hv]
       cases hts : word "lat_ts" s <;> simp [num])

/-- The scale factor. -/
theorem read_scale {L : Lib K} (hL : StrtodAgrees L) {fuel : ℕ} {s : Text} {P : Projection K} {own e : List (Attr K)}
    (h : FromText L fuel s P own e) (hp : Plain s P.kind) {attr : String} (ha : scaleOf P.kind = some attr)
    (hts : P.kind = .stereographic ∨ P.kind = .polarStereographic → word "lat_ts" s = none) :
    ReadAs L s P.params ⟨"k", attr, false⟩ := by
  have hn : attr ∉ earthSide ∧ attr ≠ "grid_mapping_name" ∧ attr ≠ "proj4" := by
    generalize P.kind = k at ha
    cases k <;> simp only [scaleOf, Option.some.injEq, reduceCtorEq] at ha <;> subst ha <;> decide
  have hv := h.value hn.1 hn.2.1 hn.2.2
  rw [h.plain hp] at hv
  obtain ⟨k, ps⟩ := P
  dsimp only at hv ha hp hts ⊢
  clear h hn hp
  cases k <;> simp only [scaleOf, Option.some.injEq, reduceCtorEq] at ha <;> subst ha <;> dsimp only [ownOf] at hv
  all_goals
    simp only [lastOf_append, lastOf_cons, lastOf_nil, lastOf_opt, lastOf_ite, num, txt] at hv
  all_goals
    first
    | (apply readAs_opt; rw [hv]; simp; done)
    | (apply readAs_strtod hL; rw [hv, hts (by simp)]; simp)

/-- The standard parallels of the conics. -/
theorem read_parallels {L : Lib K} {fuel : ℕ} {s : Text} {P : Projection K} {own e : List (Attr K)}
    (h : FromText L fuel s P own e) (hk : P.kind = .albers ∨ P.kind = .lambertConformal) :
    find "standard_parallel" P.params =
      (number L ["lat_1"] s).map fun l1 => ⟨"standard_parallel", .nums (l1 :: (number L ["lat_2"] s).toList)⟩ := by
  have hp : Plain s P.kind := by
    rcases hk with hk | hk <;> rw [hk] <;> exact ⟨by decide, fun h => by cases h⟩
  have hv := h.value (n := "standard_parallel") (by decide) (by decide) (by decide)
  rw [h.plain hp] at hv
  rw [hv]
  rcases hk with hk | hk <;> rw [hk] <;> dsimp only [ownOf] <;>
    simp only [lastOf_append, lastOf_cons, lastOf_nil, num] <;>
    cases number L ["lat_1"] s <;> simp [lastOf_cons, lastOf_nil]

/-- Attributes that come with those of the earth. -/
theorem FromText.side {L : Lib K} {fuel : ℕ} {s : Text} {P : Projection K} {own e : List (Attr K)} (h : FromText L fuel s P own e)
    {n : String} (hn : n ∉ earthNames) (h1 : n ≠ "grid_mapping_name") (h2 : n ≠ "proj4") :
    find n P.params = (lastOf e n).or (lastOf own n) := by
  have := congrFun h.found n
  rw [this, foldl_other hn, lastOf_cons, lastOf_append, lastOf_append]
  have hb : lastOf (backOf s P.kind : List (Attr K)) n = none := by
    refine lastOf_none fun a ha e' => ?_
    unfold backOf at ha
    split at ha
    · simp only [List.mem_cons, List.not_mem_nil, or_false] at ha
      subst ha
      exact h2 e'.symm
    · simp at ha
  have hf : find n (fresh P.kind : Projection K).params = none := by
    rw [find_none]
    intro a ha
    simp only [fresh, List.mem_cons, List.not_mem_nil, or_false] at ha
    subst ha
    intro e'
    exact hn (e' ▸ (by simp [num, earthNames] : (num "earth_radius" (6371000 : K)).name ∈ earthNames))
  rw [hb, hf, if_neg (fun e' => h1 e'.symm)]
  simp

omit [LinearOrder K] in
theorem lastOf_earth {L : Lib K} {s : Text} {e : List (Attr K)} (h : earthAttributes L s = .ok e) :
    lastOf e "false_easting" = (number L ["x_0"] s).map (num "false_easting") ∧
    lastOf e "false_northing" = (number L ["y_0"] s).map (num "false_northing") := by
  obtain ⟨A, T, hA, hT, rfl⟩ := earthAttributes_ok h
  have hE : ∀ m n, n ∉ earthNames → lastOf (ellipsoid m : List (Attr K)) n = none :=
    fun m n hn => lastOf_none fun a ha e' => hn (e' ▸ ellipsoid_names _ a ha)
  have hA' : ∀ n, n ∉ earthNames → lastOf A n = none := fun n hn => lastOf_none fun a ha e' => hn (e' ▸ axesFrom_names hA a ha)
  have hT' : ∀ n, n ≠ "towgs84" → lastOf T n = none := fun n hn => lastOf_none fun a ha e' => hn (e' ▸ towgs84From_names hT a ha)
  constructor <;>
    rw [lastOf_append, lastOf_append, lastOf_append, lastOf_append, lastOf_opt, lastOf_opt, hA' _ (by decide), hT' _ (by decide)] <;>
    cases ellipsoidName s <;> dsimp only <;> first | (rw [hE _ _ (by decide)]; simp) | (rw [lastOf_nil]; simp)

/-- False easting and northing. -/
theorem read_false {L : Lib K} {fuel : ℕ} {s : Text} {P : Projection K} {own e : List (Attr K)}
    (h : FromText L fuel s P own e) (hu : matchesName s "utm" = false) :
    find "false_easting" P.params = (number L ["x_0"] s).map (num "false_easting") ∧
    find "false_northing" P.params = (number L ["y_0"] s).map (num "false_northing") := by
  have ho : ∀ n ∈ earthSide, lastOf own n = none := by
    intro n hn
    refine lastOf_none fun a ha e' => ?_
    subst e'
    have hown := h.isOwn
    generalize P.kind = k at hown
    cases hown with
    | plain _ => exact (ownOf_names a ha).1 hn
    | rotated _ => exact (rotatedOwn_names a ha).1 hn
    | utm hm => rw [hm] at hu; cases hu
  obtain ⟨h1, h2⟩ := lastOf_earth h.earth
  rw [h.side (by decide) (by decide) (by decide), h.side (by decide) (by decide) (by decide), h1, h2, ho _ (by decide), ho _ (by decide)]
  simp

/-! ## Texts among the values -/

omit [Field K] [LinearOrder K] in
theorem upd_mem : ∀ {as : List (Attr K)} {f : String → Option (Attr K)} {n : String} {a : Attr K},
    as.foldl upd f n = some a → a ∈ as ∨ f n = some a
  | [], _, _, _, h => .inr h
  | b :: as, f, n, a, h => by
    rcases upd_mem (as := as) h with h | h
    · exact .inl (List.mem_cons_of_mem _ h)
    · unfold upd at h
      split at h
      · cases h; exact .inl (by simp)
      · split at h
        · cases h
        · exact .inr h

omit [Field K] [LinearOrder K] in
theorem find_self {a : Attr K} : ∀ {ps : List (Attr K)}, (ps.map (·.name)).Nodup → a ∈ ps → find a.name ps = some a
  | b :: ps, hd, h => by
    rw [find_cons]
    rw [List.map_cons, List.nodup_cons] at hd
    rcases List.mem_cons.1 h with rfl | h
    · rw [if_pos rfl]
    · rw [if_neg fun e : b.name = a.name => hd.1 (by rw [e]; exact List.mem_map.2 ⟨a, h, rfl⟩), find_self hd.2 h]

omit [LinearOrder K] in
theorem ownOf_texts {L : Lib K} {s : Text} {k : Kind} : ∀ a ∈ ownOf L s k, ∀ t, a.val = .text t →
    a.name = "sweep_axis" ∨ (a.name = "no_rotation" ∧ t = []) := by
  have hn : ∀ (n : String) (v : K) t, (num n v).val = .text t → (num n v).name = "sweep_axis" ∨ ((num n v).name = "no_rotation" ∧ t = []) := by
    intro n v t h; cases h
  have ho : ∀ (n : String) (o : Option K), ∀ a ∈ o.toList.map (num n), ∀ t, a.val = .text t →
      a.name = "sweep_axis" ∨ (a.name = "no_rotation" ∧ t = []) := by
    intro n o a ha t h
    obtain ⟨v, -, rfl⟩ := List.mem_map.1 ha
    cases h
  cases k <;> simp only [ownOf, List.forall_mem_append, List.forall_mem_cons]
  all_goals
    repeat' (first
      | exact hn _ _
      | exact ho _ _
      | (intro a ha; simp at ha; done)
      | exact fun t ht => .inl rfl
      | apply And.intro
      | split)
  all_goals
    intro a ha t ht
    simp only [List.mem_cons, List.not_mem_nil, or_false] at ha
    subst ha
    first
    | (cases ht; done)
    | (cases ht; exact .inr ⟨rfl, rfl⟩)

omit [LinearOrder K] in
theorem earth_texts {L : Lib K} {s : Text} {e : List (Attr K)} (h : earthAttributes L s = .ok e) : ∀ a ∈ e, ∀ t, a.val ≠ .text t := by
  obtain ⟨A, T, hA, hT, rfl⟩ := earthAttributes_ok h
  intro a ha t ht
  simp only [List.mem_append, List.mem_map] at ha
  rcases ha with ⟨v, -, rfl⟩ | ⟨v, -, rfl⟩ | ha | ha | ha
  · cases ht
  · cases ht
  · unfold axesFrom at hA
    split at hA
    · cases hA; simp at ha
    · obtain ⟨v, -, h⟩ := Res.bind_eq_ok.1 hA
      obtain ⟨r, hr, h⟩ := Res.bind_eq_ok.1 h
      have haxes : ∀ (v w : K), a ∈ num "semi_major_axis" v :: axes v w → False := by
        intro v w ha
        simp only [axes, List.mem_cons, List.not_mem_nil, or_false] at ha
        rcases ha with rfl | rfl | rfl <;> cases ht
      cases r with
      | some l =>
        cases h
        split at hr
        · split at hr
          · cases hr
          · obtain ⟨e, -, he⟩ := Res.bind_eq_ok.1 hr
            cases he
            exact haxes _ _ ha
        · cases hr
      | none =>
        dsimp only at h
        split at h
        · obtain ⟨b, -, h⟩ := Res.bind_eq_ok.1 h
          cases h
          exact haxes _ _ ha
        · cases h
          simp only [List.mem_cons, List.not_mem_nil, or_false] at ha
          rcases ha with rfl | rfl <;> cases ht
  · split at ha
    · rename_i n _
      have haxes : ∀ (v w : K), a ∈ axes v w → False := by
        intro v w ha
        simp only [axes, List.mem_cons, List.not_mem_nil, or_false] at ha
        rcases ha with rfl | rfl <;> cases ht
      unfold ellipsoid at ha
      dsimp only at ha
      have step : ∀ {c : Prop} [Decidable c] {x y : List (Attr K)}, a ∈ (if c then x else y) → a ∈ x ∨ a ∈ y := by
        intro c _ x y h
        split at h
        · exact .inl h
        · exact .inr h
      iterate 8
        rcases step ha with h | ha
        · exact haxes _ _ h
      rcases step ha with h | ha
      · simp only [List.mem_cons, List.not_mem_nil, or_false] at h
        rcases h with rfl | rfl <;> cases ht
      · simp at ha
    · simp at ha
  · unfold towgs84From at hT
    split at hT
    · obtain ⟨v, -, h⟩ := Res.bind_eq_ok.1 hT
      cases h
      simp only [List.mem_cons, List.not_mem_nil, or_false] at ha
      subst ha; cases ht
    · split at hT <;> cases hT
      · simp only [List.mem_cons, List.not_mem_nil, or_false] at ha
        subst ha; cases ht
      · simp at ha

theorem own_texts {L : Lib K} {fuel : ℕ} {s : Text} {k : Kind} {own : List (Attr K)} (h : Own L fuel s k own) :
    ∀ a ∈ own, ∀ t, a.val = .text t → a.name = "sweep_axis" ∨ (a.name = "no_rotation" ∧ t = []) := by
  cases h with
  | plain _ => exact ownOf_texts
  | rotated _ =>
    intro a ha t ht
    unfold rotatedOwn at ha
    simp only [List.mem_append, List.mem_cons, List.not_mem_nil, or_false] at ha
    rcases ha with (rfl | rfl) | ha
    · cases ht
    · cases ht
    · split at ha
      · simp only [List.mem_cons, List.not_mem_nil, or_false] at ha
        subst ha; cases ht
      · simp at ha
  | utm _ =>
    intro a ha t ht
    unfold utmOwn at ha
    simp only [List.mem_append, List.mem_cons, List.not_mem_nil, or_false, List.mem_map] at ha
    rcases ha with (rfl | rfl | rfl) | ⟨v, -, rfl⟩ | ⟨v, -, rfl⟩ | ha
    · cases ht
    · cases ht
    · cases ht
    · cases ht
    · cases ht
    · split at ha
      · simp only [List.mem_cons, List.not_mem_nil, or_false] at ha
        subst ha; cases ht
      · simp at ha

/-- Nothing with blanks gets written for a projection from a text. -/
theorem FromText.words {L : Lib K} {fuel : ℕ} {s : Text} {P : Projection K} {own e : List (Attr K)} (h : FromText L fuel s P own e)
    (hk : P.kind ≠ .unknown) : Words P.params := by
  have key : ∀ a ∈ P.params, ∀ t, a.val = .text t →
      a.name = "grid_mapping_name" ∨ a.name = "sweep_axis" ∨ (a.name = "no_rotation" ∧ t = []) := by
    intro a ha t ht
    have h1 := find_self h.tidy.once ha
    have h2 := congrFun h.found a.name
    rw [h1] at h2
    rcases upd_mem h2.symm with hm | hm
    · rcases List.mem_cons.1 hm with rfl | hm
      · exact .inl rfl
      · rw [show backOf s P.kind = ([] : List (Attr K)) from by simp [backOf, hk], List.append_nil] at hm
        rcases List.mem_append.1 hm with hm | hm
        · exact .inr (own_texts h.isOwn a hm t ht)
        · exact absurd ht (earth_texts h.earth a hm t)
    · obtain ⟨hm, -⟩ := find_some hm
      simp only [fresh, List.mem_cons, List.not_mem_nil, or_false] at hm
      subst hm; cases ht
  refine ⟨fun a ha t ht n1 n2 n3 => ?_, fun a ha t ht hn c hc => ?_⟩
  · rcases key a ha t ht with h | h | h
    · exact absurd h n2
    · exact absurd h n3
    · exact absurd h.1 n1
  · rcases key a ha t ht with h | h | h
    · rw [hn] at h; exact absurd h (by decide)
    · rw [hn] at h; exact absurd h (by decide)
    · rw [h.2] at hc; simp at hc

end

end Fimex.Proj
