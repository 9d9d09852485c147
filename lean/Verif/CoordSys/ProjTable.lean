import Verif.CoordSys.ProjEarth

/-!
# The numbers of the classes in a written text
-/

namespace Fimex.Proj

variable {K : Type}

/-- Where the attributes of the classes go: key, attributes (the first that there is). -/
def writes : Kind → List (String × List String)
  | .albers | .lambertConformal =>
    [("lon_0", ["longitude_of_central_meridian"]), ("lat_0", ["latitude_of_projection_origin"])]
  | .azimuthalEquidistant | .lambertAzimuthal | .orthographic =>
    [("lon_0", ["longitude_of_projection_origin"]), ("lat_0", ["latitude_of_projection_origin"])]
  | .geostationary =>
    [("lon_0", ["longitude_of_projection_origin"]), ("lat_0", ["latitude_of_projection_origin"]),
     ("h", ["perspective_point_height"]), ("sweep", ["sweep_angle_axis"])]
  | .verticalPerspective =>
    [("lon_0", ["longitude_of_projection_origin"]), ("lat_0", ["latitude_of_projection_origin"]),
     ("h", ["perspective_point_height"])]
  | .lambertCylindrical =>
    [("lon_0", ["longitude_of_central_meridian"]), ("lat_ts", ["standard_parallel"]),
     ("k", ["scale_factor_at_projection_origin"])]
  | .mercator =>
    [("lon_0", ["longitude_of_projection_origin"]), ("lat_ts", ["standard_parallel"]),
     ("k_0", ["scale_factor_at_projection_origin"])]
  | .obliqueMercator =>
    [("lonc", ["longitude_of_projection_origin"]), ("lat_0", ["latitude_of_projection_origin"]),
     ("alpha", ["azimuth_of_central_line"]), ("gamma", ["gamma"]), ("k_0", ["scale_factor_at_projection_origin"])]
  | .polarStereographic | .stereographic =>
    [("lat_0", ["latitude_of_projection_origin"]),
     ("lon_0", ["straight_vertical_longitude_from_pole", "longitude_of_projection_origin"]),
     ("k", ["scale_factor_at_projection_origin"]), ("lat_ts", ["standard_parallel"])]
  | .rotated => [("o_lat_p", ["grid_north_pole_latitude"]), ("o_lon_p", ["north_pole_grid_longitude"])]
  | .sinusoidal => [("lon_0", ["longitude_of_projection_origin"])]
  | .transverseMercator =>
    [("lon_0", ["longitude_of_central_meridian"]), ("lat_0", ["latitude_of_projection_origin"]),
     ("k_0", ["scale_factor_at_central_meridian"])]
  | .latLong | .unknown => []

/-- Where the attributes of all classes go. -/
def writesAll : List (String × List String) := [("x_0", ["false_easting"]), ("y_0", ["false_northing"])]

/-- `+proj=`. -/
def Kind.word : Kind → String
  | albers => "aea"
  | azimuthalEquidistant => "aeqd"
  | geostationary => "geos"
  | lambertAzimuthal => "laea"
  | lambertConformal => "lcc"
  | lambertCylindrical => "cea"
  | latLong => "latlong"
  | mercator => "merc"
  | obliqueMercator => "omerc"
  | orthographic => "ortho"
  | polarStereographic | stereographic => "stere"
  | rotated => "ob_tran"
  | sinusoidal => "sinu"
  | transverseMercator => "tmerc"
  | verticalPerspective => "nsper"
  | unknown => ""

section
variable [Field K] [LinearOrder K]

omit [Field K] [LinearOrder K] in
theorem lookup_parallel (L : Lib K) (ps : List (Attr K)) {keys : List String} (h1 : "lat_1" ∉ keys) (h2 : "lat_2" ∉ keys) :
    lookup keys (parallelItems L ps) = none := by
  refine lookup_none fun i hi k v e hk => ?_
  subst e
  unfold parallelItems at hi
  split at hi
  · simp only [List.mem_cons, Item.kv.injEq, List.not_mem_nil, or_false] at hi
    rcases hi with hi | hi <;> rw [hi.1] at hk
    · exact h1 hk
    · exact h2 hk
  · split at hi
    · simp at hi
    · simp only [List.mem_cons, Item.kv.injEq, List.not_mem_nil, or_false] at hi
      rcases hi with hi | hi <;> rw [hi.1] at hk
      · exact h1 hk
      · exact h2 hk

omit [LinearOrder K] in
theorem lookup_pole (L : Lib K) (ps : List (Attr K)) {keys : List String} (h1 : "lon_0" ∉ keys) :
    lookup keys (poleItems L ps) = none := by
  refine lookup_none fun i hi k v e hk => ?_
  subst e
  unfold poleItems at hi
  split at hi
  · simp at hi
  · split at hi
    · simp at hi
    · simp only [List.mem_cons, Item.kv.injEq, List.not_mem_nil, or_false] at hi
      rw [hi.1] at hk
      exact h1 hk

omit [Field K] [LinearOrder K] in
theorem lookup_noRot (L : Lib K) (ps : List (Attr K)) {keys : List String} : lookup keys (noRotItems L ps) = none := by
  unfold noRotItems
  split <;> rfl

omit [LinearOrder K] in
theorem own_writes (L : Lib K) (ps : List (Attr K)) (k : Kind) :
    ∀ w ∈ writes k, lookup [w.1] (ownItems L ps k) = w.2.findSome? (shownOf L ps) := by
  cases k <;> simp only [writes, List.forall_mem_cons, ownItems, lookup_kv, lookup_append, lookup_item, List.findSome?_cons,
    List.findSome?_nil]
  all_goals
    repeat' (first | apply And.intro | (intro w hw; simp at hw))
  all_goals
    (try rw [lookup_parallel L ps (by decide) (by decide)])
    (try rw [lookup_pole L ps (by decide)])
    (try rw [lookup_noRot])
    simp
  all_goals
    repeat' (first | (split; done) | split)
  all_goals simp_all

theorem writes_keys : ∀ k, ∀ w ∈ writes k ++ writesAll, (w.1.toList.all fun c => c != '+' && c != '=' && !Cf.isSpace c) = true := by
  intro k
  cases k <;> decide +kernel

theorem writes_other : ∀ k, ∀ w ∈ writes k, w.1 ≠ "x_0" ∧ w.1 ≠ "y_0" ∧ w.1 ∉ ["a", "b", "e", "rf", "towgs84"] := by
  intro k
  cases k <;> decide +kernel

theorem lookup_earth (L : Lib K) (ps : List (Attr K)) {keys : List String} (h : ∀ k ∈ keys, k ∉ ["a", "b", "e", "rf", "towgs84"]) :
    lookup keys (earthItems L ps) = none := by
  refine lookup_none fun i hi k v e hk => ?_
  have hx := h k hk
  subst e
  simp only [List.mem_cons, List.not_mem_nil, or_false, not_or] at hx
  obtain ⟨h3, h4, h5, h6, h7⟩ := hx
  unfold earthItems at hi
  rw [List.mem_append] at hi
  have kv : ∀ (a : String) (u : Text), Item.kv k v = .kv a u → k ≠ a → False := by
    intro a u e hne; cases e; exact hne rfl
  rcases hi with hi | hi
  · split at hi
    · simp only [List.mem_cons, List.not_mem_nil, or_false] at hi
      rcases hi with hi | hi
      · exact kv _ _ hi h3
      · exact kv _ _ hi h5
    · split at hi
      · simp only [List.mem_append, List.mem_cons, List.not_mem_nil, or_false] at hi
        rcases hi with (((hi | hi) | hi) | hi) | hi
        · exact kv _ _ hi h3
        · cases hi
        · exact h4 (item_keys _ _ _ _ _ hi _ _ rfl)
        · split at hi
          · simp only [List.mem_cons, List.not_mem_nil, or_false] at hi
            exact kv _ _ hi h6
          · simp at hi
        · split at hi
          · simp only [List.mem_cons, List.not_mem_nil, or_false] at hi
            exact kv _ _ hi h5
          · simp at hi
      · simp only [List.mem_cons, List.not_mem_nil, or_false] at hi
        rcases hi with hi | hi
        · exact kv _ _ hi h3
        · exact kv _ _ hi h5
  · exact h7 (item_keys _ _ _ _ _ hi _ _ rfl)

/-- What a class writes. -/
theorem own_says {L : Lib K} (hL : Sane L) {P : Projection K} (hw : Words P.params) {t : Text} (hk : P.kind ≠ .unknown)
    (h : proj4String L P = .ok t) {keys : List String} (hkeys : ∀ k ∈ keys, CleanKey k)
    (ho : ∀ k ∈ keys, k ≠ "x_0" ∧ k ≠ "y_0" ∧ k ∉ ["a", "b", "e", "rf", "towgs84"]) :
    search noSpace (keys.map plus) t = lookup keys (ownItems L P.params P.kind) := by
  rw [text_says hL hw hk h hkeys, textItems, lookup_append, lookup_append, lookup_item, if_neg fun hx => (ho _ hx).1 rfl, lookup_append,
    lookup_item, if_neg fun hx => (ho _ hx).2.1 rfl, lookup_gap, lookup_append, lookup_flag, lookup_nil, lookup_earth L _ fun k hk => (ho k hk).2.2]
  simp

theorem write_rows {L : Lib K} (hL : Sane L) {P : Projection K} (hw : Words P.params) {t : Text} (hk : P.kind ≠ .unknown)
    (h : proj4String L P = .ok t) : ∀ w ∈ writes P.kind ++ writesAll, word w.1 t = w.2.findSome? (shownOf L P.params) := by
  intro w hwm
  have hkey := key_of (writes_keys _ w hwm)
  rcases List.mem_append.1 hwm with hm | hm
  · refine Eq.trans (own_says hL hw hk h (keys := [w.1]) (by simpa using hkey) (by simpa using writes_other _ w hm)) ?_
    exact own_writes L P.params P.kind w hm
  · refine Eq.trans (text_says hL hw hk h (keys := [w.1]) (by simpa using hkey)) ?_
    rw [textItems]
    simp only [writesAll, List.mem_cons, List.not_mem_nil, or_false] at hm
    rcases hm with rfl | rfl
    · rw [lookup_append, own_none (by decide), lookup_append, lookup_item, lookup_append, lookup_item, lookup_gap, lookup_append,
        lookup_earth L _ (by decide), lookup_flag, lookup_nil]
      simp [List.findSome?_cons]
      cases shownOf L P.params "false_easting" <;> rfl
    · rw [lookup_append, own_none (by decide), lookup_append, lookup_item, lookup_append, lookup_item, lookup_gap, lookup_append,
        lookup_earth L _ (by decide), lookup_flag, lookup_nil]
      simp [List.findSome?_cons]
      cases shownOf L P.params "false_northing" <;> rfl

theorem write_proj {L : Lib K} (hL : Sane L) {P : Projection K} (hw : Words P.params) {t : Text} (hk : P.kind ≠ .unknown)
    (h : proj4String L P = .ok t) : word "proj" t = some P.kind.word.toList := by
  refine Eq.trans (own_says hL hw hk h (keys := ["proj"]) ?_ (by decide)) ?_
  · simp only [List.forall_mem_cons]; exact ⟨key_of (by decide +kernel), by simp⟩
  · generalize P.kind = k at *
    cases k <;> first | exact absurd rfl hk | rfl

/-- The standard parallels of the conics. -/
theorem write_parallels {L : Lib K} (hL : Sane L) {P : Projection K} (hw : Words P.params) {t : Text}
    (hk : P.kind = .albers ∨ P.kind = .lambertConformal) (h : proj4String L P = .ok t) :
    match (find "standard_parallel" P.params).map (fun a => a.val.doubles L) with
    | none => word "lat_1" t = some "0".toList ∧ word "lat_2" t = some "0".toList
    | some [] => False
    | some [x] => word "lat_1" t = some (L.print6 x) ∧ word "lat_2" t = some (L.print6 x)
    | some [x, _] => word "lat_1" t = some (L.print6 x) ∧ word "lat_2" t = some (L.print6 x)
    | some (x :: y :: _ :: _) => word "lat_1" t = some (L.print6 x) ∧ word "lat_2" t = some (L.print6 y) := by
  have hu : P.kind ≠ .unknown := by rcases hk with hk | hk <;> rw [hk] <;> decide
  have h1 : word "lat_1" t = lookup ["lat_1"] (ownItems L P.params P.kind) := own_says hL hw hu h (keys := ["lat_1"]) (by
    simp only [List.forall_mem_cons]; exact ⟨key_of (by decide +kernel), by simp⟩) (by decide)
  have h2 : word "lat_2" t = lookup ["lat_2"] (ownItems L P.params P.kind) := own_says hL hw hu h (keys := ["lat_2"]) (by
    simp only [List.forall_mem_cons]; exact ⟨key_of (by decide +kernel), by simp⟩) (by decide)
  have e1 : lookup ["lat_1"] (ownItems L P.params P.kind) = lookup ["lat_1"] (parallelItems L P.params) := by
    rcases hk with hk | hk <;> rw [hk] <;>
      simp [ownItems, lookup_kv, lookup_append, lookup_item]
  have e2 : lookup ["lat_2"] (ownItems L P.params P.kind) = lookup ["lat_2"] (parallelItems L P.params) := by
    rcases hk with hk | hk <;> rw [hk] <;>
      simp [ownItems, lookup_kv, lookup_append, lookup_item]
  have hub : ∀ a, find "standard_parallel" P.params = some a → a.val.doubles L = [] → False := by
    intro a ha hd
    have : parallelsPart L P.params = .ub := by unfold parallelsPart; rw [ha]; dsimp only; rw [hd]
    unfold proj4String at h
    rcases hk with hk | hk <;> rw [hk] at h <;> simp only [projectionPart, this] at h <;> cases h
  rw [h1, h2, e1, e2]
  unfold parallelItems
  cases ha : find "standard_parallel" P.params with
  | none => simp [lookup_kv]
  | some a =>
    simp only [Option.map_some]
    cases hd : a.val.doubles L with
    | nil => exact hub a ha hd
    | cons x xs => rcases xs with _ | ⟨y, _ | ⟨z, zs⟩⟩ <;> simp [lookup_kv]

/-- The longitude of the rotated pole. -/
theorem write_pole {L : Lib K} (hL : Sane L) {P : Projection K} (hw : Words P.params) {t : Text}
    (hk : P.kind = .rotated) (h : proj4String L P = .ok t) {p : K}
    (hp : find "grid_north_pole_longitude" P.params = some (num "grid_north_pole_longitude" p)) :
    word "lon_0" t = some (L.print6 (p - 180)) := by
  have hu : P.kind ≠ .unknown := by rw [hk]; decide
  have h1 : word "lon_0" t = lookup ["lon_0"] (ownItems L P.params P.kind) := own_says hL hw hu h (keys := ["lon_0"]) (by
    simp only [List.forall_mem_cons]; exact ⟨key_of (by decide +kernel), by simp⟩) (by decide)
  rw [h1, hk]
  simp only [ownItems, poleItems, hp, num, Val.doubles, lookup_kv, lookup_append]
  simp

end
end Fimex.Proj
