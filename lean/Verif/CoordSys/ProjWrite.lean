import Verif.CoordSys.ProjRead

/-!
# From the attributes to the text
-/

namespace Fimex.Proj

variable {K : Type}

/-- A value as it is written. -/
def shown (L : Lib K) (a : Attr K) : Option Text :=
  match a.val with
  | .text t => some t
  | .nums [] => none
  | .nums (x :: xs) => some (joined [','] ((x :: xs).map L.print))

/-- The value of a parameter as it is written. -/
def shownOf (L : Lib K) (ps : List (Attr K)) (n : String) : Option Text := (find n ps).bind (shown L)

/-- Printed numbers are words. -/
structure Sane (L : Lib K) : Prop where
  print : ∀ x, CleanVal (L.print x)
  print6 : ∀ x, CleanVal (L.print6 x)

/-- Attributes with texts as values, as far as they get written, are words. -/
structure Words (ps : List (Attr K)) : Prop where
  value : ∀ a ∈ ps, ∀ t, a.val = .text t → a.name ≠ "no_rotation" → a.name ≠ "grid_mapping_name" → a.name ≠ "sweep_axis" → CleanVal t
  flag : ∀ a ∈ ps, ∀ t, a.val = .text t → a.name = "no_rotation" → ∀ c ∈ t, c ≠ '='

/-- One parameter. -/
def item (L : Lib K) (ps : List (Attr K)) (n key : String) : List Item :=
  match shownOf L ps n with
  | some v => [.kv key v]
  | none => []

theorem toStream_eq (L : Lib K) (ps : List (Attr K)) (n r : String) : toStream L ps n r = (shownOf L ps n).map fun v => r.toList ++ v := by
  unfold toStream shownOf
  cases find n ps with
  | none => rfl
  | some a =>
    show _ = Option.map _ (shown L a)
    unfold shown
    cases hv : a.val with
    | text t => simp [hv]
    | nums l => cases l <;> simp [hv]

theorem streamed_eq {L : Lib K} {ps : List (Attr K)} {n r : String} (key : String) (h : r.toList = ' ' :: plus key) :
    streamed L ps n r = (item L ps n key).flatMap Item.chars := by
  unfold streamed item
  rw [toStream_eq]
  cases shownOf L ps n with
  | none => rfl
  | some v => simp [Item.chars, h]

theorem joined_clean : ∀ {ts : List Text}, ts ≠ [] → (∀ t ∈ ts, CleanVal t) → CleanVal (joined [','] ts)
  | [], h, _ => absurd rfl h
  | [t], _, h => h t (by simp)
  | t :: u :: ts, _, h => by
    have ih := joined_clean (ts := u :: ts) (by simp) fun x hx => h x (List.mem_cons_of_mem _ hx)
    have ht := h t (by simp)
    refine ⟨fun e => ?_, fun c hc => ?_⟩
    · have := congrArg List.length e
      simp [joined] at this
    · rw [joined, List.mem_append, List.mem_append] at hc
      rcases hc with (hc | hc) | hc
      · exact ht.2 c hc
      · simp only [List.mem_cons, List.not_mem_nil, or_false] at hc
        subst hc; decide
      · exact ih.2 c hc

theorem shown_clean {L : Lib K} (hL : Sane L) {ps : List (Attr K)} (hw : Words ps) {n : String} (h1 : n ≠ "no_rotation")
    (h2 : n ≠ "grid_mapping_name") (h3 : n ≠ "sweep_axis") {v : Text} (h : shownOf L ps n = some v) : CleanVal v := by
  unfold shownOf at h
  obtain ⟨a, ha, hv⟩ := Option.bind_eq_some_iff.1 h
  obtain ⟨hm, hn⟩ := find_some ha
  unfold shown at hv
  cases hval : a.val with
  | text t =>
    rw [hval] at hv
    cases hv
    exact hw.value a hm _ hval (hn ▸ h1) (hn ▸ h2) (hn ▸ h3)
  | nums l =>
    rw [hval] at hv
    cases l with
    | nil => cases hv
    | cons x xs =>
      cases hv
      refine joined_clean (by simp) fun t ht => ?_
      obtain ⟨y, -, rfl⟩ := List.mem_map.1 ht
      exact hL.print y

theorem item_good {L : Lib K} (hL : Sane L) {ps : List (Attr K)} (hw : Words ps) {n key : String} (h1 : n ≠ "no_rotation")
    (h2 : n ≠ "grid_mapping_name") (h3 : n ≠ "sweep_axis") (hk : CleanKey key) : ∀ i ∈ item L ps n key, i.Good := by
  intro i hi
  unfold item at hi
  cases h : shownOf L ps n with
  | none => rw [h] at hi; simp at hi
  | some v =>
    rw [h] at hi
    simp only [List.mem_cons, List.not_mem_nil, or_false] at hi
    subst hi
    exact ⟨hk, shown_clean hL hw h1 h2 h3 h⟩

theorem lookup_append (keys : List String) (xs ys : List Item) : lookup keys (xs ++ ys) = (lookup keys xs).or (lookup keys ys) := by
  unfold lookup
  rw [List.findSome?_append]

theorem lookup_nil (keys : List String) : lookup keys [] = none := rfl

theorem lookup_kv (keys : List String) (k : String) (v : Text) (xs : List Item) :
    lookup keys (.kv k v :: xs) = if k ∈ keys then some v else lookup keys xs := by
  unfold lookup
  rw [List.findSome?_cons]
  by_cases h : k ∈ keys <;> simp [h]

theorem lookup_gap (keys : List String) (xs : List Item) : lookup keys (.gap :: xs) = lookup keys xs := rfl

theorem lookup_flag (keys : List String) (f : Text) (xs : List Item) : lookup keys (.flag f :: xs) = lookup keys xs := rfl

theorem lookup_item (L : Lib K) (keys : List String) (ps : List (Attr K)) (n key : String) :
    lookup keys (item L ps n key) = if key ∈ keys then shownOf L ps n else none := by
  unfold item
  cases shownOf L ps n with
  | none => simp [lookup_nil]
  | some v => simp [lookup_kv, lookup_nil]

variable [Field K] [LinearOrder K]

/-- The items of the earth. -/
def earthItems (L : Lib K) (ps : List (Attr K)) : List Item :=
  (match shownOf L ps "earth_radius" with
    | some r => [.kv "a" r, .kv "e" "0".toList]
    | none =>
      match shownOf L ps "semi_major_axis" with
      | some a =>
        [.kv "a" a, .gap] ++ item L ps "semi_minor_axis" "b" ++
          (if inverseFlattening L ps > 0 then [.kv "rf" (L.print (inverseFlattening L ps))] else []) ++
          (if inverseFlattening L ps ≤ 0 ∧ shownOf L ps "semi_minor_axis" = none then [.kv "e" "0".toList] else [])
      | none => [.kv "a" "6371000".toList, .kv "e" "0".toList]) ++
  item L ps "towgs84" "towgs84"

theorem earthString_eq (L : Lib K) (ps : List (Attr K)) : earthString L ps = (earthItems L ps).flatMap Item.chars := by
  unfold earthString earthItems
  rw [List.flatMap_append, streamed_eq (n := "towgs84") "towgs84" (by decide), toStream_eq, toStream_eq, toStream_eq,
    streamed_eq (n := "semi_minor_axis") "b" (by decide)]
  congr 1
  cases shownOf L ps "earth_radius" with
  | some r => simp [Item.chars, plus]
  | none =>
    cases shownOf L ps "semi_major_axis" with
    | none => simp [Item.chars, plus]
    | some a =>
      have h1 : (shownOf L ps "semi_minor_axis").map (fun v => " +b=".toList ++ v) = none ↔ shownOf L ps "semi_minor_axis" = none := by
        cases shownOf L ps "semi_minor_axis" <;> simp
      simp only [Option.map_none, Option.map_some, h1, List.flatMap_append]
      congr 1
      · congr 1
        split <;> simp [Item.chars, plus]
      · split <;> simp [Item.chars, plus]

omit [Field K] [LinearOrder K] in
theorem clean_of {v : Text} (h : (!v.isEmpty && v.all fun c => c != '=' && !Cf.isSpace c) = true) : CleanVal v := by
  simp only [Bool.and_eq_true, Bool.not_eq_true', List.isEmpty_eq_false_iff, List.all_eq_true, bne_iff_ne, ne_eq] at h
  exact ⟨h.1, h.2⟩

omit [Field K] [LinearOrder K] in
theorem key_of {k : String} (h : (k.toList.all fun c => c != '+' && c != '=' && !Cf.isSpace c) = true) : CleanKey k := by
  simp only [Bool.and_eq_true, Bool.not_eq_true', List.all_eq_true, bne_iff_ne, ne_eq, and_assoc] at h
  exact h

theorem earthItems_good {L : Lib K} (hL : Sane L) {ps : List (Attr K)} (hw : Words ps) : ∀ i ∈ earthItems L ps, i.Good := by
  have hkv : ∀ {k : String} {v : Text}, CleanKey k → CleanVal v → Item.Good (.kv k v) := fun h1 h2 => ⟨h1, h2⟩
  have ka : CleanKey "a" := key_of (by decide +kernel)
  have ke : CleanKey "e" := key_of (by decide +kernel)
  have v0 : CleanVal "0".toList := clean_of (by decide +kernel)
  unfold earthItems
  rw [List.forall_mem_append]
  refine ⟨?_, item_good hL hw (by decide) (by decide) (by decide) (key_of (by decide +kernel))⟩
  cases h1 : shownOf L ps "earth_radius" with
  | some r =>
    simp only [List.forall_mem_cons]
    exact ⟨hkv ka (shown_clean hL hw (by decide) (by decide) (by decide) h1), hkv ke v0, by simp⟩
  | none =>
    cases h2 : shownOf L ps "semi_major_axis" with
    | none =>
      simp only [List.forall_mem_cons]
      exact ⟨hkv ka (clean_of (by decide +kernel)), hkv ke v0, by simp⟩
    | some a =>
      simp only [List.forall_mem_append, List.forall_mem_cons]
      refine ⟨⟨⟨⟨hkv ka (shown_clean hL hw (by decide) (by decide) (by decide) h2), trivial, by simp⟩,
        item_good hL hw (by decide) (by decide) (by decide) (key_of (by decide +kernel))⟩, ?_⟩, ?_⟩
      · split
        · simp only [List.forall_mem_cons]
          exact ⟨hkv (key_of (by decide +kernel)) (hL.print _), by simp⟩
        · simp
      · split
        · simp only [List.forall_mem_cons]
          exact ⟨hkv ke v0, by simp⟩
        · simp

/-- The items of the standard parallels. -/
def parallelItems (L : Lib K) (ps : List (Attr K)) : List Item :=
  match find "standard_parallel" ps with
  | none => [.kv "lat_1" "0".toList, .kv "lat_2" "0".toList]
  | some a =>
    match a.val.doubles L with
    | [] => []
    | x :: xs => [.kv "lat_1" (L.print6 x), .kv "lat_2" (match xs with | y :: _ :: _ => L.print6 y | _ => L.print6 x)]

/-- The item of the longitude of the pole. -/
def poleItems (L : Lib K) (ps : List (Attr K)) : List Item :=
  match find "grid_north_pole_longitude" ps with
  | none => []
  | some a =>
    match a.val.doubles L with
    | [] => []
    | x :: _ => [.kv "lon_0" (L.print6 (x - 180))]

/-- The flag of the oblique Mercator projection. -/
def noRotItems (L : Lib K) (ps : List (Attr K)) : List Item :=
  match shownOf L ps "no_rotation" with
  | some v => [.flag ("+no_rot".toList ++ v)]
  | none => []

/-- The items of a class. -/
def ownItems (L : Lib K) (ps : List (Attr K)) : Kind → List Item
  | .albers => .kv "proj" "aea".toList :: (parallelItems L ps ++ (item L ps "longitude_of_central_meridian" "lon_0" ++
      item L ps "latitude_of_projection_origin" "lat_0"))
  | .azimuthalEquidistant => .kv "proj" "aeqd".toList :: (item L ps "longitude_of_projection_origin" "lon_0" ++
      item L ps "latitude_of_projection_origin" "lat_0")
  | .geostationary => .kv "proj" "geos".toList :: (item L ps "longitude_of_projection_origin" "lon_0" ++
      (item L ps "latitude_of_projection_origin" "lat_0" ++ (item L ps "perspective_point_height" "h" ++
        item L ps "sweep_angle_axis" "sweep")))
  | .lambertAzimuthal => .kv "proj" "laea".toList :: (item L ps "longitude_of_projection_origin" "lon_0" ++
      item L ps "latitude_of_projection_origin" "lat_0")
  | .lambertConformal => .kv "proj" "lcc".toList :: (parallelItems L ps ++ (item L ps "longitude_of_central_meridian" "lon_0" ++
      item L ps "latitude_of_projection_origin" "lat_0"))
  | .lambertCylindrical => .kv "proj" "cea".toList :: (item L ps "longitude_of_central_meridian" "lon_0" ++
      (item L ps "standard_parallel" "lat_ts" ++ item L ps "scale_factor_at_projection_origin" "k"))
  | .latLong => [.kv "proj" "latlong".toList]
  | .mercator => .kv "proj" "merc".toList :: (item L ps "longitude_of_projection_origin" "lon_0" ++
      (item L ps "standard_parallel" "lat_ts" ++ item L ps "scale_factor_at_projection_origin" "k_0"))
  | .obliqueMercator => .kv "proj" "omerc".toList :: (item L ps "longitude_of_projection_origin" "lonc" ++
      (item L ps "latitude_of_projection_origin" "lat_0" ++ (item L ps "azimuth_of_central_line" "alpha" ++
        (item L ps "gamma" "gamma" ++ (item L ps "scale_factor_at_projection_origin" "k_0" ++ noRotItems L ps)))))
  | .orthographic => .kv "proj" "ortho".toList :: (item L ps "longitude_of_projection_origin" "lon_0" ++
      item L ps "latitude_of_projection_origin" "lat_0")
  | .polarStereographic | .stereographic => .kv "proj" "stere".toList :: (item L ps "latitude_of_projection_origin" "lat_0" ++
      (item L ps "straight_vertical_longitude_from_pole" "lon_0" ++ (item L ps "longitude_of_projection_origin" "lon_0" ++
        (item L ps "scale_factor_at_projection_origin" "k" ++ item L ps "standard_parallel" "lat_ts"))))
  | .rotated => .kv "proj" "ob_tran".toList :: .kv "o_proj" "longlat".toList :: (poleItems L ps ++
      (item L ps "grid_north_pole_latitude" "o_lat_p" ++ item L ps "north_pole_grid_longitude" "o_lon_p"))
  | .sinusoidal => .kv "proj" "sinu".toList :: item L ps "longitude_of_projection_origin" "lon_0"
  | .transverseMercator => .kv "proj" "tmerc".toList :: (item L ps "longitude_of_central_meridian" "lon_0" ++
      (item L ps "latitude_of_projection_origin" "lat_0" ++ item L ps "scale_factor_at_central_meridian" "k_0"))
  | .verticalPerspective => .kv "proj" "nsper".toList :: (item L ps "longitude_of_projection_origin" "lon_0" ++
      (item L ps "latitude_of_projection_origin" "lat_0" ++ item L ps "perspective_point_height" "h"))
  | .unknown => []

/-- All items. -/
def textItems (L : Lib K) (P : Projection K) : List Item :=
  ownItems L P.params P.kind ++ (item L P.params "false_easting" "x_0" ++ (item L P.params "false_northing" "y_0" ++
    (.gap :: (earthItems L P.params ++ [.flag "+no_defs".toList]))))

omit [LinearOrder K] in
theorem projectionPart_items {L : Lib K} {ps : List (Attr K)} {k : Kind} {t : Text} (h : projectionPart L ps k = .ok t) :
    ' ' :: t = (ownItems L ps k).flatMap Item.chars := by
  have par : ∀ {u : Text}, parallelsPart L ps = .ok u → u = (parallelItems L ps).flatMap Item.chars := by
    intro u hu
    unfold parallelsPart at hu
    unfold parallelItems
    cases hf : find "standard_parallel" ps with
    | none => rw [hf] at hu; cases hu; show _ = List.flatMap Item.chars [_, _]; decide +kernel
    | some a =>
      rw [hf] at hu
      cases hv : a.val.doubles L with
      | nil => simp only [hv] at hu; cases hu
      | cons x xs =>
        simp only [hv] at hu ⊢
        cases hu
        rcases xs with _ | ⟨y, _ | ⟨z, ys⟩⟩ <;> simp [Item.chars, plus]
  have st : ∀ n r key, r.toList = ' ' :: plus key → streamed L ps n r = (item L ps n key).flatMap Item.chars :=
    fun n r key h => streamed_eq key h
  have s1 := st "longitude_of_central_meridian" " +lon_0=" "lon_0" (by decide)
  have s2 := st "latitude_of_projection_origin" " +lat_0=" "lat_0" (by decide)
  have s3 := st "longitude_of_projection_origin" " +lon_0=" "lon_0" (by decide)
  have s4 := st "perspective_point_height" " +h=" "h" (by decide)
  have s5 := st "sweep_angle_axis" " +sweep=" "sweep" (by decide)
  have s6 := st "standard_parallel" " +lat_ts=" "lat_ts" (by decide)
  have s7 := st "scale_factor_at_projection_origin" " +k=" "k" (by decide)
  have s8 := st "scale_factor_at_projection_origin" " +k_0=" "k_0" (by decide)
  have s9 := st "longitude_of_projection_origin" " +lonc=" "lonc" (by decide)
  have s10 := st "azimuth_of_central_line" " +alpha=" "alpha" (by decide)
  have s11 := st "gamma" " +gamma=" "gamma" (by decide)
  have s12 := st "straight_vertical_longitude_from_pole" " +lon_0=" "lon_0" (by decide)
  have s13 := st "grid_north_pole_latitude" " +o_lat_p=" "o_lat_p" (by decide)
  have s14 := st "north_pole_grid_longitude" " +o_lon_p=" "o_lon_p" (by decide)
  have s15 := st "scale_factor_at_central_meridian" " +k_0=" "k_0" (by decide)
  have sr : streamed L ps "no_rotation" " +no_rot" = (noRotItems L ps).flatMap Item.chars := by
    unfold streamed noRotItems
    rw [toStream_eq]
    cases shownOf L ps "no_rotation" with
    | none => rfl
    | some v => simp [Item.chars]
  have sp : polePart L ps = (poleItems L ps).flatMap Item.chars := by
    unfold polePart poleItems
    cases find "grid_north_pole_longitude" ps with
    | none => rfl
    | some a =>
      dsimp only
      cases a.val.doubles L with
      | nil => rfl
      | cons x xs => simp [Item.chars, plus]
  have hd : ∀ (n : String) (xs : List Item), (Item.kv "proj" n.toList :: xs).flatMap Item.chars =
      ' ' :: ("+proj=".toList ++ n.toList ++ xs.flatMap Item.chars) := by
    intro n xs
    rw [List.flatMap_cons]
    simp [Item.chars, plus]
  cases k with
  | unknown => cases h
  | albers =>
    obtain ⟨u, hu, h⟩ := Res.bind_eq_ok.1 h
    cases h
    rw [ownItems, hd, List.flatMap_append, List.flatMap_append, par hu, s1, s2]
    simp
  | lambertConformal =>
    obtain ⟨u, hu, h⟩ := Res.bind_eq_ok.1 h
    cases h
    rw [ownItems, hd, List.flatMap_append, List.flatMap_append, par hu, s1, s2]
    simp
  | rotated =>
    cases h
    rw [ownItems, hd, List.flatMap_cons, List.flatMap_append, List.flatMap_append, sp, s13, s14]
    simp [Item.chars, plus]
  | latLong => cases h; show _ = List.flatMap Item.chars [_]; decide +kernel
  | azimuthalEquidistant | geostationary | lambertAzimuthal | lambertCylindrical | mercator | obliqueMercator | orthographic
  | polarStereographic | sinusoidal | stereographic | transverseMercator | verticalPerspective =>
    cases h
    rw [ownItems, hd]
    simp only [List.flatMap_append, s1, s2, s3, s4, s5, s6, s7, s8, s9, s10, s11, s12, s15, sr]
    simp

theorem proj4String_items {L : Lib K} {P : Projection K} {t : Text} (hk : P.kind ≠ .unknown) (h : proj4String L P = .ok t) :
    ' ' :: t = (textItems L P).flatMap Item.chars := by
  have h : (projectionPart L P.params P.kind >>= fun t =>
      .ok (t ++ streamed L P.params "false_easting" " +x_0=" ++ streamed L P.params "false_northing" " +y_0=" ++
      " ".toList ++ earthString L P.params ++ " +no_defs".toList)) = .ok t := by
    unfold proj4String at h
    split at h
    · rename_i e; exact absurd e hk
    · exact h
  obtain ⟨u, hu, h⟩ := Res.bind_eq_ok.1 h
  cases h
  have := projectionPart_items hu
  rw [textItems, List.flatMap_append, ← this, List.flatMap_append, List.flatMap_append, List.flatMap_cons, List.flatMap_append,
    ← earthString_eq, streamed_eq "x_0" (by decide), streamed_eq "y_0" (by decide)]
  simp [Item.chars]

omit [LinearOrder K] in
theorem ownItems_good {L : Lib K} (hL : Sane L) {ps : List (Attr K)} (hw : Words ps) {k : Kind} : ∀ i ∈ ownItems L ps k, i.Good := by
  have hkv : ∀ {k : String} {v : Text}, (k.toList.all fun c => c != '+' && c != '=' && !Cf.isSpace c) = true → CleanVal v →
      Item.Good (.kv k v) := fun h1 h2 => ⟨key_of h1, h2⟩
  have it : ∀ {n key : String}, (n ≠ "no_rotation" ∧ n ≠ "grid_mapping_name" ∧ n ≠ "sweep_axis" ∧
      (key.toList.all fun c => c != '+' && c != '=' && !Cf.isSpace c) = true) → ∀ i ∈ item L ps n key, i.Good :=
    fun h => item_good hL hw h.1 h.2.1 h.2.2.1 (key_of h.2.2.2)
  have par : ∀ i ∈ parallelItems L ps, i.Good := by
    unfold parallelItems
    split
    · simp only [List.forall_mem_cons]
      exact ⟨hkv (by decide +kernel) (clean_of (by decide +kernel)), hkv (by decide +kernel) (clean_of (by decide +kernel)), by simp⟩
    · split
      · simp
      · simp only [List.forall_mem_cons]
        refine ⟨hkv (by decide +kernel) (hL.print6 _), hkv (by decide +kernel) ?_, by simp⟩
        split <;> exact hL.print6 _
  have pol : ∀ i ∈ poleItems L ps, i.Good := by
    unfold poleItems
    split
    · simp
    · split
      · simp
      · simp only [List.forall_mem_cons]
        exact ⟨hkv (by decide +kernel) (hL.print6 _), by simp⟩
  have nor : ∀ i ∈ noRotItems L ps, i.Good := by
    unfold noRotItems
    cases h : shownOf L ps "no_rotation" with
    | none => simp
    | some v =>
      simp only [List.forall_mem_cons]
      refine ⟨?_, by simp⟩
      intro c hc
      rcases List.mem_append.1 hc with hc | hc
      · have : ∀ c ∈ "+no_rot".toList, c ≠ '=' := by decide +kernel
        exact this c hc
      · unfold shownOf at h
        obtain ⟨a, ha, hv⟩ := Option.bind_eq_some_iff.1 h
        obtain ⟨hm, hn⟩ := find_some ha
        unfold shown at hv
        cases hval : a.val with
        | text t =>
          rw [hval] at hv
          cases hv
          exact hw.flag a hm _ hval hn c hc
        | nums l =>
          rw [hval] at hv
          cases l with
          | nil => cases hv
          | cons x xs =>
            cases hv
            have := joined_clean (ts := (x :: xs).map L.print) (by simp) fun t ht => by
              obtain ⟨y, -, rfl⟩ := List.mem_map.1 ht
              exact hL.print y
            exact (this.2 c hc).1
  cases k <;> simp only [ownItems, List.forall_mem_append, List.forall_mem_cons]
  all_goals
    repeat' (first
      | exact hkv (by decide +kernel) (clean_of (by decide +kernel))
      | exact it (by decide +kernel)
      | exact par
      | exact pol
      | exact nor
      | (intro i hi; simp at hi)
      | apply And.intro)

theorem textItems_good {L : Lib K} (hL : Sane L) {P : Projection K} (hw : Words P.params) : ∀ i ∈ textItems L P, i.Good := by
  unfold textItems
  simp only [List.forall_mem_append, List.forall_mem_cons]
  refine ⟨ownItems_good hL hw, item_good hL hw (by decide) (by decide) (by decide) (key_of (by decide +kernel)),
    item_good hL hw (by decide) (by decide) (by decide) (key_of (by decide +kernel)), trivial, earthItems_good hL hw, ?_, by simp⟩
  show ∀ c ∈ "+no_defs".toList, c ≠ '='
  decide +kernel

/-- What a written text says. -/
theorem text_says {L : Lib K} (hL : Sane L) {P : Projection K} (hw : Words P.params) {t : Text} (hk : P.kind ≠ .unknown)
    (h : proj4String L P = .ok t) {keys : List String} (hkeys : ∀ k ∈ keys, CleanKey k) :
    search noSpace (keys.map plus) t = lookup keys (textItems L P) :=
  search_text hkeys (textItems_good hL hw) (proj4String_items hk h)

end Fimex.Proj
