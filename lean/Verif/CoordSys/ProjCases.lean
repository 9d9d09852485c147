import Verif.CoordSys.ProjProps
import Mathlib.Algebra.Order.Ring.Rat

/-!
# Projections and their texts: single cases
-/


namespace Fimex.Proj

open Fimex.Cf (isSpace)

/-! ## A library -/

/-- A number as text: a sign, digits, and the denominator when there is one. -/
def decimal (q : ℚ) : Text :=
  (if q < 0 then ['-'] else []) ++ Nat.toDigits 10 q.num.natAbs ++ (if q.den = 1 then [] else '/' :: Nat.toDigits 10 q.den)

def digits (w : Text) : Option ℕ := if w ≠ [] ∧ w.all Char.isDigit then some (Nat.ofDigitChars 10 w 0) else none

def unsigned (w : Text) : Option ℚ :=
  match w.splitOn '/' with
  | [a] => (digits a).map fun n => (n : ℚ)
  | [a, b] => (digits a).bind fun n => (digits b).bind fun d => if d = 0 then none else some (mkRat n d)
  | _ => none

def parsed (w : Text) : Option ℚ :=
  match w with
  | '-' :: w => (unsigned w).map fun q => -q
  | w => unsigned w

/-- A library on rational numbers; it has no roots. -/
def lib : Lib ℚ where
  string2type w := match parsed w with | some q => .ok q | none => .throws
  strtod w := (parsed w).getD 0
  dotted w := match (w.splitOn ',').mapM parsed with | some l => .ok l | none => .throws
  print := decimal
  print6 := decimal
  ofText _ := []
  textOf _ := []
  sqrt q := q

theorem toDigits_clean {n : ℕ} : ∀ c ∈ Nat.toDigits 10 n, c ≠ '=' ∧ isSpace c = false := by
  intro c hc
  have hd := Nat.isDigit_of_mem_toDigits (by norm_num) (by norm_num) hc
  have h1 : ∀ x : Char, x.isDigit = false → c ≠ x := by rintro x hx rfl; rw [hx] at hd; cases hd
  refine ⟨h1 _ (by decide), ?_⟩
  simp [isSpace, h1 ' ' (by decide), h1 '\t' (by decide), h1 '\n' (by decide), h1 '\x0b' (by decide), h1 '\x0c' (by decide), h1 '\r' (by decide)]

theorem decimal_clean (q : ℚ) : CleanVal (decimal q) := by
  refine ⟨by simp [decimal, Nat.toDigits_ne_nil], fun c hc => ?_⟩
  unfold decimal at hc
  rcases List.mem_append.1 hc with hc | hc
  · rcases List.mem_append.1 hc with hc | hc
    · split at hc
      · have : c = '-' := by simpa using hc
        subst this
        decide
      · simp at hc
    · exact toDigits_clean c hc
  · split at hc
    · simp at hc
    · rcases List.mem_cons.1 hc with rfl | hc
      · decide
      · exact toDigits_clean c hc

theorem lib_sane : Sane lib := ⟨decimal_clean, decimal_clean⟩

theorem lib_strtod : StrtodAgrees lib := by
  intro w v h
  show (parsed w).getD 0 = v
  simp only [lib] at h
  cases hp : parsed w with
  | none => rw [hp] at h; cases h
  | some q => rw [hp] at h; cases h; rfl

/-- Reading a text and writing it again. -/
def again (s : String) : Res Text := createByProj4 lib 10 s.toList >>= proj4String lib

/-- The class and the attributes of a text. -/
def made (s : String) : Res (Projection ℚ) := createByProj4 lib 10 s.toList

theorem again_of {s : String} {P : Projection ℚ} {t : Text} (hm : made s = .ok P) (hp : proj4String lib P = .ok t) : again s = .ok t := by
  show (made s >>= proj4String lib) = _
  rw [hm, Res.ok_bind, hp]

/-! ## Texts which come back -/

/-- Lambert's conic with a false easting on a sphere. -/
def lcc : Projection ℚ :=
  ⟨.lambertConformal, [⟨"grid_mapping_name", .text "lambert_conformal_conic".toList⟩, ⟨"standard_parallel", .nums [63, 63]⟩,
  ⟨"longitude_of_central_meridian", .nums [15]⟩, ⟨"latitude_of_projection_origin", .nums [63]⟩, ⟨"false_easting", .nums [(-7 / 2)]⟩,
  ⟨"earth_radius", .nums [6371000]⟩]⟩

theorem made_lcc : made "+proj=lcc +lat_1=63 +lat_2=63 +lat_0=63 +lon_0=15 +x_0=-7/2 +R=6371000" = .ok lcc := by decide +kernel

theorem lcc_text : proj4String lib lcc = .ok "+proj=lcc +lat_1=63 +lat_2=63 +lon_0=15 +lat_0=63 +x_0=-7/2  +a=6371000 +e=0 +no_defs".toList := by
  decide +kernel

/-- `C101_text_kept_partial` on this library: the false easting is kept. -/
example : number lib ["x_0"] "+proj=lcc +lat_1=63 +lat_2=63 +lon_0=15 +lat_0=63 +x_0=-7/2  +a=6371000 +e=0 +no_defs".toList = some (-7/2) := by
  obtain ⟨t, ht, -, hx, -⟩ := C101_text_kept_partial (L := lib) lib_sane lib_strtod (fuel := 10) made_lcc (by decide) (by decide +kernel) (by decide)
  rw [lcc_text] at ht
  rw [Res.ok.inj ht]
  exact hx.given _ (by decide +kernel) (by show lib.string2type (lib.print _) = _; decide +kernel)

/-- A polar stereographic one with a latitude of true scale, and an ellipsoid with both axes. -/
theorem again_stere : again "+proj=stere +lat_0=90 +lon_0=58 +lat_ts=60 +a=6378137 +b=6356752" =
    .ok "+proj=stere +lat_0=90 +lon_0=58 +lat_ts=60  +a=6378137  +b=6356752 +no_defs".toList :=
  again_of (P :=
    ⟨.polarStereographic, [⟨"grid_mapping_name", .text "polar_stereographic".toList⟩, ⟨"straight_vertical_longitude_from_pole", .nums
    [58]⟩, ⟨"latitude_of_projection_origin", .nums [90]⟩, ⟨"standard_parallel", .nums [60]⟩, ⟨"semi_major_axis", .nums [6378137]⟩,
    ⟨"semi_minor_axis", .nums [6356752]⟩]⟩)
    (by decide +kernel) (by decide +kernel)

/-- A rotated one, as in `C101_rotated_kept`. -/
theorem again_rotated : again "+proj=ob_tran +o_proj=latlong +lon_0=-40 +o_lat_p=25 +o_lon_p=10 +R=6371000" =
    .ok "+proj=ob_tran +o_proj=longlat +lon_0=-40 +o_lat_p=25 +o_lon_p=10  +a=6371000 +e=0 +no_defs".toList :=
  again_of (P :=
    ⟨.rotated, [⟨"grid_mapping_name", .text "rotated_latitude_longitude".toList⟩, ⟨"grid_north_pole_longitude", .nums [140]⟩,
    ⟨"grid_north_pole_latitude", .nums [25]⟩, ⟨"north_pole_grid_longitude", .nums [10]⟩, ⟨"earth_radius", .nums [6371000]⟩]⟩)
    (by decide +kernel) (by decide +kernel)

/-- A zone, as in `C101_utm`. -/
example : made "+proj=utm +zone=33 +R=6371000" = .ok
    ⟨.transverseMercator, [⟨"grid_mapping_name", .text "transverse_mercator".toList⟩, ⟨"scale_factor_at_central_meridian", .nums [(2499
    / 2500)]⟩, ⟨"latitude_of_projection_origin", .nums [0]⟩, ⟨"false_easting", .nums [500000]⟩, ⟨"longitude_of_central_meridian", .nums
    [15]⟩, ⟨"earth_radius", .nums [6371000]⟩]⟩ := by
  decide +kernel

/-- Another earth, as in `C101_replace`. -/
example : replaceEarth "+proj=merc +a=6371000 +e=0 +lon_0=3".toList "+ellps=WGS84".toList = "+proj=merc +lon_0=3 +ellps=WGS84".toList := by
  decide +kernel

/-! ## Texts which do not -/

theorem again_lcc65 : again "+proj=lcc +lat_1=63 +lat_2=65 +lat_0=63 +lon_0=15 +R=6371000" =
    .ok "+proj=lcc +lat_1=63 +lat_2=63 +lon_0=15 +lat_0=63  +a=6371000 +e=0 +no_defs".toList :=
  again_of (P :=
    ⟨.lambertConformal, [⟨"grid_mapping_name", .text "lambert_conformal_conic".toList⟩, ⟨"standard_parallel", .nums [63, 65]⟩,
    ⟨"longitude_of_central_meridian", .nums [15]⟩, ⟨"latitude_of_projection_origin", .nums [63]⟩, ⟨"earth_radius", .nums [6371000]⟩]⟩)
    (by decide +kernel) (by decide +kernel)

theorem again_aea65 : again "+proj=aea +lat_1=63 +lat_2=65 +lat_0=63 +lon_0=15 +R=6371000" =
    .ok "+proj=aea +lat_1=63 +lat_2=63 +lon_0=15 +lat_0=63  +a=6371000 +e=0 +no_defs".toList :=
  again_of (P :=
    ⟨.albers, [⟨"grid_mapping_name", .text "albers_conical_equal_area".toList⟩, ⟨"standard_parallel", .nums [63, 65]⟩,
    ⟨"longitude_of_central_meridian", .nums [15]⟩, ⟨"latitude_of_projection_origin", .nums [63]⟩, ⟨"earth_radius", .nums [6371000]⟩]⟩)
    (by decide +kernel) (by decide +kernel)

/-- **C101, what goes wrong.** The second standard parallel is lost: both are read, and written only when there are more than two. -/
theorem C101_second_parallel_lost :
    again "+proj=lcc +lat_1=63 +lat_2=65 +lat_0=63 +lon_0=15 +R=6371000" =
      .ok "+proj=lcc +lat_1=63 +lat_2=63 +lon_0=15 +lat_0=63  +a=6371000 +e=0 +no_defs".toList ∧
    again "+proj=aea +lat_1=63 +lat_2=65 +lat_0=63 +lon_0=15 +R=6371000" =
      .ok "+proj=aea +lat_1=63 +lat_2=63 +lon_0=15 +lat_0=63  +a=6371000 +e=0 +no_defs".toList := ⟨again_lcc65, again_aea65⟩

theorem again_k : again "+proj=merc +k=2 +R=6371000" =
    .ok "+proj=merc +lon_0=0 +k_0=2  +a=6371000 +e=0 +no_defs".toList :=
  again_of (P :=
    ⟨.mercator, [⟨"grid_mapping_name", .text "mercator".toList⟩, ⟨"longitude_of_projection_origin", .nums [0]⟩,
    ⟨"scale_factor_at_projection_origin", .nums [2]⟩, ⟨"earth_radius", .nums [6371000]⟩]⟩)
    (by decide +kernel) (by decide +kernel)

theorem again_k0 : again "+proj=merc +lon_0=0 +k_0=2  +a=6371000 +e=0 +no_defs" =
    .ok "+proj=merc +lon_0=0  +a=6371000 +e=0 +no_defs".toList :=
  again_of (P :=
    ⟨.mercator, [⟨"grid_mapping_name", .text "mercator".toList⟩, ⟨"longitude_of_projection_origin", .nums [0]⟩, ⟨"earth_radius", .nums
    [6371000]⟩]⟩)
    (by decide +kernel) (by decide +kernel)

/-- **C101, what goes wrong.** A scale factor with the key `k_0` is written, but not read. -/
theorem C101_scale_lost :
    again "+proj=merc +k=2 +R=6371000" = .ok "+proj=merc +lon_0=0 +k_0=2  +a=6371000 +e=0 +no_defs".toList ∧
    again "+proj=merc +lon_0=0 +k_0=2  +a=6371000 +e=0 +no_defs" = .ok "+proj=merc +lon_0=0  +a=6371000 +e=0 +no_defs".toList :=
  ⟨again_k, again_k0⟩

/-- **C101, what goes wrong.** The sweep axis is read into one attribute and written from another. -/
theorem C101_sweep_lost : again "+proj=geos +h=35785831 +sweep=x +R=6371000" =
    .ok "+proj=geos +lon_0=0 +lat_0=0 +h=35785831  +a=6371000 +e=0 +no_defs".toList :=
  again_of (P :=
    ⟨.geostationary, [⟨"grid_mapping_name", .text "geostationary".toList⟩, ⟨"longitude_of_projection_origin", .nums [0]⟩,
    ⟨"latitude_of_projection_origin", .nums [0]⟩, ⟨"perspective_point_height", .nums [35785831]⟩, ⟨"sweep_axis", .text "x".toList⟩,
    ⟨"earth_radius", .nums [6371000]⟩]⟩)
    (by decide +kernel) (by decide +kernel)

theorem again_bessel : again "+proj=latlong +ellps=bessel" =
    .ok "+proj=latlong  +a=1275479431/200  +rf=46742627/156250 +no_defs".toList :=
  again_of (P :=
    ⟨.latLong, [⟨"grid_mapping_name", .text "latitude_longitude".toList⟩, ⟨"semi_major_axis", .nums [(1275479431 / 200)]⟩,
    ⟨"inverse_flattening", .nums [(46742627 / 156250)]⟩]⟩)
    (by decide +kernel) (by decide +kernel)

theorem again_bessel2 : again "+proj=latlong  +a=1275479431/200  +rf=46742627/156250 +no_defs" =
    .ok "+proj=latlong  +a=1275479431/200 +e=0 +no_defs".toList :=
  again_of (P :=
    ⟨.latLong, [⟨"grid_mapping_name", .text "latitude_longitude".toList⟩, ⟨"earth_radius", .nums [(1275479431 / 200)]⟩]⟩)
    (by decide +kernel) (by decide +kernel)

/-- **C101, what goes wrong.** Inverse flattening is written, but not read: Bessel's ellipsoid is a sphere the second time. -/
theorem C101_flattening_lost :
    again "+proj=latlong +ellps=bessel" = .ok "+proj=latlong  +a=1275479431/200  +rf=46742627/156250 +no_defs".toList ∧
    again "+proj=latlong  +a=1275479431/200  +rf=46742627/156250 +no_defs" = .ok "+proj=latlong  +a=1275479431/200 +e=0 +no_defs".toList :=
  ⟨again_bessel, again_bessel2⟩

/-- **C101, what goes wrong.** A pole longitude below zero is left out. -/
theorem C101_pole_longitude_lost : again "+proj=ob_tran +o_proj=latlong +lon_0=-40 +o_lat_p=25 +o_lon_p=-10 +R=6371000" =
    .ok "+proj=ob_tran +o_proj=longlat +lon_0=-40 +o_lat_p=25  +a=6371000 +e=0 +no_defs".toList :=
  again_of (P :=
    ⟨.rotated, [⟨"grid_mapping_name", .text "rotated_latitude_longitude".toList⟩, ⟨"grid_north_pole_longitude", .nums [140]⟩,
    ⟨"grid_north_pole_latitude", .nums [25]⟩, ⟨"earth_radius", .nums [6371000]⟩]⟩)
    (by decide +kernel) (by decide +kernel)

theorem again_utm : again "+proj=utm +lon_0=-9" =
    .ok "+proj=tmerc +lat_0=0 +k_0=2499/2500 +x_0=500000  +a=6371000 +e=0 +no_defs".toList :=
  again_of (P :=
    ⟨.transverseMercator, [⟨"earth_radius", .nums [6371000]⟩, ⟨"grid_mapping_name", .text "transverse_mercator".toList⟩,
    ⟨"scale_factor_at_central_meridian", .nums [(2499 / 2500)]⟩, ⟨"latitude_of_projection_origin", .nums [0]⟩, ⟨"false_easting", .nums
    [500000]⟩]⟩)
    (by decide +kernel) (by decide +kernel)

theorem again_utm_half : again "+proj=utm +lon_0=9.5" =
    .ok "+proj=tmerc +lon_0=9 +lat_0=0 +k_0=2499/2500 +x_0=500000  +a=6371000 +e=0 +no_defs".toList :=
  again_of (P :=
    ⟨.transverseMercator, [⟨"earth_radius", .nums [6371000]⟩, ⟨"grid_mapping_name", .text "transverse_mercator".toList⟩,
    ⟨"scale_factor_at_central_meridian", .nums [(2499 / 2500)]⟩, ⟨"latitude_of_projection_origin", .nums [0]⟩, ⟨"false_easting", .nums
    [500000]⟩, ⟨"longitude_of_central_meridian", .nums [9]⟩]⟩)
    (by decide +kernel) (by decide +kernel)

/-- **C101, what goes wrong.** The central meridian of a UTM projection is not read when it is west of Greenwich, and without the
parts of a degree otherwise. -/
theorem C101_utm_meridian_lost :
    again "+proj=utm +lon_0=-9" = .ok "+proj=tmerc +lat_0=0 +k_0=2499/2500 +x_0=500000  +a=6371000 +e=0 +no_defs".toList ∧
    again "+proj=utm +lon_0=9.5" = .ok "+proj=tmerc +lon_0=9 +lat_0=0 +k_0=2499/2500 +x_0=500000  +a=6371000 +e=0 +no_defs".toList :=
  ⟨again_utm, again_utm_half⟩

/-- **C101, what goes wrong.** A polar stereographic projection with the default meridian raises an error. -/
theorem C101_polar_raises : made "+proj=stere +lat_0=90" = .throws := by decide +kernel

theorem again_clarke : again "+proj=merc +ellps=clrk66" =
    .ok "+proj=merc +lon_0=0  +a=6371000 +e=0 +no_defs".toList :=
  again_of (P :=
    ⟨.mercator, [⟨"earth_radius", .nums [6371000]⟩, ⟨"grid_mapping_name", .text "mercator".toList⟩, ⟨"longitude_of_projection_origin",
    .nums [0]⟩]⟩)
    (by decide +kernel) (by decide +kernel)

theorem again_rf : again "+proj=merc +a=6377397 +rf=299" =
    .ok "+proj=merc +lon_0=0  +a=6377397 +e=0 +no_defs".toList :=
  again_of (P :=
    ⟨.mercator, [⟨"grid_mapping_name", .text "mercator".toList⟩, ⟨"longitude_of_projection_origin", .nums [0]⟩, ⟨"earth_radius", .nums
    [6377397]⟩]⟩)
    (by decide +kernel) (by decide +kernel)

/-- **C101, what goes wrong.** An ellipsoid not in the table is a sphere of 6371 km, without a message; also an axis with an inverse
flattening is a sphere. -/
theorem C101_unknown_ellipsoid :
    again "+proj=merc +ellps=clrk66" = .ok "+proj=merc +lon_0=0  +a=6371000 +e=0 +no_defs".toList ∧
    again "+proj=merc +a=6377397 +rf=299" = .ok "+proj=merc +lon_0=0  +a=6377397 +e=0 +no_defs".toList := ⟨again_clarke, again_rf⟩

/-- **C101, what goes wrong.** An oblique Mercator projection gets a rectified bearing of zero which was not in the text. -/
theorem C101_gamma_added : again "+proj=omerc +lat_0=1 +lonc=2 +alpha=3 +R=6371000" =
    .ok "+proj=omerc +lonc=2 +lat_0=1 +alpha=3 +gamma=0  +a=6371000 +e=0 +no_defs".toList :=
  again_of (P :=
    ⟨.obliqueMercator, [⟨"grid_mapping_name", .text "oblique_mercator".toList⟩, ⟨"longitude_of_projection_origin", .nums [2]⟩,
    ⟨"latitude_of_projection_origin", .nums [1]⟩, ⟨"azimuth_of_central_line", .nums [3]⟩, ⟨"gamma", .nums [0]⟩, ⟨"earth_radius", .nums
    [6371000]⟩]⟩)
    (by decide +kernel) (by decide +kernel)

/-- **C101, what goes wrong.** Standard parallels without numbers are read where there are none. -/
theorem C101_no_parallels :
    proj4String lib ⟨.lambertConformal, [⟨"grid_mapping_name", .text "lambert_conformal_conic".toList⟩, ⟨"standard_parallel", .nums []⟩]⟩ = .ub := by
  decide +kernel

/-- **C101, what goes wrong.** An inverse flattening in the text stays when the earth is replaced. -/
theorem C101_flattening_stays :
    replaceEarth "+proj=latlong +a=6377397 +rf=299 +no_defs".toList "+R=6371000".toList = "+proj=latlong +rf=299 +no_defs +R=6371000".toList := by
  decide +kernel

end Fimex.Proj
